import Verif.SpecAutoTraits
/-!
# C95: threads, pinning and lifetimes
-/

namespace OrdinalMap.Props

open OrdinalMap

variable {K V K' V' : RTy} {a b : Nat}

/-- Two types that are subtypes of one another or of a third have the same auto traits: lifetimes do not matter. -/
theorem sub_auto : ∀ (t u : RTy), t.sub u → t.auto = u.auto := by
  intro t
  induction t with
  | both t u iht ihu =>
    intro w h
    cases w <;> simp only [RTy.sub] at h
    simp only [RTy.auto, iht _ h.1, ihu _ h.2]
  | user n s y p => intro w h; cases w <;> simp_all [RTy.sub, RTy.auto]
  | plain => intro w h; cases w <;> simp_all [RTy.sub, RTy.auto]
  | fn t _ => intro w h; cases w <;> simp_all [RTy.sub, RTy.auto]
  | _ =>
    rename_i ih
    intro w h
    cases w <;> simp only [RTy.sub] at h
    first
      | simp only [RTy.auto, ih _ h]
      | simp only [RTy.auto, ih _ h.2]
      | simp only [RTy.auto, ih _ h.2.1]

/-- A type is a subtype of itself. -/
theorem sub_refl : ∀ t : RTy, t.sub t := by
  intro t
  induction t <;> simp_all [RTy.sub]

/-- Subtyping is transitive (both directions are proved together because of `fn`). -/
theorem sub_trans : ∀ t u w : RTy, (t.sub u → u.sub w → t.sub w) ∧ (u.sub t → w.sub u → w.sub t) := by
  intro t
  induction t with
  | both t t' iht iht' =>
    intro u w
    constructor
    · intro h k
      cases u <;> simp only [RTy.sub] at h
      cases w <;> simp only [RTy.sub] at k ⊢
      exact ⟨(iht _ _).1 h.1 k.1, (iht' _ _).1 h.2 k.2⟩
    · intro h k
      cases u <;> simp only [RTy.sub] at h
      cases w <;> simp only [RTy.sub] at k ⊢
      exact ⟨(iht _ _).2 h.1 k.1, (iht' _ _).2 h.2 k.2⟩
  | user n s y p =>
    intro u w
    constructor
    · intro h k
      cases u <;> simp only [RTy.sub] at h
      cases w <;> simp only [RTy.sub] at k ⊢
      simp_all
    · intro h k
      cases u <;> simp only [RTy.sub] at h
      cases w <;> simp only [RTy.sub] at k ⊢
      simp_all
  | plain =>
    intro u w
    constructor <;> intro h k <;> cases u <;> simp only [RTy.sub] at h <;> exact k
  | fn t ih =>
    intro u w
    constructor
    · intro h k
      cases u <;> simp only [RTy.sub] at h
      cases w <;> simp only [RTy.sub] at k ⊢
      exact (ih _ _).2 h k
    · intro h k
      cases u <;> simp only [RTy.sub] at h
      cases w <;> simp only [RTy.sub] at k ⊢
      exact (ih _ _).1 h k
  | phantom t ih =>
    intro u w
    constructor
    · intro h k
      cases u <;> simp only [RTy.sub] at h
      cases w <;> simp only [RTy.sub] at k ⊢
      exact (ih _ _).1 h k
    · intro h k
      cases u <;> simp only [RTy.sub] at h
      cases w <;> simp only [RTy.sub] at k ⊢
      exact (ih _ _).2 h k
  | option t ih =>
    intro u w
    constructor
    · intro h k
      cases u <;> simp only [RTy.sub] at h
      cases w <;> simp only [RTy.sub] at k ⊢
      exact (ih _ _).1 h k
    · intro h k
      cases u <;> simp only [RTy.sub] at h
      cases w <;> simp only [RTy.sub] at k ⊢
      exact (ih _ _).2 h k
  | array t ih =>
    intro u w
    constructor
    · intro h k
      cases u <;> simp only [RTy.sub] at h
      cases w <;> simp only [RTy.sub] at k ⊢
      exact (ih _ _).1 h k
    · intro h k
      cases u <;> simp only [RTy.sub] at h
      cases w <;> simp only [RTy.sub] at k ⊢
      exact (ih _ _).2 h k
  | boxed t ih =>
    intro u w
    constructor
    · intro h k
      cases u <;> simp only [RTy.sub] at h
      cases w <;> simp only [RTy.sub] at k ⊢
      exact (ih _ _).1 h k
    · intro h k
      cases u <;> simp only [RTy.sub] at h
      cases w <;> simp only [RTy.sub] at k ⊢
      exact (ih _ _).2 h k
  | vecIntoIter t ih =>
    intro u w
    constructor
    · intro h k
      cases u <;> simp only [RTy.sub] at h
      cases w <;> simp only [RTy.sub] at k ⊢
      exact (ih _ _).1 h k
    · intro h k
      cases u <;> simp only [RTy.sub] at h
      cases w <;> simp only [RTy.sub] at k ⊢
      exact (ih _ _).2 h k
  | arrayIntoIter t ih =>
    intro u w
    constructor
    · intro h k
      cases u <;> simp only [RTy.sub] at h
      cases w <;> simp only [RTy.sub] at k ⊢
      exact (ih _ _).1 h k
    · intro h k
      cases u <;> simp only [RTy.sub] at h
      cases w <;> simp only [RTy.sub] at k ⊢
      exact (ih _ _).2 h k
  | ref a t ih =>
    intro u w
    constructor
    · intro h k
      cases u <;> simp only [RTy.sub] at h
      cases w <;> simp only [RTy.sub] at k ⊢
      exact ⟨Nat.le_trans h.1 k.1, (ih _ _).1 h.2 k.2⟩
    · intro h k
      cases u <;> simp only [RTy.sub] at h
      cases w <;> simp only [RTy.sub] at k ⊢
      exact ⟨Nat.le_trans k.1 h.1, (ih _ _).2 h.2 k.2⟩
  | sliceIter a t ih =>
    intro u w
    constructor
    · intro h k
      cases u <;> simp only [RTy.sub] at h
      cases w <;> simp only [RTy.sub] at k ⊢
      exact ⟨Nat.le_trans h.1 k.1, (ih _ _).1 h.2 k.2⟩
    · intro h k
      cases u <;> simp only [RTy.sub] at h
      cases w <;> simp only [RTy.sub] at k ⊢
      exact ⟨Nat.le_trans k.1 h.1, (ih _ _).2 h.2 k.2⟩
  | refMut a t ih =>
    intro u w
    constructor
    · intro h k
      cases u <;> simp only [RTy.sub] at h
      cases w <;> simp only [RTy.sub] at k ⊢
      exact ⟨Nat.le_trans h.1 k.1, (ih _ _).1 h.2.1 k.2.1, (ih _ _).2 h.2.2 k.2.2⟩
    · intro h k
      cases u <;> simp only [RTy.sub] at h
      cases w <;> simp only [RTy.sub] at k ⊢
      exact ⟨Nat.le_trans k.1 h.1, (ih _ _).2 h.2.1 k.2.1, (ih _ _).1 h.2.2 k.2.2⟩
  | sliceIterMut a t ih =>
    intro u w
    constructor
    · intro h k
      cases u <;> simp only [RTy.sub] at h
      cases w <;> simp only [RTy.sub] at k ⊢
      exact ⟨Nat.le_trans h.1 k.1, (ih _ _).1 h.2.1 k.2.1, (ih _ _).2 h.2.2 k.2.2⟩
    · intro h k
      cases u <;> simp only [RTy.sub] at h
      cases w <;> simp only [RTy.sub] at k ⊢
      exact ⟨Nat.le_trans k.1 h.1, (ih _ _).2 h.2.1 k.2.1, (ih _ _).1 h.2.2 k.2.2⟩

/-- `fn(&'static T)` is not a subtype of `fn(&'a T)`, the converse holds; a chain of three types. -/
example (T : RTy) : ¬ (RTy.fn (.ref 0 T)).sub (.fn (.ref 1 T)) ∧ (RTy.fn (.ref 1 T)).sub (.fn (.ref 0 T)) ∧
    (RTy.ref 0 T).sub (.ref 1 T) ∧ (RTy.ref 1 T).sub (.ref 2 T) := by
  simp [RTy.sub, sub_refl]

/-! ## Types for the examples -/

/-- `u8` -/
def u8 : RTy := .user 0 True True True
/-- `Rc<u8>`: neither `Send` nor `Sync` -/
def rc : RTy := .user 1 False False True
/-- `Cell<u8>`: `Send` but not `Sync` -/
def cell : RTy := .user 2 True False True
/-- `MutexGuard<'static, u8>`: `Sync` but not `Send` -/
def guard : RTy := .user 3 False True True
/-- `PhantomPinned`: not `Unpin` -/
def pinned : RTy := .user 4 True True False

/-! ## The properties -/

/-- Every type of the crate is `Send` exactly if the plain type of SpecAutoTraits.lean is, and `Sync` exactly if that
is. -/
theorem C95_threads (p : Public) :
    ((p.ty a K V).auto.send ↔ (p.like a K V).auto.send) ∧ ((p.ty a K V).auto.sync ↔ (p.like a K V).auto.sync) := by
  cases p <;> simp [Public.ty, Public.like, RTy.auto, RTy.OrdinalMap, RTy.OrdinalArrayMap, RTy.OrdinalTotalMap,
    RTy.OrdinalTotalArrayMap, RTy.IntoIter, RTy.IntoIterArray, RTy.TotalIntoIter, RTy.TotalIntoIterArray, RTy.Iter, RTy.Keys,
    RTy.Values, RTy.TotalIter, RTy.IterMut, RTy.ValuesMut, RTy.Drain, RTy.TotalIterMut, RTy.OccupiedEntry, RTy.VacantEntry,
    RTy.Entry, RTy.OrdinalSet, RTy.OrdinalArraySet, RTy.OrdinalSet64, RTy.Iter64, RTy.SetIter, RTy.OrdinalValues,
    RTy.AtomicOrdinal, RTy.OrdinalEnumerate, RTy.SetImpl, RTy.OrdinalSetRef, and_comm]

/-- A map with `Cell`s may go to another thread, but an iterator over it may not; for guards it is the other way
round; a mutable iterator is like the map. -/
example : (RTy.OrdinalMap u8 cell).auto.send ∧ ¬ (RTy.Iter 1 u8 cell).auto.send ∧
    ¬ (RTy.OrdinalMap u8 guard).auto.send ∧ (RTy.Iter 1 u8 guard).auto.send ∧
    (RTy.IterMut 1 u8 cell).auto.send ∧ ¬ (RTy.IterMut 1 u8 guard).auto.send ∧
    ¬ (RTy.AtomicOrdinal cell).auto.sync ∧ (RTy.AtomicOrdinal u8).auto.sync := by
  have h := fun p V => C95_threads (a := 1) (K := u8) (V := V) p
  refine ⟨(h .map _).1.2 ?_, mt (h .iter _).1.1 ?_, mt (h .map _).1.1 ?_, (h .iter _).1.2 ?_, (h .iterMut _).1.2 ?_,
    mt (h .iterMut _).1.1 ?_, mt (C95_threads .atomic (a := 0) (V := u8)).2.1 ?_,
    (C95_threads .atomic (a := 0) (V := u8)).2.2 ?_⟩ <;>
    simp [Public.like, RTy.auto, u8, cell, guard]

/-- An iterator that is `Send` hands out items that are `Send`. -/
theorem C95_items (p : Public) (i : RTy) (hi : p.item a K V = some i) (h : (p.ty a K V).auto.send) : i.auto.send := by
  rw [(C95_threads p).1] at h
  cases p <;> simp only [Public.item, reduceCtorEq, Option.some.injEq] at hi <;> subst hi <;>
    simp only [Public.like, RTy.auto] at h ⊢ <;> simp_all

example : (Public.drain.ty 1 u8 cell).auto.send ∧ Public.drain.item 1 u8 cell = some (.both u8 cell) := by
  constructor
  · simp [(C95_threads _).1, Public.like, RTy.auto, u8, cell]
  · rfl

/-- Lifetimes in the parameters may be shortened exactly as in the plain types of SpecAutoTraits.lean: everything is
covariant, except that types with mutable access to the values are invariant in `V`. -/
theorem C95_variance (p : Public) : (p.ty a K V).sub (p.ty b K' V') ↔ (p.like a K V).sub (p.like b K' V') := by
  cases p <;> simp [Public.ty, Public.like, RTy.sub, RTy.OrdinalMap, RTy.OrdinalArrayMap, RTy.OrdinalTotalMap,
    RTy.OrdinalTotalArrayMap, RTy.IntoIter, RTy.IntoIterArray, RTy.TotalIntoIter, RTy.TotalIntoIterArray, RTy.Iter, RTy.Keys,
    RTy.Values, RTy.TotalIter, RTy.IterMut, RTy.ValuesMut, RTy.Drain, RTy.TotalIterMut, RTy.OccupiedEntry, RTy.VacantEntry,
    RTy.Entry, RTy.OrdinalSet, RTy.OrdinalArraySet, RTy.OrdinalSet64, RTy.Iter64, RTy.SetIter, RTy.OrdinalValues,
    RTy.AtomicOrdinal, RTy.OrdinalEnumerate, RTy.SetImpl, RTy.OrdinalSetRef, and_comm, and_left_comm]

/-- Everything that borrows can be used as if it borrowed for a shorter time. -/
theorem C95_shorten (p : Public) (h : a ≤ b) : (p.ty a K V).sub (p.ty b K V) := by
  rw [C95_variance]
  cases p <;> simp [Public.like, RTy.sub, sub_refl, h]

/-- Through mutable access to the values, their type cannot be changed at all. -/
theorem C95_invariant (p : Public) (hp : p ∈ [.iterMut, .valuesMut, .drain, .totalIterMut, .occupiedEntry, .vacantEntry, .entry])
    (h : (p.ty a K V).sub (p.ty b K' V')) : V.same V' := by
  rw [C95_variance] at h
  simp only [List.mem_cons, List.not_mem_nil, or_false] at hp
  rcases hp with rfl | rfl | rfl | rfl | rfl | rfl | rfl <;> simp only [Public.like, RTy.sub] at h <;> exact h.2.2

/-- A map of `&'static u8` is a map of `&'a u8`, an iterator too, but a mutable iterator is not. -/
example : (RTy.OrdinalMap u8 (.ref 0 u8)).sub (.OrdinalMap u8 (.ref 1 u8)) ∧
    (RTy.Iter 1 u8 (.ref 0 u8)).sub (.Iter 2 u8 (.ref 1 u8)) ∧
    ¬ (RTy.IterMut 1 u8 (.ref 0 u8)).sub (.IterMut 1 u8 (.ref 1 u8)) ∧
    (RTy.IterMut 1 u8 (.ref 0 u8)).sub (.IterMut 2 u8 (.ref 0 u8)) := by
  refine ⟨(C95_variance .map (a := 0) (b := 0)).2 ?_, (C95_variance .iter).2 ?_, fun h => ?_, C95_shorten .iterMut (by decide)⟩
  · simp [Public.like, RTy.sub, sub_refl]
  · simp [Public.like, RTy.sub, sub_refl]
  · have := C95_invariant .iterMut (by simp) h
    simp [RTy.same, RTy.sub] at this

/-- A value lives at most as long as its parameters, and as the borrow if there is one.  The sets' `Iter64`, and the
`OrdinalValues` that `keys` of the total maps returns, borrow nothing. -/
theorem C95_borrows (p : Public) : (p.ty a K V).outlives b ↔
    K.outlives b ∧ (p.hasV = true → V.outlives b) ∧ (p.borrows = true → a ≤ b) := by
  cases p <;> simp [Public.ty, Public.hasV, Public.borrows, RTy.outlives, RTy.OrdinalMap, RTy.OrdinalArrayMap, RTy.OrdinalTotalMap,
    RTy.OrdinalTotalArrayMap, RTy.IntoIter, RTy.IntoIterArray, RTy.TotalIntoIter, RTy.TotalIntoIterArray, RTy.Iter, RTy.Keys,
    RTy.Values, RTy.TotalIter, RTy.IterMut, RTy.ValuesMut, RTy.Drain, RTy.TotalIterMut, RTy.OccupiedEntry, RTy.VacantEntry,
    RTy.Entry, RTy.OrdinalSet, RTy.OrdinalArraySet, RTy.OrdinalSet64, RTy.Iter64, RTy.SetIter, RTy.OrdinalValues,
    RTy.AtomicOrdinal, RTy.OrdinalEnumerate, RTy.SetImpl, RTy.OrdinalSetRef] <;> grind

/-- `Iter64` of a set that lives only for `'5` is `'static`, `set::Iter` is not. -/
example : (Public.iter64.ty 5 u8 u8).outlives 0 ∧ ¬ (Public.setIter.ty 5 u8 u8).outlives 0 := by
  simp [C95_borrows, Public.hasV, Public.borrows, RTy.outlives, u8]

/-- `Unpin` depends on the key type, and on the value type only if the values are inside. -/
theorem C95_unpin (p : Public) : (p.ty a K V).auto.unpin ↔
    K.auto.unpin ∧ (p.inline = true → V.auto.unpin) := by
  cases p <;> simp [Public.ty, Public.inline, RTy.auto, RTy.OrdinalMap, RTy.OrdinalArrayMap, RTy.OrdinalTotalMap,
    RTy.OrdinalTotalArrayMap, RTy.IntoIter, RTy.IntoIterArray, RTy.TotalIntoIter, RTy.TotalIntoIterArray, RTy.Iter, RTy.Keys,
    RTy.Values, RTy.TotalIter, RTy.IterMut, RTy.ValuesMut, RTy.Drain, RTy.TotalIterMut, RTy.OccupiedEntry, RTy.VacantEntry,
    RTy.Entry, RTy.OrdinalSet, RTy.OrdinalArraySet, RTy.OrdinalSet64, RTy.Iter64, RTy.SetIter, RTy.OrdinalValues,
    RTy.AtomicOrdinal, RTy.OrdinalEnumerate, RTy.SetImpl, RTy.OrdinalSetRef, and_comm]

/-- A map on the heap may be moved although its values are pinned, an array map may not. -/
example : (RTy.OrdinalMap u8 pinned).auto.unpin ∧ ¬ (RTy.OrdinalArrayMap u8 pinned).auto.unpin := by
  refine ⟨(C95_unpin (a := 0) .map).2 ?_, mt (C95_unpin (a := 0) .arrayMap).1 ?_⟩ <;>
    simp [Public.inline, RTy.auto, u8, pinned]

end OrdinalMap.Props
