import Verif.Props.Leaf
import Verif.Props.Derive
import Verif.Props.Map
import Verif.Props.TotalMap
import Verif.Props.Debug
/-!
# C65–C69: what the code does where the documented behaviour fails

The claims C04, C15, C23, C25, C45 and C52 are false in corner cases.  These theorems say exactly what
happens there, for every input.
-/

namespace OrdinalMap.Props
open OrdinalMap

variable {α β K V τ : Type}

/-! ## C65: too many values -/

/-- Position of a value among those of a `Result` or `Either` whose left type has `n` values. -/
def sumPosition (n : Nat) : Nat ⊕ Nat → Nat
  | .inl i => i
  | .inr j => n + j

/-- Position of an array among those of its type, element type having `n` values. -/
def arrayPosition (n : Nat) (ds : List Nat) : Nat := ds.foldl (fun r d => r * n + d) 0

/-- `i` is what `ordinal()` answers for the value at position `p`: the position if it is a `usize`; if
it is not, a panic or, without overflow checks, possibly the position modulo `2^usize::BITS`. -/
def AnswersPosition (c : Cfg) (r : R Nat) (p : Nat) : Prop :=
  (p < c.M → r = .ok p) ∧ (c.M ≤ p → r = .error .panic ∨ c.overflowChecks = false ∧ r = .ok (p % c.M))

/-- The same for `Result` and `Either`: the panic comes exactly with overflow checks. -/
def AnswersPositionExactly (c : Cfg) (r : R Nat) (p : Nat) : Prop :=
  r = if p < c.M then .ok p else if c.overflowChecks then .error .panic else .ok (p % c.M)

theorem fold_mod (M n : Nat) (ds : List Nat) (r : Nat) :
    (ds.foldl (fun r d => r * n + d) (r % M)) % M = (ds.foldl (fun r d => r * n + d) r) % M := by
  induction ds generalizing r with
  | nil => simp
  | cons d ds ih =>
    simp only [List.foldl_cons]
    rw [← ih, ← ih (r * n + d)]
    congr 2
    simp [Nat.add_mod, Nat.mul_mod]

theorem le_fold {n : Nat} (h : 0 < n) (ds : List Nat) (r : Nat) : r ≤ ds.foldl (fun r d => r * n + d) r := by
  induction ds generalizing r with
  | nil => simp
  | cons d ds ih =>
    simp only [List.foldl_cons]
    have h1 := ih (r * n + d)
    have h2 : r * 1 ≤ r * n := Nat.mul_le_mul_left r h
    omega

theorem arrayLoop_exact {c : Cfg} {A : OrdinalImpl α} {n : Nat} (L : Lawful c A n) (vs : List α) (r : Nat)
    (hr : r < c.M) :
    let p := (vs.map (ordOf A)).foldl (fun r d => r * n + d) r
    (p < c.M → arrayOrdinalLoop c A vs r = .ok p) ∧
    (arrayOrdinalLoop c A vs r = .error .panic ∨
      arrayOrdinalLoop c A vs r = .ok (p % c.M) ∧ (c.overflowChecks = true → p < c.M)) := by
  induction vs generalizing r with
  | nil =>
    refine ⟨fun _ => rfl, .inr ⟨?_, fun _ => hr⟩⟩
    simp [arrayOrdinalLoop, Nat.mod_eq_of_lt hr]
  | cons v vs ih =>
    have hn : 0 < n := Nat.lt_of_le_of_lt (Nat.zero_le _) (L.ord_lt v)
    have hM : 0 < c.M := Nat.lt_of_le_of_lt (Nat.zero_le _) hr
    simp only [List.map_cons, List.foldl_cons, arrayOrdinalLoop, L.size, L.ordinal_eq, ok_bind, checkedMul]
    have hle := le_fold hn (vs.map (ordOf A)) (r * n + ordOf A v)
    by_cases hm : r * n < c.M
    · simp only [hm, if_true, unwrap_some, ok_bind]
      by_cases ha : r * n + ordOf A v < c.M
      · rw [addU_ok ha, ok_bind]
        exact ih _ ha
      · refine ⟨fun h => absurd h (by omega), ?_⟩
        by_cases ho : c.overflowChecks = true
        · exact .inl (by simp [addU, ha, ho])
        · have hw : addU c (r * n) (ordOf A v) = .ok ((r * n + ordOf A v) % c.M) := by
            simp [addU, ha, ho]
          rw [hw, ok_bind]
          have := (ih ((r * n + ordOf A v) % c.M) (Nat.mod_lt _ hM)).2
          rw [fold_mod] at this
          rcases this with h | ⟨h, _⟩
          · exact .inl h
          · exact .inr ⟨h, fun h => absurd h ho⟩
    · simp only [hm, if_false]
      exact ⟨fun h => absurd h (by omega), .inl rfl⟩

/-- C65: what `ordinal()` answers for `Result`, `Either` and arrays, however many values they have. -/
theorem C65_positions {c : Cfg} {A : OrdinalImpl α} {B : OrdinalImpl β} {n m : Nat} (LA : Lawful c A n)
    (_ : Lawful c B m) :
    (∀ x i, A.ordinal x = .ok i →
      AnswersPositionExactly c ((resultImpl c A B).ordinal (.inl x)) (sumPosition n (.inl i)) ∧
      AnswersPositionExactly c ((eitherImpl c A B).ordinal (.inl x)) (sumPosition n (.inl i))) ∧
    (∀ y j, B.ordinal y = .ok j →
      AnswersPositionExactly c ((resultImpl c A B).ordinal (.inr y)) (sumPosition n (.inr j)) ∧
      AnswersPositionExactly c ((eitherImpl c A B).ordinal (.inr y)) (sumPosition n (.inr j))) ∧
    ∀ N (a : Arr α N) (ds : List Nat), a.1.map A.ordinal = ds.map .ok →
      AnswersPosition c ((arrayImpl c N A).ordinal a) (arrayPosition n ds) := by
  refine ⟨fun x i h => ?_, fun y j h => ?_, fun N a ds h => ?_⟩
  · have hi : i < c.M := by
      have := LA.ord_lt x; rw [LA.ordinal_eq] at h; cases h; have := LA.fits; omega
    simp [AnswersPositionExactly, resultImpl, eitherImpl, h, sumPosition, hi]
  · simp only [AnswersPositionExactly, resultImpl, eitherImpl, LA.size, h, ok_bind, sumPosition, addU, and_self]
    rfl
  · have hds : ds = a.1.map (ordOf A) := by
      have : a.1.map A.ordinal = (a.1.map (ordOf A)).map .ok := by
        simp [LA.ordinal_eq, Function.comp_def]
      rw [this] at h
      have hinj : ∀ xs ys : List Nat, xs.map (Except.ok (ε := Fault)) = ys.map .ok → xs = ys := by
        intro xs
        induction xs with
        | nil => intro ys h; cases ys with
          | nil => rfl
          | cons => simp at h
        | cons x xs ih => intro ys h; cases ys with
          | nil => simp at h
          | cons y ys =>
            simp only [List.map_cons, List.cons.injEq, Except.ok.injEq] at h
            rw [h.1, ih ys h.2]
      exact (hinj _ _ h).symm
    subst hds
    have hM : 0 < c.M := by have := c.M_ge; omega
    obtain ⟨h1, h2⟩ := arrayLoop_exact LA a.1 0 hM
    refine ⟨h1, fun hp => ?_⟩
    rcases h2 with h2 | ⟨h2, h3⟩
    · exact .inl h2
    · refine .inr ⟨?_, h2⟩
      cases ho : c.overflowChecks
      · rfl
      · have := h3 ho; simp only [arrayPosition] at hp; omega

example := C65_positions (nzU64_lawful release64 rfl).1 (bool_lawful release64).1

/-- C65: hence two values of a `Result` (or `Either`) answer the same ordinal only if their positions
differ by `2^usize::BITS`, and then only without overflow checks. -/
theorem C65_collisions {c : Cfg} {A : OrdinalImpl α} {B : OrdinalImpl β} {n m : Nat} (LA : Lawful c A n)
    (LB : Lawful c B m) (x : α) (y : β) (i j : Nat) (hx : A.ordinal x = .ok i) (hy : B.ordinal y = .ok j) :
    (∃ o, (resultImpl c A B).ordinal (.inl x) = .ok o ∧ (resultImpl c A B).ordinal (.inr y) = .ok o) ↔
      c.overflowChecks = false ∧ n + j = i + c.M := by
  have hi : i < n := by have := LA.ord_lt x; rw [LA.ordinal_eq] at hx; cases hx; omega
  have hj : j < m := by have := LB.ord_lt y; rw [LB.ordinal_eq] at hy; cases hy; omega
  have hn := LA.fits
  have hm := LB.fits
  simp only [resultImpl, hx, LA.size, hy, ok_bind, Except.ok.injEq, addU]
  constructor
  · rintro ⟨o, rfl, h⟩
    split at h
    · simp at h; omega
    · split at h
      · simp at h
      · rename_i h1 h2
        simp only [Except.ok.injEq] at h
        refine ⟨by simpa using h2, ?_⟩
        have : (n + j) % c.M = n + j - c.M := by
          rw [Nat.mod_eq_sub_mod (by omega)]; exact Nat.mod_eq_of_lt (by omega)
        omega
  · rintro ⟨h1, h2⟩
    refine ⟨i, rfl, ?_⟩
    have : ¬ n + j < c.M := by omega
    rw [if_neg this, h1]
    have : (n + j) % c.M = i := by
      rw [Nat.mod_eq_sub_mod (by omega), Nat.mod_eq_of_lt (by omega)]; omega
    simp [this]

example := C65_collisions (nzU64_lawful release64 rfl).1 (nzU64_lawful release64 rfl).1 ⟨1, by decide⟩
  ⟨2, by decide⟩ 0 1
  (by rfl) (by rfl)

/-- C65 on `Result<NonZeroU64, NonZeroU64>` without overflow checks: position `2^64` answers 0. -/
example : (resultImpl release64 (nzU64Impl release64) (nzU64Impl release64)).ordinal (.inr ⟨2, by decide⟩) = .ok 0 ∧
    (nzU64Impl release64).ordinal ⟨2, by decide⟩ = .ok 1 ∧ sumPosition (2 ^ 64 - 1) (.inr 1) % release64.M = 0 ∧
    Lawful release64 (nzU64Impl release64) (release64.M - 1) := by
  refine ⟨by decide, by decide, by decide, (nzU64_lawful release64 rfl).1⟩

/-! ## C66: `char::from_ordinal` on every `usize` -/

/-- C66: `char::from_ordinal(i)` is the character `x` iff `i` is below the surrogates and equals `x`, or is
not and agrees with `x - 0x800` in its low 32 bits. -/
theorem C66_char (c : Cfg) (i : Nat) (x : RChar) :
    (charImpl c).fromOrdinal i = .ok (some x) ↔
      i < 0xD800 ∧ x.1 = i ∨ 0xD800 ≤ i ∧ x.1 = i % 2 ^ 32 + 0x800 := by
  have hs : asUsize c surrogateStart = 0xD800 := by
    have := c.M_ge; simp only [asUsize, surrogateStart]
    exact Nat.mod_eq_of_lt (by omega)
  have cf : ∀ y, charFromU32 y = some x ↔ x.1 = y := by
    intro y
    unfold charFromU32
    split
    · rename_i h
      simp only [Option.some.injEq]
      exact ⟨fun h => by rw [← h], fun h => Subtype.ext h.symm⟩
    · rename_i h
      constructor
      · simp
      · rintro rfl; exact absurd x.2 h
  simp only [charImpl, hs]
  by_cases h : i < 0xD800
  · have : asU32 i = i := by simp only [asU32]; exact Nat.mod_eq_of_lt (by omega)
    simp only [h, if_true, Except.ok.injEq, this, cf, true_and]
    constructor
    · exact .inl
    · rintro (h | h)
      · exact h
      · omega
  · simp only [h, if_false, Except.ok.injEq, false_and, false_or]
    have hx := x.2.1
    simp only [checkedAddU32, asU32, Option.bind_eq_bind]
    by_cases hc : i % 2 ^ 32 + 2048 < 2 ^ 32
    · simp only [hc, if_true, Option.bind_some, cf]
      constructor
      · intro h2; exact ⟨by omega, h2⟩
      · exact And.right
    · simp only [hc, if_false, Option.bind_none]
      constructor
      · simp
      · rintro ⟨_, h2⟩; omega

example := C66_char debug64 0xD800 ⟨0xE000, by decide⟩

/-- C66: a value in range, and one out of range that is accepted. -/
example : (charImpl debug64).fromOrdinal 0xD800 = .ok (some ⟨0xE000, by decide⟩) ∧
    (charImpl debug64).fromOrdinal (2 ^ 32) = .ok (some ⟨0x800, by decide⟩) ∧
    (charImpl debug64).fromOrdinal (2 ^ 32 + 0xD000) = .ok none := by decide

/-! ## C67: `OrdinalSet64::all` -/

/-- C67: `all()` for every type `OrdinalSet64` accepts, and the compile error for the others. -/
theorem C67_all [DecidableEq τ] {c : Cfg} {I : OrdinalImpl τ} {n : Nat} (L : Lawful c I n) :
    (n < 64 → ∃ s, OrdinalSet64.all c I = .ok s ∧ ∀ x, OrdinalSet64.contains c I s x = .ok true) ∧
    (n = 64 → OrdinalSet64.all c I = if c.overflowChecks then .error .panic else .ok 0) ∧
    (n = 64 → ∀ x, OrdinalSet64.contains c I 0 x = .ok false) ∧
    (64 < n → OrdinalSet64.all c I = .error .compileError) := by
  refine ⟨C23_all_partial L, fun h => ?_, fun h x => ?_, fun h => ?_⟩
  · subst h; exact C23_exact_64 L
  · subst h
    have := L.ord_lt x
    simp [OrdinalSet64.contains, OrdinalSet64.assert64_ok L (Nat.le_refl _), L.ordinal_eq, shl64, this]
  · simp [OrdinalSet64.all, OrdinalSet64.assert64, L.size, constAssert, show ¬ n ≤ 64 by omega]

example := C67_all (bool6_lawful release64)

/-- C67 with 3 and with 64 values. -/
example : Lawful release64 orderingImpl 3 ∧ Lawful release64 (arrayImpl release64 6 boolImpl) 64 ∧
    OrdinalSet64.all release64 orderingImpl = .ok 7 ∧
    OrdinalSet64.all release64 (arrayImpl release64 6 boolImpl) = .ok 0 :=
  ⟨(ordering_lawful _).1, bool6_lawful _, by decide, by
    rw [C23_exact_64 (bool6_lawful _)]; rfl⟩

/-! ## C68: sets of an uninhabited type -/

/-- C68: iterating or formatting an `OrdinalSet` of a type without values panics with debug assertions and
otherwise finds nothing; an `OrdinalArraySet` finds nothing in every build. -/
theorem C68_uninhabited [DecidableEq τ] {c : Cfg} {I : OrdinalImpl τ} (L : Lawful c I 0) (alt : Bool)
    (item : τ → String) :
    ∃ s w a, OrdinalSet.new I = .ok s ∧ OrdinalSet64.new I = .ok w ∧ OrdinalArraySet.new I 0 = .ok a ∧
      (if c.debugAssertions then OrdinalSet.iter c I s = .error .panic
        else ∃ it, OrdinalSet.iter c I s = .ok it ∧ BehavesLike (SetIter.it c I) it []) ∧
      OrdinalSet.debug c I alt item s = (if c.debugAssertions then .error .panic else .ok "{}") ∧
      OrdinalSet64.debug c I alt item w = (if c.debugAssertions then .error .panic else .ok "{}") ∧
      OrdinalArraySet.debug c I 0 alt item a = .ok "{}" ∧
      ∃ it, OrdinalSet64.iter I w = .ok it ∧ BehavesLike (Iter64.it c I) it [] := by
  have hv : ∀ m, elements I 0 m = [] := by
    intro m; have := values_length L; simp [elements, List.length_eq_zero_iff.mp this]
  have ht : setText alt item ([] : List τ) = "{}" := by cases alt <;> rfl
  obtain ⟨a, ha, h1⟩ : ∃ a, OrdinalArraySet.new I 0 = .ok a ∧ OrdinalArraySet.debug c I 0 alt item a = .ok "{}" := by
    obtain ⟨a, h1, h2⟩ := OrdinalArraySet.new_view L
    obtain ⟨ws, h3, h4⟩ := OrdinalArraySet.asRef_view (c := c) L h2
    refine ⟨a, h1, ?_⟩
    have h3 : OrdinalArraySet.asRef c I 0 a = .ok ws := h3
    rw [OrdinalArraySet.debug, h3, ok_bind, SetRef.debug_eq L alt item h4, hv, ht]
  obtain ⟨w, hw, h2⟩ := OrdinalSet64.new_view L (Nat.zero_le 64)
  have h3 : OrdinalSet64.iter I w = .ok w := by simp [OrdinalSet64.iter, OrdinalSet64.assert64_ok L (Nat.zero_le _)]
  have h64 : ∃ it, OrdinalSet64.iter I w = .ok it ∧ BehavesLike (Iter64.it c I) it [] := by
    refine ⟨w, h3, ?_⟩
    have := Iter64.behaves (c := c) L (Nat.zero_le 64) (Iter64.view_of_set h2)
    rw [hv] at this
    exact this.mono fun _ _ _ => trivial
  cases hd : c.debugAssertions
  · obtain ⟨s, it, hs, h5, h6⟩ := C25_release_partial L hd
    refine ⟨s, w, a, hs, hw, ha, ⟨it, h5, h6⟩, ?_, ?_, h1, h64⟩
    · obtain ⟨s', h7, h8⟩ := OrdinalSet.new_view L
      rw [hs] at h7; cases h7
      obtain ⟨ws, h9, h10⟩ := OrdinalSet.asRef_view (c := c) L h8 (.inr hd)
      simp [OrdinalSet.debug, h9, SetRef.debug_eq L alt item h10, hv, ht]
    · simp [OrdinalSet64.debug, OrdinalSet64.asRef, SetRef.new, arraySetS_eq L, debugAssert, hd]
      rw [SetRef.debug_eq (m := fun _ => false) L alt item (fun x => absurd (L.ord_lt x) (by omega)), hv, ht]
  · obtain ⟨s, hs, h5⟩ := C25_false L hd
    obtain ⟨⟨s', h6, h7⟩, ⟨w', h8, h9⟩⟩ := C52_false L hd alt item
    rw [hs] at h6; cases h6
    rw [hw] at h8; cases h8
    exact ⟨s, w, a, hs, hw, ha, h5, h7, h9, h1, h64⟩

example := C68_uninhabited (infallible_lawful release64).1 true (fun _ => "")

/-- C68 on `Infallible`, in a build with debug assertions and in one without. -/
example : Lawful debug64 infallibleImpl 0 ∧ Lawful release64 infallibleImpl 0 := ⟨(infallible_lawful _).1, (infallible_lawful _).1⟩

/-! ## C69: `OrdinalTotalArrayMap::from_array` with any `S` -/

/-- What a call on `iter()` answers where the array's iterator answers `o` (an element and its index):
the element with the key of that ordinal; `none` if there is no such key. -/
def keyed (I : OrdinalImpl K) (n : Nat) : Option (V × Nat) → Option (Option (K × V))
  | none => some none
  | some (v, j) => ((values I n)[j]?).map fun k => some (k, v)

/-- A sequence of calls answers `os` if there is one, and panics if not. -/
def AnswersOr {σ ι : Type} (r : R (List (Option ι) × σ)) : Option (List (Option ι)) → Prop
  | some os => ∃ s, r = .ok (os, s)
  | none => r = .error .panic

theorem keyed_run {c : Cfg} {I : OrdinalImpl K} {n : Nat} (L : Lawful c I n) (St : Strict c I n) (ds : List Dir)
    (i : Nat) (l : List V) (h : i + l.length < c.M) :
    AnswersOr ((TotalIter.it c I).run (⟨i, l⟩ : TotalIter V) ds) ((Deque.run (l.zipIdx i) ds).1.mapM (keyed I n)) := by
  induction ds generalizing i l with
  | nil => exact ⟨_, rfl⟩
  | cons d ds ih =>
    have none_case : ∀ j, n ≤ j → (values I n)[j]? = none := fun j hj =>
      List.getElem?_eq_none (by rw [values_length L]; exact hj)
    have comb : ∀ (o : Option (K × V)) (i' : Nat) (l' : List V) (m : Option (V × Nat)),
        i' + l'.length < c.M →
        (TotalIter.it c I).step (⟨i, l⟩ : TotalIter V) d = .ok (o, ⟨i', l'⟩) → keyed I n m = some o →
        Deque.step (l.zipIdx i) d = (m, l'.zipIdx i') →
        AnswersOr ((TotalIter.it c I).run (⟨i, l⟩ : TotalIter V) (d :: ds))
          ((Deque.run (l.zipIdx i) (d :: ds)).1.mapM (keyed I n)) := by
      intro o i' l' m hi h1 h2 h3
      have := ih i' l' hi
      simp only [DEIter.run, h1, ok_bind, Deque.run, h3, List.mapM_cons, h2, Option.bind_eq_bind, Option.bind_some]
      cases hm : (Deque.run (l'.zipIdx i') ds).1.mapM (keyed I n) with
      | none => rw [hm] at this; simp only [AnswersOr] at this; simp [this, AnswersOr]
      | some os => rw [hm] at this; obtain ⟨s, hs⟩ := this; simp [hs, AnswersOr]
    have bad : ∀ (m : Option (V × Nat)) (l' : List (V × Nat)),
        (TotalIter.it c I).step (⟨i, l⟩ : TotalIter V) d = .error .panic → keyed I n m = none →
        Deque.step (l.zipIdx i) d = (m, l') →
        AnswersOr ((TotalIter.it c I).run (⟨i, l⟩ : TotalIter V) (d :: ds))
          ((Deque.run (l.zipIdx i) (d :: ds)).1.mapM (keyed I n)) := by
      intro m l' h1 h2 h3
      simp [DEIter.run, h1, Deque.run, h3, List.mapM_cons, h2, AnswersOr]
    cases d with
    | front =>
      cases l with
      | nil => exact comb none i [] none h rfl rfl rfl
      | cons x l =>
        simp only [List.length_cons] at h
        by_cases hi : i < n
        · obtain ⟨k, h1, h2, _⟩ := values_getElem L i hi
          refine comb (some (k, x)) (i + 1) l (some (x, i)) (by omega) ?_ (by simp [keyed, h1]) (by simp [Deque.step])
          simp [DEIter.step, TotalIter.it, TotalIter.next, Enumerate.nextItem, listIter, h2,
            addU_ok (show i + 1 < c.M by omega)]
        · have hf := St i (by omega) (by omega)
          refine bad (some (x, i)) _ ?_ (by simp [keyed, none_case i (by omega)]) rfl
          simp [DEIter.step, TotalIter.it, TotalIter.next, Enumerate.nextItem, listIter, hf, unwrap]
    | back =>
      rcases List.eq_nil_or_concat l with rfl | ⟨l, x, rfl⟩
      · exact comb none i [] none h rfl rfl rfl
      · rw [List.concat_eq_append] at *
        simp only [List.length_append, List.length_singleton] at h
        have hz : Deque.step ((l ++ [x]).zipIdx i) .back = (some (x, i + l.length), l.zipIdx i) := by
          simp [Deque.step, List.zipIdx_append]
        have ha := addU_ok (c := c) (a := i) (b := l.length) (by omega)
        by_cases hi : i + l.length < n
        · obtain ⟨k, h1, h2, _⟩ := values_getElem L _ hi
          refine comb (some (k, x)) i l _ (by omega) ?_ (by simp [keyed, h1]) hz
          simp [DEIter.step, TotalIter.it, TotalIter.nextBack, Enumerate.nextBackItem, listIter, ha, h2]
        · have hf := St (i + l.length) (by omega) (by omega)
          refine bad _ _ ?_ (by simp [keyed, none_case _ (Nat.le_of_not_lt hi)]) hz
          simp [DEIter.step, TotalIter.it, TotalIter.nextBack, Enumerate.nextBackItem, listIter, ha, hf, unwrap]

/-- C69: everything observable about `from_array(a)`, for an array of any length `S`. -/
theorem C69_from_array {c : Cfg} {I : OrdinalImpl K} {n : Nat} (L : Lawful c I n) (St : Strict c I n) (a : List V)
    (hM : a.length < c.M) :
    ∃ s, OrdinalTotalArrayMap.fromArray a = .ok s ∧ OrdinalTotalArrayMap.len a.length s = a.length ∧
      (∀ k i, I.ordinal k = .ok i →
        (∀ v, a[i]? = some v → OrdinalTotalArrayMap.get I s k = .ok v ∧ OrdinalTotalArrayMap.index I s k = .ok v ∧
          OrdinalTotalArrayMap.getMut I s k = .ok i ∧ OrdinalTotalArrayMap.indexMut I s k = .ok i ∧
          ∀ w, ∃ s', OrdinalTotalArrayMap.insert I s k w = .ok (v, s') ∧
            OrdinalTotalArrayMap.fromArray (a.set i w) = .ok s') ∧
        (a[i]? = none → OrdinalTotalArrayMap.get I s k = .error .panic ∧
          OrdinalTotalArrayMap.index I s k = .error .panic ∧ OrdinalTotalArrayMap.getMut I s k = .error .panic ∧
          OrdinalTotalArrayMap.indexMut I s k = .error .panic ∧
          ∀ w, OrdinalTotalArrayMap.insert I s k w = .error .panic)) ∧
      (∀ ds, AnswersOr ((TotalIter.it c I).run (OrdinalTotalArrayMap.iter s) ds)
          ((Deque.run a.zipIdx ds).1.mapM (keyed I n)) ∧
        AnswersOr ((TotalIntoIterArray.it c I).run (OrdinalTotalArrayMap.intoIter s) ds)
          ((Deque.run a.zipIdx ds).1.mapM (keyed I n))) := by
  refine ⟨a, rfl, rfl, fun k i hk => ⟨fun v hv => ?_, fun hv => ?_⟩, fun ds => ?_⟩
  · obtain ⟨hi, he⟩ := List.getElem?_eq_some_iff.mp hv
    simp [OrdinalTotalArrayMap.get, OrdinalTotalArrayMap.index, OrdinalTotalArrayMap.getMut,
      OrdinalTotalArrayMap.indexMut, OrdinalTotalArrayMap.insert, OrdinalTotalMap.slotOf, getIdx, setIdx,
      OrdinalTotalArrayMap.fromArray, hk, hi, he]
  · have hi := List.getElem?_eq_none_iff.mp hv
    simp [OrdinalTotalArrayMap.get, OrdinalTotalArrayMap.index, OrdinalTotalArrayMap.getMut,
      OrdinalTotalArrayMap.indexMut, OrdinalTotalArrayMap.insert, OrdinalTotalMap.slotOf, getIdx, hk, hi]
  · have := keyed_run L St ds 0 a (by omega)
    exact ⟨this, this⟩

example := C69_from_array (bool_lawful debug64).1 (bool_lawful debug64).2 [7, 8, 9] (by decide)

/-- C69 on `bool` keys with one and with three elements. -/
example : Lawful debug64 boolImpl 2 ∧ Strict debug64 boolImpl 2 ∧
    (Deque.run ([7] : List Nat).zipIdx [.front, .front]).1.mapM (keyed boolImpl 2) =
      some [some (false, 7), none] ∧
    (Deque.run ([7, 8, 9] : List Nat).zipIdx [.front, .front]).1.mapM (keyed boolImpl 2) =
      some [some (false, 7), some (true, 8)] ∧
    (Deque.run ([7, 8, 9] : List Nat).zipIdx [.front, .back]).1.mapM (keyed boolImpl 2) = none :=
  ⟨(bool_lawful _).1, (bool_lawful _).2, by decide, by decide, by decide⟩

end OrdinalMap.Props
