import Verif.Props.Set
/-!
# C77: the storage of `OrdinalSet`

The documentation of `OrdinalSet` (set/set.rs:22-24) says that the set allocates when the type has
more than 64 values.  Here: exactly when, how much, and that it never reallocates.
-/

namespace OrdinalMap.Props
open OrdinalMap

variable {τ : Type} {c : Cfg} {I : OrdinalImpl τ} {n : Nat} [DecidableEq τ]

/-- How many 64-bit words of a set live on the heap: none of `SetImpl::Small(u64)`, and the length of
the box of `SetImpl::Large(Box<[u64]>)` (set/set.rs:11-15); a box of length zero does not allocate. -/
def heapWords : OrdinalSet → Nat
  | .small _ => 0
  | .large ws => ws.length

/-- Whether the operation is an `insert`. -/
def isInsert : SetOp τ → Bool
  | .insert _ => true
  | .contains _ => false

/-- The words on the heap after a history: none for a type of at most 64 values; otherwise none before
the first `insert`, and one bit per value, rounded up to words, after it. -/
def wordsSpec (n : Nat) (inserted : Bool) : Nat :=
  if n ≤ 64 then 0 else if inserted then (n + 63) / 64 else 0

omit [DecidableEq τ] in
theorem words_of_mem {m : τ → Bool} {s : OrdinalSet} (h : OrdinalSet.View I n m s) {x : τ}
    (hx : m x = true) : heapWords s = wordsSpec n true := by
  cases s with
  | small w => simp [heapWords, wordsSpec, h.1]
  | large ws =>
    obtain ⟨h1, h2, h3⟩ := h
    have hd := divCeil_spec n
    have h4 : ¬ n ≤ 64 := by omega
    rcases h2 with rfl | h2
    · have := h3 x; rw [hx, wbit_nil] at this; cases this
    · simp only [heapWords, wordsSpec, h4, if_false, if_true, h2]; omega

omit [DecidableEq τ] in
theorem run_contains (L : Lawful c I n) {m : τ → Bool} {s : OrdinalSet} (h : OrdinalSet.View I n m s)
    (ops : List (SetOp τ)) (hops : ops.any isInsert = false) :
    ∃ bs, (OrdinalSet.api c I).run s ops = .ok (bs, s) := by
  induction ops with
  | nil => exact ⟨[], rfl⟩
  | cons op ops ih =>
    cases op with
    | insert x => simp [isInsert] at hops
    | contains x =>
      obtain ⟨bs, hb⟩ := ih (by simpa [isInsert] using hops)
      refine ⟨m x :: bs, ?_⟩
      have := OrdinalSet.contains_view (c := c) L h x
      simp only [SetApi.run, hb]
      show (do let b ← OrdinalSet.contains c I s x; _) = _
      rw [this]; rfl

omit [DecidableEq τ] in
theorem new_words (L : Lawful c I n) {s : OrdinalSet} (h : OrdinalSet.new I = .ok s) :
    heapWords s = wordsSpec n false := by
  by_cases hn : n ≤ 64 <;> simp [OrdinalSet.new, OrdinalSet.isSmall, L.size, hn] at h <;>
    subst h <;> simp [heapWords, wordsSpec]

/-- C77: under every history of calls on a new set, the heap holds no words if the type has at most 64
values; otherwise none until the first `insert`, and `⌈ORDINAL_SIZE / 64⌉` words from then on. -/
theorem C77_storage (L : Lawful c I n) (hfit : n + 64 < c.M) (ops : List (SetOp τ)) :
    ∃ s bs s', OrdinalSet.new I = .ok s ∧ (OrdinalSet.api c I).run s ops = .ok (bs, s') ∧
      heapWords s' = wordsSpec n (ops.any isInsert) := by
  obtain ⟨s, h1, h2⟩ := OrdinalSet.new_view L
  cases ho : ops.any isInsert with
  | false =>
    obtain ⟨bs, hb⟩ := run_contains L h2 ops ho
    exact ⟨s, bs, s, h1, hb, new_words L h1⟩
  | true =>
    obtain ⟨s', h3, h4⟩ := OrdinalSet.behaves (c := c) L hfit h2 ops
    obtain ⟨op, hm, hi⟩ := List.any_eq_true.1 ho
    cases op with
    | contains x => cases hi
    | insert x =>
      exact ⟨s, _, s', h1, h3, words_of_mem h4 ((C18_spec_meaning _ _ x).2 (.inr hm))⟩

example := C77_storage (u8_lawful debug64).1 (by decide) [.contains ⟨7, by decide⟩, .insert ⟨200, by decide⟩]

/-- C77, collecting: `from_iter` allocates only if there is an item to store. -/
theorem C77_from_iter (L : Lawful c I n) (hfit : n + 64 < c.M) (xs : List τ) :
    ∃ s, OrdinalSet.fromIter c I xs = .ok s ∧ heapWords s = wordsSpec n (!xs.isEmpty) := by
  cases xs with
  | nil =>
    obtain ⟨s, h1, _⟩ := OrdinalSet.new_view L
    refine ⟨s, ?_, new_words L h1⟩
    simp [OrdinalSet.fromIter, h1, OrdinalSet.extendLoop]
  | cons x xs =>
    obtain ⟨s, h1, h2⟩ := OrdinalSet.fromIter_view L hfit (x :: xs)
    exact ⟨s, h1, words_of_mem h2 (x := x) (by simp)⟩

example := C77_from_iter (u8_lawful debug64).1 (by decide) [⟨7, by decide⟩, ⟨200, by decide⟩]

omit [DecidableEq τ] in
/-- C77, the size of the one allocation: it is within the `isize::MAX` bytes that a `Vec` may have, for
every type within the limit of C18, and it has room for every value and wastes less than one word. -/
theorem C77_size (hfit : n + 64 < c.M) (hn : 64 < n) :
    wordsSpec n true * 8 ≤ 2 ^ (c.bits - 1) - 1 ∧
      n ≤ wordsSpec n true * 64 ∧ wordsSpec n true * 64 < n + 64 := by
  have h : ¬ n ≤ 64 := by omega
  simp only [wordsSpec, h, if_false, if_true]
  have hb : 2 ^ c.bits = 2 * 2 ^ (c.bits - 1) := by
    have : c.bits ≠ 0 := by rcases c.bits_ok with e | e <;> rw [e] <;> decide
    rw [← Nat.pow_succ']; congr 1; omega
  have hM : c.M = 2 ^ c.bits := rfl
  have : 4294967296 ≤ c.M := c.M_ge
  omega

example := C77_size (c := debug32) (n := 0x110000) (by decide) (by decide)

/-- Concrete case: `u8` has 256 values, which take 4 words, at the first `insert`; `Ordering` none. -/
example : Lawful debug64 (u8Impl debug64) 256 ∧ 256 + 64 < debug64.M ∧
    wordsSpec 256 true = 4 ∧ wordsSpec 256 false = 0 ∧
    OrdinalSet.new (u8Impl debug64) = .ok (.large []) ∧
    (OrdinalSet.api debug64 (u8Impl debug64)).run (.large []) [.contains ⟨7, by decide⟩] =
      .ok ([false], .large []) ∧
    (OrdinalSet.api debug64 (u8Impl debug64)).run (.large []) [.insert ⟨7, by decide⟩] =
      .ok ([true], .large [128, 0, 0, 0]) ∧
    Lawful debug64 orderingImpl 3 ∧ wordsSpec 3 true = 0 ∧
    OrdinalSet.fromIter debug64 orderingImpl [.gt] = .ok (.small 4) :=
  ⟨(u8_lawful _).1, by decide, by decide, by decide, by rfl, by rfl, by rfl, (ordering_lawful _).1,
    by decide, by rfl⟩

end OrdinalMap.Props
