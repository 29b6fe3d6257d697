import Verif.Model.Atomic
import Verif.Lemmas.TestsQc
import Verif.Props.Derive
/-!
# C93: the test-suite of the crate

The unit tests and quickcheck tests (Model/Tests.lean) pass on the model: the unit tests on every build,
the quickcheck tests for every input, not only the random ones, and for every type with a good
`Ordinal` implementation, not only `u8`, `u16` and `Example4`.  What `test_ordinal` accepts is
characterised exactly, for any implementation, together with what it cannot see.
-/

namespace OrdinalMap.Props
open OrdinalMap OrdinalMap.Tests OrdinalMap.Derive

section
variable {α : Type} {c : Cfg} {I : OrdinalImpl α}

/-! ## `test_ordinal` -/

/-- C93: what a passing `test_ordinal(expected)` says, for any implementation whatsoever. -/
theorem C93_test_ordinal (lt : α → α → Prop) (l : List α) :
    testOrdinal c I lt l = .ok () ↔
      (∀ i a b, l[i]? = some a → l[i + 1]? = some b → lt a b) ∧
      I.size = .ok l.length ∧
      (∀ i a, l[i]? = some a → I.fromOrdinal i = .ok (some a) ∧ I.ordinal a = .ok i) ∧
      I.fromOrdinal l.length = .ok none ∧
      (l.length < usizeMax c → I.fromOrdinal (usizeMax c) = .ok none) := testOrdinal_ok

example := (C93_test_ordinal (c := debug64) (I := boolImpl) (fun a b => a = false ∧ b = true) [true, false]).mp

/-- C93: when `expected` lists every value of the type and `<` is a strict order, `test_ordinal` passes
exactly for the implementations that are lawful, ordered as `<`, and out of range at `ORDINAL_SIZE` and
at `usize::MAX`.  It says nothing of the ordinals in between. -/
theorem C93_test_ordinal_complete {lt : α → α → Prop} (irr : ∀ a, ¬ lt a a)
    (tr : ∀ a b d, lt a b → lt b d → lt a d) (l : List α) (hall : ∀ a, a ∈ l) (hfit : l.length < c.M) :
    testOrdinal c I lt l = .ok () ↔
      l.Pairwise lt ∧ Lawful c I l.length ∧ OrdCompat lt I ∧ I.fromOrdinal l.length = .ok none ∧
      (l.length < usizeMax c → I.fromOrdinal (usizeMax c) = .ok none) := by
  rw [testOrdinal_ok]
  constructor
  · rintro ⟨h1, h2, h3, h4, h5⟩
    have hp := adjacent_pairwise tr h1
    refine ⟨hp, ⟨h2, hfit, fun a => ?_, fun i hi => ?_⟩, fun a b => ?_, h4, h5⟩
    · obtain ⟨i, hi, rfl⟩ := List.getElem_of_mem (hall a)
      obtain ⟨h6, h7⟩ := h3 i _ (List.getElem?_eq_getElem hi)
      exact ⟨i, hi, h7, h6⟩
    · obtain ⟨h6, h7⟩ := h3 i _ (List.getElem?_eq_getElem hi)
      exact ⟨_, h6, h7⟩
    · obtain ⟨i, hi, rfl⟩ := List.getElem_of_mem (hall a)
      obtain ⟨j, hj, rfl⟩ := List.getElem_of_mem (hall b)
      refine ⟨i, j, (h3 i _ (List.getElem?_eq_getElem hi)).2, (h3 j _ (List.getElem?_eq_getElem hj)).2, fun h => ?_,
        fun h => List.pairwise_iff_getElem.1 hp _ _ hi hj h⟩
      rcases Nat.lt_trichotomy i j with h' | h' | h'
      · exact h'
      · subst h'; exact absurd h (irr _)
      · exact absurd (tr _ _ _ h (List.pairwise_iff_getElem.1 hp _ _ hj hi h')) (irr _)
  · rintro ⟨h1, h2, h3, h4, h5⟩
    have := pairwise_adjacent h1
    exact ⟨this, h2.size, follows_of_sorted h2 h3 this rfl, h4, h5⟩

example := C93_test_ordinal_complete (c := debug64) (I := boolImpl) (lt := fun a b => a = false ∧ b = true)
  (by decide) (by decide) [false, true] (by decide) (by decide)

/-- The usual way to see that a `test_ordinal` passes. -/
theorem passes {n : Nat} (L : Lawful c I n) {lt : α → α → Prop} (O : OrdCompat lt I) {l : List α}
    (hs : l.Pairwise lt) (hl : l.length = n) (h0 : I.fromOrdinal n = .ok none)
    (h1 : n < usizeMax c → I.fromOrdinal (usizeMax c) = .ok none) : testOrdinal c I lt l = .ok () := by
  subst hl
  exact testOrdinal_ok.2 ⟨pairwise_adjacent hs, L.size, follows_of_sorted L O (pairwise_adjacent hs) rfl, h0, h1⟩

theorem passes_strict {n : Nat} (L : Lawful c I n ∧ Strict c I n) {lt : α → α → Prop} (O : OrdCompat lt I) {l : List α}
    (hs : l.Pairwise lt) (hl : l.length = n) : testOrdinal c I lt l = .ok () :=
  passes L.1 O hs hl (L.2 n (Nat.le_refl _) L.1.fits) fun h => by
    have := c.M_ge
    exact L.2 _ (Nat.le_of_lt h) (by simp only [usizeMax]; omega)

theorem length_of_all {n : Nat} (L : Lawful c I n) {lt : α → α → Prop} (O : OrdCompat lt I) {l : List α}
    (hs : l.Pairwise lt) (hall : ∀ a, a ∈ l) : l.length = n := by
  rw [(C71_unique (V := Unit) O).1 (fun _ => True) l (values I n) ⟨hs, fun a => by simp [hall a]⟩
    (values_sortedListing L O), values_length L]

end

/-! ## Ranges -/

theorem range_pairwise {α : Type} {lt : α → α → Prop} {f : Nat → Option α} (N : Nat)
    (h : ∀ i j a b, i < j → f i = some a → f j = some b → lt a b) : ((List.range N).filterMap f).Pairwise lt := by
  rw [List.pairwise_filterMap]
  exact List.pairwise_lt_range.imp fun hij a ha b hb => h _ _ a b hij ha hb

theorem mem_range_of {α : Type} {f : Nat → Option α} {N i : Nat} {a : α} (hi : i < N) (h : f i = some a) :
    a ∈ (List.range N).filterMap f := List.mem_filterMap.2 ⟨i, List.mem_range.2 hi, h⟩

theorem rangeU_sorted (n : Nat) : (rangeU n).Pairwise (·.1 < ·.1) ∧ ∀ a, a ∈ rangeU n := by
  refine ⟨range_pairwise _ fun i j a b h ha hb => ?_, fun a => mem_range_of a.2 (by simp [tryFromU, a.2])⟩
  simp only [tryFromU] at ha hb
  split at ha <;> cases ha
  split at hb <;> cases hb
  exact h

theorem rangeS_sorted (n : Nat) (hn : 0 < n) : (rangeS n).Pairwise (·.1 < ·.1) ∧ ∀ a, a ∈ rangeS n := by
  refine ⟨range_pairwise _ fun i j a b h ha hb => ?_, fun a => ?_⟩
  · simp only [checkedAddUnsigned] at ha hb
    split at ha <;> cases ha
    split at hb <;> cases hb
    simp only
    omega
  · obtain ⟨x, h1, h2⟩ := a
    have e : (2 : Int) ^ n = 2 * 2 ^ (n - 1) := by
      obtain ⟨m, rfl⟩ : ∃ m, n = m + 1 := ⟨n - 1, by omega⟩
      rw [Int.pow_succ, Nat.add_sub_cancel, Int.mul_comm]
    refine mem_range_of (i := (x + 2 ^ (n - 1)).toNat) ?_ ?_
    · have : ((2 ^ n : Nat) : Int) = 2 ^ n := by simp
      omega
    · have e : -(2 ^ (n - 1)) + ((x + 2 ^ (n - 1)).toNat : Int) = x := by omega
      simp only [checkedAddUnsigned, e, h1, h2, and_self, dite_true]

theorem rangeNZU_sorted (n : Nat) : (rangeNZU n).Pairwise (·.1 < ·.1) ∧ ∀ a, a ∈ rangeNZU n := by
  obtain ⟨h1, h2⟩ := rangeU_sorted n
  refine ⟨List.pairwise_filterMap.2 (h1.imp fun h a ha b hb => ?_), fun a =>
    List.mem_filterMap.2 ⟨⟨a.1, a.2.1⟩, h2 _, by simp [nzuNew, a.2.2]⟩⟩
  simp only [nzuNew] at ha hb
  split at ha <;> cases ha
  split at hb <;> cases hb
  exact h

theorem rangeNZS_sorted (n : Nat) (hn : 0 < n) : (rangeNZS n).Pairwise (·.1 < ·.1) ∧ ∀ a, a ∈ rangeNZS n := by
  obtain ⟨h1, h2⟩ := rangeS_sorted n hn
  refine ⟨List.pairwise_filterMap.2 (h1.imp fun h a ha b hb => ?_), fun a =>
    List.mem_filterMap.2 ⟨⟨a.1, a.2.1⟩, h2 _, by simp [nzsNew, a.2.2]⟩⟩
  simp only [nzsNew] at ha hb
  split at ha <;> cases ha
  split at hb <;> cases hb
  exact h

theorem rangeChar_sorted : rangeChar.Pairwise (·.1 < ·.1) ∧ ∀ a, a ∈ rangeChar := by
  refine ⟨range_pairwise _ fun i j a b h ha hb => ?_, fun a =>
    mem_range_of (i := a.1) (by have := a.2.1; omega) (by simp [charFromU32, a.2.1]; have := a.2.2; omega)⟩
  simp only [charFromU32] at ha hb
  split at ha <;> cases ha
  split at hb <;> cases hb
  exact h

theorem passes_range {α : Type} {c : Cfg} {I : OrdinalImpl α} {n : Nat} (L : Lawful c I n ∧ Strict c I n)
    {lt : α → α → Prop} (O : OrdCompat lt I) {l : List α} (h : l.Pairwise lt ∧ ∀ a, a ∈ l) :
    testOrdinal c I lt l = .ok () := passes_strict L O h.1 (length_of_all L.1 O h.1 h.2)

/-- C93: `test_bool`, `test_u8`, `test_i8`, `test_u16`, `test_i16` (primitive.rs:112-135),
`test_non_zero_u8`, `_i8`, `_u16`, `_i16` (non_zero.rs:215-233), `test_char` (char.rs:30-33),
`test_ordering` (ordering.rs:32-35) and `test_infallible` (std.rs:77-80), on every build. -/
theorem C93_leaf_tests (c : Cfg) :
    testOrdinal c boolImpl (fun a b => a = false ∧ b = true) [false, true] = .ok () ∧
    testOrdinal c (u8Impl c) (·.1 < ·.1) (rangeU 8) = .ok () ∧
    testOrdinal c (i8Impl c) (·.1 < ·.1) (rangeS 8) = .ok () ∧
    testOrdinal c (u16Impl c) (·.1 < ·.1) (rangeU 16) = .ok () ∧
    testOrdinal c (i16Impl c) (·.1 < ·.1) (rangeS 16) = .ok () ∧
    testOrdinal c (nzU8Impl c) (·.1 < ·.1) (rangeNZU 8) = .ok () ∧
    testOrdinal c (nzI8Impl c) (·.1 < ·.1) (rangeNZS 8) = .ok () ∧
    testOrdinal c (nzU16Impl c) (·.1 < ·.1) (rangeNZU 16) = .ok () ∧
    testOrdinal c (nzI16Impl c) (·.1 < ·.1) (rangeNZS 16) = .ok () ∧
    testOrdinal c (charImpl c) (·.1 < ·.1) rangeChar = .ok () ∧
    testOrdinal c orderingImpl orderingLt [.lt, .eq, .gt] = .ok () ∧
    testOrdinal c infallibleImpl (fun _ _ => False) [] = .ok () := by
  obtain ⟨o1, o2, o3, o4, o5, o6, -, -, o9, o10, o11, o12, -, -, -, -, -, -, o19⟩ := C11_leaf_order c
  refine ⟨passes_strict (bool_lawful c) o1 (by simp) rfl, passes_range (u8_lawful c) o3 (rangeU_sorted 8),
    passes_range (i8_lawful c) o4 (rangeS_sorted 8 (by decide)), passes_range (u16_lawful c) o5 (rangeU_sorted 16),
    passes_range (i16_lawful c) o6 (rangeS_sorted 16 (by decide)), passes_range (nzU8_lawful c) o9 (rangeNZU_sorted 8),
    passes_range (nzI8_lawful c) o10 (rangeNZS_sorted 8 (by decide)), passes_range (nzU16_lawful c) o11 (rangeNZU_sorted 16),
    passes_range (nzI16_lawful c) o12 (rangeNZS_sorted 16 (by decide)), ?_,
    passes_strict (ordering_lawful c) o2 (by simp [orderingLt]) rfl,
    passes_strict (infallible_lawful c) (fun a => nomatch a) .nil rfl⟩
  refine passes (char_lawful c) o19 rangeChar_sorted.1 (length_of_all (char_lawful c) o19 rangeChar_sorted.1 rangeChar_sorted.2) ?_ ?_
  · obtain ⟨b, hb, o, d⟩ := c
    rcases hb with rfl | rfl <;> cases o <;> cases d <;> rfl
  · intro _
    obtain ⟨b, hb, o, d⟩ := c
    rcases hb with rfl | rfl <;> cases o <;> cases d <;> rfl

example := C93_leaf_tests release32

/-- C93: what `test_char` cannot see.  It passes on every build, and yet on a 64-bit one
`char::from_ordinal` accepts ordinals that belong to no `char` (C04): it looks only at `ORDINAL_SIZE` and
`usize::MAX`. -/
theorem C93_blind (c : Cfg) (h : c.bits = 64) :
    testOrdinal c (charImpl c) (·.1 < ·.1) rangeChar = .ok () ∧
    ∃ i, rangeChar.length ≤ i ∧ i < usizeMax c ∧ ∃ x, (charImpl c).fromOrdinal i = .ok (some x) := by
  have hp := (C93_leaf_tests c).2.2.2.2.2.2.2.2.2.1
  have hl := length_of_all (char_lawful c) (C11_leaf_order c).2.2.2.2.2.2.2.2.2.2.2.2.2.2.2.2.2.2 rangeChar_sorted.1 rangeChar_sorted.2
  refine ⟨hp, 2 ^ 32, by rw [hl]; decide, ?_, ⟨0x800, by decide⟩, ?_⟩
  · simp only [usizeMax, Cfg.M, h]; decide
  · obtain ⟨b, hb, o, d⟩ := c
    cases h
    cases o <;> cases d <;> rfl

example := C93_blind release64 rfl

/-! ## Tests that do not list every value -/

/-- The values `test_ordinal_some` looks at are fine for every lawful implementation. -/
theorem some_passes {α : Type} {c : Cfg} {I : OrdinalImpl α} {n : Nat} (L : Lawful c I n) (h0 : I.fromOrdinal n = .ok none)
    (h1 : n < usizeMax c → I.fromOrdinal (usizeMax c) = .ok none) : testOrdinalSome c I = .ok () := by
  refine testOrdinalSome_ok.2 ⟨n, L.size, fun hn i hi => ?_, h0, h1⟩
  obtain ⟨a, h2, h3⟩ := L.fromOrdinal i (by omega)
  exact ⟨a, h2, i, h3, h2⟩

/-- C93: `test_non_zero_u32`, `_i32`, `_u64`, `_i64`, `_usize`, `_isize` (non_zero.rs:235-274) on 64-bit
builds, and those of them that compile on 32-bit builds.  The first two test `u32` and `i32`. -/
theorem C93_some_tests (c : Cfg) :
    (c.bits = 64 → testOrdinalSome c (u32Impl c) = .ok () ∧ testOrdinalSome c (i32Impl c) = .ok () ∧
      testPlusMinusOne c (nzI32Impl c) = .ok () ∧
      testOrdinalSome c (nzU64Impl c) = .ok () ∧ testOrdinalSome c (nzI64Impl c) = .ok () ∧
      testPlusMinusOne c (nzI64Impl c) = .ok ()) ∧
    testOrdinalSome c (nzUsizeImpl c) = .ok () ∧ testOrdinalSome c (nzIsizeImpl c) = .ok () ∧
      testPlusMinusOne c (nzIsizeImpl c) = .ok () ∧
    (c.bits = 32 → testOrdinalSome c (u32Impl c) = .error .compileError ∧
      testOrdinalSome c (i32Impl c) = .error .compileError) := by
  have st : ∀ {α : Type} {I : OrdinalImpl α} {n : Nat}, Lawful c I n ∧ Strict c I n → testOrdinalSome c I = .ok () :=
    fun L => some_passes L.1 (L.2 _ (Nat.le_refl _) L.1.fits) fun h => by
      have := c.M_ge
      exact L.2 _ (Nat.le_of_lt h) (by simp only [usizeMax]; omega)
  have pm : ∀ {n N : Nat} (I : OrdinalImpl (NZS n)), 2 ≤ n → Lawful c I N → testPlusMinusOne c I = .ok () := by
    intro n N I hn L
    have val : ∀ x : NZS n, testOrdinalValue (optionImpl c I) (some x) = .ok () := by
      intro x
      obtain ⟨i, hi, h1, h2⟩ := L.ordinal x
      have := L.fits
      exact testOrdinalValue_ok.2 ⟨i + 1, by simp [optionImpl, h1, addU]; omega, by simp [optionImpl, h2, subU]⟩
    have hp : (2 : Int) ≤ 2 ^ (n - 1) := by
      obtain ⟨m, rfl⟩ : ∃ m, n = m + 2 := ⟨n - 2, by omega⟩
      have : (0 : Int) < 2 ^ m := Int.pow_pos (by decide)
      rw [show m + 2 - 1 = m + 1 by omega, Int.pow_succ]
      omega
    have e1 : nzsOfInt n (-1) = some ⟨-1, ⟨by omega, by omega⟩, by omega⟩ := by
      rw [nzsOfInt, dif_pos]
    have e2 : nzsOfInt n 1 = some ⟨1, ⟨by omega, by omega⟩, by omega⟩ := by
      rw [nzsOfInt, dif_pos]
    simp only [testPlusMinusOne, e1, e2, val, ok_bind]
  refine ⟨fun h => ⟨st (u32_lawful c h), st (i32_lawful c h), ?_, st (nzU64_lawful c h), st (nzI64_lawful c h), ?_⟩,
    st (nzUsize_lawful c), st (nzIsize_lawful c), ?_, fun h => ?_⟩
  · exact pm _ (by decide) (nzI32_lawful c).1
  · exact pm _ (by decide) (nzI64_lawful c h).1
  · exact pm _ (by have := c.bits_ok; omega) (nzIsize_lawful c).1
  · obtain ⟨b, hb, o, d⟩ := c
    cases h
    cases o <;> cases d <;> exact ⟨rfl, rfl⟩

example := (C93_some_tests debug64).1 rfl
example := (C93_some_tests debug32).2.2.2.2 rfl

set_option maxRecDepth 20000 in
/-- C93: `test_u32`, `test_i32` (primitive.rs:137-156), `test_iter_debug` and `test_last`
(values.rs:113-130), on every build. -/
theorem C93_iterator_tests (c : Cfg) :
    testU32 c = .ok () ∧ testI32 c = .ok () ∧ testIterDebug c = .ok () ∧ testLast c = .ok () := by
  have e : ∀ (p : Prop) [Decidable p], check p = if p then .ok () else .error .panic := by
    intro p _; unfold check; split <;> simp_all
  obtain ⟨b, hb, o, d⟩ := c
  simp only [testU32, testI32, testIterDebug, testLast, e]
  rcases hb with rfl | rfl <;> cases o <;> cases d <;> exact ⟨rfl, rfl, rfl, rfl⟩

example := C93_iterator_tests debug64

/-! ## Types made of types -/

/-- The types of the fields in tests/derive.rs and tuple.rs. -/
inductive TestTy where
  | u8
  | bool
  | optBool
  /-- `Option<()>` -/
  | optUnit
  /-- `Result<bool, ()>` -/
  | resBoolUnit
  | never
  deriving DecidableEq

/-- No field types. -/
def noTypes : Types Empty := ⟨fun e => (nomatch e), fun e => (nomatch e)⟩

/-- `()` -/
abbrev UnitTuple := FieldVals noTypes []

/-- `impl Ordinal for ()` -/
def unitImpl (c : Cfg) : OrdinalImpl UnitTuple := tupleImpl c noTypes []

/-- `()` as a value -/
def unitVal : UnitTuple := ⟨[], rfl⟩

/-- The Lean types. -/
def TestTy.T : TestTy → Type
  | .u8 => U 8
  | .bool => Bool
  | .optBool => Option Bool
  | .optUnit => Option UnitTuple
  | .resBoolUnit => Bool ⊕ UnitTuple
  | .never => Empty

/-- The family of field types. -/
def testTypes (c : Cfg) : Types TestTy :=
  ⟨TestTy.T, fun
    | .u8 => u8Impl c
    | .bool => boolImpl
    | .optBool => optionImpl c boolImpl
    | .optUnit => optionImpl c (unitImpl c)
    | .resBoolUnit => resultImpl c boolImpl (unitImpl c)
    | .never => infallibleImpl⟩

/-- Their sizes. -/
def testSz : TestTy → Nat
  | .u8 => 256
  | .bool => 2
  | .optBool => 3
  | .optUnit => 2
  | .resBoolUnit => 3
  | .never => 0

/-- Their orders. -/
def testLt : (t : TestTy) → t.T → t.T → Prop
  | .u8 => fun a b => a.1 < b.1
  | .bool => fun a b => a = false ∧ b = true
  | .optBool => optionLt fun a b => a = false ∧ b = true
  | .optUnit => optionLt fun _ _ => False
  | .resBoolUnit => sumLt (fun a b => a = false ∧ b = true) fun _ _ => False
  | .never => fun _ _ => False

theorem unit_lawful (c : Cfg) : Lawful c (unitImpl c) 1 ∧ Strict c (unitImpl c) 1 :=
  (C07_tuples c noTypes (fun e => nomatch e) (fun e => nomatch e) [] (by decide) 1 (by
    obtain ⟨b, hb, o, d⟩ := c
    rcases hb with rfl | rfl <;> cases o <;> cases d <;> rfl)).2

theorem unit_ord (c : Cfg) : OrdCompat (fun _ _ => False) (unitImpl c) := by
  intro a b
  obtain ⟨i, hi, h1, -⟩ := (unit_lawful c).1.ordinal a
  obtain ⟨j, hj, h2, -⟩ := (unit_lawful c).1.ordinal b
  exact ⟨i, j, h1, h2, by simp; omega⟩

theorem testTypes_lawful (c : Cfg) : ∀ t, Lawful c ((testTypes c).impl t) (testSz t) := by
  have := c.M_ge
  intro t
  cases t
  · exact (u8_lawful c).1
  · exact (bool_lawful c).1
  · exact option_lawful (bool_lawful c).1 (by omega)
  · exact option_lawful (unit_lawful c).1 (by omega)
  · exact result_lawful (bool_lawful c).1 (unit_lawful c).1 (by omega)
  · exact (infallible_lawful c).1

theorem testLt_compat (c : Cfg) : ∀ t, OrdCompat (testLt t) ((testTypes c).impl t) := by
  have := c.M_ge
  have ob := (C11_leaf_order c).1
  intro t
  cases t
  · exact (C11_leaf_order c).2.2.1
  · exact ob
  · exact C12_option (bool_lawful c).1 (by omega) ob
  · exact C12_option (unit_lawful c).1 (by omega) (unit_ord c)
  · exact (C12_result_either (bool_lawful c).1 (unit_lawful c).1 (by omega) ob (unit_ord c)).1
  · exact fun a => nomatch a

theorem passes_struct (c : Cfg) (fs : Fields TestTy) (hw : fs.WF) (hr : ¬ HasReserved fs) (n : Nat)
    (hsz : (structImpl c (testTypes c) fs).size = .ok n) (l : List (FieldVals (testTypes c) (fieldTypes fs)))
    (hs : l.Pairwise fun x y => FieldsLt testLt x.1 y.1) (hl : l.length = n) :
    testOrdinal c (structImpl c (testTypes c) fs) (fun x y => FieldsLt testLt x.1 y.1) l = .ok () :=
  passes_strict (C08_structs c _ testSz (testTypes_lawful c) fs hw n hsz).2
    (C13_struct c _ testSz (testTypes_lawful c) testLt (testLt_compat c) fs hw hr n hsz) hs hl

theorem passes_enum (c : Cfg) (vs : List (Fields TestTy)) (hw : ∀ v ∈ vs, v.WF) (hr : ∀ v ∈ vs, ¬ HasReserved v) (n : Nat)
    (hsz : (enumImpl c (testTypes c) vs).size = .ok n) (l : List (EnumVal (testTypes c) vs))
    (hs : l.Pairwise fun x y => EnumLt testLt x.1 y.1) (hl : l.length = n) :
    testOrdinal c (enumImpl c (testTypes c) vs) (fun x y => EnumLt testLt x.1 y.1) l = .ok () :=
  passes_strict (C09_enums c _ testSz (testTypes_lawful c) vs hw n hsz).2
    (C13_enum c _ testSz (testTypes_lawful c) testLt (testLt_compat c) vs hw hr n hsz) hs hl

theorem passes_tuple (c : Cfg) (tys : List TestTy) (h16 : tys.length ≤ 16) (n : Nat)
    (hsz : (tupleImpl c (testTypes c) tys).size = .ok n) (l : List (FieldVals (testTypes c) tys))
    (hs : l.Pairwise fun x y => FieldsLt testLt x.1 y.1) (hl : l.length = n) :
    testOrdinal c (tupleImpl c (testTypes c) tys) (fun x y => FieldsLt testLt x.1 y.1) l = .ok () :=
  passes_strict (C07_tuples c _ testSz (testTypes_lawful c) tys h16 n hsz).2
    (C12_tuple c _ testSz (testTypes_lawful c) testLt (testLt_compat c) tys h16 n hsz) hs hl

/-- A `u8` field, a `bool` field, … -/
abbrev vU8 (c : Cfg) (i : U 8) : (testTypes c).Val := ⟨.u8, i⟩
/-- see `vU8` -/
abbrev vBool (c : Cfg) (b : Bool) : (testTypes c).Val := ⟨.bool, b⟩
/-- see `vU8` -/
abbrev vOptBool (c : Cfg) (o : Option Bool) : (testTypes c).Val := ⟨.optBool, o⟩
/-- see `vU8` -/
abbrev vOptUnit (c : Cfg) (o : Option UnitTuple) : (testTypes c).Val := ⟨.optUnit, o⟩
/-- see `vU8` -/
abbrev vRes (c : Cfg) (r : Bool ⊕ UnitTuple) : (testTypes c).Val := ⟨.resBoolUnit, r⟩

/-- `(0..=255).map(|i| S(i))` -/
def listU8 (c : Cfg) : List (FieldVals (testTypes c) [.u8]) := (rangeU 8).map fun i => ⟨[vU8 c i], rfl⟩

/-- `(0..=255).flat_map(|i| [false, true].map(move |b| S(i, b)))` -/
def listU8Bool (c : Cfg) : List (FieldVals (testTypes c) [.u8, .bool]) :=
  (rangeU 8).flatMap fun i => [false, true].map fun b => ⟨[vU8 c i, vBool c b], rfl⟩

/-- The list of `test_tuple_3` (tuple.rs:26-30). -/
def listU8BoolOpt (c : Cfg) : List (FieldVals (testTypes c) [.u8, .bool, .optBool]) :=
  (rangeU 8).flatMap fun i => [false, true].flatMap fun b => [none, some false, some true].map fun o =>
    ⟨[vU8 c i, vBool c b, vOptBool c o], rfl⟩

theorem rangeU8_length : (rangeU 8).length = 256 :=
  length_of_all (u8_lawful debug64).1 (C11_leaf_order debug64).2.2.1 (rangeU_sorted 8).1 (rangeU_sorted 8).2

theorem length_flatMap_const {α β : Type} (k : Nat) (l : List α) (f : α → List β) (h : ∀ a, (f a).length = k) :
    (l.flatMap f).length = l.length * k := by
  induction l with
  | nil => simp
  | cons a l ih => simp [h, ih, Nat.succ_mul, Nat.add_comm]

theorem listU8_spec (c : Cfg) : (listU8 c).Pairwise (fun x y => FieldsLt testLt x.1 y.1) ∧ (listU8 c).length = 256 := by
  refine ⟨List.pairwise_map.2 ((rangeU_sorted 8).1.imp fun h => .head h _ _), ?_⟩
  rw [listU8, List.length_map, rangeU8_length]

theorem listU8Bool_spec (c : Cfg) :
    (listU8Bool c).Pairwise (fun x y => FieldsLt testLt x.1 y.1) ∧ (listU8Bool c).length = 512 := by
  refine ⟨List.pairwise_flatMap.2 ⟨fun i _ => ?_, (rangeU_sorted 8).1.imp fun h x hx y hy => ?_⟩, ?_⟩
  · refine List.pairwise_map.2 ?_
    simp
    exact .tail _ (.head ⟨rfl, rfl⟩ _ _)
  · simp only [List.mem_map] at hx hy
    obtain ⟨_, -, rfl⟩ := hx
    obtain ⟨_, -, rfl⟩ := hy
    exact .head h _ _
  · rw [listU8Bool, length_flatMap_const 2 _ _ fun _ => rfl, rangeU8_length]

theorem listU8BoolOpt_spec (c : Cfg) :
    (listU8BoolOpt c).Pairwise (fun x y => FieldsLt testLt x.1 y.1) ∧ (listU8BoolOpt c).length = 1536 := by
  refine ⟨List.pairwise_flatMap.2 ⟨fun i _ => ?_, (rangeU_sorted 8).1.imp fun h x hx y hy => ?_⟩, ?_⟩
  · refine List.pairwise_flatMap.2 ⟨fun b _ => List.pairwise_map.2 ?_, ?_⟩
    · simp
      exact ⟨⟨.tail _ (.tail _ (.head trivial _ _)), .tail _ (.tail _ (.head trivial _ _))⟩,
        .tail _ (.tail _ (.head ⟨rfl, rfl⟩ _ _))⟩
    · simp only [List.pairwise_cons, List.mem_singleton, forall_eq, List.mem_map]
      refine ⟨?_, by simp⟩
      rintro _ ⟨_, -, rfl⟩ _ ⟨_, -, rfl⟩
      exact .tail _ (.head ⟨rfl, rfl⟩ _ _)
  · simp only [List.mem_flatMap, List.mem_map] at hx hy
    obtain ⟨_, -, _, -, rfl⟩ := hx
    obtain ⟨_, -, _, -, rfl⟩ := hy
    exact .head h _ _
  · rw [listU8BoolOpt, length_flatMap_const 6 _ _ fun _ => rfl, rangeU8_length]

/-- Sizes are computed, build by build. -/
macro "by_build" c:ident : tactic => `(tactic| (
  obtain ⟨b, hb, o, d⟩ := $c
  rcases hb with hb | hb <;> cases hb <;> cases o <;> cases d <;> rfl))

/-- C93: `test_tuple_0` … `test_tuple_3` (tuple.rs:9-31), on every build. -/
theorem C93_tuple_tests (c : Cfg) :
    testOrdinal c (tupleImpl c (testTypes c) []) (fun x y => FieldsLt testLt x.1 y.1) [⟨[], rfl⟩] = .ok () ∧
    testOrdinal c (tupleImpl c (testTypes c) [.u8]) (fun x y => FieldsLt testLt x.1 y.1) (listU8 c) = .ok () ∧
    testOrdinal c (tupleImpl c (testTypes c) [.u8, .bool]) (fun x y => FieldsLt testLt x.1 y.1) (listU8Bool c) = .ok () ∧
    testOrdinal c (tupleImpl c (testTypes c) [.u8, .bool, .optBool]) (fun x y => FieldsLt testLt x.1 y.1)
      (listU8BoolOpt c) = .ok () :=
  ⟨passes_tuple c _ (by decide) 1 (by by_build c) _ (by simp) rfl,
    passes_tuple c _ (by decide) 256 (by by_build c) _ (listU8_spec c).1 (listU8_spec c).2,
    passes_tuple c _ (by decide) 512 (by by_build c) _ (listU8Bool_spec c).1 (listU8Bool_spec c).2,
    passes_tuple c _ (by decide) 1536 (by by_build c) _ (listU8BoolOpt_spec c).1 (listU8BoolOpt_spec c).2⟩

example := C93_tuple_tests debug32

/-- C93: the tests of tests/derive.rs for structs (`test_unit_struct` … `test_record_struct_2`, lines
83-106, and `test_empty_struct`, 184-187), on every build. -/
theorem C93_struct_tests (c : Cfg) :
    testOrdinal c (structImpl c (testTypes c) .unit) (fun x y => FieldsLt testLt x.1 y.1) [⟨[], rfl⟩] = .ok () ∧
    testOrdinal c (structImpl c (testTypes c) (.unnamed [.u8])) (fun x y => FieldsLt testLt x.1 y.1) (listU8 c) = .ok () ∧
    testOrdinal c (structImpl c (testTypes c) (.unnamed [.u8, .bool])) (fun x y => FieldsLt testLt x.1 y.1)
      (listU8Bool c) = .ok () ∧
    testOrdinal c (structImpl c (testTypes c) (.named [("a", .u8)])) (fun x y => FieldsLt testLt x.1 y.1)
      (listU8 c) = .ok () ∧
    testOrdinal c (structImpl c (testTypes c) (.named [("a", .u8), ("b", .bool)])) (fun x y => FieldsLt testLt x.1 y.1)
      (listU8Bool c) = .ok () ∧
    testOrdinal c (structImpl c (testTypes c) (.named [("_infallible", .never)])) (fun x y => FieldsLt testLt x.1 y.1)
      [] = .ok () :=
  ⟨passes_struct c _ (by simp [Fields.WF]) (by simp [HasReserved, HasField]) 1 (by by_build c) _ (by simp) rfl,
    passes_struct c _ (by simp [Fields.WF]) (by simp [HasReserved, HasField]) 256 (by by_build c) _ (listU8_spec c).1 (listU8_spec c).2,
    passes_struct c _ (by simp [Fields.WF]) (by simp [HasReserved, HasField]) 512 (by by_build c) _ (listU8Bool_spec c).1
      (listU8Bool_spec c).2,
    passes_struct c _ (by simp [Fields.WF]) (by simp [HasReserved, reservedNames, HasField]) 256 (by by_build c) _
      (listU8_spec c).1 (listU8_spec c).2,
    passes_struct c _ (by simp [Fields.WF]) (by simp [HasReserved, reservedNames, HasField]) 512 (by by_build c) _
      (listU8Bool_spec c).1 (listU8Bool_spec c).2,
    passes_struct c _ (by simp [Fields.WF]) (by simp [HasReserved, reservedNames, HasField]) 0 (by by_build c) _ .nil rfl⟩

example := C93_struct_tests release64

theorem passes_values {α : Type} {c : Cfg} {I : OrdinalImpl α} {n : Nat} (L : Lawful c I n) {lt : α → α → Prop}
    (O : OrdCompat lt I) {l : List α} (h : values I n = l) (h0 : I.fromOrdinal n = .ok none)
    (h1 : I.fromOrdinal (usizeMax c) = .ok none) : testOrdinal c I lt l = .ok () := by
  subst h
  exact passes L O (values_sortedListing L O).1 (values_length L) h0 fun _ => h1

theorem passes_enum' (c : Cfg) (vs : List (Fields TestTy)) (hw : ∀ v ∈ vs, v.WF) (hr : ∀ v ∈ vs, ¬ HasReserved v) (n : Nat)
    (hsz : (enumImpl c (testTypes c) vs).size = .ok n) (l : List (EnumVal (testTypes c) vs))
    (h : values (enumImpl c (testTypes c) vs) n = l) :
    testOrdinal c (enumImpl c (testTypes c) vs) (fun x y => EnumLt testLt x.1 y.1) l = .ok () := by
  have L := C09_enums c _ testSz (testTypes_lawful c) vs hw n hsz
  have O := C13_enum c _ testSz (testTypes_lawful c) testLt (testLt_compat c) vs hw hr n hsz
  subst h
  exact passes_strict L.2 O (values_sortedListing L.2.1 O).1 (values_length L.2.1)

/-- `enum SimpleEnum3 { A, B, C }`, … (tests/derive.rs:28-61). -/
def simpleEnum1 : List (Fields TestTy) := [.unit]
/-- tests/derive.rs:36-41 -/
def simpleEnum3 : List (Fields TestTy) := [.unit, .unit, .unit]
/-- tests/derive.rs:43-47 -/
def tupleEnum : List (Fields TestTy) := [.unnamed [.bool], .unnamed [.optUnit]]
/-- tests/derive.rs:49-53 -/
def recordEnum : List (Fields TestTy) := [.named [("a", .bool)], .named [("a", .bool), ("b", .optUnit)]]
/-- tests/derive.rs:55-60 -/
def mixedEnum : List (Fields TestTy) := [.unit, .unnamed [.bool], .named [("a", .resBoolUnit), ("b", .optUnit)]]

/-- C93: the tests of tests/derive.rs for enums (108-182), on every build. -/
theorem C93_enum_tests (c : Cfg) :
    testOrdinal c (enumImpl c (testTypes c) []) (fun x y => EnumLt testLt x.1 y.1) [] = .ok () ∧
    testOrdinal c (enumImpl c (testTypes c) simpleEnum1) (fun x y => EnumLt testLt x.1 y.1) [⟨(0, []), _, rfl, rfl⟩] = .ok () ∧
    testOrdinal c (enumImpl c (testTypes c) simpleEnum3) (fun x y => EnumLt testLt x.1 y.1)
      [⟨(0, []), _, rfl, rfl⟩, ⟨(1, []), _, rfl, rfl⟩, ⟨(2, []), _, rfl, rfl⟩] = .ok () ∧
    testOrdinal c (enumImpl c (testTypes c) tupleEnum) (fun x y => EnumLt testLt x.1 y.1)
      [⟨(0, [vBool c false]), _, rfl, rfl⟩, ⟨(0, [vBool c true]), _, rfl, rfl⟩,
        ⟨(1, [vOptUnit c none]), _, rfl, rfl⟩, ⟨(1, [vOptUnit c (some unitVal)]), _, rfl, rfl⟩] = .ok () ∧
    testOrdinal c (enumImpl c (testTypes c) recordEnum) (fun x y => EnumLt testLt x.1 y.1)
      [⟨(0, [vBool c false]), _, rfl, rfl⟩, ⟨(0, [vBool c true]), _, rfl, rfl⟩,
        ⟨(1, [vBool c false, vOptUnit c none]), _, rfl, rfl⟩, ⟨(1, [vBool c false, vOptUnit c (some unitVal)]), _, rfl, rfl⟩,
        ⟨(1, [vBool c true, vOptUnit c none]), _, rfl, rfl⟩,
        ⟨(1, [vBool c true, vOptUnit c (some unitVal)]), _, rfl, rfl⟩] = .ok () ∧
    testOrdinal c (enumImpl c (testTypes c) mixedEnum) (fun x y => EnumLt testLt x.1 y.1)
      [⟨(0, []), _, rfl, rfl⟩, ⟨(1, [vBool c false]), _, rfl, rfl⟩, ⟨(1, [vBool c true]), _, rfl, rfl⟩,
        ⟨(2, [vRes c (.inl false), vOptUnit c none]), _, rfl, rfl⟩,
        ⟨(2, [vRes c (.inl false), vOptUnit c (some unitVal)]), _, rfl, rfl⟩,
        ⟨(2, [vRes c (.inl true), vOptUnit c none]), _, rfl, rfl⟩,
        ⟨(2, [vRes c (.inl true), vOptUnit c (some unitVal)]), _, rfl, rfl⟩,
        ⟨(2, [vRes c (.inr unitVal), vOptUnit c none]), _, rfl, rfl⟩,
        ⟨(2, [vRes c (.inr unitVal), vOptUnit c (some unitVal)]), _, rfl, rfl⟩] = .ok () := by
  refine ⟨passes_enum' c _ (by simp) (by simp) 0 (by by_build c) _ (by by_build c),
    passes_enum' c _ (by simp [simpleEnum1, Fields.WF]) (by simp [simpleEnum1, HasReserved, HasField]) 1
      (by by_build c) _ (by by_build c),
    passes_enum' c _ (by simp [simpleEnum3, Fields.WF]) (by simp [simpleEnum3, HasReserved, HasField]) 3
      (by by_build c) _ (by by_build c),
    passes_enum' c _ (by simp [tupleEnum, Fields.WF]) (by simp [tupleEnum, HasReserved, HasField]) 4
      (by by_build c) _ (by by_build c),
    passes_enum' c _ (by simp [recordEnum, Fields.WF]) (by simp [recordEnum, HasReserved, reservedNames, HasField]) 6
      (by by_build c) _ (by by_build c),
    passes_enum' c _ (by simp [mixedEnum, Fields.WF]) (by simp [mixedEnum, HasReserved, reservedNames, HasField]) 9
      (by by_build c) _ (by by_build c)⟩

example := C93_enum_tests release32

/-- C93: `test_option`, `test_result` (std.rs:61-75), `test_either` (either.rs:32-35), `test_box`
(boxed.rs:19-22) and the array tests (array.rs:50-72), on every build. -/
theorem C93_composite_tests (c : Cfg) :
    let lt : Bool → Bool → Prop := fun a b => a = false ∧ b = true
    testOrdinal c (optionImpl c boolImpl) (optionLt lt) [none, some false, some true] = .ok () ∧
    testOrdinal c (resultImpl c boolImpl (optionImpl c boolImpl)) (sumLt lt (optionLt lt))
      [.inl false, .inl true, .inr none, .inr (some false), .inr (some true)] = .ok () ∧
    testOrdinal c (eitherImpl c boolImpl (unitImpl c)) (sumLt lt fun _ _ => False)
      [.inl false, .inl true, .inr unitVal] = .ok () ∧
    testOrdinal c (boxImpl boolImpl) (fun a b => lt a.unbox b.unbox) [⟨false⟩, ⟨true⟩] = .ok () ∧
    testOrdinal c (arrayImpl c 0 infallibleImpl) (arrayLt fun _ _ => False) [⟨[], rfl⟩] = .ok () ∧
    testOrdinal c (arrayImpl c 1 infallibleImpl) (arrayLt fun _ _ => False) [] = .ok () ∧
    testOrdinal c (arrayImpl c 2 infallibleImpl) (arrayLt fun _ _ => False) [] = .ok () ∧
    testOrdinal c (arrayImpl c 0 (u16Impl c)) (arrayLt (·.1 < ·.1)) [⟨[], rfl⟩] = .ok () ∧
    testOrdinal c (arrayImpl c 1 boolImpl) (arrayLt lt) [⟨[false], rfl⟩, ⟨[true], rfl⟩] = .ok () ∧
    testOrdinal c (arrayImpl c 2 boolImpl) (arrayLt lt)
      [⟨[false, false], rfl⟩, ⟨[false, true], rfl⟩, ⟨[true, false], rfl⟩, ⟨[true, true], rfl⟩] = .ok () ∧
    testOrdinal c (tupleImpl c (testTypes c) [.bool, .bool]) (fun x y => FieldsLt testLt x.1 y.1)
      [⟨[vBool c false, vBool c false], rfl⟩, ⟨[vBool c false, vBool c true], rfl⟩,
        ⟨[vBool c true, vBool c false], rfl⟩, ⟨[vBool c true, vBool c true], rfl⟩] = .ok () := by
  have hM := c.M_ge
  have ob := (C11_leaf_order c).1
  have Lb := (bool_lawful c).1
  have Lob := C05_option Lb (by omega)
  have Oob := C12_option Lb (by omega) ob
  have LI := (infallible_lawful c).1
  have OI : OrdCompat (fun _ _ => False) infallibleImpl := fun a => nomatch a
  have go : ∀ {α : Type} {I : OrdinalImpl α} {n : Nat}, Lawful c I n ∧ Strict c I n → ∀ {lt : α → α → Prop}
      {l : List α}, OrdCompat lt I → values I n = l → testOrdinal c I lt l = .ok () := by
    intro α I n L lt l O h
    subst h
    exact passes_strict L O (values_sortedListing L.1 O).1 (values_length L.1)
  refine ⟨go ⟨Lob.1, Lob.2 (bool_lawful c).2⟩ Oob (by by_build c), ?_, ?_, ?_, ?_, ?_, ?_, ?_, ?_, ?_, ?_⟩
  · have L := C05_result Lb Lob.1 (by omega)
    exact go ⟨L.1, L.2 (Lob.2 (bool_lawful c).2)⟩ (C12_result_either Lb Lob.1 (by omega) ob Oob).1 (by by_build c)
  · have L := C05_either Lb (unit_lawful c).1 (by omega)
    exact go ⟨L.1, L.2 (unit_lawful c).2⟩ (C12_result_either Lb (unit_lawful c).1 (by omega) ob (unit_ord c)).2 (by by_build c)
  · have L := C05_box Lb
    exact go ⟨L.1, L.2 (bool_lawful c).2⟩ (C12_box ob) rfl
  · exact go (C06_array (N := 0) LI (by simp; omega)) (C12_array LI (by simp; omega) OI) (by by_build c)
  · exact go (C06_array (N := 1) LI (by simp; omega)) (C12_array LI (by simp; omega) OI) (by by_build c)
  · exact go (C06_array (N := 2) LI (by simp; omega)) (C12_array LI (by simp; omega) OI) (by by_build c)
  · exact go (C06_array (N := 0) (u16_lawful c).1 (by simp; omega))
      (C12_array (u16_lawful c).1 (by simp; omega) (C11_leaf_order c).2.2.2.2.1) (by by_build c)
  · exact go (C06_array (N := 1) Lb (by simp; omega)) (C12_array Lb (by simp; omega) ob) (by by_build c)
  · exact go (C06_array (N := 2) Lb (by simp; omega)) (C12_array Lb (by simp; omega) ob) (by by_build c)
  · have hsz : (tupleImpl c (testTypes c) [.bool, .bool]).size = .ok 4 := by by_build c
    exact go (C07_tuples c _ testSz (testTypes_lawful c) _ (by decide) 4 hsz).2
      (C12_tuple c _ testSz (testTypes_lawful c) testLt (testLt_compat c) _ (by decide) 4 hsz) (by by_build c)

example := C93_composite_tests debug64

/-! ## The other unit tests and the assertions of the documentation -/

/-- `enum Example4 { A, B, C, D }` (tests/util.rs:49-55). -/
def example4 : List (Fields TestTy) := [.unit, .unit, .unit, .unit]

/-- `OrdinalSet64::<Example4>::all()` is `0b1111` (`test_all`, set64.rs:178-182), and
`array_from_iter((0..3).map(|i| i.to_string()))` is `["0", "1", "2"]` (array_from_iter.rs:18-22). -/
theorem C93_other_tests (c : Cfg) :
    OrdinalSet64.all c (enumImpl c (testTypes c) example4) = .ok 0b1111 ∧
    arrayFromIter 3 ((List.range 3).map toString) = .ok ["0", "1", "2"] :=
  ⟨by by_build c, rfl⟩

example := C93_other_tests debug32

/-- `enum Color { Red, Cyan, Blue }` and `struct Bright(bool)` (traits.rs:30-38) as field types. -/
inductive DocTy where
  | color
  | bright
  deriving DecidableEq

/-- The types and impls of the example. -/
def docTypes (c : Cfg) : Types DocTy :=
  ⟨fun
    | .color => EnumVal (testTypes c) simpleEnum3
    | .bright => FieldVals (testTypes c) (fieldTypes (.unnamed [.bool])),
  fun
    | .color => enumImpl c (testTypes c) simpleEnum3
    | .bright => structImpl c (testTypes c) (.unnamed [.bool])⟩

/-- `enum MaybeColor { Default, Colored(Color, Bright), Invisible }` (traits.rs:40-45). -/
def maybeColor : List (Fields DocTy) := [.unit, .unnamed [.color, .bright], .unit]

/-- `MaybeColor::Colored(color, Bright(b))`; `color` is `0` for `Red`, `1` for `Cyan`. -/
def colored (c : Cfg) (color : Fin 3) (b : Bool) : EnumVal (docTypes c) maybeColor :=
  ⟨(1, [⟨.color, (⟨(color.1, []), .unit, by
    match color with
    | 0 | 1 | 2 => rfl, rfl⟩ : EnumVal (testTypes c) simpleEnum3)⟩,
    ⟨.bright, (⟨[vBool c b], rfl⟩ : FieldVals (testTypes c) [.bool])⟩]), _, rfl, rfl⟩

/-- C93: the assertions of the documentation of `Ordinal` (traits.rs:47-51, 69-71, 84-85, 97-99), on
every build. -/
theorem C93_doc_tests (c : Cfg) :
    (enumImpl c (docTypes c) maybeColor).ordinal ⟨(0, []), _, rfl, rfl⟩ = .ok 0 ∧
    (enumImpl c (docTypes c) maybeColor).ordinal (colored c 0 false) = .ok 1 ∧
    (enumImpl c (docTypes c) maybeColor).ordinal (colored c 0 true) = .ok 2 ∧
    (enumImpl c (docTypes c) maybeColor).ordinal (colored c 1 false) = .ok 3 ∧
    (enumImpl c (docTypes c) maybeColor).ordinal (colored c 1 true) = .ok 4 ∧
    (optionImpl c (u16Impl c)).ordinal none = .ok 0 ∧
    (optionImpl c (u16Impl c)).ordinal (some ⟨0, by decide⟩) = .ok 1 ∧
    (optionImpl c (u16Impl c)).ordinal (some ⟨1, by decide⟩) = .ok 2 ∧
    (i16Impl c).fromOrdinal 0 = .ok (some ⟨-32768, by decide⟩) ∧
    (i16Impl c).fromOrdinal 1 = .ok (some ⟨-32767, by decide⟩) ∧
    (do let s ← OrdinalValues.new (i16Impl c)
        let (a, s) ← OrdinalValues.next (i16Impl c) s
        let (b, _) ← OrdinalValues.nextBack (i16Impl c) s
        .ok (a, b)) = (.ok (some ⟨-32768, by decide⟩, some ⟨32767, by decide⟩) : R (Option (S 16) × Option (S 16))) :=
  ⟨by by_build c, by by_build c, by by_build c, by by_build c, by by_build c, by by_build c, by by_build c, by by_build c,
    by by_build c, by by_build c, by by_build c⟩

example := C93_doc_tests release32

/-- The `i`-th variant of an enum of three variants without fields, as `Color`, `Weather` and
`ErrorCategory` in the examples of the documentation. -/
def unit3 (c : Cfg) (i : Fin 3) : EnumVal (testTypes c) simpleEnum3 :=
  ⟨(i.1, []), .unit, by
    match i with
    | 0 | 1 | 2 => rfl, rfl⟩

/-- C93: the examples in the documentation of the other types, on every build: `all_values` (values.rs:15-19),
`AtomicOrdinal` (atomic.rs:14-34), `OrdinalTotalArrayMap` (total/array_map.rs:23-38), `OrdinalArrayMap`
(map/array_map.rs:21-34) and `OrdinalArraySet` (set/array.rs:29-35); of the last two nothing is asserted, but they
must not panic. -/
theorem C93_doc_types (c : Cfg) (color weather : OrdinalImpl (EnumVal (testTypes c) simpleEnum3))
    (h₁ : color = enumImpl c (testTypes c) simpleEnum3) (h₂ : weather = enumImpl c (testTypes c) simpleEnum3) :
    (do let s ← OrdinalValues.new boolImpl
        let (os, _) ← (OrdinalValues.iter boolImpl).run s [.front, .front, .front]
        .ok os) = (.ok [some false, some true, none] : R (List (Option Bool))) ∧
    (do let a ← AtomicOrdinal.new color (unit3 c 0)
        (AtomicOrdinal.step color a (.cas (unit3 c 0) (unit3 c 2) .relaxed .relaxed)).1) = .ok (.ok (unit3 c 0)) ∧
    (do let (m, _) ← OrdinalTotalArrayMap.new color 3
          (fun k r => .ok ((["red", "green", "blue"].getD k.1.1 ""), r)) ()
        OrdinalTotalArrayMap.index color m (unit3 c 1)) = .ok "green" ∧
    (do let m ← OrdinalArrayMap.new String weather 3
        let (_, m) ← OrdinalArrayMap.insert weather m (unit3 c 0) "good"
        let (_, m) ← OrdinalArrayMap.insert weather m (unit3 c 1) "it depends"
        .ok m) = .ok [some "good", some "it depends", none] ∧
    (do let S ← ordinalArraySetS (u8Impl c)
        let s ← OrdinalArraySet.new (u8Impl c) S
        let (_, s) ← OrdinalArraySet.insert c (u8Impl c) S s ⟨17, by decide⟩
        .ok s) = .ok [0x20000, 0, 0, 0] := by
  subst h₁ h₂
  exact ⟨by by_build c, by by_build c, by by_build c, by by_build c, by by_build c⟩

example := C93_doc_types debug32 _ _ rfl rfl

/-! ## Quickcheck -/

variable {K V : Type} [DecidableEq K] {c : Cfg} {I : OrdinalImpl K} {n : Nat}

/-- C93: the quickcheck tests of the maps pass for every input and every lawful key type. -/
theorem C93_qc_maps (L : Lawful c I n) (vs : List (K × V)) (keys : List K) :
    (∀ sz, n * sz ≤ 2 ^ (c.bits - 1) - 1 → qcMap c I sz vs keys = .ok ()) ∧
    qcArrayMap c I vs keys = .ok () ∧ qcRetain c I vs keys = .ok () :=
  ⟨fun _ hsz => qcMap_ok L hsz vs keys, qcArrayMap_ok L vs keys, qcRetain_ok L vs keys⟩

/-- `qc(values: Vec<(u8, u32)>, check: Vec<u8>)`: `Option<u32>` takes 8 bytes. -/
example (vs : List (U 8 × U 32)) (keys : List (U 8)) : qcMap debug64 (u8Impl debug64) 8 vs keys = .ok () :=
  (C93_qc_maps (u8_lawful debug64).1 vs keys).1 8 (by decide)

/-- `x + 1` for a `u64`. -/
def succU64 (c : Cfg) (x : Nat) : R Nat :=
  if x + 1 < 2 ^ 64 then .ok (x + 1) else if c.overflowChecks then .error .panic else .ok 0

/-- The loop of the example in the documentation of the crate (lib.rs:28-31):
`for error in &errors { let category = classify_error(error); error_counts[&category] += 1; }`. -/
def countErrors {E : Type} (c : Cfg) (I : OrdinalImpl K) (classify : E → K) :
    List E → OrdinalTotalMap Nat → R (OrdinalTotalMap Nat)
  | [], m => .ok m
  | e :: es, m => do
    let slot ← OrdinalTotalMap.indexMut I m (classify e)
    let x ← succU64 c (← readSlot m slot)
    let m ← writeSlot m slot x
    countErrors c I classify es m

/-- C93: the example in the documentation of the crate (lib.rs:11-32) counts correctly, for every list of fewer than
`2^64` errors, every key type (whose counters fit in memory) and every way to classify. -/
theorem C93_doc_crate {E : Type} (L : Lawful c I n) (hsz : n * 8 ≤ 2 ^ (c.bits - 1) - 1) (classify : E → K) (errors : List E)
    (h64 : errors.length < 2 ^ 64) :
    ∃ m₀ m, OrdinalTotalMap.default c I 8 (fun r => .ok (0, r)) () = .ok (m₀, ()) ∧
      countErrors c I classify errors m₀ = .ok m ∧
      ∀ k, OrdinalTotalMap.index I m k = .ok (errors.countP fun e => decide (classify e = k)) := by
  have key : ∀ (es : List E) (f : K → Nat), (∀ k, f k + es.length < 2 ^ 64) →
      countErrors c I classify es (store I n f) =
        .ok (store I n fun k => f k + es.countP fun e => decide (classify e = k)) := by
    intro es
    induction es with
    | nil => intro f _; rfl
    | cons e es ih =>
      intro f hf
      have h1 := hf (classify e)
      have h2 : f (classify e) + 1 < 2 ^ 64 := by simp only [List.length_cons] at h1; omega
      simp only [countErrors, OrdinalTotalMap.indexMut, OrdinalTotalMap.getMut, L.ordinal_eq, ok_bind, slotOf_store L,
        readSlot_store L, succU64, if_pos h2, writeSlot_store L]
      rw [ih _ fun k => ?_]
      · congr 2
        funext k
        rw [List.countP_cons]
        simp only [updT]
        by_cases hk : k = classify e
        · subst hk
          simp
          omega
        · simp [hk, Ne.symm hk]
      · have := hf k
        simp only [List.length_cons] at this
        simp only [updT]
        split
        · rename_i hk
          subst hk
          omega
        · omega
  refine ⟨store I n fun _ => 0, _, ?_, key errors (fun _ => 0) fun k => by omega, fun k => ?_⟩
  · rw [OrdinalTotalMap.default, OrdinalTotalMap.new_eq L hsz]
    exact initEach_pure (fun _ => 0) _
  · rw [OrdinalTotalMap.index, OrdinalTotalMap_get L]
    simp

example := C93_doc_crate (ordering_lawful debug64).1 (by decide) (fun s : String => compare s.length 3) ["a", "bcd", "efgh", "i"]
  (by decide)

/-- C93: the quickcheck tests of the sets pass for every input, every lawful element type of which the set
is big enough, and in the tests that sort, every order the ordinals follow. -/
theorem C93_qc_sets (L : Lawful c I n) (vs keys : List K) :
    (n + 64 < c.M → qcSet (OrdinalSet.api c I) (OrdinalSet.new I) vs keys = .ok ()) ∧
    (∃ S, ordinalArraySetS I = .ok S ∧ qcSet (OrdinalArraySet.api c I S) (OrdinalArraySet.new I S) vs keys = .ok ()) ∧
    (n ≤ 64 → qcSet (OrdinalSet64.api c I) (OrdinalSet64.new I) vs keys = .ok ()) ∧
    ∀ lt, OrdCompat lt I →
      (0 < n → n + 64 < c.M → qcIter c I lt vs = .ok ()) ∧
      (n ≤ 64 → qcIter64 c I lt vs = .ok () ∧ qcRev64 c I lt vs = .ok () ∧ qcExactSize64 c I vs = .ok ()) := by
  refine ⟨fun h => ?_, ?_, fun h => ?_, fun lt O => ⟨fun hpos h => qcIter_ok L hpos h O vs, fun h => qcIter64_ok L h O vs⟩⟩
  · obtain ⟨s, h1, -, h2⟩ := (C18_ordinal_set L h).1
    exact qcSet_ok h1 h2 vs keys
  · obtain ⟨S, hS, ⟨s, h1, -, h2⟩, -⟩ := C19_ordinal_array_set L
    exact ⟨S, hS, qcSet_ok h1 h2 vs keys⟩
  · obtain ⟨s, h1, h2⟩ := (C20_ordinal_set64 L h).1
    exact qcSet_ok h1 h2 vs keys

/-- `qc_iter_large(values: Vec<NonZeroU16>)` -/
example (vs : List (NZU 16)) : qcIter debug64 (nzU16Impl debug64) (·.1 < ·.1) vs = .ok () :=
  ((C93_qc_sets (nzU16_lawful debug64).1 vs []).2.2.2 _ (C11_leaf_order debug64).2.2.2.2.2.2.2.2.2.2.1).1
    (by decide) (by decide)

/-- The controls are what they should be: `sort` then `dedup` lists each item once, in increasing order. -/
theorem C93_control_sort (L : Lawful c I n) {lt : K → K → Prop} (O : OrdCompat lt I) (vs : List K) :
    (sortDedup lt vs).Pairwise lt ∧ ∀ a, a ∈ sortDedup lt vs ↔ a ∈ vs := by
  rw [sortDedup_eq L O]
  obtain ⟨h1, h2⟩ := elements_sortedListing L O fun x => decide (x ∈ vs)
  exact ⟨h1, fun a => by simp [h2 a]⟩

example := C93_control_sort (u8_lawful debug64).1 (C11_leaf_order debug64).2.2.1 [⟨3, by decide⟩, ⟨1, by decide⟩, ⟨3, by decide⟩]

/-- … and the `HashMap` holds the last value inserted for each key, once. -/
theorem C93_control_map (ps : List (K × V)) :
    (∀ k, hget (hfromIter ps) k = lastValue ps k) ∧ ((hfromIter ps).map (·.1)).Nodup ∧
    ∀ (m : List (K × V)) k v k', hget (hinsert m k v).2 k' = if k' = k then some v else hget m k' :=
  ⟨(hfromIter_spec ps).2, (hfromIter_spec ps).1, hget_hinsert⟩

example := C93_control_map [(true, 3), (false, 2), (true, 1)]

end OrdinalMap.Props
