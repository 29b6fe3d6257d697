import Verif.Lemmas.LeafOrd
/-!
# C01–C06, C11, C12 (non-tuple part), C15: hand-written `Ordinal` impls

`Lawful c I n` says: `ORDINAL_SIZE` is `n ≤ usize::MAX`, `ordinal`/`from_ordinal` are mutually
inverse between the type and `0..n` and do not panic.  `Strict c I n` says that `from_ordinal`
is `None` on every `usize ≥ n`.  All statements hold for every target width and build profile `c`.
-/

namespace OrdinalMap.Props
open OrdinalMap

/-! ## C01 -/

/-- C01. -/
theorem C01_primitives (c : Cfg) :
    (Lawful c boolImpl 2 ∧ Strict c boolImpl 2) ∧
    (Lawful c (u8Impl c) (2 ^ 8) ∧ Strict c (u8Impl c) (2 ^ 8)) ∧
    (Lawful c (i8Impl c) (2 ^ 8) ∧ Strict c (i8Impl c) (2 ^ 8)) ∧
    (Lawful c (u16Impl c) (2 ^ 16) ∧ Strict c (u16Impl c) (2 ^ 16)) ∧
    (Lawful c (i16Impl c) (2 ^ 16) ∧ Strict c (i16Impl c) (2 ^ 16)) ∧
    (c.bits = 64 → Lawful c (u32Impl c) (2 ^ 32) ∧ Strict c (u32Impl c) (2 ^ 32)) ∧
    (c.bits = 64 → Lawful c (i32Impl c) (2 ^ 32) ∧ Strict c (i32Impl c) (2 ^ 32)) :=
  ⟨bool_lawful c, u8_lawful c, i8_lawful c, u16_lawful c, i16_lawful c, u32_lawful c, i32_lawful c⟩

/-- C01, 32-bit targets: using `u32`/`i32` through `ORDINAL_SIZE` or `ordinal()` is rejected at
compile time. -/
theorem C01_32bit_rejected (c : Cfg) (h : c.bits = 32) :
    (u32Impl c).size = .error .compileError ∧ (i32Impl c).size = .error .compileError ∧
    (∀ x, (u32Impl c).ordinal x = .error .compileError) ∧
    (∀ x, (i32Impl c).ordinal x = .error .compileError) ∧
    (∀ i, (i32Impl c).fromOrdinal i = .error .compileError) := by
  have e := u32Size_32 h
  refine ⟨e, e, fun x => ?_, fun x => ?_, fun x => ?_⟩ <;> simp [u32Impl, i32Impl, e]

example := C01_32bit_rejected release32 rfl

/-- A concrete case: `(-128i8).ordinal() == 0`, `i8::from_ordinal(255) == Some(127)`,
`i8::from_ordinal(256) == None`; and `debug64` meets the 64-bit hypothesis. -/
example : (i8Impl release32).ordinal ⟨-128, by decide⟩ = .ok 0 ∧
    (i8Impl release32).fromOrdinal 255 = .ok (some ⟨127, by decide⟩) ∧
    (i8Impl release32).fromOrdinal 256 = .ok none ∧
    (i32Impl debug64).ordinal ⟨-1, by decide⟩ = .ok 2147483647 ∧ debug64.bits = 64 ∧
    release32.bits = 32 := by decide

/-! ## C02 -/

/-- C02. -/
theorem C02_nonzero (c : Cfg) :
    (Lawful c (nzU8Impl c) (2 ^ 8 - 1) ∧ Strict c (nzU8Impl c) (2 ^ 8 - 1)) ∧
    (Lawful c (nzI8Impl c) (2 ^ 8 - 1) ∧ Strict c (nzI8Impl c) (2 ^ 8 - 1)) ∧
    (Lawful c (nzU16Impl c) (2 ^ 16 - 1) ∧ Strict c (nzU16Impl c) (2 ^ 16 - 1)) ∧
    (Lawful c (nzI16Impl c) (2 ^ 16 - 1) ∧ Strict c (nzI16Impl c) (2 ^ 16 - 1)) ∧
    (Lawful c (nzU32Impl c) (2 ^ 32 - 1) ∧ Strict c (nzU32Impl c) (2 ^ 32 - 1)) ∧
    (Lawful c (nzI32Impl c) (2 ^ 32 - 1) ∧ Strict c (nzI32Impl c) (2 ^ 32 - 1)) ∧
    (Lawful c (nzUsizeImpl c) (2 ^ c.bits - 1) ∧ Strict c (nzUsizeImpl c) (2 ^ c.bits - 1)) ∧
    (Lawful c (nzIsizeImpl c) (2 ^ c.bits - 1) ∧ Strict c (nzIsizeImpl c) (2 ^ c.bits - 1)) ∧
    (c.bits = 64 → Lawful c (nzU64Impl c) (2 ^ 64 - 1) ∧ Strict c (nzU64Impl c) (2 ^ 64 - 1)) ∧
    (c.bits = 64 → Lawful c (nzI64Impl c) (2 ^ 64 - 1) ∧ Strict c (nzI64Impl c) (2 ^ 64 - 1)) := by
  refine ⟨nzU8_lawful c, nzI8_lawful c, nzU16_lawful c, nzI16_lawful c, nzU32_lawful c,
    nzI32_lawful c, nzUsize_lawful c, nzIsize_lawful c, fun h => ?_, fun h => ?_⟩
  · have := nzU64_lawful c h; rwa [Cfg.M, h] at this
  · have := nzI64_lawful c h; rwa [Cfg.M, h] at this

/-- C02, 32-bit targets: `NonZeroU64`/`NonZeroI64` are rejected at compile time, whatever is used. -/
theorem C02_32bit_rejected (c : Cfg) (h : c.bits = 32) :
    (nzU64Impl c).size = .error .compileError ∧ (nzI64Impl c).size = .error .compileError ∧
    (∀ x, (nzU64Impl c).ordinal x = .error .compileError) ∧
    (∀ x, (nzI64Impl c).ordinal x = .error .compileError) ∧
    (∀ i, (nzU64Impl c).fromOrdinal i = .error .compileError) ∧
    (∀ i, (nzI64Impl c).fromOrdinal i = .error .compileError) := by
  have e := nzU64Size_32 h
  refine ⟨e, e, fun x => ?_, fun x => ?_, fun x => ?_, fun x => ?_⟩ <;> simp [nzU64Impl, nzI64Impl, e]

example := C02_32bit_rejected debug32 rfl

/-- The gap at zero: `-1` and `1` have adjacent ordinals; the extreme ordinals are accepted and the
next one is rejected, even `usize::MAX`. -/
example : (nzI64Impl debug64).ordinal ⟨-1, by decide⟩ = .ok 9223372036854775807 ∧
    (nzI64Impl debug64).ordinal ⟨1, by decide⟩ = .ok 9223372036854775808 ∧
    (nzI64Impl debug64).fromOrdinal 18446744073709551614 = .ok (some ⟨9223372036854775807, by decide⟩) ∧
    (nzI64Impl debug64).fromOrdinal 18446744073709551615 = .ok none := by decide

/-! ## C03 -/

/-- C03: `char` has `0x110000 - 0x800` values and round-trips. -/
theorem C03_char (c : Cfg) : Lawful c (charImpl c) (0x110000 - 0x800) := char_lawful c

/-- C03: the ordinal skips exactly the surrogate gap. -/
theorem C03_char_formula (c : Cfg) (x : RChar) :
    (charImpl c).ordinal x = .ok (if x.1 < 0xD800 then x.1 else x.1 - 0x800) := char_ordinal c x

example : (charImpl debug32).ordinal ⟨0xE000, by decide⟩ = .ok 0xD800 ∧
    (charImpl debug32).fromOrdinal 0xD7FF = .ok (some ⟨0xD7FF, by decide⟩) ∧
    (charImpl debug32).fromOrdinal 0xD800 = .ok (some ⟨0xE000, by decide⟩) := by decide

/-! ## C04: false on 64-bit targets -/

/-- The property as stated. -/
def C04_statement : Prop := ∀ c : Cfg, Strict c (charImpl c) (0x110000 - 0x800)

/-- C04 is false of the code: on a 64-bit target `char::from_ordinal(1 << 32)` is `Some('\u{800}')`,
because `ordinal as u32` truncates before the range check. -/
theorem C04_false : ¬ C04_statement := fun h =>
  absurd (h release64 (2 ^ 32) (by decide) (by decide)) (by decide)

/-- The witness. -/
theorem C04_witness :
    (charImpl release64).fromOrdinal (2 ^ 32) = .ok (some ⟨0x800, by decide⟩) := by decide

/-- C04, exact behaviour of the code out of range: the low 32 bits decide. -/
theorem C04_exact (c : Cfg) (i : Nat) (h : 0x110000 - 0x800 ≤ i) :
    (charImpl c).fromOrdinal i = .ok (charFromU32 (i % 2 ^ 32 + 0x800)) := by
  have e : asUsize c surrogateStart = 0xD800 := asUsize_lt (by decide)
  simp only [charImpl, e, asU32]
  rw [if_neg (by omega)]
  simp only [checkedAddU32]
  split
  · simp only [Option.bind_eq_bind, Option.bind_some]
  · rw [charFromU32, dif_neg (by omega)]; rfl

example := C04_exact debug64 (2 ^ 32 + 5) (by decide)

/-- C04, proved part: out-of-range ordinals below `2^32` are rejected.
Missing for the full statement: ordinals `≥ 2^32` on 64-bit targets, where it is false. -/
theorem C04_partial (c : Cfg) (i : Nat) (h : 0x110000 - 0x800 ≤ i) (h2 : i < 2 ^ 32) :
    (charImpl c).fromOrdinal i = .ok none := by
  rw [char_from c i h2, dif_neg (by unfold charCount; omega)]

example := C04_partial debug64 (2 ^ 32 - 1) (by decide) (by decide)

/-- C04 holds in full on 32-bit targets. -/
theorem C04_32bit_partial (c : Cfg) (h : c.bits = 32) : Strict c (charImpl c) (0x110000 - 0x800) := by
  intro i hi hM
  exact C04_partial c i hi (by simpa [Cfg.M, h] using hM)

example := C04_32bit_partial debug32 rfl

example : (charImpl debug64).fromOrdinal 1112064 = .ok none := by decide

/-! ## C05 -/

section
variable {α β : Type} {c : Cfg} {A : OrdinalImpl α} {B : OrdinalImpl β} {n m : Nat}

/-- C05, `Option<A>`. -/
theorem C05_option (L : Lawful c A n) (h : n + 1 < c.M) :
    Lawful c (optionImpl c A) (n + 1) ∧ (Strict c A n → Strict c (optionImpl c A) (n + 1)) :=
  ⟨option_lawful L h, option_strict⟩

example := C05_option (bool_lawful release32).1 (by decide)

/-- C05, `Result<A, B>`. -/
theorem C05_result (LA : Lawful c A n) (LB : Lawful c B m) (h : n + m < c.M) :
    Lawful c (resultImpl c A B) (n + m) ∧ (Strict c B m → Strict c (resultImpl c A B) (n + m)) :=
  ⟨result_lawful LA LB h, result_strict LA⟩

example := C05_result (char_lawful debug32) (u8_lawful debug32).1 (by decide)

/-- C05, `Either<A, B>`. -/
theorem C05_either (LA : Lawful c A n) (LB : Lawful c B m) (h : n + m < c.M) :
    Lawful c (eitherImpl c A B) (n + m) ∧ (Strict c B m → Strict c (eitherImpl c A B) (n + m)) :=
  ⟨result_lawful LA LB h, result_strict LA⟩

example := C05_either (bool_lawful debug64).1 (infallible_lawful debug64).1 (by decide)

/-- C05, `Box<A>`. -/
theorem C05_box (L : Lawful c A n) :
    Lawful c (boxImpl A) n ∧ (Strict c A n → Strict c (boxImpl A) n) := ⟨box_lawful L, box_strict⟩

example := C05_box (char_lawful debug64)

/-- C05, `Ordering` and `Infallible`. -/
theorem C05_ordering_infallible (c : Cfg) :
    (Lawful c orderingImpl 3 ∧ Strict c orderingImpl 3) ∧
    (Lawful c infallibleImpl 0 ∧ Strict c infallibleImpl 0) :=
  ⟨ordering_lawful c, infallible_lawful c⟩

/-- The hypotheses are met, e.g. by `Result<Option<bool>, i8>`: 259 values. -/
example : Lawful debug64 (resultImpl debug64 (optionImpl debug64 boolImpl) (i8Impl debug64)) 259 ∧
    (resultImpl debug64 (optionImpl debug64 boolImpl) (i8Impl debug64)).fromOrdinal 2 =
      .ok (some (.inl (some true))) :=
  ⟨result_lawful (option_lawful (bool_lawful _).1 (by decide)) (i8_lawful _).1 (by decide), by decide⟩

/-! ## C06 -/

/-- C06.  (Out-of-range ordinals are rejected whether or not `T` is strict.) -/
theorem C06_array {N : Nat} (L : Lawful c A n) (h : n ^ N < c.M) :
    Lawful c (arrayImpl c N A) (n ^ N) ∧ Strict c (arrayImpl c N A) (n ^ N) :=
  ⟨array_lawful L h, array_strict L⟩

example := C06_array (N := 40) (ordering_lawful debug64).1 (by decide)

/-- C06: first element most significant. -/
theorem C06_array_positional {N : Nat} (L : Lawful c A n) (a : α) (as : Arr α N)
    (h : n ^ (N + 1) < c.M) : ∃ i j, A.ordinal a = .ok i ∧ (arrayImpl c N A).ordinal as = .ok j ∧
      (arrayImpl c (N + 1) A).ordinal ⟨a :: as.1, by simp [as.2]⟩ = .ok (i * n ^ N + j) := by
  refine ⟨_, _, L.ordinal_eq a, array_ordOf L (pow_bounds n _ h N (by omega)) as, ?_⟩
  rw [array_ordOf L h]
  simp [encBE, as.2]

example := C06_array_positional (N := 2) (u8_lawful debug32).1 ⟨7, by decide⟩
  ⟨[⟨8, by decide⟩, ⟨9, by decide⟩], rfl⟩ (by decide)

/-- `[Ordering; 3]` has 27 values; `[Less, Equal, Greater]` is number `0*9 + 1*3 + 2`;
`[Infallible; 2]` has none and `[Infallible; 0]` has one. -/
example : Lawful debug64 (arrayImpl debug64 3 orderingImpl) 27 ∧
    (arrayImpl debug64 3 orderingImpl).ordinal ⟨[.lt, .eq, .gt], rfl⟩ = .ok 5 ∧
    (arrayImpl debug64 3 orderingImpl).fromOrdinal 27 = .ok none ∧
    Lawful debug64 (arrayImpl debug64 2 infallibleImpl) 0 ∧
    Lawful debug64 (arrayImpl debug64 0 infallibleImpl) 1 :=
  ⟨array_lawful (N := 3) (ordering_lawful _).1 (by decide), by decide, by decide,
    array_lawful (N := 2) (infallible_lawful _).1 (by decide),
    array_lawful (N := 0) (infallible_lawful _).1 (by decide)⟩

end

/-! ## C11 -/

/-- `Less < Equal < Greater`. -/
def orderingLt : Ordering → Ordering → Prop
  | .lt, .eq => True
  | .lt, .gt => True
  | .eq, .gt => True
  | _, _ => False

/-- C11: the order of the values (their numeric order) is the order of the ordinals. -/
theorem C11_leaf_order (c : Cfg) :
    OrdCompat (fun a b => a = false ∧ b = true) boolImpl ∧
    OrdCompat orderingLt orderingImpl ∧
    OrdCompat (·.1 < ·.1) (u8Impl c) ∧ OrdCompat (·.1 < ·.1) (i8Impl c) ∧
    OrdCompat (·.1 < ·.1) (u16Impl c) ∧ OrdCompat (·.1 < ·.1) (i16Impl c) ∧
    (c.bits = 64 → OrdCompat (·.1 < ·.1) (u32Impl c)) ∧
    (c.bits = 64 → OrdCompat (·.1 < ·.1) (i32Impl c)) ∧
    OrdCompat (·.1 < ·.1) (nzU8Impl c) ∧ OrdCompat (·.1 < ·.1) (nzI8Impl c) ∧
    OrdCompat (·.1 < ·.1) (nzU16Impl c) ∧ OrdCompat (·.1 < ·.1) (nzI16Impl c) ∧
    OrdCompat (·.1 < ·.1) (nzU32Impl c) ∧ OrdCompat (·.1 < ·.1) (nzI32Impl c) ∧
    OrdCompat (·.1 < ·.1) (nzUsizeImpl c) ∧ OrdCompat (·.1 < ·.1) (nzIsizeImpl c) ∧
    (c.bits = 64 → OrdCompat (·.1 < ·.1) (nzU64Impl c)) ∧
    (c.bits = 64 → OrdCompat (·.1 < ·.1) (nzI64Impl c)) ∧
    OrdCompat (·.1 < ·.1) (charImpl c) := by
  have hM := c.M_ge
  refine ⟨?_, ?_, ?_, ?_, ?_, ?_, ?_, ?_, ?_, ?_, ?_, ?_, ?_, ?_, ?_, ?_, ?_, ?_, ?_⟩
  · exact ordCompat_of Bool.toNat (fun _ => rfl) (by decide)
  · refine ordCompat_of (fun | .lt => 0 | .eq => 1 | .gt => 2) (fun a => by cases a <;> rfl) ?_
    intro a b; cases a <;> cases b <;> simp [orderingLt]
  · exact ordCompat_of _ (u8_ordinal c) (fun a b => Iff.rfl)
  · exact ordCompat_of _ (i8_ordinal c) (fun a b => by have := a.2; have := b.2; omega)
  · exact ordCompat_of _ (u16_ordinal c) (fun a b => Iff.rfl)
  · exact ordCompat_of _ (i16_ordinal c) (fun a b => by have := a.2; have := b.2; omega)
  · exact fun h => ordCompat_of _ (u32_ordinal c h) (fun a b => Iff.rfl)
  · exact fun h => ordCompat_of _ (i32_ordinal c h) (fun a b => by have := a.2; have := b.2; omega)
  · exact ordCompat_of _ (nzuGen_ordinal c 8 (by omega)) (fun a b => by have := a.2; have := b.2; omega)
  · exact ordCompat_of _ (nzsGen_ordinal c 8 127 (by decide) (by omega))
      (fun a b => nzs_order a.2.2 b.2.2 (by have := a.2; omega) (by have := b.2; omega))
  · exact ordCompat_of _ (nzuGen_ordinal c 16 (by omega)) (fun a b => by have := a.2; have := b.2; omega)
  · exact ordCompat_of _ (nzsGen_ordinal c 16 32767 (by decide) (by omega))
      (fun a b => nzs_order a.2.2 b.2.2 (by have := a.2; omega) (by have := b.2; omega))
  · exact ordCompat_of _ (nzuGen_ordinal c 32 (by omega)) (fun a b => by have := a.2; have := b.2; omega)
  · exact ordCompat_of _ (nzsGen_ordinal c 32 2147483647 (by decide) (by omega))
      (fun a b => nzs_order a.2.2 b.2.2 (by have := a.2; omega) (by have := b.2; omega))
  · exact ordCompat_of _ (nzUsize_ordinal c) (fun a b => by have := a.2; have := b.2; omega)
  · obtain ⟨mx, h⟩ := nzIsize_ordinal c
    exact ordCompat_of _ (fun x => (h x).2)
      (fun a b => nzs_order a.2.2 b.2.2 (h a).1 (h b).1)
  · exact fun h => ordCompat_of _ (nzU64_ordinal c h) (fun a b => by have := a.2; have := b.2; omega)
  · intro h
    obtain ⟨b, ok, o, d⟩ := c
    subst h
    obtain ⟨mx, h⟩ := nzIsize_ordinal ⟨64, ok, o, d⟩
    exact ordCompat_of _ (fun x => by rw [nzI64_ordinal]; exact (h x).2)
      (fun a b => nzs_order a.2.2 b.2.2 (h a).1 (h b).1)
  · refine ordCompat_of _ (char_ordinal c) (fun a b => ?_)
    have := a.2; have := b.2
    split <;> split <;> omega

/-! ## C12 (tuples are in `Props/Derive.lean`) -/

section
variable {α β : Type} {c : Cfg} {A : OrdinalImpl α} {B : OrdinalImpl β} {n m : Nat}

/-- C12, `Option`. -/
theorem C12_option (L : Lawful c A n) (h : n + 1 < c.M) {lt : α → α → Prop}
    (O : OrdCompat lt A) : OrdCompat (optionLt lt) (optionImpl c A) := option_ord L h O

example := C12_option (u8_lawful debug32).1 (by decide) (C11_leaf_order debug32).2.2.1

/-- C12, `Result` and `Either`. -/
theorem C12_result_either (LA : Lawful c A n) (LB : Lawful c B m) (h : n + m < c.M)
    {ltA : α → α → Prop} {ltB : β → β → Prop} (OA : OrdCompat ltA A) (OB : OrdCompat ltB B) :
    OrdCompat (sumLt ltA ltB) (resultImpl c A B) ∧ OrdCompat (sumLt ltA ltB) (eitherImpl c A B) :=
  ⟨result_ord LA LB h OA OB, result_ord LA LB h OA OB⟩

example := C12_result_either (u8_lawful debug64).1 (bool_lawful debug64).1 (by decide) (C11_leaf_order debug64).2.2.1
  (C11_leaf_order debug64).1

/-- C12, `Box`. -/
theorem C12_box {lt : α → α → Prop} (O : OrdCompat lt A) :
    OrdCompat (fun a b : Boxed α => lt a.unbox b.unbox) (boxImpl A) := box_ord O

example := C12_box (C11_leaf_order debug64).2.1

/-- C12, arrays: lexicographic. -/
theorem C12_array {N : Nat} (L : Lawful c A n) (h : n ^ N < c.M) {lt : α → α → Prop}
    (O : OrdCompat lt A) : OrdCompat (arrayLt lt) (arrayImpl c N A) := array_ord L h O

example := C12_array (N := 5) (ordering_lawful debug64).1 (by decide) (C11_leaf_order debug64).2.1

/-- The hypotheses are met by `[bool; 2]`, and `[false, true] < [true, false]`. -/
example : OrdCompat (arrayLt fun a b : Bool => a = false ∧ b = true) (arrayImpl debug64 2 boolImpl) ∧
    arrayLt (N := 2) (fun a b : Bool => a = false ∧ b = true) ⟨[false, true], rfl⟩ ⟨[true, false], rfl⟩ :=
  ⟨array_ord (N := 2) (bool_lawful _).1 (by decide) (C11_leaf_order debug64).1, .rel ⟨rfl, rfl⟩⟩

/-! ## C15: false (not a compile error; release builds can collide) -/

/-- `Result<NonZeroU64, NonZeroU64>` has `2^65 - 2` values. -/
def hugeResult (c : Cfg) : OrdinalImpl (NZU 64 ⊕ NZU 64) := resultImpl c (nzU64Impl c) (nzU64Impl c)

/-- C15 is false: on a 64-bit release build `Result<NonZeroU64, NonZeroU64>::ORDINAL_SIZE` does not
compile, yet `ordinal()` does, and gives `Ok(1)` and `Err(2)` the same ordinal. -/
theorem C15_false_result : (hugeResult release64).size = .error .compileError ∧
    (hugeResult release64).ordinal (.inl ⟨1, by decide⟩) = .ok 0 ∧
    (hugeResult release64).ordinal (.inr ⟨2, by decide⟩) = .ok 0 := by decide

/-- The same for `Either`. -/
theorem C15_false_either :
    (eitherImpl release64 (nzU64Impl release64) (nzU64Impl release64)).ordinal (.inl ⟨1, by decide⟩) = .ok 0 ∧
    (eitherImpl release64 (nzU64Impl release64) (nzU64Impl release64)).ordinal (.inr ⟨2, by decide⟩) = .ok 0 := by
  decide

/-- `Option<NonZeroUsize>` has `usize::MAX + 1` values: `ORDINAL_SIZE` does not compile, `ordinal()`
does. -/
theorem C15_false_option : (optionImpl release64 (nzUsizeImpl release64)).size = .error .compileError ∧
    (optionImpl release64 (nzUsizeImpl release64)).ordinal none = .ok 0 := by decide

/-- Forty base-3 digits of `usize::MAX / 3`, as `Ordering`s. -/
def hugeArrayPrefix : List Ordering :=
  [.eq, .eq, .eq, .eq, .gt, .gt, .gt, .lt, .lt, .gt,
   .gt, .eq, .gt, .gt, .eq, .gt, .lt, .eq, .lt, .eq,
   .gt, .eq, .eq, .lt, .gt, .lt, .eq, .gt, .lt, .gt,
   .eq, .lt, .gt, .eq, .lt, .gt, .eq, .eq, .gt, .gt]

/-- `[Ordering; 41]` has `3^41 > 2^64` values.  On a 64-bit release build `r += ordinal` wraps, and an
array that is not all `Less` gets ordinal 0. -/
theorem C15_false_array : ∃ a : Arr Ordering 41, a.1 ≠ List.replicate 41 .lt ∧
    (arrayImpl release64 41 orderingImpl).size = .error .compileError ∧
    (arrayImpl release64 41 orderingImpl).ordinal a = .ok 0 ∧
    (arrayImpl release64 41 orderingImpl).ordinal ⟨List.replicate 41 .lt, rfl⟩ = .ok 0 :=
  ⟨⟨hugeArrayPrefix ++ [.eq], rfl⟩, by decide, by decide, by decide, by decide⟩

/-- C15, proved part: the const `ORDINAL_SIZE` of an oversize type is always a compile error. -/
theorem C15_size_partial (LA : Lawful c A n) (LB : Lawful c B m) :
    (c.M ≤ n + 1 → (optionImpl c A).size = .error .compileError) ∧
    (c.M ≤ n + m → (resultImpl c A B).size = .error .compileError ∧
      (eitherImpl c A B).size = .error .compileError) ∧
    (∀ N, c.M ≤ n ^ N → (arrayImpl c N A).size = .error .compileError) := by
  refine ⟨fun h => ?_, fun h => ?_, fun N h => ?_⟩
  · simp [optionImpl, LA.size, addC]; omega
  · refine ⟨?_, ?_⟩ <;> simp [resultImpl, eitherImpl, LA.size, LB.size, addC] <;> omega
  · exact arraySizeLoop_err LA N 1 (by have := c.M_ge; omega) (by omega)

example := C15_size_partial (nzU64_lawful debug64 rfl).1 (bool_lawful debug64).1

/-- C15, proved part: `Option` never gives two values the same ordinal, in any build profile. -/
theorem C15_option_no_collision_partial (L : Lawful c A n) (a b : Option α) (i : Nat)
    (ha : (optionImpl c A).ordinal a = .ok i) (hb : (optionImpl c A).ordinal b = .ok i) : a = b := by
  have hf := L.fits
  have e : ∀ x : α, (optionImpl c A).ordinal (some x) = .ok (ordOf A x + 1) := by
    intro x
    have := L.ord_lt x
    simp [optionImpl, L.ordinal_eq, addU_ok (show ordOf A x + 1 < c.M by omega)]
  have e0 : (optionImpl c A).ordinal none = .ok 0 := rfl
  cases a with
  | none => cases b with
    | none => rfl
    | some b => rw [e0] at ha; rw [e] at hb; simp at ha hb; omega
  | some a => cases b with
    | none => rw [e0] at hb; rw [e] at ha; simp at ha hb; omega
    | some b =>
      rw [e] at ha hb
      simp only [Except.ok.injEq] at ha hb
      rw [L.ord_inj (show ordOf A a = ordOf A b by omega)]

example := C15_option_no_collision_partial (nzU64_lawful release64 rfl).1 none none 0 (by rfl) (by rfl)

/-- C15, proved part: in builds with overflow checks `Result`/`Either`/arrays never give two values
the same ordinal: `ordinal()` is exact or panics.
Missing for the full statement: builds without overflow checks, where it is false. -/
theorem C15_checked_no_collision_partial (LA : Lawful c A n) (LB : Lawful c B m)
    (h : c.overflowChecks = true) :
    (∀ a b i, (resultImpl c A B).ordinal a = .ok i → (resultImpl c A B).ordinal b = .ok i → a = b) ∧
    (∀ a b i, (eitherImpl c A B).ordinal a = .ok i → (eitherImpl c A B).ordinal b = .ok i → a = b) ∧
    (∀ N (a b : Arr α N) i, (arrayImpl c N A).ordinal a = .ok i →
      (arrayImpl c N A).ordinal b = .ok i → a = b) := by
  have key : ∀ a b i, (resultImpl c A B).ordinal a = .ok i → (resultImpl c A B).ordinal b = .ok i →
      a = b := by
    intro a b i ha hb
    cases a with
    | inl a => cases b with
      | inl b =>
        simp only [resultImpl, LA.ordinal_eq, Except.ok.injEq] at ha hb
        rw [LA.ord_inj (ha.trans hb.symm)]
      | inr b =>
        simp only [resultImpl, LA.ordinal_eq, LA.size, LB.ordinal_eq, ok_bind, Except.ok.injEq] at ha hb
        have := addU_checked h hb; have := LA.ord_lt a; omega
    | inr a => cases b with
      | inl b =>
        simp only [resultImpl, LA.ordinal_eq, LA.size, LB.ordinal_eq, ok_bind, Except.ok.injEq] at ha hb
        have := addU_checked h ha; have := LA.ord_lt b; omega
      | inr b =>
        simp only [resultImpl, LA.size, LB.ordinal_eq, ok_bind] at ha hb
        have h1 := addU_checked h ha
        have h2 := addU_checked h hb
        rw [LB.ord_inj (show ordOf B a = ordOf B b by omega)]
  refine ⟨key, key, fun N a b i ha hb => ?_⟩
  have h1 := arrayOrdinalLoop_checked LA h a.1 0 i ha
  have h2 := arrayOrdinalLoop_checked LA h b.1 0 i hb
  have := encBE_inj n _ _ (by simp [a.2, b.2]) (ords_lt LA a.1) (ords_lt LA b.1) (by omega)
  exact Subtype.ext (map_ordOf_inj LA this)

example := C15_checked_no_collision_partial (nzU64_lawful debug64 rfl).1 (nzU64_lawful debug64 rfl).1 rfl

/-- The checked-build hypothesis is met by `debug64`, where the colliding value panics instead. -/
example : debug64.overflowChecks = true ∧ Lawful debug64 (nzU64Impl debug64) (debug64.M - 1) ∧
    (hugeResult debug64).ordinal (.inr ⟨2, by decide⟩) = .error .panic :=
  ⟨rfl, (nzU64_lawful debug64 rfl).1, by decide⟩

end
end OrdinalMap.Props
