import Verif.Text.Lawful
import Verif.Lemmas.NonZero
import Verif.Lemmas.Composite
import Verif.Props.Leaf
/-!
# C100: the hand-written impls of `Ordinal`, lexed, parsed and run from their source text

`Sources Q` says that the texts in `Verif.Text.Files` are accepted by the parser and that the program they make up has the
property `Q`.  `TextLawful` and `TextStrict` are `Lawful` and `Strict` for a type of such a program.  Type parameters are
arbitrary types `P 0`, `P 1` with arbitrary impls `J 0`, `J 1`.
-/

namespace OrdinalMap.Props
open OrdinalMap OrdinalMap.Text

variable {P : Nat → Type} (c : Cfg) (J : (p : Nat) → OrdinalImpl (P p)) (N : Nat)

/-- C100 for the types of `primitive.rs`. -/
theorem C100_primitives : Sources fun prog =>
    (TextLawful c J N prog (.con "bool") Val.bool 2 ∧ TextStrict c J N prog (.con "bool") 2) ∧
    (TextLawful c J N prog (.uint .w8) (fun x : U 8 => .uint .w8 x.1) (2 ^ 8) ∧
      TextStrict c J N prog (.uint .w8) (2 ^ 8)) ∧
    (TextLawful c J N prog (.sint .w8) (fun x : S 8 => .sint .w8 x.1) (2 ^ 8) ∧
      TextStrict c J N prog (.sint .w8) (2 ^ 8)) ∧
    (TextLawful c J N prog (.uint .w16) (fun x : U 16 => .uint .w16 x.1) (2 ^ 16) ∧
      TextStrict c J N prog (.uint .w16) (2 ^ 16)) ∧
    (TextLawful c J N prog (.sint .w16) (fun x : S 16 => .sint .w16 x.1) (2 ^ 16) ∧
      TextStrict c J N prog (.sint .w16) (2 ^ 16)) ∧
    (c.bits = 64 → TextLawful c J N prog (.uint .w32) (fun x : U 32 => .uint .w32 x.1) (2 ^ 32) ∧
      TextStrict c J N prog (.uint .w32) (2 ^ 32)) ∧
    (c.bits = 64 → TextLawful c J N prog (.sint .w32) (fun x : S 32 => .sint .w32 x.1) (2 ^ 32) ∧
      TextStrict c J N prog (.sint .w32) (2 ^ 32)) :=
  .of ⟨bool_agrees.both (bool_lawful c), u8_agrees.both (u8_lawful c), i8_agrees.both (i8_lawful c),
    u16_agrees.both (u16_lawful c), i16_agrees.both (i16_lawful c), fun h => u32_agrees.both (u32_lawful c h),
    fun h => i32_agrees.both (i32_lawful c h)⟩

example := C100_primitives debug64 (twoImpls boolImpl orderingImpl) 3

/-- C100 for the types of `non_zero.rs`. -/
theorem C100_nonzero : Sources fun prog =>
    (TextLawful c J N prog (.nzu .w8) (fun x : NZU 8 => .nzu .w8 x.1) (2 ^ 8 - 1) ∧
      TextStrict c J N prog (.nzu .w8) (2 ^ 8 - 1)) ∧
    (TextLawful c J N prog (.nzs .w8) (fun x : NZS 8 => .nzs .w8 x.1) (2 ^ 8 - 1) ∧
      TextStrict c J N prog (.nzs .w8) (2 ^ 8 - 1)) ∧
    (TextLawful c J N prog (.nzu .w16) (fun x : NZU 16 => .nzu .w16 x.1) (2 ^ 16 - 1) ∧
      TextStrict c J N prog (.nzu .w16) (2 ^ 16 - 1)) ∧
    (TextLawful c J N prog (.nzs .w16) (fun x : NZS 16 => .nzs .w16 x.1) (2 ^ 16 - 1) ∧
      TextStrict c J N prog (.nzs .w16) (2 ^ 16 - 1)) ∧
    (TextLawful c J N prog (.nzu .w32) (fun x : NZU 32 => .nzu .w32 x.1) (2 ^ 32 - 1) ∧
      TextStrict c J N prog (.nzu .w32) (2 ^ 32 - 1)) ∧
    (TextLawful c J N prog (.nzs .w32) (fun x : NZS 32 => .nzs .w32 x.1) (2 ^ 32 - 1) ∧
      TextStrict c J N prog (.nzs .w32) (2 ^ 32 - 1)) ∧
    (TextLawful c J N prog (.nzu .size) (fun x : NZU c.bits => .nzu .size x.1) (2 ^ c.bits - 1) ∧
      TextStrict c J N prog (.nzu .size) (2 ^ c.bits - 1)) ∧
    (TextLawful c J N prog (.nzs .size) (fun x : NZS c.bits => .nzs .size x.1) (2 ^ c.bits - 1) ∧
      TextStrict c J N prog (.nzs .size) (2 ^ c.bits - 1)) ∧
    (c.bits = 64 → TextLawful c J N prog (.nzu .w64) (fun x : NZU 64 => .nzu .w64 x.1) (2 ^ 64 - 1) ∧
      TextStrict c J N prog (.nzu .w64) (2 ^ 64 - 1)) ∧
    (c.bits = 64 → TextLawful c J N prog (.nzs .w64) (fun x : NZS 64 => .nzs .w64 x.1) (2 ^ 64 - 1) ∧
      TextStrict c J N prog (.nzs .w64) (2 ^ 64 - 1)) :=
  have ⟨h1, h2, h3, h4, h5, h6, h7, h8, h9, h10⟩ := C02_nonzero c
  .of ⟨nzU8_agrees.both h1, nzI8_agrees.both h2, nzU16_agrees.both h3, nzI16_agrees.both h4, nzU32_agrees.both h5,
    nzI32_agrees.both h6, nzUsize_agrees.both h7, nzIsize_agrees.both h8, fun h => nzU64_agrees.both (h9 h),
    fun h => nzI64_agrees.both (h10 h)⟩

example := C100_nonzero release32 (twoImpls boolImpl orderingImpl) 3

/-- C100, 32-bit targets: `u32`, `i32`, `NonZeroU64` and `NonZeroI64` are rejected at compile time. -/
theorem C100_32bit_rejected (h : c.bits = 32) : Sources fun prog =>
    (∀ t ∈ [RT.uint .w32, .sint .w32, .nzu .w64, .nzs .w64], runSize c J N prog t = .error .compileError) ∧
    (∀ x : U 32, runOrdinal c J N prog (.uint .w32) (.uint .w32 x.1) = .error .compileError) ∧
    (∀ x : S 32, runOrdinal c J N prog (.sint .w32) (.sint .w32 x.1) = .error .compileError) ∧
    (∀ x : NZU 64, runOrdinal c J N prog (.nzu .w64) (.nzu .w64 x.1) = .error .compileError) ∧
    (∀ x : NZS 64, runOrdinal c J N prog (.nzs .w64) (.nzs .w64 x.1) = .error .compileError) := by
  obtain ⟨a1, a2, a3, a4, _⟩ := C01_32bit_rejected c h
  obtain ⟨b1, b2, b3, b4, _⟩ := C02_32bit_rejected c h
  refine .of ⟨?_, fun x => ?_, fun x => ?_, fun x => ?_, fun x => ?_⟩
  · intro t ht
    simp only [List.mem_cons, List.not_mem_nil, or_false] at ht
    obtain rfl | rfl | rfl | rfl := ht
    · rw [u32_agrees.size, a1]; rfl
    · rw [i32_agrees.size, a2]; rfl
    · rw [nzU64_agrees.size, b1]; rfl
    · rw [nzI64_agrees.size, b2]; rfl
  · rw [u32_agrees.ordinal x, a3]; rfl
  · rw [i32_agrees.ordinal x, a4]; rfl
  · rw [nzU64_agrees.ordinal x, b3]; rfl
  · rw [nzI64_agrees.ordinal x, b4]; rfl

example := C100_32bit_rejected release32 (twoImpls boolImpl orderingImpl) 3 rfl

/-- C100 for `char`, `Ordering` and `Infallible`.  `char` is not strict on 64-bit targets (C04). -/
theorem C100_leaf : Sources fun prog =>
    TextLawful c J N prog (.con "char") (fun x : RChar => .chr x.1) (0x110000 - 0x800) ∧
    (c.bits = 32 → TextStrict c J N prog (.con "char") (0x110000 - 0x800)) ∧
    (TextLawful c J N prog (.con "Ordering") ordVal 3 ∧ TextStrict c J N prog (.con "Ordering") 3) ∧
    (TextLawful c J N prog (.con "Infallible") (fun x : Empty => nomatch x) 0 ∧
      TextStrict c J N prog (.con "Infallible") 0) :=
  .of ⟨char_agrees.lawful (char_lawful c), fun h => char_agrees.strict (C04_32bit_partial c h),
    ordering_agrees.both (ordering_lawful c), infallible_agrees.both (infallible_lawful c)⟩

example := C100_leaf debug64 (twoImpls boolImpl orderingImpl) 3

/-- C100, the finding C04 in the text: `char::from_ordinal(1 << 32)` is `Some('\u{800}')` on 64-bit targets. -/
theorem C100_char_wraps (h : c.bits = 64) : Sources fun prog =>
    runFromOrdinal c J N prog (.con "char") (2 ^ 32) = .ok (.con "Some" [.chr 0x800]) := by
  refine .of ?_
  rw [char_agrees.fromOrdinal _ (by simp [Cfg.M, h]), C04_exact c _ (by decide)]
  rfl

example := C100_char_wraps release64 (twoImpls boolImpl orderingImpl) 3 rfl

variable {n m : Nat}

/-- C100 for `Option`, `Result`, `Either`, `Box` and arrays of lawful types. -/
theorem C100_generic (LA : Lawful c (J 0) n) (LB : Lawful c (J 1) m) : Sources fun prog =>
    (n + 1 < c.M → TextLawful c J N prog (.con "Option") optVal (n + 1)) ∧
    (n + m < c.M → TextLawful c J N prog (.con "Result") resVal (n + m)) ∧
    (n + m < c.M → TextLawful c J N prog (.con "Either") eithVal (n + m)) ∧
    TextLawful c J N prog (.con "Box") boxVal n ∧
    (n ^ N < c.M → N < c.M → TextLawful c J N prog .arr (arrVal (N := N)) (n ^ N)) :=
  .of ⟨fun h => option_agrees.lawful (option_lawful LA h), fun h => result_agrees.lawful (result_lawful LA LB h),
    fun h => either_agrees.lawful (result_lawful LA LB h), box_agrees.lawful (box_lawful LA),
    fun h hN => (array_agrees hN).lawful (array_lawful LA h)⟩

example := C100_generic debug64 (twoImpls boolImpl orderingImpl) 3 (bool_lawful debug64).1 (ordering_lawful debug64).1

/-- C100: `None` outside the range, if the parts do so.  Arrays do so whatever their parts do. -/
theorem C100_generic_strict (LA : Lawful c (J 0) n) (SA : Strict c (J 0) n) (SB : Strict c (J 1) m) :
    Sources fun prog => TextStrict c J N prog (.con "Option") (n + 1) ∧ TextStrict c J N prog (.con "Result") (n + m) ∧
      TextStrict c J N prog (.con "Either") (n + m) ∧ TextStrict c J N prog (.con "Box") n :=
  .of ⟨option_agrees.strict (option_strict SA), result_agrees.strict (result_strict LA SB),
    either_agrees.strict (result_strict LA SB), box_agrees.strict (box_strict SA)⟩

theorem C100_array_strict (LA : Lawful c (J 0) n) (hN : N < c.M) :
    Sources fun prog => TextStrict c J N prog .arr (n ^ N) :=
  .of ((array_agrees hN).strict (array_strict LA))

example := C100_generic_strict debug64 (twoImpls boolImpl orderingImpl) 3 (bool_lawful debug64).1 (bool_lawful debug64).2
  (ordering_lawful debug64).2
example := C100_array_strict debug64 (twoImpls boolImpl orderingImpl) 3 (bool_lawful debug64).1 (by decide)

/-- C100: the text and the model compute the same, with panics and compile errors, for all impls of the parts,
lawful or not. -/
theorem C100_agrees (hN : N < c.M) : Sources fun prog =>
    TextAgrees c J N prog (.con "bool") Val.bool boolImpl ∧
    TextAgrees c J N prog (.uint .w8) (fun x : U 8 => .uint .w8 x.1) (u8Impl c) ∧
    TextAgrees c J N prog (.sint .w8) (fun x : S 8 => .sint .w8 x.1) (i8Impl c) ∧
    TextAgrees c J N prog (.uint .w16) (fun x : U 16 => .uint .w16 x.1) (u16Impl c) ∧
    TextAgrees c J N prog (.sint .w16) (fun x : S 16 => .sint .w16 x.1) (i16Impl c) ∧
    TextAgrees c J N prog (.uint .w32) (fun x : U 32 => .uint .w32 x.1) (u32Impl c) ∧
    TextAgrees c J N prog (.sint .w32) (fun x : S 32 => .sint .w32 x.1) (i32Impl c) ∧
    TextAgrees c J N prog (.nzu .w8) (fun x : NZU 8 => .nzu .w8 x.1) (nzU8Impl c) ∧
    TextAgrees c J N prog (.nzs .w8) (fun x : NZS 8 => .nzs .w8 x.1) (nzI8Impl c) ∧
    TextAgrees c J N prog (.nzu .w16) (fun x : NZU 16 => .nzu .w16 x.1) (nzU16Impl c) ∧
    TextAgrees c J N prog (.nzs .w16) (fun x : NZS 16 => .nzs .w16 x.1) (nzI16Impl c) ∧
    TextAgrees c J N prog (.nzu .w32) (fun x : NZU 32 => .nzu .w32 x.1) (nzU32Impl c) ∧
    TextAgrees c J N prog (.nzs .w32) (fun x : NZS 32 => .nzs .w32 x.1) (nzI32Impl c) ∧
    TextAgrees c J N prog (.nzu .size) (fun x : NZU c.bits => .nzu .size x.1) (nzUsizeImpl c) ∧
    TextAgrees c J N prog (.nzs .size) (fun x : NZS c.bits => .nzs .size x.1) (nzIsizeImpl c) ∧
    TextAgrees c J N prog (.nzu .w64) (fun x : NZU 64 => .nzu .w64 x.1) (nzU64Impl c) ∧
    TextAgrees c J N prog (.nzs .w64) (fun x : NZS 64 => .nzs .w64 x.1) (nzI64Impl c) ∧
    TextAgrees c J N prog (.con "char") (fun x : RChar => .chr x.1) (charImpl c) ∧
    TextAgrees c J N prog (.con "Ordering") ordVal orderingImpl ∧
    TextAgrees c J N prog (.con "Infallible") (fun x : Empty => nomatch x) infallibleImpl ∧
    TextAgrees c J N prog (.con "Option") optVal (optionImpl c (J 0)) ∧
    TextAgrees c J N prog (.con "Result") resVal (resultImpl c (J 0) (J 1)) ∧
    TextAgrees c J N prog (.con "Either") eithVal (eitherImpl c (J 0) (J 1)) ∧
    TextAgrees c J N prog (.con "Box") boxVal (boxImpl (J 0)) ∧
    TextAgrees c J N prog .arr (arrVal (N := N)) (arrayImpl c N (J 0)) :=
  .of ⟨bool_agrees, u8_agrees, i8_agrees, u16_agrees, i16_agrees, u32_agrees, i32_agrees, nzU8_agrees, nzI8_agrees,
    nzU16_agrees, nzI16_agrees, nzU32_agrees, nzI32_agrees, nzUsize_agrees, nzIsize_agrees, nzU64_agrees, nzI64_agrees,
    char_agrees, ordering_agrees, infallible_agrees, option_agrees, result_agrees, either_agrees, box_agrees,
    array_agrees hN⟩

/-- An impl that breaks the contract: the text does what the model does with it. -/
example := C100_agrees release32 (twoImpls (α := Nat) (β := Nat) ⟨.ok 7, fun _ => .error .panic, fun _ => .ok none⟩
  ⟨.error .compileError, fun a => .ok (a + 100), fun i => .ok (some i)⟩) 5 (by decide)

end OrdinalMap.Props
