import Verif.Props.Nested
import Verif.Props.Text
import Verif.Props.TextSet
import Verif.Props.TextMap
/-!
# C107: types nested to any depth, with the hand-written impls run from their source text

`TextBuilt c prog α I lt s` is `Built` of C60, but the impl of each leaf type and of each `Option`, `Result`, `Either`, `Box`
and array in the type is whatever its source text in `prog` computes, run on whatever the text computes for the parts.  No impl
of the model appears in these constructors.  Tuples and derived types are the output of the derive macro, which is not run from
its text; their constructors are those of `Built`.
-/

namespace OrdinalMap.Props
open OrdinalMap OrdinalMap.Derive OrdinalMap.Text

/-- `I` is what the text of `t`'s impl computes, in a context with the type parameters `P` and their impls `J`. -/
abbrev Runs (c : Cfg) (prog : Prog) {P : Nat → Type} (J : (p : Nat) → OrdinalImpl (P p)) (N : Nat) {α : Type} (t : RT)
    (enc : α → Val P) (I : OrdinalImpl α) : Prop := TextAgrees c J N prog t enc I

/-- No type parameters. -/
abbrev noImpls : (p : Nat) → OrdinalImpl (two Empty Empty p) := twoImpls infallibleImpl infallibleImpl

/-- See the head of the file. -/
inductive TextBuilt (c : Cfg) (prog : Prog) : (α : Type) → OrdinalImpl α → (α → α → Prop) → Prop → Prop
  | bool {I} : Runs c prog noImpls 0 (.con "bool") Val.bool I → TextBuilt c prog _ I (fun a b => a = false ∧ b = true) True
  | ordering {I} : Runs c prog noImpls 0 (.con "Ordering") ordVal I → TextBuilt c prog _ I (orderingLt) True
  | infallible {I} : Runs c prog noImpls 0 (.con "Infallible") (fun x : Empty => nomatch x) I → TextBuilt c prog _ I (fun _ _ => False) True
  | char {I} : Runs c prog noImpls 0 (.con "char") (fun x : RChar => .chr x.1) I → TextBuilt c prog _ I (fun a b => a.1 < b.1) (c.bits = 32)
  | u8 {I} : Runs c prog noImpls 0 (.uint .w8) (fun x : U 8 => .uint .w8 x.1) I → TextBuilt c prog _ I (fun a b => a.1 < b.1) True
  | i8 {I} : Runs c prog noImpls 0 (.sint .w8) (fun x : S 8 => .sint .w8 x.1) I → TextBuilt c prog _ I (fun a b => a.1 < b.1) True
  | u16 {I} : Runs c prog noImpls 0 (.uint .w16) (fun x : U 16 => .uint .w16 x.1) I → TextBuilt c prog _ I (fun a b => a.1 < b.1) True
  | i16 {I} : Runs c prog noImpls 0 (.sint .w16) (fun x : S 16 => .sint .w16 x.1) I → TextBuilt c prog _ I (fun a b => a.1 < b.1) True
  | u32 {I} : Runs c prog noImpls 0 (.uint .w32) (fun x : U 32 => .uint .w32 x.1) I → TextBuilt c prog _ I (fun a b => a.1 < b.1) True
  | i32 {I} : Runs c prog noImpls 0 (.sint .w32) (fun x : S 32 => .sint .w32 x.1) I → TextBuilt c prog _ I (fun a b => a.1 < b.1) True
  | nzU8 {I} : Runs c prog noImpls 0 (.nzu .w8) (fun x : NZU 8 => .nzu .w8 x.1) I → TextBuilt c prog _ I (fun a b => a.1 < b.1) True
  | nzI8 {I} : Runs c prog noImpls 0 (.nzs .w8) (fun x : NZS 8 => .nzs .w8 x.1) I → TextBuilt c prog _ I (fun a b => a.1 < b.1) True
  | nzU16 {I} : Runs c prog noImpls 0 (.nzu .w16) (fun x : NZU 16 => .nzu .w16 x.1) I → TextBuilt c prog _ I (fun a b => a.1 < b.1) True
  | nzI16 {I} : Runs c prog noImpls 0 (.nzs .w16) (fun x : NZS 16 => .nzs .w16 x.1) I → TextBuilt c prog _ I (fun a b => a.1 < b.1) True
  | nzU32 {I} : Runs c prog noImpls 0 (.nzu .w32) (fun x : NZU 32 => .nzu .w32 x.1) I → TextBuilt c prog _ I (fun a b => a.1 < b.1) True
  | nzI32 {I} : Runs c prog noImpls 0 (.nzs .w32) (fun x : NZS 32 => .nzs .w32 x.1) I → TextBuilt c prog _ I (fun a b => a.1 < b.1) True
  | nzU64 {I} : Runs c prog noImpls 0 (.nzu .w64) (fun x : NZU 64 => .nzu .w64 x.1) I → TextBuilt c prog _ I (fun a b => a.1 < b.1) True
  | nzI64 {I} : Runs c prog noImpls 0 (.nzs .w64) (fun x : NZS 64 => .nzs .w64 x.1) I → TextBuilt c prog _ I (fun a b => a.1 < b.1) True
  | nzUsize {I} : Runs c prog noImpls 0 (.nzu .size) (fun x : NZU c.bits => .nzu .size x.1) I → TextBuilt c prog _ I (fun a b => a.1 < b.1) True
  | nzIsize {I} : Runs c prog noImpls 0 (.nzs .size) (fun x : NZS c.bits => .nzs .size x.1) I → TextBuilt c prog _ I (fun a b => a.1 < b.1) True
  | box {α A lt s} {I : OrdinalImpl (Boxed α)} : TextBuilt c prog α A lt s → Runs c prog (twoImpls A A) 0 (.con "Box") boxVal I →
      TextBuilt c prog _ I (fun a b => lt a.unbox b.unbox) s
  | option {α A lt s} {I : OrdinalImpl (Option α)} : TextBuilt c prog α A lt s → Runs c prog (twoImpls A A) 0 (.con "Option") optVal I →
      TextBuilt c prog _ I (optionLt lt) s
  | result {α β A B ltA ltB s s'} {I : OrdinalImpl (α ⊕ β)} : TextBuilt c prog α A ltA s → TextBuilt c prog β B ltB s' →
      Runs c prog (twoImpls A B) 0 (.con "Result") resVal I → TextBuilt c prog _ I (sumLt ltA ltB) s'
  | either {α β A B ltA ltB s s'} {I : OrdinalImpl (α ⊕ β)} : TextBuilt c prog α A ltA s → TextBuilt c prog β B ltB s' →
      Runs c prog (twoImpls A B) 0 (.con "Either") eithVal I → TextBuilt c prog _ I (sumLt ltA ltB) s'
  /-- The length of an array is a `usize`. -/
  | array {α A lt s} (N : Nat) {I : OrdinalImpl (Arr α N)} (hN : N < c.M) : TextBuilt c prog α A lt s →
      Runs c prog (twoImpls A A) N .arr (arrVal (N := N)) I → TextBuilt c prog _ I (arrayLt lt) True
  | tuple {ι : Type} [DecidableEq ι] {Ty : Types ι} {lt : ∀ t, Ty.T t → Ty.T t → Prop}
      {s : ι → Prop} (comp : ∀ t, TextBuilt c prog (Ty.T t) (Ty.impl t) (lt t) (s t)) (tys : List ι)
      (used : ∀ t, t ∈ tys ∨ ∃ n, (Ty.impl t).size = .ok n) (h16 : tys.length ≤ 16) :
      TextBuilt c prog _ (tupleImpl c Ty tys) (fun x y => FieldsLt lt x.1 y.1) True
  | struct {ι : Type} [DecidableEq ι] {Ty : Types ι} {lt : ∀ t, Ty.T t → Ty.T t → Prop}
      {s : ι → Prop} (comp : ∀ t, TextBuilt c prog (Ty.T t) (Ty.impl t) (lt t) (s t)) (fs : Fields ι)
      (used : ∀ t, t ∈ fieldTypes fs ∨ ∃ n, (Ty.impl t).size = .ok n) (hw : fs.WF) :
      TextBuilt c prog _ (structImpl c Ty fs) (fun x y => FieldsLt lt x.1 y.1) True
  | enum {ι : Type} [DecidableEq ι] {Ty : Types ι} {lt : ∀ t, Ty.T t → Ty.T t → Prop}
      {s : ι → Prop} (comp : ∀ t, TextBuilt c prog (Ty.T t) (Ty.impl t) (lt t) (s t)) (vs : List (Fields ι))
      (used : ∀ t, (∃ v ∈ vs, t ∈ fieldTypes v) ∨ ∃ n, (Ty.impl t).size = .ok n)
      (hw : ∀ v ∈ vs, v.WF) :
      TextBuilt c prog _ (enumImpl c Ty vs) (fun x y => EnumLt lt x.1 y.1) True

theorem map_inj {α β : Type} {f : α → β} (hf : ∀ a b, f a = f b → a = b) {x y : R α} (h : f <$> x = f <$> y) : x = y := by
  cases x <;> cases y <;> simp_all
  exact hf _ _ h

/-- One text computes one impl. -/
theorem runs_unique {c : Cfg} {prog : Prog} {P : Nat → Type} {J : (p : Nat) → OrdinalImpl (P p)} {N : Nat} {α : Type} {t : RT}
    {enc : α → Val P} {I I' : OrdinalImpl α} (h : Runs c prog J N t enc I) (h' : Runs c prog J N t enc I') :
    I.size = I'.size ∧ (∀ a, I.ordinal a = I'.ordinal a) ∧ ∀ i, i < c.M → I.fromOrdinal i = I'.fromOrdinal i := by
  have hu (a b : Nat) (e : (Val.uint .size a : Val P) = .uint .size b) : a = b := by injection e
  refine ⟨map_inj hu (h.size.symm.trans h'.size), fun a => map_inj hu ((h.ordinal a).symm.trans (h'.ordinal a)), fun i hi =>
    map_inj (fun a b e => ?_) ((h.fromOrdinal i hi).symm.trans (h'.fromOrdinal i hi))⟩
  cases a <;> cases b <;> simp at e ⊢
  exact h.inj _ _ e

theorem goodType_same {c : Cfg} {α : Type} {I I' : OrdinalImpl α} {lt : α → α → Prop} {s : Prop}
    (e : I.size = I'.size ∧ (∀ a, I.ordinal a = I'.ordinal a) ∧ ∀ i, i < c.M → I.fromOrdinal i = I'.fromOrdinal i)
    (G : GoodType c I' lt s) : GoodType c I lt s := by
  obtain ⟨e1, e2, e3⟩ := e
  refine ⟨e1 ▸ G.size, fun n hn => ?_, fun n hn a b => ?_, fun n hn hs i hi hM => ?_⟩
  · have L := G.lawful n (e1 ▸ hn)
    refine ⟨hn, L.fits, fun a => ?_, fun i hi => ?_⟩
    · obtain ⟨i, hi, h1, h2⟩ := L.ordinal a
      exact ⟨i, hi, (e2 a).trans h1, (e3 i (Nat.lt_trans hi L.fits)).trans h2⟩
    · obtain ⟨a, h1, h2⟩ := L.fromOrdinal i hi
      exact ⟨a, (e3 i (Nat.lt_trans hi L.fits)).trans h1, (e2 a).trans h2⟩
  · obtain ⟨i, j, h1, h2, h3⟩ := G.order n (e1 ▸ hn) a b
    exact ⟨i, j, (e2 a).trans h1, (e2 b).trans h2, h3⟩
  · exact (e3 i hM).trans (G.strict n (e1 ▸ hn) hs i hi hM)

theorem textBuilt_good {c : Cfg} {α : Type} {I : OrdinalImpl α} {lt : α → α → Prop} {s : Prop}
    (h : TextBuilt c impls α I lt s) : GoodType c I lt s := by
  induction h with
  | bool h => exact goodType_same (runs_unique h bool_agrees) (C60_nested .bool)
  | ordering h => exact goodType_same (runs_unique h ordering_agrees) (C60_nested .ordering)
  | infallible h => exact goodType_same (runs_unique h infallible_agrees) (C60_nested .infallible)
  | char h => exact goodType_same (runs_unique h char_agrees) (C60_nested .char)
  | u8 h => exact goodType_same (runs_unique h u8_agrees) (C60_nested .u8)
  | i8 h => exact goodType_same (runs_unique h i8_agrees) (C60_nested .i8)
  | u16 h => exact goodType_same (runs_unique h u16_agrees) (C60_nested .u16)
  | i16 h => exact goodType_same (runs_unique h i16_agrees) (C60_nested .i16)
  | u32 h => exact goodType_same (runs_unique h u32_agrees) (C60_nested .u32)
  | i32 h => exact goodType_same (runs_unique h i32_agrees) (C60_nested .i32)
  | nzU8 h => exact goodType_same (runs_unique h nzU8_agrees) (C60_nested .nzU8)
  | nzI8 h => exact goodType_same (runs_unique h nzI8_agrees) (C60_nested .nzI8)
  | nzU16 h => exact goodType_same (runs_unique h nzU16_agrees) (C60_nested .nzU16)
  | nzI16 h => exact goodType_same (runs_unique h nzI16_agrees) (C60_nested .nzI16)
  | nzU32 h => exact goodType_same (runs_unique h nzU32_agrees) (C60_nested .nzU32)
  | nzI32 h => exact goodType_same (runs_unique h nzI32_agrees) (C60_nested .nzI32)
  | nzU64 h => exact goodType_same (runs_unique h nzU64_agrees) (C60_nested .nzU64)
  | nzI64 h => exact goodType_same (runs_unique h nzI64_agrees) (C60_nested .nzI64)
  | nzUsize h => exact goodType_same (runs_unique h nzUsize_agrees) (C60_nested .nzUsize)
  | nzIsize h => exact goodType_same (runs_unique h nzIsize_agrees) (C60_nested .nzIsize)
  | box _ h ih => exact goodType_same (runs_unique h box_agrees) (goodType_box ih)
  | option _ h ih => exact goodType_same (runs_unique h option_agrees) (goodType_option ih)
  | result _ _ h iha ihb => exact goodType_same (runs_unique h result_agrees) (goodType_result iha ihb)
  | either _ _ h iha ihb => exact goodType_same (runs_unique h either_agrees) (goodType_either iha ihb)
  | array N hN _ h ih => exact goodType_same (runs_unique h (array_agrees hN)) (goodType_array N ih)
  | tuple _ tys used h16 ih => exact goodType_tuple ih tys used h16
  | struct _ fs used hw ih => exact goodType_struct ih fs used hw
  | enum _ vs used hw ih => exact goodType_enum ih vs used hw

/-- C107: every type of any nesting depth, by the source text of the impls. -/
theorem C107_nested (c : Cfg) : Sources fun prog => ∀ {α : Type} {I : OrdinalImpl α} {lt : α → α → Prop} {s : Prop},
    TextBuilt c prog α I lt s → GoodType c I lt s :=
  .of fun h => textBuilt_good h

/-- C107: the text of every type computes an impl: a nested type lacks nothing but derived parts. -/
theorem C107_exists (c : Cfg) : Sources fun prog =>
    TextBuilt c prog _ boolImpl (fun a b => a = false ∧ b = true) True ∧
    TextBuilt c prog _ orderingImpl (orderingLt) True ∧
    TextBuilt c prog _ infallibleImpl (fun _ _ => False) True ∧
    TextBuilt c prog _ (charImpl c) (fun a b => a.1 < b.1) (c.bits = 32) ∧
    TextBuilt c prog _ (u8Impl c) (fun a b => a.1 < b.1) True ∧
    TextBuilt c prog _ (i8Impl c) (fun a b => a.1 < b.1) True ∧
    TextBuilt c prog _ (u16Impl c) (fun a b => a.1 < b.1) True ∧
    TextBuilt c prog _ (i16Impl c) (fun a b => a.1 < b.1) True ∧
    TextBuilt c prog _ (u32Impl c) (fun a b => a.1 < b.1) True ∧
    TextBuilt c prog _ (i32Impl c) (fun a b => a.1 < b.1) True ∧
    TextBuilt c prog _ (nzU8Impl c) (fun a b => a.1 < b.1) True ∧
    TextBuilt c prog _ (nzI8Impl c) (fun a b => a.1 < b.1) True ∧
    TextBuilt c prog _ (nzU16Impl c) (fun a b => a.1 < b.1) True ∧
    TextBuilt c prog _ (nzI16Impl c) (fun a b => a.1 < b.1) True ∧
    TextBuilt c prog _ (nzU32Impl c) (fun a b => a.1 < b.1) True ∧
    TextBuilt c prog _ (nzI32Impl c) (fun a b => a.1 < b.1) True ∧
    TextBuilt c prog _ (nzU64Impl c) (fun a b => a.1 < b.1) True ∧
    TextBuilt c prog _ (nzI64Impl c) (fun a b => a.1 < b.1) True ∧
    TextBuilt c prog _ (nzUsizeImpl c) (fun a b => a.1 < b.1) True ∧
    TextBuilt c prog _ (nzIsizeImpl c) (fun a b => a.1 < b.1) True ∧
    (∀ {α A lt s}, TextBuilt c prog α A lt s → TextBuilt c prog _ (boxImpl A) (fun a b => lt a.unbox b.unbox) s ∧
      TextBuilt c prog _ (optionImpl c A) (optionLt lt) s ∧
      ∀ N, N < c.M → TextBuilt c prog _ (arrayImpl c N A) (arrayLt lt) True) ∧
    ∀ {α β A B ltA ltB s s'}, TextBuilt c prog α A ltA s → TextBuilt c prog β B ltB s' →
      TextBuilt c prog (α ⊕ β) (resultImpl c A B) (sumLt ltA ltB) s' ∧
      TextBuilt c prog (α ⊕ β) (eitherImpl c A B) (sumLt ltA ltB) s' :=
  .of ⟨.bool bool_agrees, .ordering ordering_agrees, .infallible infallible_agrees, .char char_agrees, .u8 u8_agrees,
    .i8 i8_agrees, .u16 u16_agrees, .i16 i16_agrees, .u32 u32_agrees, .i32 i32_agrees,
    .nzU8 nzU8_agrees, .nzI8 nzI8_agrees, .nzU16 nzU16_agrees, .nzI16 nzI16_agrees, .nzU32 nzU32_agrees,
    .nzI32 nzI32_agrees, .nzU64 nzU64_agrees, .nzI64 nzI64_agrees, .nzUsize nzUsize_agrees, .nzIsize nzIsize_agrees,
    fun h => ⟨.box h box_agrees, .option h option_agrees, fun N hN => .array N hN h (array_agrees hN)⟩,
    fun h h' => ⟨.result h h' result_agrees, .either h h' either_agrees⟩⟩

/-- `Option<[Result<bool, char>; 2]>`, from the texts. -/
theorem textBuilt_example (c : Cfg) : TextBuilt c impls (Option (Arr (Bool ⊕ RChar) 2))
    (optionImpl c (arrayImpl c 2 (resultImpl c boolImpl (charImpl c))))
    (optionLt (arrayLt (sumLt (fun a b => a = false ∧ b = true) fun a b => a.1 < b.1))) True :=
  .option (.array 2 (Nat.lt_of_lt_of_le (by decide) c.M_ge) (.result (.bool bool_agrees) (.char char_agrees) result_agrees)
    (array_agrees (Nat.lt_of_lt_of_le (by decide) c.M_ge))) option_agrees

/-- It has `1 + (2 + 1112064)²` values on 64-bit targets and is rejected on 32-bit targets. -/
example : (optionImpl debug64 (arrayImpl debug64 2 (resultImpl debug64 boolImpl (charImpl debug64)))).size =
      .ok (1112066 ^ 2 + 1) ∧
    (optionImpl debug32 (arrayImpl debug32 2 (resultImpl debug32 boolImpl (charImpl debug32)))).size =
      .error .compileError := by decide

example := (textBuilt_good (textBuilt_example debug64)).lawful (1112066 ^ 2 + 1) (by decide)

/-- C107, size: if `ORDINAL_SIZE` evaluates, it is the number of values of the type, and there is a list of them in the order
of `Ord`. -/
theorem C107_count (c : Cfg) : Sources fun prog => ∀ {α : Type} {I : OrdinalImpl α} {lt : α → α → Prop} {s : Prop},
    TextBuilt c prog α I lt s → ∀ n, I.size = .ok n →
      ∃ l : List α, l.length = n ∧ l.Nodup ∧ (∀ a, a ∈ l) ∧ l.Pairwise lt :=
  .of fun h n hn => good_count (textBuilt_good h) n hn

/-- `OrdinalMap` and `all_values` by their texts, with keys of any such type. -/
example {c : Cfg} {α β : Type} [DecidableEq (two α β 0)] {I : OrdinalImpl α} {lt s} {n : Nat} (h : TextBuilt c impls α I lt s)
    (hn : I.size = .ok n) (B : OrdinalImpl β) :=
  C102_ordinal_map (c := c) (J := twoImpls I B) (S := 0) (n := n) ((textBuilt_good h).lawful n hn)

example {c : Cfg} {α β : Type} {I : OrdinalImpl α} {lt s} {n : Nat} (h : TextBuilt c impls α I lt s)
    (hn : I.size = .ok n) (B : OrdinalImpl β) :=
  C101_values (c := c) (J := twoImpls I B) (S := 0) (n := n) ((textBuilt_good h).lawful n hn)

end OrdinalMap.Props
