import Verif.Lemmas.DeriveReject
import Verif.Props.Derive
import Verif.Props.Leaf
import Verif.Props.Values
/-!
# C60: types nested to any depth

`Built c α I lt s`: `I` is the `Ordinal` impl of the type `α`, made from the impls of the crate and
`#[derive(Ordinal)]` by any amount of nesting; `lt` is the order `Ord` gives the type (the standard
library's, or the derived one).  `s` says whether `from_ordinal` is promised to reject every ordinal
out of range: `char` does not on 64-bit targets (C04), and `Option`, `Box` and the second component of
`Result` and `Either` inherit that.
-/

namespace OrdinalMap.Props
open OrdinalMap OrdinalMap.Derive

/-- See the head of the file. -/
inductive Built (c : Cfg) : (α : Type) → OrdinalImpl α → (α → α → Prop) → Prop → Prop
  | bool : Built c _ boolImpl (fun a b => a = false ∧ b = true) True
  | ordering : Built c _ orderingImpl orderingLt True
  | infallible : Built c _ infallibleImpl (fun _ _ => False) True
  | char : Built c _ (charImpl c) (·.1 < ·.1) (c.bits = 32)
  | u8 : Built c _ (u8Impl c) (·.1 < ·.1) True
  | i8 : Built c _ (i8Impl c) (·.1 < ·.1) True
  | u16 : Built c _ (u16Impl c) (·.1 < ·.1) True
  | i16 : Built c _ (i16Impl c) (·.1 < ·.1) True
  | u32 : Built c _ (u32Impl c) (·.1 < ·.1) True
  | i32 : Built c _ (i32Impl c) (·.1 < ·.1) True
  | nzU8 : Built c _ (nzU8Impl c) (·.1 < ·.1) True
  | nzI8 : Built c _ (nzI8Impl c) (·.1 < ·.1) True
  | nzU16 : Built c _ (nzU16Impl c) (·.1 < ·.1) True
  | nzI16 : Built c _ (nzI16Impl c) (·.1 < ·.1) True
  | nzU32 : Built c _ (nzU32Impl c) (·.1 < ·.1) True
  | nzI32 : Built c _ (nzI32Impl c) (·.1 < ·.1) True
  | nzU64 : Built c _ (nzU64Impl c) (·.1 < ·.1) True
  | nzI64 : Built c _ (nzI64Impl c) (·.1 < ·.1) True
  | nzUsize : Built c _ (nzUsizeImpl c) (·.1 < ·.1) True
  | nzIsize : Built c _ (nzIsizeImpl c) (·.1 < ·.1) True
  | box {α A lt s} : Built c α A lt s → Built c _ (boxImpl A) (fun a b => lt a.unbox b.unbox) s
  | option {α A lt s} : Built c α A lt s → Built c _ (optionImpl c A) (optionLt lt) s
  | result {α β A B ltA ltB s s'} : Built c α A ltA s → Built c β B ltB s' →
      Built c _ (resultImpl c A B) (sumLt ltA ltB) s'
  | either {α β A B ltA ltB s s'} : Built c α A ltA s → Built c β B ltB s' →
      Built c _ (eitherImpl c A B) (sumLt ltA ltB) s'
  | array {α A lt s} (N : Nat) : Built c α A lt s → Built c _ (arrayImpl c N A) (arrayLt lt) True
  /-- Tuples.  Like in the next two, `ι` names the component types; a name that is not used has to
  stand for a type that compiles. -/
  | tuple {ι : Type} [DecidableEq ι] {Ty : Types ι} {lt : ∀ t, Ty.T t → Ty.T t → Prop}
      {s : ι → Prop} (comp : ∀ t, Built c (Ty.T t) (Ty.impl t) (lt t) (s t)) (tys : List ι)
      (used : ∀ t, t ∈ tys ∨ ∃ n, (Ty.impl t).size = .ok n) (h16 : tys.length ≤ 16) :
      Built c _ (tupleImpl c Ty tys) (fun x y => FieldsLt lt x.1 y.1) True
  | struct {ι : Type} [DecidableEq ι] {Ty : Types ι} {lt : ∀ t, Ty.T t → Ty.T t → Prop}
      {s : ι → Prop} (comp : ∀ t, Built c (Ty.T t) (Ty.impl t) (lt t) (s t)) (fs : Fields ι)
      (used : ∀ t, t ∈ fieldTypes fs ∨ ∃ n, (Ty.impl t).size = .ok n) (hw : fs.WF) :
      Built c _ (structImpl c Ty fs) (fun x y => FieldsLt lt x.1 y.1) True
  | enum {ι : Type} [DecidableEq ι] {Ty : Types ι} {lt : ∀ t, Ty.T t → Ty.T t → Prop}
      {s : ι → Prop} (comp : ∀ t, Built c (Ty.T t) (Ty.impl t) (lt t) (s t)) (vs : List (Fields ι))
      (used : ∀ t, (∃ v ∈ vs, t ∈ fieldTypes v) ∨ ∃ n, (Ty.impl t).size = .ok n)
      (hw : ∀ v ∈ vs, v.WF) :
      Built c _ (enumImpl c Ty vs) (fun x y => EnumLt lt x.1 y.1) True

/-- What C60 says of one type. -/
structure GoodType {α : Type} (c : Cfg) (I : OrdinalImpl α) (lt : α → α → Prop) (s : Prop) : Prop where
  /-- `ORDINAL_SIZE` evaluates or the program is rejected. -/
  size : (∃ n, I.size = .ok n) ∨ I.size = .error .compileError
  /-- If it evaluates, the laws hold, … -/
  lawful : ∀ n, I.size = .ok n → Lawful c I n
  /-- … the order is compatible with `Ord`, … -/
  order : ∀ n, I.size = .ok n → OrdCompat lt I
  /-- … and ordinals out of range are rejected, except as said above. -/
  strict : ∀ n, I.size = .ok n → s → Strict c I n

theorem goodType_of {α : Type} {c : Cfg} {I : OrdinalImpl α} {lt : α → α → Prop} {s : Prop} {n : Nat}
    (L : Lawful c I n) (O : OrdCompat lt I) (S : s → Strict c I n) : GoodType c I lt s := by
  refine ⟨.inl ⟨n, L.size⟩, ?_, ?_, ?_⟩ <;> intro m hm <;> rw [L.size] at hm <;> cases hm
  · exact L
  · exact O
  · exact S

theorem goodType_rejected {α : Type} {c : Cfg} {I : OrdinalImpl α} {lt : α → α → Prop} {s : Prop}
    (h : I.size = .error .compileError) : GoodType c I lt s := by
  refine ⟨.inr h, ?_, ?_, ?_⟩ <;> intro m hm <;> rw [h] at hm <;> cases hm

theorem array_zero_good {α : Type} {c : Cfg} (A : OrdinalImpl α) (lt : α → α → Prop) :
    GoodType c (arrayImpl c 0 A) (arrayLt lt) True := by
  have e : ∀ a : Arr α 0, a = ⟨[], rfl⟩ := fun a => Subtype.ext (List.eq_nil_of_length_eq_zero a.2)
  have hM := c.M_ge
  refine goodType_of (n := 1) ⟨rfl, by omega, fun a => ⟨0, by omega, ?_, ?_⟩, fun i hi => ?_⟩ ?_ ?_
  · rw [e a]; rfl
  · rw [e a]; rfl
  · obtain rfl : i = 0 := by omega
    exact ⟨⟨[], rfl⟩, rfl, rfl⟩
  · intro a b
    rw [e a, e b]
    refine ⟨0, 0, rfl, rfl, ?_⟩
    simp [arrayLt]
  · intro _ i hi _
    simp [arrayImpl, arrayFromLoop]; omega

/-- A struct is accepted or rejected by the compiler; if accepted it has no field with a reserved name. -/
theorem struct_size_cases {ι : Type} [DecidableEq ι] {c : Cfg} {Ty : Types ι} {sz : ι → Nat}
    (L : ∀ t, Lawful c (Ty.impl t) (sz t)) (fs : Fields ι) (hw : fs.WF) :
    (structImpl c Ty fs).size = .error .compileError ∨
      (∃ n, (structImpl c Ty fs).size = .ok n) ∧ ¬ HasReserved fs := by
  by_cases hr : HasReserved fs
  · obtain ⟨g, hg, hc⟩ := C10_exact_struct_partial fs hw
    have hc' : g.check fs = false := by
      cases h : g.check fs with
      | false => rfl
      | true => exact absurd hr (hc.1 h)
    left
    simp [structImpl, hg, hc', rejected]
  · rcases (C14_struct c Ty sz L fs hw hr).sound with h | h
    · exact .inr ⟨⟨_, h⟩, hr⟩
    · exact .inl h

theorem enum_size_cases {ι : Type} [DecidableEq ι] {c : Cfg} {Ty : Types ι} {sz : ι → Nat}
    (L : ∀ t, Lawful c (Ty.impl t) (sz t)) (vs : List (Fields ι)) (hw : ∀ v ∈ vs, v.WF) :
    (enumImpl c Ty vs).size = .error .compileError ∨
      (∃ n, (enumImpl c Ty vs).size = .ok n) ∧ ∀ v ∈ vs, ¬ HasReserved v := by
  by_cases hr : ∀ v ∈ vs, ¬ HasReserved v
  · rcases (C14_enum c Ty sz L vs hw hr).sound with h | h
    · exact .inr ⟨⟨_, h⟩, hr⟩
    · exact .inl h
  · left
    rcases Decidable.em (vs.countP noFields < 2 ^ 64) with h64 | h64
    · obtain ⟨g, arms, hg, -, -, -, -, -, -, hc⟩ := genEnum_ok vs h64 hw
      have hc' : g.check vs = false := by
        cases h : g.check vs with
        | false => rfl
        | true => exact absurd (fun v hv => (noClash_iff v).1 (hc.1 h v hv)) hr
      simp [enumImpl, hg, hc', rejected]
    · rw [enum_overflow64 vs h64]; rfl

/-- Either all component types compile or one does not. -/
theorem sizes_cases {ι : Type} {Ty : Types ι}
    (h : ∀ t, (∃ n, (Ty.impl t).size = .ok n) ∨ (Ty.impl t).size = .error .compileError) :
    (∃ sz : ι → Nat, ∀ t, (Ty.impl t).size = .ok (sz t)) ∨ ∃ t, (Ty.impl t).size = .error .compileError := by
  by_cases hb : ∃ t, (Ty.impl t).size = .error .compileError
  · exact .inr hb
  · have : ∀ t, ∃ n, (Ty.impl t).size = .ok n := fun t => (h t).resolve_right fun ht => hb ⟨t, ht⟩
    exact .inl ⟨fun t => Classical.choose (this t), fun t => Classical.choose_spec (this t)⟩

/-! ## One layer -/

theorem goodType_box {α : Type} {c : Cfg} {A : OrdinalImpl α} {lt : α → α → Prop} {s : Prop}
    (ih : GoodType c A lt s) : GoodType c (boxImpl A) (fun a b => lt a.unbox b.unbox) s := by
  rcases ih.size with ⟨n, hn⟩ | hn
  · exact goodType_of (box_lawful (ih.lawful n hn)) (C12_box (ih.order n hn)) fun hs =>
      box_strict (ih.strict n hn hs)
  · exact goodType_rejected hn

theorem goodType_option {α : Type} {c : Cfg} {A : OrdinalImpl α} {lt : α → α → Prop} {s : Prop}
    (ih : GoodType c A lt s) : GoodType c (optionImpl c A) (optionLt lt) s := by
  rcases ih.size with ⟨n, hn⟩ | hn
  · have L := ih.lawful n hn
    by_cases hf : n + 1 < c.M
    · exact goodType_of (option_lawful L hf) (C12_option L hf (ih.order n hn)) fun hs =>
        option_strict (ih.strict n hn hs)
    · exact goodType_rejected ((C15_size_partial L L).1 (by omega))
  · exact goodType_rejected (by simp [optionImpl, hn])

theorem goodType_result {α β : Type} {c : Cfg} {A : OrdinalImpl α} {B : OrdinalImpl β} {ltA : α → α → Prop}
    {ltB : β → β → Prop} {s s' : Prop} (iha : GoodType c A ltA s) (ihb : GoodType c B ltB s') :
    GoodType c (resultImpl c A B) (sumLt ltA ltB) s' := by
  rcases iha.size with ⟨n, hn⟩ | hn
  · rcases ihb.size with ⟨m, hm⟩ | hm
    · have LA := iha.lawful n hn
      have LB := ihb.lawful m hm
      by_cases hf : n + m < c.M
      · exact goodType_of (result_lawful LA LB hf)
          (C12_result_either LA LB hf (iha.order n hn) (ihb.order m hm)).1 fun hs =>
          result_strict LA (ihb.strict m hm hs)
      · exact goodType_rejected ((C15_size_partial LA LB).2.1 (by omega)).1
    · exact goodType_rejected (by simp [resultImpl, hn, hm])
  · exact goodType_rejected (by simp [resultImpl, hn])

theorem goodType_either {α β : Type} {c : Cfg} {A : OrdinalImpl α} {B : OrdinalImpl β} {ltA : α → α → Prop}
    {ltB : β → β → Prop} {s s' : Prop} (iha : GoodType c A ltA s) (ihb : GoodType c B ltB s') :
    GoodType c (eitherImpl c A B) (sumLt ltA ltB) s' := by
  rcases iha.size with ⟨n, hn⟩ | hn
  · rcases ihb.size with ⟨m, hm⟩ | hm
    · have LA := iha.lawful n hn
      have LB := ihb.lawful m hm
      by_cases hf : n + m < c.M
      · exact goodType_of (C05_either LA LB hf).1
          (C12_result_either LA LB hf (iha.order n hn) (ihb.order m hm)).2 fun hs =>
          (C05_either LA LB hf).2 (ihb.strict m hm hs)
      · exact goodType_rejected ((C15_size_partial LA LB).2.1 (by omega)).2
    · exact goodType_rejected (by simp [eitherImpl, resultImpl, hn, hm])
  · exact goodType_rejected (by simp [eitherImpl, resultImpl, hn])

theorem goodType_array (N : Nat) {α : Type} {c : Cfg} {A : OrdinalImpl α} {lt : α → α → Prop} {s : Prop}
    (ih : GoodType c A lt s) : GoodType c (arrayImpl c N A) (arrayLt lt) True := by
  rcases N with _ | N
  · exact array_zero_good _ _
  rcases ih.size with ⟨n, hn⟩ | hn
  · have L := ih.lawful n hn
    by_cases hf : n ^ (N + 1) < c.M
    · exact goodType_of (C06_array L hf).1 (C12_array L hf (ih.order n hn)) fun _ => (C06_array L hf).2
    · exact goodType_rejected ((C15_size_partial L L).2.2 (N + 1) (by omega))
  · exact goodType_rejected (by simp [arrayImpl, arraySizeLoop, hn])

theorem goodType_tuple {ι : Type} [DecidableEq ι] {c : Cfg} {Ty : Types ι} {lt : ∀ t, Ty.T t → Ty.T t → Prop} {s : ι → Prop}
    (ih : ∀ t, GoodType c (Ty.impl t) (lt t) (s t)) (tys : List ι)
    (used : ∀ t, t ∈ tys ∨ ∃ n, (Ty.impl t).size = .ok n) (h16 : tys.length ≤ 16) :
    GoodType c (tupleImpl c Ty tys) (fun x y => FieldsLt lt x.1 y.1) True := by
  rcases sizes_cases fun t => (ih t).size with ⟨sz, hsz⟩ | ⟨t, ht⟩
  · have L : ∀ t, Lawful c (Ty.impl t) (sz t) := fun t => (ih t).lawful _ (hsz t)
    rcases (C14_tuple c Ty sz L tys h16).sound with h | h
    · obtain ⟨-, h1, h2⟩ := C07_tuples c Ty sz L tys h16 _ h
      exact goodType_of h1 (C12_tuple c Ty sz L lt (fun t => (ih t).order _ (hsz t)) tys h16 _ h) fun _ => h2
    · exact goodType_rejected h
  · rcases used t with hu | ⟨n, hn⟩
    · exact goodType_rejected (tuple_rejected (fun t => (ih t).size) tys h16 t hu ht)
    · rw [ht] at hn; cases hn

theorem goodType_struct {ι : Type} [DecidableEq ι] {c : Cfg} {Ty : Types ι} {lt : ∀ t, Ty.T t → Ty.T t → Prop} {s : ι → Prop}
    (ih : ∀ t, GoodType c (Ty.impl t) (lt t) (s t)) (fs : Fields ι)
    (used : ∀ t, t ∈ fieldTypes fs ∨ ∃ n, (Ty.impl t).size = .ok n) (hw : fs.WF) :
    GoodType c (structImpl c Ty fs) (fun x y => FieldsLt lt x.1 y.1) True := by
  rcases sizes_cases fun t => (ih t).size with ⟨sz, hsz⟩ | ⟨t, ht⟩
  · have L : ∀ t, Lawful c (Ty.impl t) (sz t) := fun t => (ih t).lawful _ (hsz t)
    rcases struct_size_cases L fs hw with h | ⟨⟨n, h⟩, hr⟩
    · exact goodType_rejected h
    · obtain ⟨-, h1, h2⟩ := C08_structs c Ty sz L fs hw _ h
      exact goodType_of h1 (C13_struct c Ty sz L lt (fun t => (ih t).order _ (hsz t)) fs hw hr _ h) fun _ => h2
  · rcases used t with hu | ⟨n, hn⟩
    · exact goodType_rejected (struct_rejected (fun t => (ih t).size) fs t hu ht)
    · rw [ht] at hn; cases hn

theorem goodType_enum {ι : Type} [DecidableEq ι] {c : Cfg} {Ty : Types ι} {lt : ∀ t, Ty.T t → Ty.T t → Prop} {s : ι → Prop}
    (ih : ∀ t, GoodType c (Ty.impl t) (lt t) (s t)) (vs : List (Fields ι))
    (used : ∀ t, (∃ v ∈ vs, t ∈ fieldTypes v) ∨ ∃ n, (Ty.impl t).size = .ok n) (hw : ∀ v ∈ vs, v.WF) :
    GoodType c (enumImpl c Ty vs) (fun x y => EnumLt lt x.1 y.1) True := by
  rcases sizes_cases fun t => (ih t).size with ⟨sz, hsz⟩ | ⟨t, ht⟩
  · have L : ∀ t, Lawful c (Ty.impl t) (sz t) := fun t => (ih t).lawful _ (hsz t)
    rcases enum_size_cases L vs hw with h | ⟨⟨n, h⟩, hr⟩
    · exact goodType_rejected h
    · obtain ⟨-, h1, h2⟩ := C09_enums c Ty sz L vs hw _ h
      exact goodType_of h1 (C13_enum c Ty sz L lt (fun t => (ih t).order _ (hsz t)) vs hw hr _ h) fun _ => h2
  · rcases used t with ⟨v, hv, hu⟩ | ⟨n, hn⟩
    · exact goodType_rejected (enum_rejected (fun t => (ih t).size) vs hw v hv t hu ht)
    · rw [ht] at hn; cases hn

/-- C60: every type of any nesting depth. -/
theorem C60_nested {c : Cfg} {α : Type} {I : OrdinalImpl α} {lt : α → α → Prop} {s : Prop}
    (h : Built c α I lt s) : GoodType c I lt s := by
  obtain ⟨p1, p2, p3, p4, p5, p6, p7⟩ := C01_primitives c
  obtain ⟨z1, z2, z3, z4, z5, z6, z7, z8, z9, z10⟩ := C02_nonzero c
  obtain ⟨o1, o2, o3, o4, o5, o6, o7, o8, o9, o10, o11, o12, o13, o14, o15, o16, o17, o18, o19⟩ :=
    C11_leaf_order c
  induction h with
  | bool => exact goodType_of p1.1 o1 fun _ => p1.2
  | ordering => exact goodType_of (ordering_lawful c).1 o2 fun _ => (ordering_lawful c).2
  | infallible =>
    exact goodType_of (infallible_lawful c).1 (fun a => nomatch a) fun _ => (infallible_lawful c).2
  | char => exact goodType_of (C03_char c) o19 (C04_32bit_partial c)
  | u8 => exact goodType_of p2.1 o3 fun _ => p2.2
  | i8 => exact goodType_of p3.1 o4 fun _ => p3.2
  | u16 => exact goodType_of p4.1 o5 fun _ => p4.2
  | i16 => exact goodType_of p5.1 o6 fun _ => p5.2
  | u32 =>
    rcases c.bits_ok with hb | hb
    · exact goodType_rejected (C01_32bit_rejected c hb).1
    · exact goodType_of (p6 hb).1 (o7 hb) fun _ => (p6 hb).2
  | i32 =>
    rcases c.bits_ok with hb | hb
    · exact goodType_rejected (C01_32bit_rejected c hb).2.1
    · exact goodType_of (p7 hb).1 (o8 hb) fun _ => (p7 hb).2
  | nzU8 => exact goodType_of z1.1 o9 fun _ => z1.2
  | nzI8 => exact goodType_of z2.1 o10 fun _ => z2.2
  | nzU16 => exact goodType_of z3.1 o11 fun _ => z3.2
  | nzI16 => exact goodType_of z4.1 o12 fun _ => z4.2
  | nzU32 => exact goodType_of z5.1 o13 fun _ => z5.2
  | nzI32 => exact goodType_of z6.1 o14 fun _ => z6.2
  | nzU64 =>
    rcases c.bits_ok with hb | hb
    · exact goodType_rejected (C02_32bit_rejected c hb).1
    · exact goodType_of (z9 hb).1 (o17 hb) fun _ => (z9 hb).2
  | nzI64 =>
    rcases c.bits_ok with hb | hb
    · exact goodType_rejected (C02_32bit_rejected c hb).2.1
    · exact goodType_of (z10 hb).1 (o18 hb) fun _ => (z10 hb).2
  | nzUsize => exact goodType_of z7.1 o15 fun _ => z7.2
  | nzIsize => exact goodType_of z8.1 o16 fun _ => z8.2
  | box _ ih => exact goodType_box ih
  | option _ ih => exact goodType_option ih
  | result _ _ iha ihb => exact goodType_result iha ihb
  | either _ _ iha ihb => exact goodType_either iha ihb
  | array N _ ih => exact goodType_array N ih
  | tuple _ tys used h16 ih => exact goodType_tuple ih tys used h16
  | struct _ fs used hw ih => exact goodType_struct ih fs used hw
  | enum _ vs used hw ih => exact goodType_enum ih vs used hw

example := C60_nested (Built.option (.array 2 (.char (c := debug32))))

/-- A tuple with a component that does not compile is covered: `(NonZeroU64, bool)` on a 32-bit target. -/
example :
    let Ty : Types Bool := ⟨fun b => match b with | true => NZU 64 | false => Bool, fun b => match b with
      | true => nzU64Impl debug32
      | false => boolImpl⟩
    (∃ lt, Built debug32 _ (tupleImpl debug32 Ty [true, false]) lt True) ∧
    (tupleImpl debug32 Ty [true, false]).size = .error .compileError := by
  intro Ty
  refine ⟨⟨_, .tuple (lt := fun b => match b with | true => (·.1 < ·.1) | false => fun a b => a = false ∧ b = true)
    (s := fun _ => True) ?_ _ (by intro t; left; cases t <;> simp) (by decide)⟩, by rfl⟩
  intro t
  cases t with
  | true => exact .nzU64
  | false => exact .bool

theorem good_count {c : Cfg} {α : Type} {I : OrdinalImpl α} {lt : α → α → Prop} {s : Prop}
    (G : GoodType c I lt s) (n : Nat) (hn : I.size = .ok n) :
    ∃ l : List α, l.length = n ∧ l.Nodup ∧ (∀ a, a ∈ l) ∧ l.Pairwise lt := by
  have L := G.lawful n hn
  have O := G.order n hn
  obtain ⟨h1, h2, h3, h4⟩ := C16_values_spec L
  refine ⟨_, h3, h2, h1, h4.imp ?_⟩
  rintro a b ⟨i, j, hi, hj, hij⟩
  obtain ⟨i', j', hi', hj', hlt⟩ := O a b
  rw [hi] at hi'; rw [hj] at hj'; cases hi'; cases hj'
  exact hlt.2 hij

/-- C60, size: if `ORDINAL_SIZE` evaluates it is the number of values: there is a duplicate-free list
of all values of that length, and it is in `Ord` order. -/
theorem C60_count {c : Cfg} {α : Type} {I : OrdinalImpl α} {lt : α → α → Prop} {s : Prop}
    (h : Built c α I lt s) (n : Nat) (hn : I.size = .ok n) :
    ∃ l : List α, l.length = n ∧ l.Nodup ∧ (∀ a, a ∈ l) ∧ l.Pairwise lt :=
  good_count (C60_nested h) n hn

example := C60_count (Built.option (.array 2 (.bool (c := debug32)))) 5 rfl

/-! ## A concrete nested type -/

/-- Component types of the example. -/
inductive NestTy where
  /-- `Option<[bool; 2]>` -/
  | a
  /-- `Result<Box<Ordering>, char>` -/
  | b
  deriving DecidableEq

/-- The types and impls. -/
def nestTypes : Types NestTy where
  T := fun | .a => Option (Arr Bool 2) | .b => Boxed Ordering ⊕ RChar
  impl := fun
    | .a => optionImpl debug64 (arrayImpl debug64 2 boolImpl)
    | .b => resultImpl debug64 (boxImpl orderingImpl) (charImpl debug64)

/-- Their orders. -/
def nestLt : ∀ t, nestTypes.T t → nestTypes.T t → Prop
  | .a => optionLt (arrayLt fun a b => a = false ∧ b = true)
  | .b => sumLt (fun a b => orderingLt a.unbox b.unbox) (·.1 < ·.1)

theorem nest_built : ∀ t, Built debug64 (nestTypes.T t) (nestTypes.impl t) (nestLt t)
    (match t with | .a => True | .b => debug64.bits = 32)
  | .a => .option (.array 2 .bool)
  | .b => .result (.box .ordering) .char

/-- Their sizes. -/
def nestSz : NestTy → Nat
  | .a => 5
  | .b => 1112067

theorem nest_size : ∀ t, (nestTypes.impl t).size = .ok (nestSz t)
  | .a => rfl
  | .b => (C05_result (C05_box (ordering_lawful debug64).1).1 (C03_char debug64) (by decide)).1.size

/-- `Option<enum E { Unit, Pair(Option<[bool; 2]>, Result<Box<Ordering>, char>), Rec { x: … } }>` is
built, and has `1 + (1 + 5 * 1112067 + 5)` values. -/
example :
    let vs : List (Fields NestTy) := [.unit, .unnamed [.a, .b], .named [("x", .a)]]
    Built debug64 _ (optionImpl debug64 (enumImpl debug64 nestTypes vs))
      (optionLt fun x y => EnumLt nestLt x.1 y.1) True ∧
    (optionImpl debug64 (enumImpl debug64 nestTypes vs)).size = .ok 5560342 := by
  refine ⟨.option (.enum nest_built _ (fun t => .inr ⟨_, nest_size t⟩) (by simp [Fields.WF])), ?_⟩
  have L := fun t => (C60_nested (nest_built t)).lawful _ (nest_size t)
  have h := (C14_enum debug64 nestTypes nestSz L [.unit, .unnamed [.a, .b], .named [("x", .a)]]
    (by simp [Fields.WF]) (by simp [HasReserved, reservedNames, HasField])).fits (fun v _ t _ => by cases t <;> decide) (by decide)
  simp only [optionImpl, h]
  rfl

end OrdinalMap.Props
