import Verif.SpecDerive
import Verif.Lemmas.DeriveEnum
import Verif.Lemmas.Composite
import Verif.Lemmas.Leaf
import Verif.Props.Leaf
/-!
# C07–C10, C12 (tuples), C13, C14: `#[derive(Ordinal)]` and the tuple impls

A program the macro is applied to is a field list (`Fields ι`) or a list of field lists (enum
variants) over a family `Ty` of field types with `Ordinal` impls; `sz t` is the number of values of
field type `t`.  `structImpl`, `enumImpl` and `tupleImpl` are the generated impls: the model of the
macro is run, its output is checked for scoping/typing, and then evaluated.  The specification is in
SpecDerive.lean.
-/

namespace OrdinalMap.Props
open OrdinalMap OrdinalMap.Derive

/-! ## Bridges to the lemmas -/

/-! ## Field types for the examples -/

/-- Field types used in the examples. -/
inductive ExTy where
  | bool
  | ordering
  | never
  | u16
  deriving DecidableEq

/-- The Lean types. -/
def ExTy.T : ExTy → Type
  | .bool => Bool
  | .ordering => Ordering
  | .never => Empty
  | .u16 => U 16

/-- Their impls on a 64-bit debug build. -/
def ExTy.impl : (t : ExTy) → OrdinalImpl t.T
  | .bool => boolImpl
  | .ordering => orderingImpl
  | .never => infallibleImpl
  | .u16 => u16Impl debug64

/-- The family of field types. -/
def exTypes : Types ExTy := ⟨ExTy.T, ExTy.impl⟩

/-- Their sizes. -/
def exSz : ExTy → Nat
  | .bool => 2
  | .ordering => 3
  | .never => 0
  | .u16 => 2 ^ 16

theorem exTypes_lawful : ∀ t, Lawful debug64 (exTypes.impl t) (exSz t)
  | .bool => (bool_lawful debug64).1
  | .ordering => (ordering_lawful debug64).1
  | .never => (infallible_lawful debug64).1
  | .u16 => (u16_lawful debug64).1

/-- The orders of the example field types. -/
def exLt : (t : ExTy) → exTypes.T t → exTypes.T t → Prop
  | .bool => fun a b => a = false ∧ b = true
  | .ordering => orderingLt
  | .never => fun _ _ => False
  | .u16 => fun a b => a.1 < b.1

theorem exLt_compat : ∀ t, OrdCompat (exLt t) (exTypes.impl t)
  | .bool => (C11_leaf_order debug64).1
  | .ordering => (C11_leaf_order debug64).2.1
  | .never => fun a => nomatch a
  | .u16 => (C11_leaf_order debug64).2.2.2.2.1

section
variable {ι : Type} [DecidableEq ι] {c : Cfg} {Ty : Types ι} {sz : ι → Nat}

omit [DecidableEq ι] in
theorem structCount_eq (tys : List ι) : structCount sz tys = prodSz sz tys := by
  induction tys with
  | nil => rfl
  | cons t ts ih => simp [structCount, ih]

omit [DecidableEq ι] in
theorem enumCount_eq (vs : List (Fields ι)) : enumCount sz vs = vsum sz vs := by
  induction vs with
  | nil => rfl
  | cons v vs ih => simp [enumCount, ih, structCount_eq]

omit [DecidableEq ι] in
theorem noClash_iff (fs : Fields ι) : NoClash fs ↔ ¬ HasReserved fs := by
  match fs with
  | .unit => simp [NoClash, HasReserved, HasField, fieldVars]
  | .unnamed tys => simp [NoClash, HasReserved, HasField, fieldVars, remVar, Ident.bindable]
  | .named ns =>
    simp only [NoClash, HasReserved, HasField, fieldVars, remVar, Ident.bindable, reservedNames,
      preludeCtors]
    constructor
    · rintro h ⟨s, hs, f, hf, rfl⟩
      have := h _ (List.mem_map.2 ⟨f, hf, rfl⟩)
      simp at this hs
      rcases hs with hs | hs | hs | hs | hs <;> simp [hs] at this
    · intro h x hx
      obtain ⟨f, hf, rfl⟩ := List.mem_map.1 hx
      have hn : ¬ f.1 ∈ ["rem", "None", "Some", "Ok", "Err"] := fun hm => h ⟨_, hm, f, hf, rfl⟩
      simp at hn
      simp [hn]

omit [DecidableEq ι] in
theorem fieldsLt_iff (L : ∀ t, Lawful c (Ty.impl t) (sz t)) (lt : ∀ t, Ty.T t → Ty.T t → Prop)
    (O : ∀ t, OrdCompat (lt t) (Ty.impl t)) (vs ws : List Ty.Val)
    (ht : vs.map Sigma.fst = ws.map Sigma.fst) : FieldsLt lt vs ws ↔ enc sz vs < enc sz ws := by
  induction vs generalizing ws with
  | nil =>
    obtain rfl : ws = [] := by simpa using ht.symm
    exact ⟨(by intro h; cases h), (by intro h; simp at h)⟩
  | cons v vs ih =>
    match ws, ht with
    | w :: ws, ht =>
      simp only [List.map_cons, List.cons.injEq] at ht
      obtain ⟨h1, h2⟩ := ht
      obtain ⟨t, a⟩ := v
      obtain ⟨t', b⟩ := w
      simp only at h1
      subst h1
      simp only [enc]
      rw [h2, digit_lt (by rw [← h2]; exact enc_lt L vs) (enc_lt L ws), ← ih ws h2]
      have hlt := (ordCompat_iff (L t) (lt t)).1 (O t) a b
      have hinj := (L t).ord_inj_iff (a := a) (b := b)
      simp only [vord]
      rw [← hlt, hinj]
      constructor
      · intro h
        cases h with
        | head h => exact .inl h
        | tail _ h => exact .inr ⟨rfl, h⟩
      · rintro (h | ⟨rfl, h⟩)
        · exact .head h _ _
        · exact .tail _ h

end

/-! ## C07 -/

section
variable {ι : Type} [DecidableEq ι] (c : Cfg) (Ty : Types ι) (sz : ι → Nat)

/-- C07: every tuple of arity at most 16 over lawful components whose size evaluates is lawful and
strict.  (`C14_tuple` says when the size evaluates.) -/
theorem C07_tuples (L : ∀ t, Lawful c (Ty.impl t) (sz t)) (tys : List ι) (h16 : tys.length ≤ 16)
    (n : Nat) (hsz : (tupleImpl c Ty tys).size = .ok n) :
    n = structCount sz tys ∧ Lawful c (tupleImpl c Ty tys) n ∧ Strict c (tupleImpl c Ty tys) n := by
  obtain ⟨h1, h2, h3, -⟩ := tuple_spec L tys h16 n hsz
  exact ⟨by rw [structCount_eq]; exact h1, h2, h3⟩

example := C07_tuples debug64 exTypes exSz exTypes_lawful [.bool, .ordering, .u16] (by decide) 393216 (by rfl)

/-- C07, with the hypothesis on the product of sizes.  All components inhabited. -/
theorem C07_tuples_fit (L : ∀ t, Lawful c (Ty.impl t) (sz t)) (tys : List ι) (h16 : tys.length ≤ 16)
    (hpos : ∀ t ∈ tys, 0 < sz t) (hfit : structCount sz tys < c.M) :
    Lawful c (tupleImpl c Ty tys) (structCount sz tys) ∧
    Strict c (tupleImpl c Ty tys) (structCount sz tys) := by
  rw [structCount_eq] at hfit ⊢
  obtain ⟨-, h2, h3, -⟩ := tuple_spec L tys h16 _ ((tuple_size L tys h16).2.1 hpos hfit)
  exact ⟨h2, h3⟩

example := C07_tuples_fit debug64 exTypes exSz exTypes_lawful [.u16, .u16, .u16] (by decide) (by decide) (by decide)

/-! ## C08 -/

/-- C08. -/
theorem C08_structs (L : ∀ t, Lawful c (Ty.impl t) (sz t)) (fs : Fields ι) (hw : fs.WF)
    (n : Nat) (hsz : (structImpl c Ty fs).size = .ok n) :
    n = structCount sz (fieldTypes fs) ∧ Lawful c (structImpl c Ty fs) n ∧
      Strict c (structImpl c Ty fs) n := by
  have hr : NoClash fs := by
    apply Classical.byContradiction
    intro hr
    obtain ⟨x, e, -, -, -, hg⟩ := genStruct_ok fs
    have hc := mt (struct_check fs hw _ hg).1 hr
    simp [structImpl, hg, hc, rejected] at hsz
  obtain ⟨h1, h2, h3, -⟩ := struct_spec L fs hw hr n hsz
  exact ⟨by rw [structCount_eq]; exact h1, h2, h3⟩

example := C08_structs debug64 exTypes exSz exTypes_lawful (.named [("x", .bool), ("ordinal", .ordering)])
  (by simp [Fields.WF]) 6 (by rfl)

/-! ## C09 -/

/-- C09. -/
theorem C09_enums (L : ∀ t, Lawful c (Ty.impl t) (sz t)) (vs : List (Fields ι))
    (hw : ∀ v ∈ vs, v.WF) (n : Nat) (hsz : (enumImpl c Ty vs).size = .ok n) :
    n = enumCount sz vs ∧ Lawful c (enumImpl c Ty vs) n ∧ Strict c (enumImpl c Ty vs) n := by
  have hr : ∀ v ∈ vs, NoClash v := by
    apply Classical.byContradiction
    intro hr
    rcases Decidable.em (vs.countP noFields < 2 ^ 64) with h64 | h64
    · obtain ⟨g, arms, hg, -, -, -, -, -, -, hc⟩ := genEnum_ok vs h64 hw
      have hc' := mt hc.1 hr
      simp [enumImpl, hg, hc', rejected] at hsz
    · rw [enum_overflow64 vs h64] at hsz; cases hsz
  obtain ⟨h1, h2, h3, -⟩ := enum_spec L vs hw hr n hsz
  exact ⟨by rw [enumCount_eq]; exact h1, h2, h3⟩

example := C09_enums debug64 exTypes exSz exTypes_lawful
  [.unit, .named [("x", .bool), ("ordinal", .ordering)], .unnamed [.never, .bool], .unnamed [.bool]] (by simp [Fields.WF]) 9 (by rfl)

/-! ## C10 -/

/-- C10 is false: a struct with a field called `rem`, `None`, `Some`, `Ok` or `Err` is rejected,
whatever the field's type. -/
theorem C10_false (s : String) (hs : s ∈ reservedNames) (t : ι) :
    ∃ g, genStruct (.named [(s, t)]) = .ok g ∧ g.check (.named [(s, t)]) = false := by
  obtain ⟨x, e, -, -, -, hg⟩ := genStruct_ok (.named [(s, t)])
  refine ⟨_, hg, ?_⟩
  have := mt (struct_check (.named [(s, t)]) (by simp [Fields.WF]) _ hg).1 (by
    rw [noClash_iff]
    exact fun h => h ⟨s, hs, by simp [HasField]⟩)
  simpa using this

example := C10_false "rem" (by decide) ()

/-- C10, exact: the code generated for a struct compiles iff no field has a reserved name. -/
theorem C10_exact_struct_partial (fs : Fields ι) (hw : fs.WF) :
    ∃ g, genStruct fs = .ok g ∧ (g.check fs = true ↔ ¬ HasReserved fs) := by
  obtain ⟨x, e, -, -, -, hg⟩ := genStruct_ok fs
  exact ⟨_, hg, by rw [struct_check fs hw _ hg, noClash_iff]⟩

example := C10_exact_struct_partial (ι := ExTy) (.named [("x", .bool), ("ordinal", .ordering)]) (by simp [Fields.WF])

/-- C10, exact, enums: compiles iff no variant has a field with a reserved name.  (The bound is the
macro's own `u64` counter of field-less variants.) -/
theorem C10_exact_enum_partial (vs : List (Fields ι)) (hw : ∀ v ∈ vs, v.WF) (h64 : vs.length < 2 ^ 64) :
    ∃ g, genEnum vs = .ok g ∧ (g.check vs = true ↔ ∀ v ∈ vs, ¬ HasReserved v) := by
  have h : vs.countP noFields < 2 ^ 64 := Nat.lt_of_le_of_lt List.countP_le_length h64
  obtain ⟨g, arms, hg, -, -, -, -, -, -, hc⟩ := genEnum_ok vs h hw
  exact ⟨g, hg, by rw [hc]; exact forall_congr' fun v => imp_congr_right fun _ => noClash_iff v⟩

example := C10_exact_enum_partial (ι := ExTy)
  [.unit, .named [("x", .bool), ("ordinal", .ordering)], .unnamed [.never, .bool], .unnamed [.bool]] (by simp [Fields.WF]) (by decide)

/-! ## C12, tuples -/

/-- C12 for tuples: lexicographic order. -/
theorem C12_tuple (L : ∀ t, Lawful c (Ty.impl t) (sz t)) (lt : ∀ t, Ty.T t → Ty.T t → Prop)
    (O : ∀ t, OrdCompat (lt t) (Ty.impl t)) (tys : List ι) (h16 : tys.length ≤ 16)
    (n : Nat) (hsz : (tupleImpl c Ty tys).size = .ok n) :
    OrdCompat (fun x y : FieldVals Ty tys => FieldsLt lt x.1 y.1) (tupleImpl c Ty tys) := by
  obtain ⟨-, -, -, h⟩ := tuple_spec L tys h16 n hsz
  intro x y
  exact ⟨_, _, h x, h y, fieldsLt_iff L lt O _ _ (by rw [x.2, y.2])⟩

example := C12_tuple debug64 exTypes exSz exTypes_lawful exLt exLt_compat [.bool, .ordering, .u16] (by decide)
  393216 (by rfl)

/-! ## C13 -/

/-- C13 for structs. -/
theorem C13_struct (L : ∀ t, Lawful c (Ty.impl t) (sz t)) (lt : ∀ t, Ty.T t → Ty.T t → Prop)
    (O : ∀ t, OrdCompat (lt t) (Ty.impl t)) (fs : Fields ι) (hw : fs.WF)
    (hr : ¬ HasReserved fs) (n : Nat) (hsz : (structImpl c Ty fs).size = .ok n) :
    OrdCompat (fun x y : FieldVals Ty (fieldTypes fs) => FieldsLt lt x.1 y.1) (structImpl c Ty fs) := by
  obtain ⟨-, -, -, h⟩ := struct_spec L fs hw ((noClash_iff fs).2 hr) n hsz
  intro x y
  exact ⟨_, _, h x, h y, fieldsLt_iff L lt O _ _ (by rw [x.2, y.2])⟩

example := C13_struct debug64 exTypes exSz exTypes_lawful exLt exLt_compat
  (.named [("x", .bool), ("ordinal", .ordering)])
  (by simp [Fields.WF]) (by simp [HasReserved, reservedNames, HasField]) 6 (by rfl)

/-- C13 for enums. -/
theorem C13_enum (L : ∀ t, Lawful c (Ty.impl t) (sz t)) (lt : ∀ t, Ty.T t → Ty.T t → Prop)
    (O : ∀ t, OrdCompat (lt t) (Ty.impl t)) (vs : List (Fields ι)) (hw : ∀ v ∈ vs, v.WF)
    (hr : ∀ v ∈ vs, ¬ HasReserved v) (n : Nat) (hsz : (enumImpl c Ty vs).size = .ok n) :
    OrdCompat (fun x y : EnumVal Ty vs => EnumLt lt x.1 y.1) (enumImpl c Ty vs) := by
  obtain ⟨-, -, -, h⟩ := enum_spec L vs hw (fun v hv => (noClash_iff v).2 (hr v hv)) n hsz
  intro x y
  refine ⟨_, _, h x, h y, ?_⟩
  obtain ⟨⟨i, l⟩, v, hv, hl⟩ := x
  obtain ⟨⟨j, k⟩, w, hw', hk⟩ := y
  simp only at hv hl hw' hk
  have hx := vsum_take_succ sz vs i v hv
  have hy := vsum_take_succ sz vs j w hw'
  have hel := enc_lt L l
  have hek := enc_lt L k
  rw [hl] at hel
  rw [hk] at hek
  simp only [EnumLt]
  rcases Nat.lt_trichotomy i j with hij | hij | hij
  · have := vsum_take_mono sz vs (i + 1) j hij
    exact ⟨fun _ => by omega, fun _ => .inl hij⟩
  · subst hij
    rw [hv] at hw'
    cases hw'
    rw [fieldsLt_iff L lt O l k (by rw [hl, hk])]
    omega
  · have := vsum_take_mono sz vs (j + 1) i hij
    omega

example := C13_enum debug64 exTypes exSz exTypes_lawful exLt exLt_compat
  [.unit, .named [("x", .bool), ("ordinal", .ordering)], .unnamed [.never, .bool], .unnamed [.bool]] (by simp [Fields.WF])
  (by simp [HasReserved, reservedNames, HasField]) 9 (by rfl)

/-! ## C14 -/

/-- What C14 says of an impl for a type with `count` values. -/
structure SizeGuard {α : Type} (I : OrdinalImpl α) (count : Nat) (inhabited : Prop) : Prop where
  /-- Too many values: every way of using the impl is rejected by the compiler. -/
  over : c.M ≤ count → I.size = .error .compileError ∧ (∀ a, I.ordinal a = .error .compileError) ∧
    ∀ i, I.fromOrdinal i = .error .compileError
  /-- It fits: accepted, with the right size. -/
  fits : inhabited → count < c.M → I.size = .ok count
  /-- In every case the size is right or the program is rejected. -/
  sound : I.size = .ok count ∨ I.size = .error .compileError

theorem sizeGuard_of {α : Type} {I : OrdinalImpl α} {count : Nat} {inh : Prop}
    (ha : Approx I.size count) (hf : inh → count < c.M → I.size = .ok count)
    (he : ∀ e, I.size = .error e → (∀ a, I.ordinal a = .error e) ∧ (∀ i, I.fromOrdinal i = .error e))
    (hlt : ∀ n, I.size = .ok n → n < c.M) : SizeGuard c I count inh := by
  refine ⟨fun hov => ?_, hf, ha⟩
  rcases ha with h | h
  · have := hlt _ h; omega
  · exact ⟨h, he _ h⟩

/-- C14 for tuples. -/
theorem C14_tuple (L : ∀ t, Lawful c (Ty.impl t) (sz t)) (tys : List ι) (h16 : tys.length ≤ 16) :
    SizeGuard c (tupleImpl c Ty tys) (structCount sz tys) (∀ t ∈ tys, 0 < sz t) := by
  rw [structCount_eq]
  obtain ⟨h1, h2, h3⟩ := tuple_size L tys h16
  exact sizeGuard_of c h1 h2 h3 fun n h => (tuple_spec L tys h16 n h).2.1.fits

example := C14_tuple debug64 exTypes exSz exTypes_lawful [.u16, .u16, .u16, .u16] (by decide)

/-- C14 for derived structs. -/
theorem C14_struct (L : ∀ t, Lawful c (Ty.impl t) (sz t)) (fs : Fields ι) (hw : fs.WF)
    (hr : ¬ HasReserved fs) :
    SizeGuard c (structImpl c Ty fs) (structCount sz (fieldTypes fs))
      (∀ t ∈ fieldTypes fs, 0 < sz t) := by
  rw [structCount_eq]
  have hr' := (noClash_iff fs).2 hr
  obtain ⟨h1, h2, h3⟩ := struct_size L fs hw hr'
  exact sizeGuard_of c h1 h2 h3 fun n h => (struct_spec L fs hw hr' n h).2.1.fits

example := C14_struct debug64 exTypes exSz exTypes_lawful (.named [("x", .bool), ("ordinal", .ordering)])
  (by simp [Fields.WF]) (by simp [HasReserved, reservedNames, HasField])

/-- C14 for derived enums. -/
theorem C14_enum (L : ∀ t, Lawful c (Ty.impl t) (sz t)) (vs : List (Fields ι))
    (hw : ∀ v ∈ vs, v.WF) (hr : ∀ v ∈ vs, ¬ HasReserved v) :
    SizeGuard c (enumImpl c Ty vs) (enumCount sz vs) (∀ v ∈ vs, ∀ t ∈ fieldTypes v, 0 < sz t) := by
  rw [enumCount_eq]
  have hr' := fun v hv => (noClash_iff v).2 (hr v hv)
  obtain ⟨h1, h2, h3⟩ := enum_size L vs hw hr'
  exact sizeGuard_of c h1 h2 h3 fun n h => (enum_spec L vs hw hr' n h).2.1.fits

example := C14_enum debug64 exTypes exSz exTypes_lawful
  [.unit, .named [("x", .bool), ("ordinal", .ordering)], .unnamed [.never, .bool], .unnamed [.bool]] (by simp [Fields.WF]) (by simp [HasReserved, reservedNames, HasField])

end

/-! ## Concrete cases -/

/-- `enum E { A, B { x: bool, ordinal: Ordering }, C(!, bool), D(bool) }` has 9 values;
`E::B { x: true, ordinal: Less }` has ordinal 4 and `from_ordinal(7)` is `Some(E::D(false))`. -/
example :
    let vs : List (Fields ExTy) := [.unit, .named [("x", .bool), ("ordinal", .ordering)],
      .unnamed [.never, .bool], .unnamed [.bool]]
    (enumImpl debug64 exTypes vs).size = .ok 9 ∧ (∀ v ∈ vs, v.WF) ∧
    (∀ v ∈ vs, ¬ HasReserved v) ∧
    (enumImpl debug64 exTypes vs).ordinal
      ⟨(1, [⟨.bool, true⟩, ⟨.ordering, .lt⟩]), _, rfl, rfl⟩ = .ok 4 ∧
    (enumImpl debug64 exTypes vs).fromOrdinal 7 =
      .ok (some ⟨(3, [⟨.bool, false⟩]), _, rfl, rfl⟩) ∧
    (enumImpl debug64 exTypes vs).fromOrdinal 9 = .ok none := by
  refine ⟨by rfl, by simp [Fields.WF], by simp [HasReserved, reservedNames, HasField], by rfl, by rfl, by rfl⟩

/-- `(u16, u16, u16, u16)` has one value too many; three are fine.  With an uninhabited last
component the count is 0, but the intermediate product already overflows and is rejected. -/
example : (tupleImpl debug64 exTypes [.u16, .u16, .u16, .u16]).size = .error .compileError ∧
    (tupleImpl debug64 exTypes [.u16, .u16, .u16]).size = .ok (2 ^ 48) ∧
    (tupleImpl debug64 exTypes [.u16, .u16, .u16, .u16, .never]).size = .error .compileError ∧
    (tupleImpl debug64 exTypes [.never, .u16, .u16, .u16, .u16]).size = .ok 0 := by
  refine ⟨by rfl, by rfl, by rfl, by rfl⟩

/-- A struct with a field called `ordinal` is accepted, one with `rem` or `None` is not. -/
example : (structImpl debug64 exTypes (.named [("ordinal", .bool), ("b", .ordering)])).size = .ok 6 ∧
    (structImpl debug64 exTypes (.named [("rem", .bool), ("b", .ordering)])).size =
      .error .compileError ∧
    (structImpl debug64 exTypes (.named [("a", .bool), ("None", .ordering)])).size =
      .error .compileError ∧
    (enumImpl debug64 exTypes [.unit, .named [("Some", .bool)]]).size = .error .compileError := by
  refine ⟨by rfl, by rfl, by rfl, by rfl⟩

end OrdinalMap.Props
