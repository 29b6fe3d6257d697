import Verif.Lemmas.Names
import Verif.Props.Derive
/-!
# C82: `#[derive(Ordinal)]` in the scope it is written in; C83: which items it accepts

In which scopes the generated code compiles, and what it then means.  A scope says what the names the
generated code mentions stand for (`Model/Names.lean`).
-/

namespace OrdinalMap.Props
open OrdinalMap OrdinalMap.Derive OrdinalMap.Derive.Names

/-! ## Specification -/

/-- A pattern with this name introduces a variable: nothing has the name, or only a function. -/
def BindsIn {ι : Type} (sc : Scope ι) (s : String) : Prop :=
  sc.value s = none ∨ sc.value s = some .fn

/-- The name is a unit struct or constant that is the only value of type `t`. -/
def CoversIn {ι : Type} (sc : Scope ι) (s : String) (t : ι) : Prop :=
  ∃ cov, (sc.value s = some (.const cov) ∨ sc.value s = some (.none cov)) ∧ cov t = true

/-- The names every expansion relies on have their usual meaning; `variants` are the type's own
variants. -/
structure FitScope {ι : Type} (sc : Scope ι) (variants : List String) : Prop where
  crate : sc.crateOk = true
  std : sc.stdOk = true
  usize : sc.usizeOk = true
  /-- `None` is `Option::None` -/
  optNone : ∃ cov, sc.value "None" = some (.none cov)
  ordinal : BindsIn sc "ordinal"
  check : BindsIn sc "_check_overflow"
  /-- no variant is called `ORDINAL_SIZE` -/
  variant : "ORDINAL_SIZE" ∉ variants
  /-- an inherent `ORDINAL_SIZE` is a `usize` -/
  inherent : sc.inherent ≠ some .other
  /-- without one, no other trait offers `ORDINAL_SIZE` -/
  trait : sc.inherent = none → sc.traitClash = false

/-- Nothing else is called `ORDINAL_SIZE`. -/
def PlainSize {ι : Type} (sc : Scope ι) : Prop := sc.inherent = none

/-- The variables of the fields, with the field types: the field's name, or `f0`, `f1`, …. -/
def declared {ι : Type} : Fields ι → List (String × ι)
  | .unit => []
  | .unnamed tys => tys.zipIdx.map fun p => ("f" ++ toString p.2, p.1)
  | .named l => l

/-! ## Bridges -/

section
variable {ι : Type}

theorem pat_fresh_iff (sc : Scope ι) (x : Ident) : sc.pat x = .fresh ↔ BindsIn sc (text x) := by
  simp only [Scope.pat, BindsIn]
  cases sc.value (text x) with
  | none => simp
  | some i => cases i <;> simp

theorem pat_path_iff (sc : Scope ι) (x : Ident) (t : ι) :
    (∃ cov, sc.pat x = .path cov ∧ cov t = true) ↔ CoversIn sc (text x) t := by
  simp only [Scope.pat, CoversIn]
  cases sc.value (text x) with
  | none => simp
  | some i => cases i <;> simp

theorem sizePath_ok_iff (sc : Scope ι) (variants : List String) :
    (sc.sizePath variants).ok = true ↔ "ORDINAL_SIZE" ∉ variants ∧ sc.inherent ≠ some .other ∧
      (sc.inherent = none → sc.traitClash = false) := by
  simp only [Scope.sizePath]
  by_cases h : "ORDINAL_SIZE" ∈ variants
  · simp [h, SizePath.ok]
  · simp only [List.contains_eq_mem, h, decide_false, Bool.false_eq_true, if_false]
    rcases hi : sc.inherent with _ | (k | _)
    · cases sc.traitClash <;> simp [SizePath.ok]
    · simp [SizePath.ok]
    · simp [SizePath.ok]

theorem fit_iff (sc : Scope ι) (variants : List String) :
    sc.frame variants = true ↔ FitScope sc variants := by
  rw [frame_iff, sizePath_ok_iff, pat_fresh_iff, pat_fresh_iff]
  constructor
  · rintro ⟨h1, h2, h3, ⟨h4, h5, h6⟩, h7, h8, h9⟩
    exact ⟨h1, h2, h3, h9, h7, h8, h4, h5, h6⟩
  · rintro ⟨h1, h2, h3, h9, h7, h8, h4, h5, h6⟩
    exact ⟨h1, h2, h3, ⟨h4, h5, h6⟩, h7, h8, h9⟩

theorem declared_eq (fs : Fields ι) :
    declared fs = ((fieldVars fs).zip (fieldTypes fs)).map fun f => (text f.1, f.2) := by
  match fs with
  | .unit => rfl
  | .unnamed tys =>
    simp only [declared, fieldVars, fieldTypes]
    apply List.ext_getElem
    · simp
    · intro i h1 h2
      simp [text]
  | .named l =>
    simp only [declared, fieldVars, fieldTypes]
    apply List.ext_getElem
    · simp
    · intro i h1 h2
      simp [text]

/-- `rem` can only be a field's own name. -/
theorem pos_ne_rem (i : Nat) : text (.pos i) ≠ "rem" := by
  intro h
  have := congrArg String.toList h
  simp only [text, String.toList_append] at this
  have h2 := congrArg List.head? this
  simp at h2

theorem text_rem (x : Ident) : text x = "rem" ↔ x = remVar := by
  cases x with
  | user s => simp [text, remVar]
  | pos i => simp [pos_ne_rem, remVar]

theorem fieldsOk_iff (sc : Scope ι) (fs : Fields ι) :
    (∀ f ∈ (fieldVars fs).zip (fieldTypes fs), FieldOk sc f) ↔
      ∀ p ∈ declared fs, p.1 ≠ "rem" ∧ (BindsIn sc p.1 ∨ CoversIn sc p.1 p.2) := by
  rw [declared_eq]
  simp only [List.mem_map, forall_exists_index, and_imp, forall_apply_eq_imp_iff₂]
  refine forall_congr' fun f => imp_congr_right fun _ => ?_
  simp only [FieldOk, pat_fresh_iff, pat_path_iff, ne_eq, text_rem]

theorem varsOk_iff (sc : Scope ι) (fs : Fields ι) :
    (∀ x ∈ fieldVars fs, x ≠ remVar ∧ sc.pat x = .fresh) ↔
      ∀ p ∈ declared fs, p.1 ≠ "rem" ∧ BindsIn sc p.1 := by
  have hl := fieldVars_length fs
  have : fieldVars fs = ((fieldVars fs).zip (fieldTypes fs)).map (·.1) := by
    rw [List.map_fst_zip (by omega)]
  rw [declared_eq, this]
  simp only [List.mem_map, forall_exists_index, and_imp, forall_apply_eq_imp_iff₂]
  rw [← this]
  refine forall_congr' fun f => imp_congr_right fun _ => ?_
  simp only [pat_fresh_iff, ne_eq, text_rem]

end

/-! ## Examples of scopes -/

/-- A module with a function called `x`. -/
def fnScope : Scope ExTy :=
  { prelude (ι := ExTy) with
    value := fun s => if s = "x" then some .fn else (prelude (ι := ExTy)).value s }

/-- `use Level::*;` next to `enum Level { None, Low, High }`: the bare `None` is a variant. -/
def globScope : Scope ExTy :=
  { prelude (ι := ExTy) with value := fun s => if s ∈ ["None", "Low", "High"] then some (.const fun _ => false)
      else (prelude (ι := ExTy)).value s }

/-- A module with a function and a constant of lower-case names, and an inherent `const ORDINAL_SIZE:
usize = 0` on the type. -/
def oddScope : Scope ExTy :=
  { prelude (ι := ExTy) with
    value := fun s => if s = "x" then some .fn else if s = "limit" then some (.const fun _ => false)
      else (prelude (ι := ExTy)).value s
    inherent := some (.usize (.ok 0)) }

section
variable {ι : Type} [DecidableEq ι] (c : Cfg) (Ty : Types ι) (sz : ι → Nat)

/-! ## When it compiles -/

/-- C82, structs: the code generated for a struct compiles in exactly those scopes where the fixed
names mean what they should, `rem` binds, and every field name binds or is the only value of the
field's type. -/
theorem C82_struct (sc : Scope ι) (fs : Fields ι) (hw : fs.WF) :
    ∃ g, genStruct fs = .ok g ∧ (structIn sc g fs = true ↔
      FitScope sc [] ∧ BindsIn sc "rem" ∧
      ∀ p ∈ declared fs, p.1 ≠ "rem" ∧ (BindsIn sc p.1 ∨ CoversIn sc p.1 p.2)) := by
  obtain ⟨x, e, -, -, -, hg⟩ := genStruct_ok fs
  refine ⟨_, hg, ?_⟩
  rw [struct_in sc fs hw _ hg, fit_iff, pat_fresh_iff, fieldsOk_iff]
  rfl

example := C82_struct oddScope (.named [("x", .bool), ("y", .ordering)]) (by simp [Fields.WF])

/-- C82, enums: as for structs, except that every field name must bind, `_ignore` too, and no variant
may be called `ORDINAL_SIZE`. -/
theorem C82_enum (sc : Scope ι) (variants : List String) (vs : List (Fields ι))
    (hw : ∀ v ∈ vs, v.WF) (h64 : vs.length < 2 ^ 64) :
    ∃ g, genEnum vs = .ok g ∧ (enumIn sc variants g vs = true ↔
      FitScope sc variants ∧ BindsIn sc "_ignore" ∧ (vs ≠ [] → BindsIn sc "rem") ∧
      ∀ v ∈ vs, ∀ p ∈ declared v, p.1 ≠ "rem" ∧ BindsIn sc p.1) := by
  have h : vs.countP noFields < 2 ^ 64 := Nat.lt_of_le_of_lt List.countP_le_length h64
  obtain ⟨g, arms, hg, -⟩ := genEnum_ok vs h hw
  refine ⟨g, hg, ?_⟩
  rw [enum_in sc variants vs hw h g hg, fit_iff, pat_fresh_iff, pat_fresh_iff]
  refine and_congr_right fun _ => and_congr_right fun _ => and_congr_right fun _ => ?_
  exact forall_congr' fun v => imp_congr_right fun _ => varsOk_iff sc v

example := C82_enum oddScope ["A", "B"] [.unit, .named [("x", .bool)]] (by simp [Fields.WF]) (by decide)

/-- `x` is a function in `oddScope`, so a field may be called `x`; `limit` is a constant, so none may
be called `limit`. -/
example : (structImplIn debug64 exTypes oddScope (.named [("x", .bool)])).size = .ok 2 ∧
    (structImplIn debug64 exTypes oddScope (.named [("limit", .bool)])).size = .error .compileError :=
  ⟨by rfl, by rfl⟩

/-- C82, finding: where `None` is anything but `Option::None` - `use Level::*` with a variant called
`None` is enough - no struct and no enum can derive `Ordinal`. -/
theorem C82_none (sc : Scope ι) (h : ∀ cov, sc.value "None" ≠ some (.none cov)) :
    (∀ fs : Fields ι, fs.WF → structImplIn c Ty sc fs = rejected _) ∧
    ∀ (variants : List String) (vs : List (Fields ι)), (∀ v ∈ vs, v.WF) → vs.length < 2 ^ 64 →
      enumImplIn c Ty sc variants vs = rejected _ := by
  constructor
  · intro fs hw
    obtain ⟨g, hg, hc⟩ := C82_struct sc fs hw
    have hn : ¬ structIn sc g fs = true := fun hs => by
      obtain ⟨hf, -⟩ := hc.1 hs
      obtain ⟨cov, hcov⟩ := hf.optNone
      exact h cov hcov
    simp only [structImplIn, hg]
    rw [if_neg hn]
  · intro variants vs hw h64
    obtain ⟨g, hg, hc⟩ := C82_enum sc variants vs hw h64
    have hn : ¬ enumIn sc variants g vs = true := fun hs => by
      obtain ⟨hf, -⟩ := hc.1 hs
      obtain ⟨cov, hcov⟩ := hf.optNone
      exact h cov hcov
    simp only [enumImplIn, hg]
    rw [if_neg hn]

example := (C82_none debug64 exTypes globScope (by simp [globScope])).2 ["None", "Low", "High"]
  [.unit, .unit, .unit] (by simp [Fields.WF]) (by decide)

/-- C82, finding: an enum with a variant called `ORDINAL_SIZE` cannot derive `Ordinal`. -/
theorem C82_variant (sc : Scope ι) (variants : List String) (hv : "ORDINAL_SIZE" ∈ variants)
    (vs : List (Fields ι)) (hw : ∀ v ∈ vs, v.WF) (h64 : vs.length < 2 ^ 64) :
    enumImplIn c Ty sc variants vs = rejected _ := by
  obtain ⟨g, hg, hc⟩ := C82_enum sc variants vs hw h64
  have hn : ¬ enumIn sc variants g vs = true := fun hs => (hc.1 hs).1.variant hv
  simp only [enumImplIn, hg]
  rw [if_neg hn]

example := C82_variant debug64 exTypes prelude ["ORDINAL_SIZE", "B"] (by decide)
  [.unit, .unnamed [.bool]] (by simp [Fields.WF]) (by decide)

/-! ## What it means -/

/-- C82: a struct accepted in a scope without an inherent `ORDINAL_SIZE` is lawful and strict, whatever
else the scope contains. -/
theorem C82_struct_lawful (L : ∀ t, Lawful c (Ty.impl t) (sz t)) (sc : Scope ι) (hp : PlainSize sc)
    (fs : Fields ι) (hw : fs.WF) (n : Nat) (hsz : (structImplIn c Ty sc fs).size = .ok n) :
    n = structCount sz (fieldTypes fs) ∧ Lawful c (structImplIn c Ty sc fs) n ∧
      Strict c (structImplIn c Ty sc fs) n := by
  obtain ⟨x, e, h1, h2, -, hg⟩ := genStruct_ok fs
  have hc := struct_in sc fs hw _ hg
  by_cases hs : structIn sc ⟨prodExpr (fieldTypes fs), x,
      fromBlock (.var ordinalVar) (fieldVars fs) (fieldTypes fs) (structBuild fs)⟩ fs = true
  · obtain ⟨hf, -, hok⟩ := hc.1 hs
    have hpath : sc.sizePath [] = .trait := by
      have := ((sizePath_ok_iff sc []).1 ((frame_iff sc []).1 hf).2.2.2.1).2.2 hp
      simp only [PlainSize] at hp
      simp [Scope.sizePath, hp, this]
    have hi : structImplIn c Ty sc fs = GenStruct.toImpl c Ty ⟨prodExpr (fieldTypes fs), x,
        fromBlock (.var ordinalVar) (fieldVars fs) (fieldTypes fs) (structBuild fs)⟩ fs := by
      simp only [structImplIn, hg, hs, if_true, hpath]
      rfl
    have hrem : remVar ∉ fieldVars fs := by
      intro hm
      obtain ⟨i, hi', he⟩ := List.mem_iff_getElem.1 hm
      have hl := fieldVars_length fs
      have := hok (remVar, (fieldTypes fs)[i]'(by omega))
        (List.mem_iff_getElem.2 ⟨i, by simp; omega, by simp [he]⟩)
      exact this.1 rfl
    obtain ⟨e', x', h1', h2', -, ho⟩ := ordinal_expr_spec L fs hw
    rw [h1] at h1'; cases h1'
    rw [h2] at h2'; cases h2'
    rw [hi] at hsz ⊢
    obtain ⟨r1, r2, r3, -⟩ := toImpl_spec L _ fs (fieldVars fs) (structBuild fs) n rfl ho rfl
      (fieldVars_length fs) hrem (fieldVars_nodup fs hw)
      (fun env' l ht h => structBuild_eval env' fs hw l ht h) hsz
    exact ⟨by rw [structCount_eq]; exact r1, r2, r3⟩
  · simp only [structImplIn, hg] at hsz
    rw [if_neg hs] at hsz
    cases hsz

example := C82_struct_lawful debug64 exTypes exSz exTypes_lawful
  fnScope rfl
  (.named [("x", .bool), ("ordinal", .ordering)]) (by simp [Fields.WF]) 6 (by rfl)

/-- C82: an enum accepted in a scope without an inherent `ORDINAL_SIZE` is lawful and strict, whatever
else the scope contains. -/
theorem C82_enum_lawful (L : ∀ t, Lawful c (Ty.impl t) (sz t)) (sc : Scope ι) (hp : PlainSize sc)
    (variants : List String) (vs : List (Fields ι)) (hw : ∀ v ∈ vs, v.WF) (h64 : vs.length < 2 ^ 64)
    (n : Nat) (hsz : (enumImplIn c Ty sc variants vs).size = .ok n) :
    n = enumCount sz vs ∧ Lawful c (enumImplIn c Ty sc variants vs) n ∧
      Strict c (enumImplIn c Ty sc variants vs) n := by
  have h : vs.countP noFields < 2 ^ 64 := Nat.lt_of_le_of_lt List.countP_le_length h64
  obtain ⟨g, arms, hg, -⟩ := genEnum_ok vs h hw
  by_cases hs : enumIn sc variants g vs = true
  · obtain ⟨hf, -, -, hok⟩ := (enum_in sc variants vs hw h g hg).1 hs
    have hpath : sc.sizePath variants = .trait := by
      obtain ⟨h3, -, h4⟩ := (sizePath_ok_iff sc variants).1 ((frame_iff sc variants).1 hf).2.2.2.1
      have := h4 hp
      simp only [PlainSize] at hp
      simp [Scope.sizePath, hp, this, h3]
    have hi : enumImplIn c Ty sc variants vs = g.toImpl c Ty vs := by
      simp only [enumImplIn, hg, hs, if_true, hpath]
      rfl
    rw [hi] at hsz ⊢
    obtain ⟨r1, r2, r3, -⟩ := toImpl_enum_spec L vs hw (fun v hv hm => (hok v hv _ hm).1 rfl) h g hg n hsz
    exact ⟨by rw [enumCount_eq]; exact r1, r2, r3⟩
  · simp only [enumImplIn, hg] at hsz
    rw [if_neg hs] at hsz
    cases hsz

example := C82_enum_lawful debug64 exTypes exSz exTypes_lawful fnScope rfl ["A", "B", "C"]
  [.unit, .named [("x", .bool), ("ordinal", .ordering)], .unnamed [.ordering]] (by simp [Fields.WF])
  (by decide) 10 (by rfl)

/-- C82: accepted in two scopes without an inherent `ORDINAL_SIZE`, a struct has the same impl in both;
so has an enum. -/
theorem C82_same (sc₁ sc₂ : Scope ι) (h₁ : PlainSize sc₁) (h₂ : PlainSize sc₂) :
    (∀ fs : Fields ι, fs.WF → structImplIn c Ty sc₁ fs ≠ rejected _ →
      structImplIn c Ty sc₂ fs ≠ rejected _ → structImplIn c Ty sc₁ fs = structImplIn c Ty sc₂ fs) ∧
    ∀ (names₁ names₂ : List String) (vs : List (Fields ι)),
      enumImplIn c Ty sc₁ names₁ vs ≠ rejected _ → enumImplIn c Ty sc₂ names₂ vs ≠ rejected _ →
      enumImplIn c Ty sc₁ names₁ vs = enumImplIn c Ty sc₂ names₂ vs := by
  have key : ∀ (sc : Scope ι) (names : List String), PlainSize sc → sc.frame names = true →
      sc.sizePath names = .trait := by
    intro sc names hp hf
    obtain ⟨h3, -, h4⟩ := (sizePath_ok_iff sc names).1 ((frame_iff sc names).1 hf).2.2.2.1
    have := h4 hp
    simp only [PlainSize] at hp
    simp [Scope.sizePath, hp, this, h3]
  constructor
  · intro fs hw a b
    obtain ⟨x, e, -, -, -, hg⟩ := genStruct_ok fs
    simp only [structImplIn, hg] at a b ⊢
    split at a
    · split at b
      · rename_i s1 s2
        rw [if_pos s1, if_pos s2, key sc₁ [] h₁ ((struct_in sc₁ fs hw _ hg).1 s1).1,
          key sc₂ [] h₂ ((struct_in sc₂ fs hw _ hg).1 s2).1]
      · exact absurd rfl b
    · exact absurd rfl a
  · intro n1 n2 vs a b
    simp only [enumImplIn] at a b ⊢
    cases hg : genEnum vs with
    | error f => simp [hg] at a
    | ok g =>
      simp only [hg] at a b ⊢
      split at a
      · split at b
        · rename_i s1 s2
          have f1 : sc₁.frame n1 = true := by
            simp only [enumIn, Bool.and_eq_true] at s1
            exact s1.1.1.1.1.1
          have f2 : sc₂.frame n2 = true := by
            simp only [enumIn, Bool.and_eq_true] at s2
            exact s2.1.1.1.1.1
          rw [if_pos s1, if_pos s2, key sc₁ n1 h₁ f1, key sc₂ n2 h₂ f2]
        · exact absurd rfl b
      · exact absurd rfl a

example := C82_same debug64 exTypes prelude
  fnScope rfl rfl

/-- C82: with only the prelude in scope, this is the check and the impl of the other properties. -/
theorem C82_prelude :
    (∀ fs : Fields ι, fs.WF → structImplIn c Ty prelude fs = structImpl c Ty fs) ∧
    ∀ (variants : List String) (vs : List (Fields ι)), "ORDINAL_SIZE" ∉ variants →
      (∀ v ∈ vs, v.WF) → vs.length < 2 ^ 64 →
      enumImplIn c Ty prelude variants vs = enumImpl c Ty vs := by
  have hB : ∀ s : String, BindsIn (prelude (ι := ι)) s ↔ s ∉ ["None", "Some", "Ok", "Err"] := by
    intro s
    simp only [BindsIn, prelude]
    by_cases h1 : s = "None"
    · simp [h1]
    · by_cases h2 : s = "Some" ∨ s = "Ok" ∨ s = "Err"
      · simp [h1, h2]
      · simp [h1, h2]
  have hC : ∀ (s : String) (t : ι), ¬ CoversIn (prelude (ι := ι)) s t := by
    rintro s t ⟨cov, h, hc⟩
    simp only [prelude] at h
    by_cases h1 : s = "None"
    · simp only [h1, if_true, Option.some.injEq, reduceCtorEq, Item.none.injEq, false_or] at h
      subst h
      cases hc
    · by_cases h2 : s = "Some" ∨ s = "Ok" ∨ s = "Err"
      · simp [h1, h2] at h
      · simp [h1, h2] at h
  have hF : ∀ variants : List String, "ORDINAL_SIZE" ∉ variants → FitScope (prelude (ι := ι)) variants :=
    fun variants hv => ⟨rfl, rfl, rfl, ⟨_, rfl⟩, .inl rfl, .inl rfl, hv, by simp [prelude], fun _ => rfl⟩
  have hR : ∀ fs : Fields ι, (∀ p ∈ declared fs, p.1 ≠ "rem" ∧ BindsIn (prelude (ι := ι)) p.1) ↔
      ¬ HasReserved fs := by
    intro fs
    rw [← noClash_iff, ← varsOk_iff]
    simp only [NoClash]
    refine forall_congr' fun x => imp_congr_right fun _ => and_congr_right fun _ => ?_
    rw [pat_fresh_iff, hB]
    cases x with
    | user s => simp [text, Ident.bindable, preludeCtors]
    | pos i =>
      have hh : ∀ s : String, s.toList.head? ≠ some 'f' → text (.pos i) ≠ s := by
        rintro s hs rfl
        apply hs
        simp [text, String.toList_append]
      have h4 : text (.pos i) ≠ "None" ∧ text (.pos i) ≠ "Some" ∧ text (.pos i) ≠ "Ok" ∧
          text (.pos i) ≠ "Err" :=
        ⟨hh _ (by decide), hh _ (by decide), hh _ (by decide), hh _ (by decide)⟩
      simpa [Ident.bindable] using h4
  have hP : ∀ names : List String, "ORDINAL_SIZE" ∉ names →
      (prelude (ι := ι)).sizePath names = .trait := fun names h => by
    simp [Scope.sizePath, h, prelude]
  constructor
  · intro fs hw
    obtain ⟨g, hg, hc⟩ := C82_struct prelude fs hw
    obtain ⟨g', hg', hc'⟩ := C10_exact_struct_partial fs hw
    rw [hg] at hg'
    cases hg'
    have : structIn prelude g fs = true ↔ g.check fs = true := by
      rw [hc, hc', ← hR fs]
      constructor
      · rintro ⟨-, -, h⟩ p hp
        exact ⟨(h p hp).1, (h p hp).2.resolve_right (hC _ _)⟩
      · intro h
        exact ⟨hF [] (by simp), .inl rfl, fun p hp => ⟨(h p hp).1, .inl (h p hp).2⟩⟩
    simp only [structImplIn, structImpl, hg, hP [] (by simp)]
    by_cases hh : g.check fs = true
    · rw [if_pos hh, if_pos (this.2 hh)]
      rfl
    · rw [if_neg hh, if_neg (fun h => hh (this.1 h))]
  · intro variants vs hv hw h64
    obtain ⟨g, hg, hc⟩ := C82_enum prelude variants vs hw h64
    obtain ⟨g', hg', hc'⟩ := C10_exact_enum_partial vs hw h64
    rw [hg] at hg'
    cases hg'
    have : enumIn prelude variants g vs = true ↔ g.check vs = true := by
      rw [hc, hc']
      constructor
      · rintro ⟨-, -, -, h⟩ v hv
        exact (hR v).1 (h v hv)
      · intro h
        exact ⟨hF variants hv, .inl rfl, fun _ => .inl rfl, fun v hv => (hR v).2 (h v hv)⟩
    simp only [enumImplIn, enumImpl, hg, hP variants hv]
    by_cases hh : g.check vs = true
    · rw [if_pos hh, if_pos (this.2 hh)]
      rfl
    · rw [if_neg hh, if_neg (fun h => hh (this.1 h))]

example := (C82_prelude debug64 exTypes).2 ["Low", "High"] [.unit, .named [("None", .bool)]]
  (by decide) (by simp [Fields.WF]) (by decide)

/-! ## An inherent `ORDINAL_SIZE` -/

/-- C82, finding: an inherent `const ORDINAL_SIZE: usize = 0` on the type is accepted without a word
and makes `from_ordinal` return `None` for every argument. -/
theorem C82_inherent_zero (sc : Scope ι) (h0 : sc.inherent = some (.usize (.ok 0))) :
    (∀ fs : Fields ι, structImplIn c Ty sc fs ≠ rejected _ →
      ∀ i, (structImplIn c Ty sc fs).fromOrdinal i = .ok none) ∧
    ∀ (variants : List String) (vs : List (Fields ι)), enumImplIn c Ty sc variants vs ≠ rejected _ →
      ∀ i, (enumImplIn c Ty sc variants vs).fromOrdinal i = .ok none := by
  constructor
  · intro fs a i
    obtain ⟨x, e, -, -, -, hg⟩ := genStruct_ok fs
    simp only [structImplIn, hg] at a ⊢
    split at a
    · rename_i s
      rw [if_pos s]
      simp [structRun, Scope.sizePath, h0, SizePath.value]
    · exact absurd rfl a
  · intro variants vs a i
    simp only [enumImplIn] at a ⊢
    cases hg : genEnum vs with
    | error f => simp [hg] at a
    | ok g =>
      simp only [hg] at a ⊢
      split at a
      · rename_i s
        have f1 : sc.frame variants = true := by
          simp only [enumIn, Bool.and_eq_true] at s
          exact s.1.1.1.1.1
        have h3 := ((sizePath_ok_iff sc variants).1 ((frame_iff sc variants).1 f1).2.2.2.1).1
        rw [if_pos s]
        simp [enumRun, Scope.sizePath, h0, h3, SizePath.value]
      · exact absurd rfl a

/-- Such a struct, accepted: two values, and `from_ordinal(0)` is `None`. -/
example : (structImplIn debug64 exTypes oddScope (.named [("x", .bool)])).size = .ok 2 ∧
    (structImplIn debug64 exTypes oddScope (.named [("x", .bool)])).fromOrdinal 0 = .ok none :=
  ⟨by rfl, by rfl⟩

example := (C82_inherent_zero debug64 exTypes oddScope rfl).1 (.named [("x", .bool)]) (fun h => by
  have : (structImplIn debug64 exTypes oddScope (.named [("x", .bool)])).size = .error .compileError := by
    rw [h]; rfl
  cases this.symm.trans (by rfl : (structImplIn debug64 exTypes oddScope (.named [("x", .bool)])).size = .ok 2))

/-- C82: a nonzero inherent `usize` constant changes nothing on a type that has values. -/
theorem C82_inherent_pos (sc : Scope ι) (k : Nat) (hk : k ≠ 0)
    (h0 : sc.inherent = some (.usize (.ok k))) (n : Nat) (hn : n ≠ 0) :
    (∀ fs : Fields ι, fs.WF → (structImplIn c Ty sc fs).size = .ok n →
      structImplIn c Ty sc fs =
        structImplIn c Ty { sc with inherent := none, traitClash := false } fs) ∧
    ∀ (variants : List String) (vs : List (Fields ι)), (∀ v ∈ vs, v.WF) → vs.length < 2 ^ 64 →
      (enumImplIn c Ty sc variants vs).size = .ok n →
      enumImplIn c Ty sc variants vs =
        enumImplIn c Ty { sc with inherent := none, traitClash := false } variants vs := by
  have hfr : ∀ names, sc.frame names = true →
      ({ sc with inherent := none, traitClash := false } : Scope ι).frame names = true := by
    intro names h
    obtain ⟨h1, h2, h3, h4, h5, h6, h7⟩ := (frame_iff sc names).1 h
    obtain ⟨h4, -, -⟩ := (sizePath_ok_iff sc names).1 h4
    exact (frame_iff _ names).2 ⟨h1, h2, h3, (sizePath_ok_iff _ names).2
      ⟨h4, by simp, fun _ => rfl⟩, h5, h6, h7⟩
  have hsp : ∀ names, sc.frame names = true → sc.sizePath names = .inherent (.ok k) ∧
      ({ sc with inherent := none, traitClash := false } : Scope ι).sizePath names = .trait := by
    intro names h
    obtain ⟨h4, -, -⟩ := (sizePath_ok_iff sc names).1 ((frame_iff sc names).1 h).2.2.2.1
    simp [Scope.sizePath, h0, h4]
  constructor
  · intro fs hw hs
    obtain ⟨x, e, -, -, -, hg⟩ := genStruct_ok fs
    simp only [structImplIn, hg] at hs ⊢
    split at hs
    · rename_i s
      obtain ⟨hf, hb⟩ := (struct_in sc fs hw _ hg).1 s
      have s' := (struct_in { sc with inherent := none, traitClash := false } fs hw _ hg).2
        ⟨hfr [] hf, hb⟩
      rw [if_pos s, if_pos s', (hsp [] hf).1, (hsp [] hf).2]
      simp only [structRun] at hs
      simp [structRun, SizePath.value, hs, hk, hn]
    · cases hs
  · intro variants vs hw h64 hs
    have h : vs.countP noFields < 2 ^ 64 := Nat.lt_of_le_of_lt List.countP_le_length h64
    obtain ⟨g, arms, hg, -⟩ := genEnum_ok vs h hw
    simp only [enumImplIn, hg] at hs ⊢
    split at hs
    · rename_i s
      obtain ⟨hf, hb⟩ := (enum_in sc variants vs hw h g hg).1 s
      have s' := (enum_in { sc with inherent := none, traitClash := false } variants vs hw h g hg).2
        ⟨hfr variants hf, hb⟩
      rw [if_pos s, if_pos s', (hsp variants hf).1, (hsp variants hf).2]
      simp only [enumRun] at hs
      simp [enumRun, SizePath.value, hs, hk, hn]
    · cases hs

example := (C82_inherent_pos debug64 exTypes { oddScope with inherent := some (.usize (.ok 7)) } 7
  (by decide) rfl 2 (by decide)).1 (.named [("x", .bool)]) (by simp [Fields.WF]) (by rfl)

/-! ## C83 -/

/-- C83: the macro emits code for every struct and every enum and refuses every union; none of its
internal errors and assertions can occur.  (The bound is the macro's own `u64` counter of field-less
variants.) -/
theorem C83_total :
    (∀ fs : Fields ι, ∃ g, deriveOrdinal (.struct fs) = .ok (.struct g)) ∧
    (∀ vs : List (Fields ι), (∀ v ∈ vs, v.WF) → vs.length < 2 ^ 64 →
      ∃ g, deriveOrdinal (.enum vs) = .ok (.enum g)) ∧
    (∀ fs : List (String × ι), deriveOrdinal (.union fs) = .error .compileError) ∧
    ∀ tys : List ι, ∃ g, genTuple tys = .ok g := by
  refine ⟨fun fs => ?_, fun vs hw h64 => ?_, fun _ => rfl, fun tys => ?_⟩
  · obtain ⟨x, e, -, -, -, hg⟩ := genStruct_ok fs
    exact ⟨_, by simp only [deriveOrdinal, hg]; rfl⟩
  · obtain ⟨g, _, hg, -⟩ := genEnum_ok vs (Nat.lt_of_le_of_lt List.countP_le_length h64) hw
    exact ⟨g, by simp only [deriveOrdinal, hg]; rfl⟩
  · obtain ⟨x, e, -, -, -, hg⟩ := genTuple_ok tys
    exact ⟨_, hg⟩

example := C83_total.2.1 [.unit, .unnamed [ExTy.never, .bool], .named [("rem", .bool)]] (by simp [Fields.WF])
  (by decide)

end
end OrdinalMap.Props
