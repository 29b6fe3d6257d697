import Verif.Lemmas.EffectDeriveCalls
import Verif.Props.Derive
import Verif.Props.Effect
/-!
# C84: derived impls over field types with state

A field type of a derived struct or enum may be any safe implementation of `Ordinal`, with state.  The derived impl
is then safe again, so everything said about implementations with state applies to it (C80, C81).  And it is known
how it calls the field types: `ordinal` calls `ordinal` once on every field of the struct (of the matched variant), in
declaration order; `from_ordinal` calls `from_ordinal` once for every field, the last field first, with the digits of
the number; fields of other variants are not touched.
-/

namespace OrdinalMap.Props
open OrdinalMap OrdinalMap.Derive

variable {ι σ : Type} {c : Cfg} {Ty : Types ι} {J : SImpls σ Ty} {sz : ι → Nat}

/-! ## Field types for the examples -/

/-- The field types of `exTypes`, counting their calls together; the fourth call panics. -/
def countingImpls : SImpls Nat exTypes := fun t =>
  { size := (exTypes.impl t).size
    ordinal := fun k st => if st < 3 then ((exTypes.impl t).ordinal k, st + 1) else (.error .panic, st)
    fromOrdinal := fun i st => if st < 3 then ((exTypes.impl t).fromOrdinal i, st + 1) else (.error .panic, st) }

theorem countingImpls_sound (t : ExTy) : SoundSImpl debug64 (countingImpls t) := by
  have hI : SoundImpl (exTypes.impl t) := by
    cases t
    · exact sound_boolImpl
    · exact sound_orderingImpl
    · exact sound_infallibleImpl
    · exact sound_u16Impl _
  refine ⟨hI.size, fun n hn => ?_, fun k st => ?_, fun i st => ?_⟩
  · have L := exTypes_lawful t
    rw [show (countingImpls t).size = _ from L.size] at hn
    cases hn
    exact L.fits
  · simp only [countingImpls]
    split
    · exact hI.ordinal k
    · exact Sound.mk_panic
  · simp only [countingImpls]
    split
    · exact hI.fromOrdinal i
    · exact Sound.mk_panic

/-- A struct, and an enum whose variants have 1, 6, 0 and 3 values. -/
abbrev exFields : Fields ExTy := .named [("a", .bool), ("b", .ordering)]
@[inherit_doc exFields]
abbrev exVariants : List (Fields ExTy) := [.unit, exFields, .unnamed [.bool, .never], .unnamed [.ordering]]

theorem countingImpls_size (t : ExTy) : (countingImpls t).size = .ok (exSz t) := (exTypes_lawful t).size

variable [DecidableEq ι]

/-! ## Safety -/

theorem tupleS_cases (J : SImpls σ Ty) (tys : List ι) : tupleSImpl c Ty J tys = rejectedS _ ∨
    ∃ g, genTuple tys = .ok g ∧ tupleSImpl c Ty J tys = g.toSImpl c Ty J (.unnamed tys) := by
  unfold tupleSImpl
  by_cases h16 : tys.length ≤ 16
  · simp only [h16, if_true]
    cases hg : genTuple tys with
    | error f => exact .inl rfl
    | ok g =>
      by_cases h : g.check (.unnamed tys) = true
      · simp only [h]
        exact .inr ⟨g, rfl, rfl⟩
      · simp only [h]
        exact .inl rfl
  · simp only [h16, if_false]
    exact .inl trivial

/-- Derived impls and the tuple impls over safe field types are safe: every call returns or panics, in whatever
state. -/
theorem C84_sound (hJ : ∀ t, SoundSImpl c (J t)) :
    (∀ fs, SoundSImpl c (structSImpl c Ty J fs)) ∧ (∀ tys, SoundSImpl c (tupleSImpl c Ty J tys)) ∧
    (∀ vs, SoundSImpl c (enumSImpl c Ty J vs)) := by
  refine ⟨fun fs => ?_, fun tys => ?_, fun vs => ?_⟩
  · unfold structSImpl
    split
    · exact sound_rejectedS
    · split
      · exact sound_toSImpl hJ _ _
      · exact sound_rejectedS
  · rcases tupleS_cases (c := c) J tys with h | ⟨g, -, h⟩
    · rw [h]; exact sound_rejectedS
    · rw [h]; exact sound_toSImpl hJ g (.unnamed tys)
  · unfold enumSImpl
    split
    · exact sound_rejectedS
    · split
      · exact sound_toSImplEnum hJ _ _
      · exact sound_rejectedS

example := C84_sound countingImpls_sound

/-- Over field types without state these are the impls of the other properties. -/
theorem C84_agrees (c : Cfg) (Ty : Types ι) :
    (∀ fs, structSImpl (σ := σ) c Ty (fun t => .ofPure (Ty.impl t)) fs = .ofPure (structImpl c Ty fs)) ∧
    (∀ tys, tupleSImpl (σ := σ) c Ty (fun t => .ofPure (Ty.impl t)) tys = .ofPure (tupleImpl c Ty tys)) ∧
    (∀ vs, enumSImpl (σ := σ) c Ty (fun t => .ofPure (Ty.impl t)) vs = .ofPure (enumImpl c Ty vs)) :=
  ⟨pure_structImpl, pure_tupleImpl, pure_enumImpl⟩

example := C84_agrees (σ := Nat) debug64 exTypes

/-! ## Calls -/

omit [DecidableEq ι] in
theorem fcalls {α : Type} {x : M (σ × List (FCall Ty)) α} {st : σ} {q : List (FCall Ty)}
    (h : MHolds x (st, []) (fun _ st' => st'.2 = q) (Upto (fun st l => st.2 = l) [] q)) :
    fieldCalls x st <+: q ∧ ((∃ a, (x (st, [])).1 = .ok a) → fieldCalls x st = q) := by
  refine ⟨h.all (G := fun st' => st'.2 <+: q) (fun _ _ h => by rw [h]; exact List.prefix_refl q) ?_, ?_⟩
  · rintro st' ⟨p, h1, h2⟩
    rw [h2]
    exact h1
  · rintro ⟨a, ha⟩
    exact h.post (a := a) (st' := (x (st, [])).2) (by rw [← ha])

omit [DecidableEq ι] in
theorem fcalls_rejected {α : Type} {st : σ} {q : List (FCall Ty)} :
    MHolds (.of (.error .compileError) : M (σ × List (FCall Ty)) α) (st, []) (fun _ st' => st'.2 = q)
      (Upto (fun st l => st.2 = l) [] q) :=
  mholds_of trivial (upto_nil rfl)

/-- `ordinal` of a derived struct calls `ordinal` on its fields, in declaration order, each once.  If one of the
calls panics, the later ones are not made. -/
theorem C84_struct_ordinal (hJ : ∀ t, SoundSImpl c (J t)) (fs : Fields ι) (hw : fs.WF)
    (v : FieldVals Ty (fieldTypes fs)) (st : σ) :
    fieldCalls ((structSImpl c Ty (loggedAll J) fs).ordinal v) st <+: ordinalCalls v.1 ∧
    ((∃ n, ((structSImpl c Ty (loggedAll J) fs).ordinal v (st, [])).1 = .ok n) →
      fieldCalls ((structSImpl c Ty (loggedAll J) fs).ordinal v) st = ordinalCalls v.1) := by
  refine fcalls ?_
  obtain ⟨x, e, h1, h2, -, hg⟩ := genStruct_ok fs
  simp only [structSImpl, hg]
  split
  · refine mholds_structOrdinal (flogged hJ) _ fs hw ?_ v rfl
    exact (expr_refs e x h2).trans (refs_structOrdinal _ _ (fieldRefExprs_length fs) _ h1)
  · exact fcalls_rejected

example := C84_struct_ordinal countingImpls_sound exFields (by simp [Fields.WF])
  ⟨[⟨.bool, true⟩, ⟨.ordering, .gt⟩], rfl⟩ 0

/-- The second of the two calls is the fourth of all and panics. -/
example :
    let S := structSImpl debug64 exTypes (loggedAll countingImpls) exFields
    let v : FieldVals exTypes (fieldTypes exFields) := ⟨[⟨.bool, true⟩, ⟨.ordering, .gt⟩], rfl⟩
    S.ordinal v (1, []) = (.ok 5, 3, [⟨.bool, .ordinal true⟩, ⟨.ordering, .ordinal .gt⟩]) ∧
    S.ordinal v (2, []) = (.error .panic, 3, [⟨.bool, .ordinal true⟩, ⟨.ordering, .ordinal .gt⟩]) ∧
    S.ordinal v (3, []) = (.error .panic, 3, [⟨.bool, .ordinal true⟩]) := ⟨rfl, rfl, rfl⟩

/-- The same for tuples. -/
theorem C84_tuple_ordinal (hJ : ∀ t, SoundSImpl c (J t)) (tys : List ι) (v : FieldVals Ty tys) (st : σ) :
    fieldCalls ((tupleSImpl c Ty (loggedAll J) tys).ordinal v) st <+: ordinalCalls v.1 ∧
    ((∃ n, ((tupleSImpl c Ty (loggedAll J) tys).ordinal v (st, [])).1 = .ok n) →
      fieldCalls ((tupleSImpl c Ty (loggedAll J) tys).ordinal v) st = ordinalCalls v.1) := by
  refine fcalls ?_
  obtain ⟨x, e, h1, h2, -, hg⟩ := genTuple_ok tys
  rcases tupleS_cases (c := c) (loggedAll J) tys with h | ⟨g, hg', h⟩
  · rw [h]; exact fcalls_rejected
  · rw [hg] at hg'
    cases hg'
    rw [h]
    refine mholds_structOrdinal (flogged hJ) _ (.unnamed tys) trivial ?_ v rfl
    exact (expr_refs e x h2).trans (refs_structOrdinal _ _ (fieldRefExprs_length (.unnamed tys)) _ h1)

example := C84_tuple_ordinal countingImpls_sound [.ordering, .bool, .bool]
  ⟨[⟨.ordering, .lt⟩, ⟨.bool, true⟩, ⟨.bool, false⟩], rfl⟩ 0

/-- `from_ordinal(i)` of a derived struct calls `from_ordinal` of every field type once, the last field first, with
the digits of `i` in the mixed base of the sizes.  It does so for numbers that are too large as well.  For a struct
without values it calls nothing. -/
theorem C84_struct_from (hJ : ∀ t, SoundSImpl c (J t)) (hs : ∀ t, (J t).size = .ok (sz t)) (fs : Fields ι) (i : Nat)
    (st : σ) (q : List (FCall Ty))
    (hq : q = if fieldsSize sz (fieldTypes fs) = 0 then [] else digitCalls Ty sz (fieldTypes fs).reverse i) :
    fieldCalls ((structSImpl c Ty (loggedAll J) fs).fromOrdinal i) st <+: q ∧
    ((∃ o, ((structSImpl c Ty (loggedAll J) fs).fromOrdinal i (st, [])).1 = .ok o) →
      fieldCalls ((structSImpl c Ty (loggedAll J) fs).fromOrdinal i) st = q) := by
  refine fcalls ?_
  subst hq
  obtain ⟨x, e, h1, h2, -, hg⟩ := genStruct_ok fs
  simp only [structSImpl, hg]
  split
  · exact mholds_structFrom (flogged hJ) hs (fun t => (hJ t).size_lt _ (hs t)) _ fs _ _ rfl rfl (fieldVars_length fs) i rfl
  · exact fcalls_rejected

example := C84_struct_from countingImpls_sound countingImpls_size exFields 5 0
  [⟨.ordering, .from 2⟩, ⟨.bool, .from 1⟩] rfl

/-- `from_ordinal(6)` is `None`, after calls to both field types. -/
example :
    let S := structSImpl debug64 exTypes (loggedAll countingImpls) exFields
    (S.fromOrdinal 5 (0, [])).2 = (2, [⟨.ordering, .from 2⟩, ⟨.bool, .from 1⟩]) ∧
    S.fromOrdinal 6 (0, []) = (.ok none, 2, [⟨.ordering, .from 0⟩, ⟨.bool, .from 0⟩]) := ⟨rfl, rfl⟩

/-- The same for tuples. -/
theorem C84_tuple_from (hJ : ∀ t, SoundSImpl c (J t)) (hs : ∀ t, (J t).size = .ok (sz t)) (tys : List ι) (i : Nat)
    (st : σ) (q : List (FCall Ty)) (hq : q = if fieldsSize sz tys = 0 then [] else digitCalls Ty sz tys.reverse i) :
    fieldCalls ((tupleSImpl c Ty (loggedAll J) tys).fromOrdinal i) st <+: q ∧
    ((∃ o, ((tupleSImpl c Ty (loggedAll J) tys).fromOrdinal i (st, [])).1 = .ok o) →
      fieldCalls ((tupleSImpl c Ty (loggedAll J) tys).fromOrdinal i) st = q) := by
  refine fcalls ?_
  subst hq
  obtain ⟨x, e, h1, h2, -, hg⟩ := genTuple_ok tys
  rcases tupleS_cases (c := c) (loggedAll J) tys with h | ⟨g, hg', h⟩
  · rw [h]; exact fcalls_rejected
  · rw [hg] at hg'
    cases hg'
    rw [h]
    exact mholds_structFrom (flogged hJ) hs (fun t => (hJ t).size_lt _ (hs t)) _ (.unnamed tys) _ _ rfl rfl
      (tupleVars_length _) i rfl

example := C84_tuple_from countingImpls_sound countingImpls_size [.ordering, .bool, .bool] 7 0
  [⟨.bool, .from 1⟩, ⟨.bool, .from 1⟩, ⟨.ordering, .from 1⟩] rfl

example := C84_tuple_from countingImpls_sound countingImpls_size [.bool, .never] 0 0 [] rfl

/-- `ordinal` of a derived enum calls `ordinal` on the fields of the value's variant, in declaration order, each
once. -/
theorem C84_enum_ordinal (hJ : ∀ t, SoundSImpl c (J t)) (vs : List (Fields ι)) (hw : ∀ v ∈ vs, v.WF)
    (x : EnumVal Ty vs) (st : σ) :
    fieldCalls ((enumSImpl c Ty (loggedAll J) vs).ordinal x) st <+: ordinalCalls x.1.2 ∧
    ((∃ n, ((enumSImpl c Ty (loggedAll J) vs).ordinal x (st, [])).1 = .ok n) →
      fieldCalls ((enumSImpl c Ty (loggedAll J) vs).ordinal x) st = ordinalCalls x.1.2) := by
  refine fcalls ?_
  unfold enumSImpl
  cases hg : genEnum vs with
  | error f => exact fcalls_rejected
  | ok g =>
    dsimp only
    split
    · by_cases h64 : vs.countP noFields < 2 ^ 64
      · obtain ⟨g', arms, hg', -, ho, hlen, harm, -, -, -⟩ := genEnum_ok vs h64 hw
        rw [hg] at hg'
        cases hg'
        obtain ⟨v, hv, hl⟩ := x.2
        obtain ⟨a, ha1, ha2⟩ := harm _ v hv
        have hne : vs.isEmpty = false := by
          cases vs with
          | nil => simp at hv
          | cons => rfl
        refine (sound_evalC (flogged hJ).size g.size).mbind (upto_nil rfl) fun n => ?_
        simp only [ho, hne, Bool.false_eq_true, if_false, ha1, hv]
        exact mholds_arm (flogged hJ) vs _ v (hw v (List.mem_of_getElem? hv)) a ha2 _ hl rfl
      · have ht := total_form vs
        rw [if_neg h64] at ht
        exfalso
        simp only [genEnum] at hg
        cases hx : sizeOfFirstVariants vs vs.length with
        | error f => rw [hx] at hg; cases hg
        | ok e =>
          rw [hx] at hg ht
          simp only [bind, Except.bind] at hg ht
          rw [ht] at hg
          cases hg
    · exact fcalls_rejected

example := C84_enum_ordinal countingImpls_sound exVariants (by simp [Fields.WF])
  ⟨(1, [⟨.bool, true⟩, ⟨.ordering, .gt⟩]), _, rfl, rfl⟩ 0

/-- `from_ordinal(i)` of a derived enum finds the variant `i` falls into and calls `from_ordinal` of its field types
once each, the last field first, with the digits of the position in the variant.  No other variant is touched, and
for a number that is too large nothing is called. -/
theorem C84_enum_from (hJ : ∀ t, SoundSImpl c (J t)) (hs : ∀ t, (J t).size = .ok (sz t)) (vs : List (Fields ι))
    (hw : ∀ v ∈ vs, v.WF) (i : Nat) (st : σ) (q : List (FCall Ty))
    (hq : q = match variantAt sz vs i with
      | none => []
      | some (v, j) => digitCalls Ty sz (fieldTypes v).reverse j) :
    fieldCalls ((enumSImpl c Ty (loggedAll J) vs).fromOrdinal i) st <+: q ∧
    ((∃ o, ((enumSImpl c Ty (loggedAll J) vs).fromOrdinal i (st, [])).1 = .ok o) →
      fieldCalls ((enumSImpl c Ty (loggedAll J) vs).fromOrdinal i) st = q) := by
  refine fcalls ?_
  have hq : q = enumCalls Ty sz vs i := hq
  subst hq
  have hlt : ∀ t, sz t < c.M := fun t => (hJ t).size_lt _ (hs t)
  unfold enumSImpl
  cases hg : genEnum vs with
  | error f => exact fcalls_rejected
  | ok g =>
    dsimp only
    split
    · by_cases h64 : vs.countP noFields < 2 ^ 64
      · obtain ⟨g', arms, hg', hsz, -, -, -, hlen, hst, -⟩ := genEnum_ok vs h64 hw
        rw [hg] at hg'
        cases hg'
        have ha := total_approx (finTypes_lawful hlt) vs
        have hsz' : (g.size.evalC c fun t => (loggedAll J t).size) = _ := evalC_fin (sz := sz) hs g.size
        simp only [GenEnum.toSImpl]
        rw [hsz', hsz]
        rcases ha with ha | ha
        · obtain ⟨-, hM, hev⟩ := total_inv (finTypes_lawful hlt) vs _ ha
          rw [ha, M.ok_bind]
          split
          · rename_i h0
            have : variantAt sz vs i = none := variantAt_none h0 i
            exact mholds_ok (by simp only [enumCalls, this])
          · have := mholds_enumStmts (c := c) (flogged hJ) hs hlt vs h64 hev hM i (st := (st, [])) rfl vs g.fromOrdinal 0
              (by simp) (by simp) hlen (by simpa using hst) (by simp [vsum])
            simp only [List.take_zero, vsum, List.map_nil, List.sum_nil, Nat.sub_zero] at this
            refine this.bind fun o st1 h1 => ?_
            cases o with
            | none => exact mholds_ok h1
            | some p =>
              dsimp only
              split
              · exact mholds_ok h1
              · exact mholds_of trivial (upto_full h1)
        · rw [ha, M.error_bind]
          exact fcalls_rejected
      · have ht := total_form vs
        rw [if_neg h64] at ht
        exfalso
        simp only [genEnum] at hg
        cases hx : sizeOfFirstVariants vs vs.length with
        | error f => rw [hx] at hg; cases hg
        | ok e =>
          rw [hx] at hg ht
          simp only [bind, Except.bind] at hg ht
          rw [ht] at hg
          cases hg
    · exact fcalls_rejected

example := C84_enum_from countingImpls_sound countingImpls_size exVariants (by simp [Fields.WF]) 5 0
  [⟨.ordering, .from 1⟩, ⟨.bool, .from 1⟩] rfl

example :
    let S := enumSImpl debug64 exTypes (loggedAll countingImpls) exVariants
    S.size = .ok 10 ∧
    (S.fromOrdinal 0 (0, [])).2 = (0, []) ∧
    (S.fromOrdinal 6 (0, [])).2 = (2, [⟨.ordering, .from 2⟩, ⟨.bool, .from 1⟩]) ∧
    (S.fromOrdinal 9 (0, [])).2 = (1, [⟨.ordering, .from 2⟩]) ∧
    S.fromOrdinal 10 (0, []) = (.ok none, 0, []) := ⟨rfl, rfl, rfl, rfl, rfl⟩

/-- The maps over a derived key type with such fields: a consequence of `C84_sound` and C80. -/
example (ops : List (MapOp (EnumVal exTypes exVariants) Nat)) (st : Nat) :
    Sound (Eff.runOps (Eff.omapStep debug64 (enumSImpl debug64 exTypes countingImpls exVariants) 8) [] ops st).1 :=
  (C80_maps ((C84_sound countingImpls_sound).2.2 exVariants) 8 st).1 [] ops (by decide)

end OrdinalMap.Props
