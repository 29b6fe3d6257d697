import Verif.Model.Hygiene
import Verif.Props.Derive
/-!
# C73: derive on items produced by `macro_rules!`
-/

namespace OrdinalMap.Props
open OrdinalMap OrdinalMap.Derive OrdinalMap.Derive.Hygiene

section
variable {σ : Type} [DecidableEq σ]

/-! ## Specification -/

/-- The names of the named fields are distinct. -/
def Distinct (fs : List (SField σ)) : Prop := (fs.filterMap (·.name)).Nodup

/-- No field has a reserved name. -/
def NamesFree (fs : List (SField σ)) : Prop :=
  ∀ f ∈ fs, ∀ s, f.name = some s → s ∉ reservedNames

/-! ## Lemmas -/

theorem lookup_cons_self' (v : Var σ) (k : Kind) (sc : Scope σ) :
    List.lookup v ((v, k) :: sc) = some k := by simp

theorem lookup_cons_ne' {v w : Var σ} (h : v ≠ w) (k : Kind) (sc : Scope σ) :
    List.lookup v ((w, k) :: sc) = List.lookup v sc := by
  have : (v == w) = false := by simpa using h
  simp [List.lookup, this]

theorem mem_of_lookup {v : Var σ} {k : Kind} {sc : Scope σ} (h : sc.lookup v = some k) :
    (v, k) ∈ sc := by
  induction sc with
  | nil => simp at h
  | cons p sc ih =>
    obtain ⟨w, k'⟩ := p
    by_cases e : v = w
    · subst e
      rw [lookup_cons_self'] at h
      cases h
      simp
    · rw [lookup_cons_ne' e] at h
      exact List.mem_cons_of_mem _ (ih h)

theorem checkOccs_append (sc : Scope σ) (a b : List (Occ σ)) :
    checkOccs sc (a ++ b) = (checkOccs sc a).bind fun sc' => checkOccs sc' b := by
  induction a generalizing sc with
  | nil => simp [checkOccs]
  | cons o a ih =>
    simp only [List.cons_append, checkOccs]
    cases o.check sc <;> simp [ih]

theorem checkOccs_uses (sc : Scope σ) (l : List (Var σ × Kind)) :
    checkOccs sc (l.map fun p => Occ.use p.1 p.2) =
      if ∀ p ∈ l, sc.lookup p.1 = some p.2 then some sc else none := by
  induction l with
  | nil => simp [checkOccs]
  | cons p l ih =>
    simp only [List.map_cons, checkOccs, Occ.check]
    by_cases h : sc.lookup p.1 = some p.2
    · simp only [h, if_true, ih]
      by_cases h' : ∀ p ∈ l, sc.lookup p.1 = some p.2
      · rw [if_pos h', if_pos]
        intro q hq
        rcases List.mem_cons.1 hq with rfl | hq
        · exact h
        · exact h' q hq
      · rw [if_neg h', if_neg]
        exact fun hh => h' fun q hq => hh q (by simp [hq])
    · rw [if_neg h, if_neg]
      exact fun hh => h (hh p (by simp))

theorem fields_check (ps : List (Var σ × Nat)) (span : σ) (sc : Scope σ)
    (hr : sc.lookup (remAt span) = some .rem)
    (hp : ∀ p ∈ ps, p.1.ctx = span ∧ p.1 ≠ remAt span ∧ p.1.bindable = true)
    (hn : (ps.map (·.1)).Nodup) :
    ∃ sc', checkOccs sc (ps.flatMap fieldOccs) = some sc' ∧
      sc'.lookup (remAt span) = some .rem ∧
      (∀ p ∈ ps, sc'.lookup p.1 = some (.field p.2)) ∧
      (∀ v, v ∉ ps.map (·.1) → sc'.lookup v = sc.lookup v) := by
  induction ps generalizing sc with
  | nil => exact ⟨sc, rfl, hr, by simp, fun _ _ => rfl⟩
  | cons p ps ih =>
    simp only [List.forall_mem_cons] at hp
    obtain ⟨⟨h1, h2, h3⟩, hp⟩ := hp
    simp only [List.map_cons, List.nodup_cons] at hn
    have hr' : List.lookup (remAt span) ((p.1, Kind.field p.2) :: sc) = some .rem := by
      rw [lookup_cons_ne' (Ne.symm h2)]; exact hr
    obtain ⟨sc', h4, h5, h6, h7⟩ := ih ((p.1, .field p.2) :: sc) hr' hp hn.2
    refine ⟨sc', ?_, h5, ?_, ?_⟩
    · rw [List.flatMap_cons, checkOccs_append]
      simp only [fieldOccs, checkOccs, Occ.check, h1, hr, h3, if_true, hr', Option.bind_some, h4]
    · intro q hq
      rcases List.mem_cons.1 hq with rfl | hq
      · rw [h7 _ hn.1, lookup_cons_self']
      · exact h6 q hq
    · intro v hv
      simp only [List.map_cons, List.mem_cons, not_or] at hv
      rw [h7 v hv.2, lookup_cons_ne' hv.1]

theorem fields_check_inv (ps : List (Var σ × Nat)) (span : σ) (sc sc' : Scope σ)
    (hi : ∀ v, (v, Kind.rem) ∈ sc → v = remAt span)
    (h : checkOccs sc (ps.flatMap fieldOccs) = some sc') :
    ∀ p ∈ ps, p.1.ctx = span ∧ p.1 ≠ remAt span ∧ p.1.bindable = true := by
  induction ps generalizing sc with
  | nil => simp
  | cons p ps ih =>
    rw [List.flatMap_cons, checkOccs_append] at h
    simp only [fieldOccs, checkOccs, Occ.check] at h
    by_cases h1 : sc.lookup (remAt p.1.ctx) = some .rem
    · by_cases h2 : p.1.bindable = true
      · by_cases h3 : List.lookup (remAt p.1.ctx) ((p.1, Kind.field p.2) :: sc) = some .rem
        · simp only [h1, h2, h3, if_true, Option.bind_some] at h
          have hc : p.1.ctx = span := by
            have := hi _ (mem_of_lookup h1)
            simpa [remAt] using this
          have hne : p.1 ≠ remAt span := by
            intro e
            have hv : remAt p.1.ctx = p.1 := by rw [hc]; exact e.symm
            rw [hv, lookup_cons_self'] at h3
            cases h3
          simp only [List.forall_mem_cons]
          refine ⟨⟨hc, hne, h2⟩, ih ((p.1, .field p.2) :: sc) ?_ h⟩
          intro v hv
          rcases List.mem_cons.1 hv with hv | hv
          · cases hv
          · exact hi v hv
        · simp [h1, h2, h3] at h
      · simp [h1, h2] at h
    · simp [h1] at h

/-- `struct_from_ordinal` in a scope with `ordinal` only. -/
theorem structFromOrdinal_check (site span : σ) (vars : List (Var σ × Nat))
    (hn : (vars.map (·.1)).Nodup) :
    (checkOccs [(ordinalAt site, .ordinal)]
      (Hygiene.structFromOrdinal [.use (ordinalAt site) .ordinal] vars span)).isSome = true ↔
    ∀ p ∈ vars, p.1.ctx = span ∧ p.1 ≠ remAt span ∧ p.1.bindable = true := by
  have hb : (remAt span).bindable = true := rfl
  have h0 : checkOccs [(ordinalAt site, Kind.ordinal)]
      ([.use (ordinalAt site) .ordinal] ++ [.bind (remAt span) .rem]) =
      some [(remAt span, .rem), (ordinalAt site, .ordinal)] := by
    simp [checkOccs, Occ.check, hb]
  have hu : vars.map (fun p => Occ.use p.1 (.field p.2)) =
      (vars.map fun p => (p.1, Kind.field p.2)).map fun p => Occ.use p.1 p.2 := by simp
  simp only [Hygiene.structFromOrdinal]
  rw [checkOccs_append, checkOccs_append, checkOccs_append, h0, Option.bind_some]
  constructor
  · intro h
    cases hc : checkOccs [(remAt span, Kind.rem), (ordinalAt site, .ordinal)]
        (vars.reverse.flatMap fieldOccs) with
    | none => simp [hc] at h
    | some sc' =>
      have := fields_check_inv vars.reverse span _ sc' (by
        intro v hv
        simpa using hv) hc
      simpa using this
  · intro h
    obtain ⟨sc', h1, h2, h3, -⟩ := fields_check vars.reverse span
      [(remAt span, .rem), (ordinalAt site, .ordinal)] (lookup_cons_self' _ _ _)
      (by simpa using h) (by rw [List.map_reverse]; exact nodup_reverse' hn)
    rw [h1]
    simp only [Option.bind_some, checkOccs, Occ.check, h2, if_true]
    rw [hu, checkOccs_uses, if_pos]
    · rfl
    · intro p hp
      obtain ⟨q, hq, rfl⟩ := List.mem_map.1 hp
      exact h3 q (by simpa using hq)

omit [DecidableEq σ] in
theorem fieldVars_mem (fs : List (SField σ)) (i : Nat) (p : Var σ × Nat) :
    p ∈ Hygiene.fieldVars i fs → ∃ f ∈ fs, p.1 = fieldVar p.2 f ∧ i ≤ p.2 := by
  induction fs generalizing i with
  | nil => simp [Hygiene.fieldVars]
  | cons f fs ih =>
    simp only [Hygiene.fieldVars, List.mem_cons]
    rintro (rfl | h)
    · exact ⟨f, by simp, rfl, Nat.le_refl _⟩
    · obtain ⟨g, hg, h1, h2⟩ := ih (i + 1) h
      exact ⟨g, .inr hg, h1, by omega⟩

omit [DecidableEq σ] in
theorem mem_fieldVars (fs : List (SField σ)) (i : Nat) (f : SField σ) (hf : f ∈ fs) :
    ∃ j, (fieldVar j f, j) ∈ Hygiene.fieldVars i fs := by
  induction fs generalizing i with
  | nil => simp at hf
  | cons g fs ih =>
    rcases List.mem_cons.1 hf with rfl | hf
    · exact ⟨i, by simp [Hygiene.fieldVars]⟩
    · obtain ⟨j, hj⟩ := ih (i + 1) hf
      exact ⟨j, by simp [Hygiene.fieldVars, hj]⟩

omit [DecidableEq σ] in
theorem fieldVar_ctx (i : Nat) (f : SField σ) : (fieldVar i f).ctx = f.ctx := by
  unfold fieldVar
  split <;> rfl

omit [DecidableEq σ] in
theorem fieldVars_nodup' (fs : List (SField σ)) (hd : Distinct fs) (i : Nat) :
    ((Hygiene.fieldVars i fs).map (·.1)).Nodup := by
  induction fs generalizing i with
  | nil => simp [Hygiene.fieldVars]
  | cons f fs ih =>
    have hd' : Distinct fs := by
      simp only [Distinct, List.filterMap_cons] at hd
      split at hd
      · exact hd
      · exact (List.nodup_cons.1 hd).2
    simp only [Hygiene.fieldVars, List.map_cons, List.nodup_cons]
    refine ⟨?_, ih hd' (i + 1)⟩
    intro hm
    obtain ⟨p, hp, he⟩ := List.mem_map.1 hm
    obtain ⟨g, hg, h1, h2⟩ := fieldVars_mem fs (i + 1) p hp
    rw [h1] at he
    cases hgn : g.name with
    | none =>
      cases hfn : f.name with
      | none =>
        simp [fieldVar, hgn, hfn] at he
        omega
      | some s => simp [fieldVar, hgn, hfn] at he
    | some s =>
      cases hfn : f.name with
      | none => simp [fieldVar, hgn, hfn] at he
      | some s' =>
        simp only [fieldVar, hgn, hfn, Var.mk.injEq, Name.id.injEq, Ident.user.injEq] at he
        simp only [Distinct, List.filterMap_cons, hfn, List.nodup_cons] at hd
        exact hd.1 (List.mem_filterMap.2 ⟨g, hg, by rw [hgn, he.1]⟩)

omit [DecidableEq σ] in
theorem fieldVar_ok (i : Nat) (f : SField σ) (span : σ) :
    ((fieldVar i f).ctx = span ∧ fieldVar i f ≠ remAt span ∧ (fieldVar i f).bindable = true) ↔
      f.ctx = span ∧ ∀ s, f.name = some s → s ∉ reservedNames := by
  obtain ⟨n, c⟩ := f
  rw [fieldVar_ctx]
  refine and_congr_right fun hc => ?_
  simp only at hc
  subst hc
  cases n with
  | none => simp [fieldVar, remAt, remVar, Var.bindable, Ident.bindable]
  | some s =>
    simp [fieldVar, remAt, remVar, Var.bindable, Ident.bindable, reservedNames, preludeCtors]

omit [DecidableEq σ] in
theorem fieldVars_all (fs : List (SField σ)) (span : σ) :
    (∀ p ∈ Hygiene.fieldVars 0 fs, p.1.ctx = span ∧ p.1 ≠ remAt span ∧ p.1.bindable = true) ↔
      (∀ f ∈ fs, f.ctx = span) ∧ NamesFree fs := by
  constructor
  · intro h
    have key : ∀ f ∈ fs, f.ctx = span ∧ ∀ s, f.name = some s → s ∉ reservedNames := by
      intro f hf
      obtain ⟨j, hj⟩ := mem_fieldVars fs 0 f hf
      exact (fieldVar_ok j f span).1 (h _ hj)
    exact ⟨fun f hf => (key f hf).1, fun f hf => (key f hf).2⟩
  · rintro ⟨h1, h2⟩ p hp
    obtain ⟨f, hf, e, -⟩ := fieldVars_mem fs 0 p hp
    rw [e]
    exact (fieldVar_ok _ f span).2 ⟨h1 f hf, h2 f hf⟩

theorem checkOccs_binds (sc : Scope σ) (l : List (Var σ × Nat))
    (hb : ∀ p ∈ l, p.1.bindable = true) :
    checkOccs sc (l.map fun p => Occ.bind p.1 (.field p.2)) =
      some ((l.map fun p => (p.1, Kind.field p.2)).reverse ++ sc) := by
  induction l generalizing sc with
  | nil => rfl
  | cons p l ih =>
    simp only [List.forall_mem_cons] at hb
    simp only [List.map_cons, checkOccs, Occ.check, hb.1, if_true]
    rw [ih _ hb.2]
    simp

theorem lookup_reverse (l : List (Var σ × Nat)) (hn : (l.map (·.1)).Nodup) (sc : Scope σ) :
    ∀ p ∈ l, List.lookup p.1 ((l.map fun p => (p.1, Kind.field p.2)).reverse ++ sc) =
      some (.field p.2) := by
  induction l generalizing sc with
  | nil => simp
  | cons q l ih =>
    simp only [List.map_cons, List.nodup_cons] at hn
    intro p hp
    simp only [List.map_cons, List.reverse_cons, List.append_assoc, List.cons_append, List.nil_append]
    rcases List.mem_cons.1 hp with rfl | hp
    · have : ∀ (l : List (Var σ × Nat)) (sc : Scope σ), p.1 ∉ l.map (·.1) →
          List.lookup p.1 ((l.map fun p => (p.1, Kind.field p.2)).reverse ++ sc) =
            List.lookup p.1 sc := by
        intro l
        induction l with
        | nil => simp
        | cons r l ih =>
          intro sc h
          simp only [List.map_cons, List.mem_cons, not_or] at h
          simp only [List.map_cons, List.reverse_cons, List.append_assoc, List.cons_append,
            List.nil_append]
          rw [ih _ h.2, lookup_cons_ne' h.1]
      rw [this l _ hn.1, lookup_cons_self']
    · exact ih hn.2 _ p hp

theorem arm_check (sc : Scope σ) (v : SVariant σ) (hd : Distinct v.fields)
    (hr : NamesFree v.fields) : (checkOccs sc (arm v)).isSome = true := by
  have hb : ∀ p ∈ Hygiene.fieldVars 0 v.fields, p.1.bindable = true := by
    intro p hp
    obtain ⟨f, hf, e, -⟩ := fieldVars_mem v.fields 0 p hp
    rw [e]
    exact ((fieldVar_ok _ f f.ctx).2 ⟨rfl, hr f hf⟩).2.2
  have hu : (Hygiene.fieldVars 0 v.fields).map (fun p => Occ.use p.1 (.field p.2)) =
      ((Hygiene.fieldVars 0 v.fields).map fun p => (p.1, Kind.field p.2)).map
        fun p => Occ.use p.1 p.2 := by simp
  simp only [arm]
  rw [checkOccs_append, checkOccs_binds _ _ hb, Option.bind_some, hu, checkOccs_uses, if_pos]
  · rfl
  · intro p hp
    obtain ⟨q, hq, rfl⟩ := List.mem_map.1 hp
    exact lookup_reverse _ (fieldVars_nodup' v.fields hd 0) _ q hq

/-! ## C73 -/

/-- C73, exact, structs: the expansion resolves its variables iff every field has the context of the
`struct` keyword and of the first token of the item, and no field has a reserved name. -/
theorem C73_exact_struct_partial (site inp kw : σ) (fs : List (SField σ)) (hd : Distinct fs) :
    structResolves site inp kw fs = true ↔
      (∀ f ∈ fs, f.ctx = kw ∧ f.ctx = inp) ∧ NamesFree fs := by
  have h1 : (checkOccs [] (Hygiene.structFrom site kw fs)).isSome = true ↔
      (∀ f ∈ fs, f.ctx = kw) ∧ NamesFree fs := by
    rw [← fieldVars_all, ← structFromOrdinal_check site kw _ (fieldVars_nodup' fs hd 0)]
    rfl
  have h2 : (checkOccs [] (Hygiene.structOrdinal site inp fs)).isSome = true ↔
      ∀ f ∈ fs, f.ctx = inp := by
    have hu : fs.map (fun f => Occ.use (selfAt f.ctx) .self) =
        (fs.map fun f => (selfAt f.ctx, Kind.self)).map fun p => Occ.use p.1 p.2 := by simp
    have h0 : checkOccs ([] : Scope σ) [.bind (selfAt inp) .self,
        .bind ⟨.id (.user "_check_overflow"), site⟩ .unused] =
        some [(⟨.id (.user "_check_overflow"), site⟩, .unused), (selfAt inp, .self)] := rfl
    simp only [Hygiene.structOrdinal]
    rw [checkOccs_append, h0, Option.bind_some, hu, checkOccs_uses]
    have hl : ∀ x : σ, List.lookup (selfAt x) ([(⟨.id (.user "_check_overflow"), site⟩, Kind.unused),
        (selfAt inp, .self)] : Scope σ) = some .self ↔ x = inp := by
      intro x
      rw [lookup_cons_ne' (by simp [selfAt])]
      by_cases e : x = inp
      · subst e; simp
      · rw [lookup_cons_ne' (by simpa [selfAt] using e)]
        simp [e]
    simp only [List.forall_mem_map, hl]
    split <;> simp_all
  simp only [structResolves, Bool.and_eq_true, h1, h2]
  constructor
  · rintro ⟨ha, hb, hc⟩
    exact ⟨fun f hf => ⟨hb f hf, ha f hf⟩, hc⟩
  · rintro ⟨ha, hc⟩
    exact ⟨fun f hf => (ha f hf).2, fun f hf => (ha f hf).1, hc⟩

example := C73_exact_struct_partial 0 1 1 [⟨some "a", 1⟩, ⟨some "b", 0⟩] (by simp [Distinct])

/-- C73, exact, enums: iff (for a non-empty enum) the `enum` keyword has the context of the first token
of the item, every field has the context of its variant, and no field has a reserved name. -/
theorem C73_exact_enum_partial (site inp kw : σ) (vs : List (SVariant σ))
    (hd : ∀ v ∈ vs, Distinct v.fields) :
    enumResolves site inp kw vs = true ↔
      (vs = [] ∨ kw = inp) ∧ ∀ v ∈ vs, (∀ f ∈ v.fields, f.ctx = v.ctx) ∧ NamesFree v.fields := by
  have hf : ∀ v ∈ vs, (checkOccs [(ordinalAt site, Kind.ordinal)] (fromStmt site v)).isSome = true ↔
      (∀ f ∈ v.fields, f.ctx = v.ctx) ∧ NamesFree v.fields := by
    intro v hv
    rw [← fieldVars_all, ← structFromOrdinal_check site v.ctx _ (fieldVars_nodup' v.fields (hd v hv) 0)]
    simp [fromStmt, checkOccs, Occ.check]
  have hs : (checkOccs ([(⟨.id (.user "_check_overflow"), site⟩, Kind.unused), (selfAt inp, .self)] :
      Scope σ) [.use (selfAt kw) .self]).isSome = true ↔ kw = inp := by
    simp only [checkOccs, Occ.check]
    rw [lookup_cons_ne' (by simp [selfAt])]
    by_cases e : kw = inp
    · subst e; simp
    · rw [lookup_cons_ne' (by simpa [selfAt] using e)]
      simp [e]
  have hl : (checkOccs [(ordinalAt site, Kind.ordinal)] [.use (ordinalAt site) .ordinal,
      .bind ⟨.id (.user "_ignore"), kw⟩ .unused]).isSome = true := by
    have hb : (⟨.id (.user "_ignore"), kw⟩ : Var σ).bindable = true := rfl
    simp [checkOccs, Occ.check, hb]
  simp only [enumResolves, Bool.and_eq_true, Bool.or_eq_true, List.isEmpty_iff, List.all_eq_true, hs, hl,
    and_true]
  constructor
  · rintro ⟨⟨h1, -⟩, h3⟩
    exact ⟨h1, fun v hv => (hf v hv).1 (h3 v hv)⟩
  · rintro ⟨h1, h2⟩
    exact ⟨⟨h1, fun v hv => arm_check _ v (hd v hv) (h2 v hv).2⟩, fun v hv => (hf v hv).2 (h2 v hv)⟩

example := C73_exact_enum_partial 1 1 1 [⟨0, []⟩, ⟨0, [⟨none, 0⟩, ⟨none, 1⟩]⟩] (by simp [Distinct])

/-- C73 is false: if the field's name comes from elsewhere than the rest of the struct, as in
`macro_rules! m { ($f:ident) => { #[derive(Ordinal)] struct S { $f: bool } } }`, the derive fails.
Likewise for a variant. -/
theorem C73_false (site m u : σ) (h : m ≠ u) (s : String) :
    structResolves site m m [⟨some s, u⟩] = false ∧
    enumResolves site m m [⟨m, [⟨some s, u⟩]⟩] = false := by
  constructor
  · have := mt (C73_exact_struct_partial site m m [⟨some s, u⟩] (by simp [Distinct])).1 (by
      simp only [List.mem_singleton, forall_eq]
      exact fun hh => h hh.1.1.symm)
    simpa using this
  · have := mt (C73_exact_enum_partial site m m [⟨m, [⟨some s, u⟩]⟩] (by simp [Distinct])).1 (by
      simp only [List.mem_singleton, forall_eq]
      exact fun hh => h (hh.2.1).symm)
    simpa using this

example := C73_false 0 1 2 (by decide) "a"

/-- The part that holds: whatever the context of the derive itself, if the item comes from one place
and no field has a reserved name, the expansion resolves. -/
theorem C73_one_context_partial (site u : σ) (fs : List (SField σ)) (hd : Distinct fs)
    (hr : NamesFree fs) (hc : ∀ f ∈ fs, f.ctx = u) : structResolves site u u fs = true :=
  (C73_exact_struct_partial site u u fs hd).2 ⟨fun f hf => ⟨hc f hf, hc f hf⟩, hr⟩

example := C73_one_context_partial 0 1 [⟨some "a", 1⟩, ⟨some "ordinal", 1⟩] (by simp [Distinct])
  (by simp [NamesFree, reservedNames]) (by simp)

/-- Field-less enums work wherever the names of the variants come from. -/
theorem C73_unit_variants (site m : σ) (ctxs : List σ) :
    enumResolves site m m (ctxs.map fun u => ⟨u, []⟩) = true := by
  rw [C73_exact_enum_partial]
  · exact ⟨.inr rfl, by simp [NamesFree]⟩
  · simp [Distinct]

example := C73_unit_variants 0 1 [2, 1, 3]

end

/-! ## Agreement with Model/Derive.lean -/

/-- The fields of `fs`, all from one place. -/
def plain {ι : Type} : Fields ι → List (SField Unit)
  | .unit => []
  | .unnamed tys => tys.map fun _ => ⟨none, ()⟩
  | .named ns => ns.map fun n => ⟨some n.1, ()⟩

theorem plain_distinct {ι : Type} (fs : Fields ι) (hw : fs.WF) : Distinct (plain fs) := by
  match fs with
  | .unit => simp [plain, Distinct]
  | .unnamed tys =>
    have : (tys.map fun _ => (⟨none, ()⟩ : SField Unit)).filterMap (·.name) = [] := by
      simp [List.filterMap_map, List.filterMap_eq_nil_iff]
    simp [plain, Distinct, this]
  | .named ns =>
    have : (ns.map fun n => (⟨some n.1, ()⟩ : SField Unit)).filterMap (·.name) = ns.map (·.1) := by
      rw [List.filterMap_map]
      induction ns with
      | nil => rfl
      | cons n ns ih => simp [ih (List.nodup_cons.1 hw).2]
    simp only [plain, Distinct, this]
    exact hw

theorem plain_free {ι : Type} (fs : Fields ι) : NamesFree (plain fs) ↔ ¬ HasReserved fs := by
  match fs with
  | .unit => simp [plain, NamesFree, HasReserved, HasField]
  | .unnamed tys => simp [plain, NamesFree, HasReserved, HasField]
  | .named ns =>
    simp only [plain, NamesFree, HasReserved, HasField, List.forall_mem_map, Option.some.injEq]
    constructor
    · rintro h ⟨s, hs, f, hf, e⟩
      exact h f hf s e hs
    · intro h f hf s e hs
      exact h ⟨s, hs, f, hf, e⟩

/-- For items written in one place, resolution with contexts and the check of Model/Derive.lean accept
the same structs. -/
theorem C73_agrees_struct {ι : Type} [DecidableEq ι] (fs : Fields ι) (hw : fs.WF) :
    ∃ g, genStruct fs = .ok g ∧ structResolves () () () (plain fs) = g.check fs := by
  obtain ⟨g, hg, hc⟩ := C10_exact_struct_partial fs hw
  refine ⟨g, hg, ?_⟩
  rw [Bool.eq_iff_iff, C73_exact_struct_partial _ _ _ _ (plain_distinct fs hw), hc, plain_free]
  simp

example := C73_agrees_struct (.named [("x", true), ("rem", false)]) (by simp [Fields.WF])

/-- The same for enums. -/
theorem C73_agrees_enum {ι : Type} [DecidableEq ι] (vs : List (Fields ι)) (hw : ∀ v ∈ vs, v.WF)
    (h64 : vs.length < 2 ^ 64) :
    ∃ g, genEnum vs = .ok g ∧
      enumResolves () () () (vs.map fun v => ⟨(), plain v⟩) = g.check vs := by
  obtain ⟨g, hg, hc⟩ := C10_exact_enum_partial vs hw h64
  refine ⟨g, hg, ?_⟩
  rw [Bool.eq_iff_iff, C73_exact_enum_partial, hc]
  · simp [plain_free]
  · intro v hv
    obtain ⟨w, hw', rfl⟩ := List.mem_map.1 hv
    exact plain_distinct w (hw w hw')

example := C73_agrees_enum [.unit, .named [("x", true), ("rem", false)], .unnamed [true, true]]
  (by simp [Fields.WF]) (by decide)

/-! ## Examples -/

/-- A struct `{ a, ordinal }` and an enum with a unit, a tuple and a record variant, contexts 0
(the user's file) and 1 (a macro body). -/
example :
    structResolves 0 0 0 [⟨some "a", 0⟩, ⟨some "ordinal", 0⟩] = true ∧
    structResolves 0 1 1 [⟨some "a", 0⟩] = false ∧
    structResolves 0 1 1 [⟨some "a", 1⟩, ⟨some "b", 0⟩] = false ∧
    structResolves 0 1 1 [] = true ∧
    enumResolves 1 1 1 [⟨0, []⟩, ⟨0, [⟨none, 0⟩, ⟨none, 0⟩]⟩, ⟨1, [⟨some "x", 1⟩]⟩] = true ∧
    enumResolves 1 1 1 [⟨0, []⟩, ⟨0, [⟨none, 0⟩, ⟨none, 1⟩]⟩] = false ∧
    enumResolves 1 0 1 [⟨0, []⟩] = false ∧
    enumResolves 1 0 1 [] = true := by decide

end OrdinalMap.Props
