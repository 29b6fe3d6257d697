import Verif.Lemmas.DeriveFrom
/-!
# Derived structs and tuples
-/

namespace OrdinalMap.Derive
open OrdinalMap SizeExpr

variable {ι : Type} [DecidableEq ι] {c : Cfg} {Ty : Types ι} {sz : ι → Nat}

theorem toImpl_spec (L : ∀ t, Lawful c (Ty.impl t) (sz t)) (g : GenStruct ι) (fs : Fields ι)
    (vars : List Ident) (b : Build) (n : Nat)
    (hs : g.size = prodExpr (fieldTypes fs))
    (ho : prodSz sz (fieldTypes fs) < c.M → ∀ l : List Ty.Val, l.map Sigma.fst = fieldTypes fs →
      g.ordinal.eval c Ty (selfRefs Ty fs l) [] .runtime = .ok (enc sz l))
    (hf : g.fromOrdinal = fromBlock (.var ordinalVar) vars (fieldTypes fs) b)
    (hl : vars.length = (fieldTypes fs).length) (hx : remVar ∉ vars) (hn : vars.Nodup)
    (hb : ∀ (env' : Env Ty) (l : List Ty.Val), l.map Sigma.fst = fieldTypes fs →
      (∀ p ∈ vars.zip l, env'.lookup p.1 = some (.field p.2)) → b.eval Ty env' fs = .ok l)
    (hsz : (g.toImpl c Ty fs).size = .ok n) :
    n = prodSz sz (fieldTypes fs) ∧ Lawful c (g.toImpl c Ty fs) n ∧
      Strict c (g.toImpl c Ty fs) n ∧ ∀ v, (g.toImpl c Ty fs).ordinal v = .ok (enc sz v.1) := by
  have hsz' : (prodExpr (fieldTypes fs)).eval c Ty [] [] .const = .ok n := by
    rw [← hs]; exact hsz
  have hn' : n = prodSz sz (fieldTypes fs) := by
    rcases approx_prodExpr L ([] : RefEnv Ty) [] (fieldTypes fs) with h | h
    · rw [h] at hsz'; injection hsz' with h; exact h.symm
    · rw [h] at hsz'; cases hsz'
  have hM : n < c.M := (eval_const_any [] [] .const
    (fun t m h => by have := (L t).size; rw [h] at this; injection this with e; rw [e]; exact (L t).fits)
    hsz').2
  subst hn'
  have hord : ∀ v, (g.toImpl c Ty fs).ordinal v = .ok (enc sz v.1) := by
    intro v
    simp only [GenStruct.toImpl, hs, hsz', ok_bind]
    exact ho hM v.1 v.2
  have hfrom : ∀ i, 0 < prodSz sz (fieldTypes fs) →
      (prodSz sz (fieldTypes fs) ≤ i → (g.toImpl c Ty fs).fromOrdinal i = .ok none) ∧
      (i < prodSz sz (fieldTypes fs) → ∃ v, enc sz v.1 = i ∧
        (g.toImpl c Ty fs).fromOrdinal i = .ok (some v)) := by
    intro i hp
    obtain ⟨h1, h2⟩ := block_exec L fs (.var ordinalVar) b vars [(ordinalVar, .num i)] i
      (by simp [Expr.eval]) hl hx hn hp hb
    have hne : prodSz sz (fieldTypes fs) ≠ 0 := by omega
    constructor
    · intro hge
      simp [GenStruct.toImpl, hs, hsz', hne, hf, h1 hge]
    · intro hlt
      obtain ⟨l, hl1, hl2, hl3⟩ := h2 hlt
      refine ⟨⟨l, hl1⟩, hl2, ?_⟩
      simp [GenStruct.toImpl, hs, hsz', hne, hf, hl3, hl1]
  have hlt : ∀ v : FieldVals Ty (fieldTypes fs), enc sz v.1 < prodSz sz (fieldTypes fs) := by
    intro v
    have := enc_lt L v.1
    rwa [v.2] at this
  refine ⟨rfl, ⟨hsz, hM, ?_, ?_⟩, ?_, hord⟩
  · intro v
    refine ⟨enc sz v.1, hlt v, hord v, ?_⟩
    obtain ⟨w, hw1, hw2⟩ := (hfrom (enc sz v.1) (by have := hlt v; omega)).2 (hlt v)
    rw [hw2]
    have : w = v := Subtype.ext (enc_inj L _ _ (by rw [w.2, v.2]) hw1)
    rw [this]
  · intro i hi
    obtain ⟨w, hw1, hw2⟩ := (hfrom i (by omega)).2 hi
    exact ⟨w, hw2, by rw [hord, hw1]⟩
  · intro i hi _
    by_cases hp : 0 < prodSz sz (fieldTypes fs)
    · exact (hfrom i hp).1 hi
    · have : prodSz sz (fieldTypes fs) = 0 := by omega
      simp [GenStruct.toImpl, hs, hsz', this]

/-- Bindings of `&self.x`. -/
theorem selfRefs_eq (fs : Fields ι) (l : List Ty.Val) (ht : l.map Sigma.fst = fieldTypes fs) :
    selfRefs Ty fs l = (fieldRefExprs fs).zip l := by
  have hlen := congrArg List.length ht
  match fs with
  | .unit => simp [selfRefs, fieldRefExprs]
  | .unnamed tys =>
    simp [fieldTypes] at hlen
    simp [selfRefs, fieldRefExprs, hlen]
  | .named ns => simp [selfRefs, fieldRefExprs]

/-- The `ordinal()` expression: it exists, type-checks, and computes the mixed-radix number. -/
theorem ordinal_expr_spec (L : ∀ t, Lawful c (Ty.impl t) (sz t)) (fs : Fields ι) (hw : fs.WF) :
    ∃ e x, structOrdinal (fieldRefExprs fs) (fieldTypes fs) = .ok e ∧ e.expr = .ok x ∧
      x.check (fieldRefExprs fs) [] = true ∧
      (prodSz sz (fieldTypes fs) < c.M → ∀ l : List Ty.Val, l.map Sigma.fst = fieldTypes fs →
        x.eval c Ty (selfRefs Ty fs l) [] .runtime = .ok (enc sz l)) := by
  obtain ⟨e, h1, h2⟩ := good_structOrdinal_check (fieldRefExprs fs) [] (fieldRefExprs fs)
    (fieldTypes fs) (fieldRefExprs_length fs) (fun _ h => h)
  obtain ⟨x, h3, h4⟩ := h2.ev
  refine ⟨e, x, h1, h3, h4, ?_⟩
  intro hM l hl
  have hlen : (fieldRefExprs fs).length = l.length := by
    rw [fieldRefExprs_length, ← hl, List.length_map]
  obtain ⟨e', h5, h6⟩ := good_structOrdinal L (selfRefs Ty fs l) [] (fieldRefExprs fs) l hlen
    (by rw [selfRefs_eq fs l hl]; exact lookup_zip _ _ (fieldRefs_nodup fs hw)) (by rw [hl]; exact hM)
  rw [hl, h1] at h5
  cases h5
  obtain ⟨x', h7, h8⟩ := h6.ev
  rw [h3] at h7
  cases h7
  exact h8

theorem genStruct_ok (fs : Fields ι) : ∃ x e, structOrdinal (fieldRefExprs fs) (fieldTypes fs) = .ok e ∧
    e.expr = .ok x ∧ x.check (fieldRefExprs fs) [] = true ∧
    genStruct fs = .ok ⟨prodExpr (fieldTypes fs), x,
      fromBlock (.var ordinalVar) (fieldVars fs) (fieldTypes fs) (structBuild fs)⟩ := by
  obtain ⟨e, h1, h2⟩ := good_structOrdinal_check (fieldRefExprs fs) [] (fieldRefExprs fs)
    (fieldTypes fs) (fieldRefExprs_length fs) (fun _ h => h)
  obtain ⟨x, h3, h4⟩ := h2.ev
  exact ⟨x, e, h1, h3, h4, by
    simp [genStruct, structOrdinalSize_eq, expr_prod, h1, h3, structFromOrdinal_eq]⟩

/-- Does the generated impl pass the static check: exactly when no field name clashes. -/
theorem struct_check (fs : Fields ι) (hw : fs.WF) (g : GenStruct ι) (hg : genStruct fs = .ok g) :
    g.check fs = true ↔ NoClash fs := by
  obtain ⟨x, e, -, -, h4, h⟩ := genStruct_ok fs
  rw [h] at hg
  cases hg
  constructor
  · intro hc
    apply Classical.byContradiction
    intro hr
    have := block_check_clash fs (.var ordinalVar) (structBuild fs) (fieldVars fs) paramCtx
      (fieldVars_length fs) (not_noClash hr)
    simp [GenStruct.check, this] at hc
  · intro hr
    have := block_check fs (.var ordinalVar) (structBuild fs) (fieldVars fs) paramCtx
      (by simp [Expr.check, paramCtx])
      (fieldVars_length fs) hr.rem hr.bindable (fieldVars_nodup fs hw) (fun ctx' h => structBuild_check fs hw ctx' h)
    simp [GenStruct.check, check_prodExpr, h4, this]

theorem struct_spec (L : ∀ t, Lawful c (Ty.impl t) (sz t)) (fs : Fields ι) (hw : fs.WF)
    (hr : NoClash fs) (n : Nat) (hsz : (structImpl c Ty fs).size = .ok n) :
    n = prodSz sz (fieldTypes fs) ∧ Lawful c (structImpl c Ty fs) n ∧
      Strict c (structImpl c Ty fs) n ∧ ∀ v, (structImpl c Ty fs).ordinal v = .ok (enc sz v.1) := by
  obtain ⟨x, e, h1, h2, -, hg⟩ := genStruct_ok fs
  have hc := (struct_check fs hw _ hg).2 hr
  obtain ⟨e', x', h1', h2', -, ho⟩ := ordinal_expr_spec L fs hw
  rw [h1] at h1'; cases h1'
  rw [h2] at h2'; cases h2'
  have hi : structImpl c Ty fs = GenStruct.toImpl c Ty ⟨prodExpr (fieldTypes fs), x,
      fromBlock (.var ordinalVar) (fieldVars fs) (fieldTypes fs) (structBuild fs)⟩ fs := by
    simp only [structImpl, hg, hc, if_true]
  rw [hi] at hsz ⊢
  exact toImpl_spec L _ fs (fieldVars fs) (structBuild fs) n rfl ho rfl (fieldVars_length fs)
    hr.rem (fieldVars_nodup fs hw)
    (fun env' l ht h => structBuild_eval env' fs hw l ht h) hsz

/-- Size of a derived struct: the product, or a compile error. -/
theorem struct_size (L : ∀ t, Lawful c (Ty.impl t) (sz t)) (fs : Fields ι) (hw : fs.WF)
    (hr : NoClash fs) :
    Approx (structImpl c Ty fs).size (prodSz sz (fieldTypes fs)) ∧
    ((∀ t ∈ fieldTypes fs, 0 < sz t) → prodSz sz (fieldTypes fs) < c.M →
      (structImpl c Ty fs).size = .ok (prodSz sz (fieldTypes fs))) ∧
    (∀ e, (structImpl c Ty fs).size = .error e →
      (∀ v, (structImpl c Ty fs).ordinal v = .error e) ∧
      (∀ i, (structImpl c Ty fs).fromOrdinal i = .error e)) := by
  obtain ⟨x, e, h1, h2, -, hg⟩ := genStruct_ok fs
  have hc := (struct_check fs hw _ hg).2 hr
  have hi : structImpl c Ty fs = GenStruct.toImpl c Ty ⟨prodExpr (fieldTypes fs), x,
      fromBlock (.var ordinalVar) (fieldVars fs) (fieldTypes fs) (structBuild fs)⟩ fs := by
    simp only [structImpl, hg, hc, if_true]
  rw [hi]
  refine ⟨approx_prodExpr L _ _ _, fun h h' => eval_prodExpr L _ _ _ _ h h', ?_⟩
  intro e he
  simp only [GenStruct.toImpl] at he ⊢
  simp [he]

/-! ## Tuples -/

theorem tupleVars_ok : ∀ n, n ≤ 16 → (tupleVars n).Nodup ∧ remVar ∉ tupleVars n ∧
    ∀ x ∈ tupleVars n, x.bindable = true := by
  have h : ∀ n : Fin 17, (tupleVars n.1).Nodup ∧ remVar ∉ tupleVars n.1 ∧
      ∀ x ∈ tupleVars n.1, x.bindable = true := by decide
  intro n hn
  exact h ⟨n, by omega⟩

theorem tupleVars_length (n : Nat) : (tupleVars n).length = n := by simp [tupleVars]

/-- The generated tuple impl. -/
theorem genTuple_ok (tys : List ι) :
    ∃ x e, structOrdinal (fieldRefExprs (.unnamed tys)) tys = .ok e ∧
    e.expr = .ok x ∧ x.check (fieldRefExprs (.unnamed tys)) [] = true ∧
    genTuple tys = .ok ⟨prodExpr tys, x,
      fromBlock (.var ordinalVar) (tupleVars tys.length) tys (.positional (tupleVars tys.length))⟩ := by
  obtain ⟨x, e, h1, h2, h3, -⟩ := genStruct_ok (.unnamed tys)
  refine ⟨x, e, h1, h2, h3, ?_⟩
  have h1' : structOrdinal ((List.range tys.length).map Ref.selfIdx) tys = .ok e := h1
  simp [genTuple, structOrdinalSize_eq, expr_prod, h1', h2, structFromOrdinal_eq]

theorem positional_eval (env : Env Ty) (xs : List Ident) (tys : List ι) (l : List Ty.Val)
    (ht : l.map Sigma.fst = tys) (hl : xs.length = tys.length)
    (h : ∀ p ∈ xs.zip l, env.lookup p.1 = some (.field p.2)) :
    (Build.positional xs).eval Ty env (.unnamed tys) = .ok l := by
  subst ht
  simp only [Build.eval, hl, if_true]
  exact readVars_zip env xs l h (by simpa using hl)

theorem tuple_impl_eq (tys : List ι) (h16 : tys.length ≤ 16) :
    ∃ x, (∃ e, structOrdinal (fieldRefExprs (.unnamed tys)) tys = .ok e ∧ e.expr = .ok x) ∧
      tupleImpl c Ty tys = GenStruct.toImpl c Ty ⟨prodExpr tys, x,
        fromBlock (.var ordinalVar) (tupleVars tys.length) tys
          (.positional (tupleVars tys.length))⟩ (.unnamed tys) := by
  obtain ⟨x, e, h1, h2, h3, hg⟩ := genTuple_ok tys
  refine ⟨x, ⟨e, h1, h2⟩, ?_⟩
  obtain ⟨hn, hx, hv⟩ := tupleVars_ok tys.length h16
  have hb := block_check (.unnamed tys) (.var ordinalVar) (.positional (tupleVars tys.length))
      (tupleVars tys.length) paramCtx (by simp [Expr.check, paramCtx])
      (by simp [tupleVars, fieldTypes]) hx hv hn (by
        intro ctx' h
        simp only [Build.check, tupleVars_length, beq_self_eq_true, Bool.true_and, List.all_eq_true]
        intro p hp
        exact hasTy_of (h p hp))
  simp only [fieldTypes] at hb
  simp only [tupleImpl, h16, if_true, hg]
  simp [GenStruct.check, check_prodExpr, h3, hb]
  rfl

theorem tuple_spec (L : ∀ t, Lawful c (Ty.impl t) (sz t)) (tys : List ι) (h16 : tys.length ≤ 16)
    (n : Nat) (hsz : (tupleImpl c Ty tys).size = .ok n) :
    n = prodSz sz tys ∧ Lawful c (tupleImpl c Ty tys) n ∧
      Strict c (tupleImpl c Ty tys) n ∧ ∀ v, (tupleImpl c Ty tys).ordinal v = .ok (enc sz v.1) := by
  obtain ⟨x, ⟨e, h1, h2⟩, hi⟩ := tuple_impl_eq (c := c) (Ty := Ty) tys h16
  obtain ⟨e', x', h1', h2', -, ho⟩ := ordinal_expr_spec L (.unnamed tys) trivial
  obtain ⟨hn, hx, -⟩ := tupleVars_ok tys.length h16
  rw [show fieldTypes (.unnamed tys) = tys from rfl, h1] at h1'; cases h1'
  rw [h2] at h2'; cases h2'
  rw [hi] at hsz ⊢
  exact toImpl_spec L _ (.unnamed tys) (tupleVars tys.length) _ n rfl ho rfl
    (by simp [tupleVars, fieldTypes]) hx hn
    (fun env' l ht h => positional_eval env' _ _ l ht (by simp [tupleVars, fieldTypes]) h) hsz

theorem tuple_size (L : ∀ t, Lawful c (Ty.impl t) (sz t)) (tys : List ι) (h16 : tys.length ≤ 16) :
    Approx (tupleImpl c Ty tys).size (prodSz sz tys) ∧
    ((∀ t ∈ tys, 0 < sz t) → prodSz sz tys < c.M →
      (tupleImpl c Ty tys).size = .ok (prodSz sz tys)) ∧
    (∀ e, (tupleImpl c Ty tys).size = .error e →
      (∀ v, (tupleImpl c Ty tys).ordinal v = .error e) ∧
      (∀ i, (tupleImpl c Ty tys).fromOrdinal i = .error e)) := by
  obtain ⟨x, -, hi⟩ := tuple_impl_eq (c := c) (Ty := Ty) tys h16
  rw [hi]
  refine ⟨approx_prodExpr L _ _ _, fun h h' => eval_prodExpr L _ _ _ _ h h', ?_⟩
  intro e he
  simp only [GenStruct.toImpl] at he ⊢
  simp [he]
  rfl

end OrdinalMap.Derive
