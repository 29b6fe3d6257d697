import Verif.Lemmas.DeriveEnum
import Verif.Model.Names
/-!
# Generated code in an arbitrary scope
-/

namespace OrdinalMap.Derive.Names
open OrdinalMap OrdinalMap.Derive

variable {ι : Type}

/-- A field variable the scope accepts: a binding, or a path that covers the field type. -/
def FieldOk (sc : Scope ι) (f : Ident × ι) : Prop :=
  f.1 ≠ remVar ∧ (sc.pat f.1 = .fresh ∨ ∃ cov, sc.pat f.1 = .path cov ∧ cov f.2 = true)

/-- Every variable in scope binds. -/
def Inv (sc : Scope ι) (ctx : Ctx ι) : Prop := ∀ p ∈ ctx, sc.pat p.1 = .fresh

theorem binds_iff (sc : Scope ι) (x : Ident) : sc.binds x = true ↔ sc.pat x = .fresh := by
  simp only [Scope.binds]
  cases sc.pat x <;> simp

theorem mem_of_lookup {κ β : Type} [BEq κ] [LawfulBEq κ] {k : κ} {v : β} {l : List (κ × β)}
    (h : l.lookup k = some v) : (k, v) ∈ l := by
  induction l with
  | nil => cases h
  | cons p l ih =>
    obtain ⟨k', v'⟩ := p
    by_cases e : k = k'
    · subst e
      rw [lookup_self] at h
      cases h
      exact List.mem_cons_self
    · rw [lookup_ne e] at h
      exact List.mem_cons_of_mem _ (ih h)

theorem checkStmtsIn_append (sc : Scope ι) (ctx : Ctx ι) (a b : List (Stmt ι)) :
    checkStmtsIn sc ctx (a ++ b) =
      (checkStmtsIn sc ctx a).bind fun ctx' => checkStmtsIn sc ctx' b := by
  induction a generalizing ctx with
  | nil => simp [checkStmtsIn]
  | cons s a ih =>
    simp only [List.cons_append, checkStmtsIn]
    cases checkStmtIn sc ctx s <;> simp [ih]

/-- The scope after the statements of one accepted field. -/
def pushField (sc : Scope ι) (f : Ident × ι) (ctx : Ctx ι) : Ctx ι :=
  match sc.pat f.1 with
  | .fresh => (f.1, .field f.2) :: ctx
  | _ => ctx

theorem field_ok (sc : Scope ι) (f : Ident × ι) (ctx : Ctx ι)
    (hr : ctx.lookup remVar = some (.usize true)) (h : FieldOk sc f) :
    checkStmtsIn sc ctx (fieldStmts' f) = some (pushField sc f ctx) ∧
      (pushField sc f ctx).lookup remVar = some (.usize true) := by
  obtain ⟨hx, hp⟩ := h
  rcases hp with hp | ⟨cov, hp, hc⟩
  · constructor
    · simp [fieldStmts', checkStmtsIn, checkStmtIn, Expr.check, hr, hp, pushField, Stmt.check,
        lookup_ne (Ne.symm hx)]
    · simp [pushField, hp, lookup_ne (Ne.symm hx), hr]
  · constructor
    · simp [fieldStmts', checkStmtsIn, checkStmtIn, Expr.check, hr, hp, pushField, Stmt.check, hc]
    · simp [pushField, hp, hr]

theorem field_bad (sc : Scope ι) (f : Ident × ι) (ctx : Ctx ι) (hrem : sc.pat remVar = .fresh)
    (h : ¬ FieldOk sc f) : checkStmtsIn sc ctx (fieldStmts' f) = none := by
  obtain ⟨x, t⟩ := f
  simp only [fieldStmts', checkStmtsIn, checkStmtIn]
  split
  · rfl
  · rename_i ctx' h'
    split at h'
    · split at h'
      · cases h'
        rename_i hp
        by_cases e : x = remVar
        · subst e
          simp [Stmt.check, List.lookup]
        · exact absurd ⟨e, .inl hp⟩ h
      · rename_i cov hp
        split at h'
        · rename_i hc
          refine absurd ⟨?_, .inr ⟨cov, hp, hc⟩⟩ h
          rintro rfl
          rw [hrem] at hp
          cases hp
        · cases h'
      · cases h'
    · cases h'

theorem fields_ok [DecidableEq ι] (sc : Scope ι) (fs : List (Ident × ι)) (ctx : Ctx ι)
    (hr : ctx.lookup remVar = some (.usize true)) (hi : Inv sc ctx)
    (hn : (fs.map (·.1)).Nodup) (h : ∀ f ∈ fs, FieldOk sc f) :
    ∃ ctx', checkStmtsIn sc ctx (fs.flatMap fieldStmts') = some ctx' ∧
      ctx'.lookup remVar = some (.usize true) ∧ Inv sc ctx' ∧
      (∀ f ∈ fs, hasTyIn sc ctx' f.1 f.2 = true) ∧
      (∀ y, y ∉ fs.map (·.1) → ctx'.lookup y = ctx.lookup y) := by
  induction fs generalizing ctx with
  | nil => exact ⟨ctx, rfl, hr, hi, by simp, fun _ _ => rfl⟩
  | cons f fs ih =>
    simp only [List.map_cons, List.nodup_cons] at hn
    obtain ⟨h1, h2⟩ := field_ok sc f ctx hr (h f (by simp))
    have hi' : Inv sc (pushField sc f ctx) := by
      simp only [pushField]
      split
      · rename_i hp
        intro p hp'
        rcases List.mem_cons.1 hp' with rfl | hp'
        · exact hp
        · exact hi p hp'
      · exact hi
    obtain ⟨ctx', h3, h4, h5, h6, h7⟩ := ih (pushField sc f ctx) h2 hi' hn.2
      (fun f hf => h f (by simp [hf]))
    refine ⟨ctx', by rw [List.flatMap_cons, checkStmtsIn_append, h1]; exact h3, h4, h5, ?_, ?_⟩
    · intro g hg
      rcases List.mem_cons.1 hg with rfl | hg
      · obtain ⟨-, hp | ⟨cov, hp, hc⟩⟩ := h g (by simp)
        · have : ctx'.lookup g.1 = some (.field g.2) := by
            rw [h7 _ hn.1]
            simp [pushField, hp]
          simp [hasTyIn, this]
        · have : ctx'.lookup g.1 = none := by
            cases hl : ctx'.lookup g.1 with
            | none => rfl
            | some v =>
              have := h5 _ (mem_of_lookup hl)
              simp only at this
              rw [hp] at this
              cases this
          simp [hasTyIn, this, hp, hc]
      · exact h6 g hg
    · intro y hy
      simp only [List.map_cons, List.mem_cons, not_or] at hy
      rw [h7 y hy.2]
      simp only [pushField]
      split
      · exact lookup_ne hy.1 _ _
      · rfl

theorem fields_bad (sc : Scope ι) (fs : List (Ident × ι)) (ctx : Ctx ι)
    (hrem : sc.pat remVar = .fresh) (h : ∃ f ∈ fs, ¬ FieldOk sc f) :
    checkStmtsIn sc ctx (fs.flatMap fieldStmts') = none := by
  induction fs generalizing ctx with
  | nil => simp at h
  | cons f fs ih =>
    rw [List.flatMap_cons, checkStmtsIn_append]
    by_cases hf : FieldOk sc f
    · have hx : ∃ f ∈ fs, ¬ FieldOk sc f := by
        obtain ⟨g, hg, hgb⟩ := h
        rcases List.mem_cons.1 hg with rfl | hg
        · exact absurd hf hgb
        · exact ⟨g, hg, hgb⟩
      cases checkStmtsIn sc ctx (fieldStmts' f) with
      | none => rfl
      | some ctx' => simpa using ih ctx' hx
    · rw [field_bad sc f ctx hrem hf]
      rfl

theorem structBuild_in [DecidableEq ι] (sc : Scope ι) (fs : Fields ι) (hw : fs.WF) (ctx : Ctx ι)
    (h : ∀ p ∈ (fieldVars fs).zip (fieldTypes fs), hasTyIn sc ctx p.1 p.2 = true) :
    buildIn sc ctx fs (structBuild fs) = true := by
  match fs with
  | .unit => rfl
  | .unnamed tys =>
    simp only [structBuild, buildIn, fieldVars, List.length_map, List.length_range, beq_self_eq_true,
      Bool.true_and, List.all_eq_true]
    exact h
  | .named ns =>
    simp only [Fields.WF] at hw
    simp only [structBuild, buildIn, fieldVars]
    have h1 : ((ns.map (·.1)).zip (ns.map fun f => Ident.user f.1)).map (·.1) = ns.map (·.1) :=
      List.map_fst_zip (by simp)
    rw [h1, eraseDups_of_nodup _ hw]
    simp only [List.length_zip, List.length_map, Nat.min_self, beq_self_eq_true, Bool.and_self,
      Bool.true_and, List.all_eq_true]
    intro f hf
    have : List.lookup f.1 ((ns.map (·.1)).zip (ns.map fun f => Ident.user f.1)) =
        some (Ident.user f.1) := by
      refine lookup_zip _ _ hw (f.1, Ident.user f.1) ?_
      rw [List.zip_map']
      exact List.mem_map.2 ⟨f, hf, rfl⟩
    rw [this]
    refine h (Ident.user f.1, f.2) ?_
    simp only [fieldVars, fieldTypes]
    rw [List.zip_map']
    exact List.mem_map.2 ⟨f, hf, rfl⟩

/-- `None` still means `Option::None` when only binding names are in scope. -/
theorem bareNone_inv (sc : Scope ι) (ctx : Ctx ι) (hi : Inv sc ctx) :
    sc.bareNone ctx = true ↔ ∃ cov, sc.value "None" = some (.none cov) := by
  simp only [Scope.bareNone]
  constructor
  · intro h
    split at h
    · rename_i cov _ h'
      exact ⟨_, h'⟩
    · cases h
  · rintro ⟨cov, h⟩
    cases hl : ctx.lookup (.user "None") with
    | none => simp [h]
    | some v =>
      have := hi _ (mem_of_lookup hl)
      simp [Scope.pat, text, h] at this

/-- The generated block, in a scope where the parameter binds. -/
theorem block_in [DecidableEq ι] (sc : Scope ι) (fs : Fields ι) (hw : fs.WF) (e : Expr ι)
    (he : e.check [] paramCtx = true) (ho : sc.pat ordinalVar = .fresh)
    (hN : ∃ cov, sc.value "None" = some (.none cov)) :
    blockIn sc paramCtx fs (fromBlock e (fieldVars fs) (fieldTypes fs) (structBuild fs)) = true ↔
      sc.pat remVar = .fresh ∧ ∀ f ∈ (fieldVars fs).zip (fieldTypes fs), FieldOk sc f := by
  have hl := fieldVars_length fs
  have hm1 : (((fieldVars fs).zip (fieldTypes fs)).reverse).map (·.1) = (fieldVars fs).reverse := by
    rw [List.map_reverse, List.map_fst_zip (by omega)]
  by_cases hrem : sc.pat remVar = .fresh
  · have hb : sc.binds remVar = true := (binds_iff sc _).2 hrem
    by_cases hf : ∀ f ∈ (fieldVars fs).zip (fieldTypes fs), FieldOk sc f
    · have hi : Inv sc ((remVar, .usize true) :: paramCtx (ι := ι)) := by
        intro p hp
        simp only [paramCtx, List.mem_cons, List.not_mem_nil, or_false] at hp
        rcases hp with rfl | rfl
        · exact hrem
        · exact ho
      obtain ⟨ctx', h1, h2, h3, h4, -⟩ := fields_ok sc ((fieldVars fs).zip (fieldTypes fs)).reverse
        ((remVar, .usize true) :: paramCtx) (lookup_self _ _ _) hi
        (by rw [hm1]; exact nodup_reverse' (fieldVars_nodup fs hw))
        (fun f hf' => hf f (List.mem_reverse.1 hf'))
      have hN' := (bareNone_inv sc ctx' h3).2 hN
      simp only [blockIn, fromBlock, checkStmtsIn, checkStmtIn, hb, he, Bool.and_self, if_true]
      rw [checkStmtsIn_append, h1]
      simp only [Option.bind_some, checkStmtsIn, checkStmtIn, Stmt.check, h2, hN', if_true]
      simp only [hrem, true_and]
      refine ⟨fun _ => hf, fun _ => structBuild_in sc fs hw ctx' fun p hp => h4 p (List.mem_reverse.2 hp)⟩
    · have hbad : ∃ f ∈ ((fieldVars fs).zip (fieldTypes fs)).reverse, ¬ FieldOk sc f := by
        apply Classical.byContradiction
        intro hn
        refine hf fun f hm => ?_
        apply Classical.byContradiction
        intro hb'
        exact hn ⟨f, List.mem_reverse.2 hm, hb'⟩
      simp only [blockIn, fromBlock, checkStmtsIn, checkStmtIn, hb, he, Bool.and_self, if_true]
      rw [checkStmtsIn_append, fields_bad sc _ _ hrem hbad]
      exact ⟨(fun h => by cases h), fun h => absurd h.2 hf⟩
  · have hb : sc.binds remVar = false := by
      cases h : sc.binds remVar with
      | false => rfl
      | true => exact absurd ((binds_iff sc _).1 h) hrem
    simp [blockIn, fromBlock, checkStmtsIn, checkStmtIn, hb, hrem]

/-- Without `Option::None` under its name no expansion is accepted. -/
theorem frame_iff (sc : Scope ι) (variants : List String) :
    sc.frame variants = true ↔ sc.crateOk = true ∧ sc.stdOk = true ∧ sc.usizeOk = true ∧
      (sc.sizePath variants).ok = true ∧ sc.pat ordinalVar = .fresh ∧
      sc.pat (.user "_check_overflow") = .fresh ∧ ∃ cov, sc.value "None" = some (.none cov) := by
  simp only [Scope.frame, Bool.and_eq_true, binds_iff, and_assoc]
  constructor
  · rintro ⟨h1, h2, h3, h4, h5, h6, h7⟩
    refine ⟨h1, h2, h3, h4, h5, h6, (bareNone_inv sc paramCtx ?_).1 h7⟩
    intro p hp
    simp only [paramCtx, List.mem_cons, List.not_mem_nil, or_false] at hp
    rw [hp]
    exact h5
  · rintro ⟨h1, h2, h3, h4, h5, h6, h7⟩
    refine ⟨h1, h2, h3, h4, h5, h6, (bareNone_inv sc paramCtx ?_).2 h7⟩
    intro p hp
    simp only [paramCtx, List.mem_cons, List.not_mem_nil, or_false] at hp
    rw [hp]
    exact h5

theorem struct_in [DecidableEq ι] (sc : Scope ι) (fs : Fields ι) (hw : fs.WF) (g : GenStruct ι)
    (hg : genStruct fs = .ok g) :
    structIn sc g fs = true ↔ sc.frame [] = true ∧ sc.pat remVar = .fresh ∧
      ∀ f ∈ (fieldVars fs).zip (fieldTypes fs), FieldOk sc f := by
  obtain ⟨x, e, -, -, h4, h⟩ := genStruct_ok fs
  rw [h] at hg
  cases hg
  simp only [structIn, check_prodExpr, h4, Bool.and_true, Bool.and_eq_true]
  constructor
  · rintro ⟨hf, hb⟩
    obtain ⟨-, -, -, -, ho, -, hN⟩ := (frame_iff sc []).1 hf
    exact ⟨hf, (block_in sc fs hw _ (by simp [Expr.check, paramCtx]) ho hN).1 hb⟩
  · rintro ⟨hf, hb⟩
    obtain ⟨-, -, -, -, ho, -, hN⟩ := (frame_iff sc []).1 hf
    exact ⟨hf, (block_in sc fs hw _ (by simp [Expr.check, paramCtx]) ho hN).2 hb⟩

/-! ## Enums -/

theorem pat_in (sc : Scope ι) (v : Fields ι) (hw : v.WF) :
    patIn sc v (variantPat v) =
      if (fieldVars v).all sc.binds then some ((fieldVars v).map Ref.var) else none := by
  match v with
  | .unit => rfl
  | .unnamed tys =>
    have := fieldVars_nodup (.unnamed tys) trivial
    simp only [variantPat, patIn, this, true_and]
    simp [fieldVars]
  | .named ns =>
    have := fieldVars_nodup (.named ns) hw
    have h2 : ∀ f ∈ ns, Ident.user f.1 ∈ fieldVars (.named ns) := fun f hf => List.mem_map.2 ⟨f, hf, rfl⟩
    simp only [variantPat, patIn, this, true_and]
    simp only [show (fieldVars (Fields.named ns)).length = ns.length by simp [fieldVars], true_and]
    by_cases hb : (fieldVars (.named ns)).all sc.binds = true
    · rw [if_pos ⟨hb, h2⟩, if_pos hb]
    · rw [if_neg (fun h => hb h.1), if_neg hb]

/-- Arms: accepted exactly when every variable binds. -/
theorem arms_in [DecidableEq ι] (sc : Scope ι) (vs : List (Fields ι)) (h64 : vs.countP noFields < 2 ^ 64)
    (rest : List (Fields ι)) (hw : ∀ v ∈ rest, v.WF) (i : Nat) (arms : List (Pat × Expr ι))
    (ha : enumArms vs i rest = .ok arms) :
    (rest.zip arms).all (fun p => armIn sc p.1 p.2) = true ↔
      ∀ v ∈ rest, ∀ x ∈ fieldVars v, sc.pat x = .fresh := by
  induction rest generalizing i arms with
  | nil => simp
  | cons v rest ih =>
    obtain ⟨e1, n1, h1, hn1, hg1⟩ := first_check vs h64 ((fieldVars v).map .var) [] i
    obtain ⟨e2, h2, hg2⟩ := good_structOrdinal_check ((fieldVars v).map .var) [] ((fieldVars v).map .var)
      (fieldTypes v) (by simpa using fieldVars_length v) (fun _ h => h)
    obtain ⟨e3, h3, hg3⟩ := good_mkSum (closed_check ((fieldVars v).map .var) []) [(e1, n1), (e2, 0)]
      (by simp [hg1, hg2]) (by simpa using hn1)
    simp only [List.map_cons, List.map_nil] at h3
    obtain ⟨x, h4, hc⟩ := hg3.ev
    have harm : enumArm vs i v = .ok (variantPat v, x) := by simp [enumArm, h1, h2, h3, h4]
    simp only [enumArms, harm, ok_bind] at ha
    cases hr : enumArms vs (i + 1) rest with
    | error f => simp [hr] at ha
    | ok as =>
      simp only [hr, ok_bind] at ha
      cases ha
      have ih' := ih (fun v hv => hw v (by simp [hv])) (i + 1) as hr
      have hv : armIn sc v (variantPat v, x) = true ↔ ∀ y ∈ fieldVars v, sc.pat y = .fresh := by
        have hall : (fieldVars v).all sc.binds = true ↔ ∀ y ∈ fieldVars v, sc.pat y = .fresh := by
          simp [List.all_eq_true, binds_iff]
        rw [← hall]
        simp only [armIn, pat_in sc v (hw v (by simp))]
        by_cases hb : (fieldVars v).all sc.binds = true
        · simp [hb, hc]
        · simp [hb]
      simp only [List.zip_cons_cons, List.all_cons, Bool.and_eq_true, hv, ih', List.forall_mem_cons]

theorem stmts_in [DecidableEq ι] (sc : Scope ι) (vs : List (Fields ι))
    (h64 : vs.countP noFields < 2 ^ 64) (ho : sc.pat ordinalVar = .fresh)
    (hN : ∃ cov, sc.value "None" = some (.none cov)) (rest : List (Fields ι))
    (hw : ∀ v ∈ rest, v.WF) (i : Nat) (ss : List (Expr ι × Block ι))
    (hs : enumFromStmts vs i rest = .ok ss) :
    (rest.zip ss).all (fun p => p.2.1.check [] paramCtx && blockIn sc paramCtx p.1 p.2.2) = true ↔
      ∀ v ∈ rest, sc.pat remVar = .fresh ∧ ∀ f ∈ (fieldVars v).zip (fieldTypes v), FieldOk sc f := by
  induction rest generalizing i ss with
  | nil => simp
  | cons v rest ih =>
    obtain ⟨b, inc, hb, hinc, hcb, hci, hst⟩ := stmt_ok vs h64 i v
    simp only [enumFromStmts, hst, ok_bind] at hs
    cases hr : enumFromStmts vs (i + 1) rest with
    | error f => simp [hr] at hs
    | ok as =>
      simp only [hr, ok_bind] at hs
      cases hs
      have ih' := ih (fun v hv => hw v (by simp [hv])) (i + 1) as hr
      have hblk := block_in sc v (hw v (by simp)) (.sub (.var ordinalVar) b)
        (by simp [Expr.check, paramCtx, hcb]) ho hN
      simp only [List.zip_cons_cons, List.all_cons, Bool.and_eq_true, hci, true_and, hblk, ih',
        List.forall_mem_cons]

theorem enum_in [DecidableEq ι] (sc : Scope ι) (variants : List String) (vs : List (Fields ι))
    (hw : ∀ v ∈ vs, v.WF) (h64 : vs.countP noFields < 2 ^ 64) (g : GenEnum ι)
    (hg : genEnum vs = .ok g) :
    enumIn sc variants g vs = true ↔ sc.frame variants = true ∧ sc.pat (.user "_ignore") = .fresh ∧
      (vs ≠ [] → sc.pat remVar = .fresh) ∧
      ∀ v ∈ vs, ∀ x ∈ fieldVars v, x ≠ remVar ∧ sc.pat x = .fresh := by
  obtain ⟨arms, ha1, ha2, ha3, ha4⟩ := arms_ok vs h64 vs hw 0
  obtain ⟨ss, hs1, hs2, hs3, hs4⟩ := stmts_ok vs h64 vs 0
  obtain ⟨e, n, he, -, hge⟩ := first_check vs h64 [] [] vs.length
  obtain ⟨x, hx, hxc⟩ := hge.ev
  have hgen : genEnum vs = .ok ⟨x, if vs.isEmpty then none else some arms, ss⟩ := by
    simp only [genEnum, he, ok_bind, hx, hs1, ha1]
    cases vs.isEmpty <;> simp
  rw [hgen] at hg
  cases hg
  have hmem : ∀ (v : Fields ι), ∀ y ∈ fieldVars v, ∃ t, (y, t) ∈ (fieldVars v).zip (fieldTypes v) := by
    intro v y hy
    obtain ⟨i, hi, rfl⟩ := List.mem_iff_getElem.1 hy
    have hl := fieldVars_length v
    exact ⟨(fieldTypes v)[i]'(by omega), List.mem_iff_getElem.2 ⟨i, by simp; omega, by simp⟩⟩
  have harms : (match (if vs.isEmpty then none else some arms) with
      | none => true
      | some arms => arms.length == vs.length && (vs.zip arms).all fun p => armIn sc p.1 p.2) = true ↔
      ∀ v ∈ vs, ∀ x ∈ fieldVars v, sc.pat x = .fresh := by
    cases hv : vs.isEmpty with
    | true =>
      have : vs = [] := by simpa using hv
      simp [this]
    | false =>
      simp only [Bool.false_eq_true, if_false, ha2, beq_self_eq_true, Bool.true_and]
      exact arms_in sc vs h64 vs hw 0 arms ha1
  simp only [enumIn, hxc, Bool.and_true, Bool.and_eq_true, hs2, beq_self_eq_true, binds_iff]
  constructor
  · rintro ⟨⟨⟨hf, hig⟩, hA'⟩, hS⟩
    have hA := harms.1 hA'
    obtain ⟨-, -, -, -, ho, -, hN⟩ := (frame_iff sc variants).1 hf
    have hS' := (stmts_in sc vs h64 ho hN vs hw 0 ss hs1).1 hS
    refine ⟨hf, hig, ?_, ?_⟩
    · intro hne
      obtain ⟨v, hv⟩ := List.exists_mem_of_ne_nil vs hne
      exact (hS' v hv).1
    · intro v hv y hy
      obtain ⟨t, ht⟩ := hmem v y hy
      exact ⟨((hS' v hv).2 _ ht).1, hA v hv y hy⟩
  · rintro ⟨hf, hig, hrem, hA⟩
    obtain ⟨-, -, -, -, ho, -, hN⟩ := (frame_iff sc variants).1 hf
    refine ⟨⟨⟨hf, hig⟩, harms.2 fun v hv y hy => (hA v hv y hy).2⟩,
      (stmts_in sc vs h64 ho hN vs hw 0 ss hs1).2 fun v hv => ⟨hrem (List.ne_nil_of_mem hv), ?_⟩⟩
    intro f hf'
    have := hA v hv f.1 (List.of_mem_zip hf').1
    exact ⟨this.1, .inl this.2⟩

end OrdinalMap.Derive.Names
