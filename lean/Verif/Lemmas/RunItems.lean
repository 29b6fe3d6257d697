import Verif.Lemmas.Run
import Verif.Lemmas.DeriveEnum
/-!
# Lemmas about running the emitted text: constructors, blocks, match arms
-/

namespace OrdinalMap.Derive.Src
open OrdinalMap OrdinalMap.Derive

variable {ι : Type} [DecidableEq ι] {Ty : Types ι} {c : Cfg} {d : Decl ι} {size : R Nat}
variable {self : Option (Nat × List Ty.Val)}

/-! ## Constructors -/

/-- What reading a field variable gives, in both evaluators. -/
def Reads (c : Cfg) (d : Decl ι) (size : R Nat) (self : Option (Nat × List Ty.Val)) (old : Env Ty) (env : VEnv Ty)
    (x : Ident) (v : Ty.Val) : Prop :=
  old.lookup x = some (.field v) ∧ runE c d size self .runtime (var x) env = .ok (.val (.fld v), env)

theorem reads_all {ctx : Ctx ι} {old : Env Ty} {env : VEnv Ty} (hr : RelV ctx old env) (xs : List Ident)
    (tys : List ι) (hl : xs.length = tys.length) (h : ∀ p ∈ xs.zip tys, hasTy ctx p.1 p.2 = true) :
    ∃ l : List Ty.Val, l.map Sigma.fst = tys ∧ ∀ p ∈ xs.zip l, Reads c d size self old env p.1 p.2 := by
  induction xs generalizing tys with
  | nil =>
    cases tys with
    | nil => exact ⟨[], rfl, by simp⟩
    | cons _ _ => cases hl
  | cons x xs ih =>
    cases tys with
    | nil => cases hl
    | cons t tys =>
      obtain ⟨l, h1, h2⟩ := ih tys (by simpa using hl) fun p hp => h p (by simp [hp])
      have hx := h (x, t) (by simp)
      simp only [hasTy, beq_iff_eq] at hx
      obtain ⟨v, e1, e2⟩ := read_fld (c := c) (d := d) (size := size) (self := self) hr hx .runtime
      refine ⟨⟨t, v⟩ :: l, by simp [h1], ?_⟩
      intro p hp
      rw [List.zip_cons_cons, List.mem_cons] at hp
      rcases hp with rfl | hp
      · exact ⟨e1, e2⟩
      · exact h2 p hp

theorem run_vars {old : Env Ty} {env : VEnv Ty} (xs : List Ident) (l : List Ty.Val) (hl : xs.length = l.length)
    (h : ∀ p ∈ xs.zip l, Reads c d size self old env p.1 p.2) :
    runEs c d size self .runtime (varsTree xs) env = .ok (.val (l.map .fld), env) := by
  induction xs generalizing l with
  | nil =>
    cases l with
    | nil => rfl
    | cons _ _ => cases hl
  | cons x xs ih =>
    cases l with
    | nil => cases hl
    | cons v l =>
      rw [varsTree, runEs, Ev.bind, (h (x, v) (by simp)).2]
      simp only [Ev.bind]
      rw [ih l (by simpa using hl) fun p hp => h p (by simp [hp])]
      rfl

theorem run_fields {old : Env Ty} {env : VEnv Ty} (ss : List String) (xs : List Ident) (l : List Ty.Val)
    (hl : xs.length = l.length) (h : ∀ p ∈ xs.zip l, Reads c d size self old env p.1 p.2) (hs : ss.length = xs.length) :
    runFs c d size self .runtime (fieldsTree (ss.zip xs)) env =
      .ok (.val ((ss.map Ident.user).zip (l.map .fld)), env) := by
  induction xs generalizing l ss with
  | nil =>
    cases ss with
    | nil => rfl
    | cons _ _ => cases hs
  | cons x xs ih =>
    cases l with
    | nil => cases hl
    | cons v l =>
      cases ss with
      | nil => cases hs
      | cons s ss =>
        rw [List.zip_cons_cons, fieldsTree, runFs, Ev.bind, (h (x, v) (by simp)).2]
        simp only [Ev.bind]
        rw [ih ss l (by simpa using hl) (fun p hp => h p (by simp [hp])) (by simpa using hs)]
        rfl

theorem fldVals_map (l : List Ty.Val) : fldVals (l.map Sigma.fst) (l.map .fld) = .ok l := by
  induction l with
  | nil => rfl
  | cons v l ih => simp [fldVals, ih]

theorem recordVals_map (ns : List (String × ι)) (hw : (ns.map (·.1)).Nodup) (l : List Ty.Val)
    (hl : l.map Sigma.fst = ns.map (·.2)) :
    recordVals ns (((ns.map (·.1)).map Ident.user).zip (l.map .fld)) = .ok l := by
  have hlen : l.length = ns.length := by simpa using congrArg List.length hl
  have hn : ((ns.map (·.1)).map Ident.user).Nodup := nodup_map_inj (fun a b h => by injection h) hw
  have hz := lookup_zip _ (l.map (V.fld (Ty := Ty))) hn
  rw [recordVals, if_pos (by simp [hlen])]
  generalize hE : ((ns.map (·.1)).map Ident.user).zip (l.map (V.fld (Ty := Ty))) = E at hz ⊢
  have key : ∀ (ms : List (String × ι)) (k : List Ty.Val), k.map Sigma.fst = ms.map (·.2) →
      (∀ p ∈ ((ms.map (·.1)).map Ident.user).zip (k.map (V.fld (Ty := Ty))), E.lookup p.1 = some p.2) →
      (ms.mapM fun f => match E.lookup (Ident.user f.1) with
        | some (.fld v) => if v.1 = f.2 then .ok v else .error .compileError
        | _ => .error .compileError) = (.ok k : R (List Ty.Val)) := by
    intro ms
    induction ms with
    | nil => intro k hk _; cases k <;> simp_all
    | cons m ms ih =>
      intro k hk hlk
      match k, hk with
      | v :: k, hk =>
        simp only [List.map_cons, List.cons.injEq] at hk
        have hv := hlk (Ident.user m.1, .fld v) (by simp)
        rw [List.mapM_cons, hv, ih k hk.2 (fun p hp => hlk p (by simp only [List.map_cons, List.zip_cons_cons, List.mem_cons]; exact .inr hp))]
        simp [hk.1]
  refine key ns l hl ?_
  rw [hE]
  exact hz

/-- The constructor of a struct or variant. -/
theorem run_build {ctx : Ctx ι} {old : Env Ty} {env : VEnv Ty} (hr : RelV ctx old env) (fs : Fields ι)
    (hw : fs.WF) (h : (structBuild fs).check ctx fs = true) (p : List Seg) (k : Nat)
    (hp : d.ctor (.Self :: p) = some (k, fs)) :
    ∃ l, (structBuild fs).eval Ty old fs = .ok l ∧ l.map Sigma.fst = fieldTypes fs ∧
      runE c d size self .runtime (buildTree (.path (.Self :: p)) (structBuild fs)) env = .ok (.val (.obj k l), env) := by
  cases fs with
  | unit =>
    refine ⟨[], rfl, rfl, ?_⟩
    rw [structBuild, buildTree, runE]
    unfold pathV
    simp only [isNames_Self, Bool.or_self, Bool.false_eq_true, ↓reduceIte, hp]
    rfl
  | unnamed tys =>
    simp only [structBuild, Build.check, Bool.and_eq_true, beq_iff_eq, List.all_eq_true] at h
    obtain ⟨l, h1, h2⟩ := reads_all (c := c) (d := d) (size := size) (self := self) hr _ tys h.1 h.2
    have hl : (fieldVars (.unnamed tys)).length = l.length := by rw [h.1, ← h1, List.length_map]
    refine ⟨l, structBuild_eval old _ hw l h1 fun p hp => (h2 p hp).1, h1, ?_⟩
    rw [structBuild, buildTree, runE, Ev.bind]
    simp only [run_vars _ l hl h2, callV, isNames_Self, Bool.false_eq_true, ↓reduceIte, hp]
    rw [← h1, fldVals_map]
    rfl
  | named ns =>
    have hx : ∀ p ∈ (fieldVars (.named ns)).zip (ns.map (·.2)), hasTy ctx p.1 p.2 = true := by
      simp only [structBuild, Build.check, Bool.and_eq_true, List.all_eq_true] at h
      intro p hp
      rw [fieldVars, List.zip_map', List.mem_map] at hp
      obtain ⟨f, hf, rfl⟩ := hp
      have := h.2 f hf
      rw [lookup_zip _ _ hw (f.1, Ident.user f.1) (by
        rw [fieldVars, List.zip_map']; exact List.mem_map.2 ⟨f, hf, rfl⟩)] at this
      exact this
    obtain ⟨l, h1, h2⟩ := reads_all (c := c) (d := d) (size := size) (self := self) hr _ _
      (by simp [fieldVars]) hx
    have hlen : l.length = ns.length := by simpa using congrArg List.length h1
    have hl : (fieldVars (.named ns)).length = l.length := by simp [fieldVars, hlen]
    refine ⟨l, structBuild_eval old _ hw l h1 fun p hp => (h2 p hp).1, h1, ?_⟩
    rw [structBuild, buildTree, runE, Ev.bind]
    rw [run_fields _ _ l hl h2 (by simp [fieldVars])]
    simp only [recordV, hp, recordVals_map ns hw l h1]
    rfl

/-- The constructor of a tuple. -/
theorem run_buildTuple {ctx : Ctx ι} {old : Env Ty} {env : VEnv Ty} (hr : RelV ctx old env) (tys : List ι)
    (xs : List Ident) (h : (Build.positional xs).check ctx (.unnamed tys) = true) :
    ∃ l, (Build.positional xs).eval Ty old (.unnamed tys) = .ok l ∧ l.map Sigma.fst = tys ∧
      runE c (.tuple tys) size self .runtime (buildTree .tuple (.positional xs)) env = .ok (.val (.obj 0 l), env) := by
  simp only [Build.check, Bool.and_eq_true, beq_iff_eq, List.all_eq_true] at h
  obtain ⟨l, h1, h2⟩ := reads_all (c := c) (d := .tuple tys) (size := size) (self := self) hr _ tys h.1 h.2
  have hl : xs.length = l.length := by rw [h.1, ← h1, List.length_map]
  refine ⟨l, positional_eval old xs tys l h1 h.1 fun p hp => (h2 p hp).1, h1, ?_⟩
  rw [buildTree, runE, Ev.bind]
  simp only [run_vars _ l hl h2, tupleV]
  rw [← h1, fldVals_map]
  rfl

/-! ## Blocks -/

/-- What a block does, in both evaluators. -/
def AgreesBlock (c : Cfg) (d : Decl ι) (size : R Nat) (self : Option (Nat × List Ty.Val)) (env : VEnv Ty)
    (k : Nat) (tys : List ι) (b : B ι) (r : R (Option (List Ty.Val))) : Prop :=
  (∃ f, r = .error f ∧ runB c d size self .runtime b env = .error f) ∨
  (r = .ok none ∧ ∃ env', runB c d size self .runtime b env = .ok (.ret .none, env')) ∨
  (∃ l env', r = .ok (some l) ∧ l.map Sigma.fst = tys ∧
    runB c d size self .runtime b env = .ok (.val (.some (.obj k l)), env'))

theorem run_block {ctx : Ctx ι} {old : Env Ty} {env : VEnv Ty} (hr : RelV ctx old env) (fs : Fields ι)
    (ct : Ctor) (k : Nat) (blk : Block ι) (hc : blk.check ctx fs = true)
    (hb : ∀ ctx' old' env', RelV ctx' old' env' → blk.build.check ctx' fs = true →
      ∃ l, blk.build.eval Ty old' fs = .ok l ∧ l.map Sigma.fst = fieldTypes fs ∧
        runE c d size self .runtime (buildTree ct blk.build) env' = .ok (.val (.obj k l), env')) :
    AgreesBlock c d size self env k (fieldTypes fs) (blockTree ct blk) (blk.exec c Ty old fs) := by
  rw [Block.check] at hc
  split at hc
  · cases hc
  · next ctx' h1 =>
    rw [Block.exec, blockTree]
    rcases run_stmts (c := c) (d := d) (size := size) (self := self) hr _ h1 with
      ⟨f, e1, e2⟩ | ⟨e1, env', e2⟩ | ⟨old', env', e1, e2, e3⟩
    · exact .inl ⟨f, by rw [e1]; rfl, e2 _⟩
    · exact .inr (.inl ⟨by rw [e1]; rfl, env', e2 _⟩)
    · obtain ⟨l, g1, g2, g3⟩ := hb ctx' old' env' e2 hc
      refine .inr (.inr ⟨l, env', by rw [e1, ok_bind]; simp only [g1]; rfl, g2, ?_⟩)
      rw [e3, runB, someTree, runE, one]
      simp [runEs, Ev.bind, g3, Ev.ok, Ev.of, callV]

/-! ## `self` -/

omit [DecidableEq ι] in
theorem relV_nil (env : VEnv Ty) : RelV ([] : Ctx ι) [] env := by
  intro x τ h; cases h

omit [DecidableEq ι] in
theorem relV_param (i : Nat) : RelV (Ty := Ty) (paramCtx : Ctx ι) [(ordinalVar, .num i)] [(ordinalVar, false, .num i)] := by
  have := (relV_nil (ι := ι) (Ty := Ty) []).cons_num (x := ordinalVar) rfl false i
  exact this

/-- `&self.name` and `&self.0` in a struct. -/
theorem run_selfRef (fs : Fields ι) (hw : fs.WF) (l : List Ty.Val) (hl : l.map Sigma.fst = fieldTypes fs)
    (env : VEnv Ty) :
    ∀ r ∈ fieldRefExprs fs, ∃ v, (selfRefs Ty fs l).lookup r = some v ∧
      runE c (.struct fs) size (some (0, l)) .runtime (refTree r) env = .ok (.val (.fldRef v), env) := by
  intro r hr
  have hlen : l.length = (fieldTypes fs).length := by simpa using congrArg List.length hl
  cases fs with
  | unit => cases hr
  | unnamed tys =>
    simp only [fieldRefExprs, List.mem_map, List.mem_range] at hr
    obtain ⟨i, hi, rfl⟩ := hr
    have hi' : i < l.length := by rw [hlen]; exact hi
    refine ⟨l[i], ?_, ?_⟩
    · rw [selfRefs_eq _ l hl]
      refine lookup_zip _ _ (fieldRefs_nodup (.unnamed tys) hw) (.selfIdx i, l[i]) ?_
      rw [List.mem_iff_getElem]
      exact ⟨i, by simp only [fieldRefExprs, List.length_zip, List.length_map, List.length_range]; omega, by simp [fieldRefExprs]⟩
    · simp [refTree, runE, Ev.bind, Ev.ok, Decl.fieldAt, hi']
  | named ns =>
    simp only [fieldRefExprs, List.mem_map] at hr
    obtain ⟨f, hf, rfl⟩ := hr
    obtain ⟨i, hi, rfl⟩ := List.mem_iff_getElem.1 hf
    have hi' : i < l.length := by rw [hlen]; simpa [fieldTypes] using hi
    refine ⟨l[i], ?_, ?_⟩
    · rw [selfRefs_eq _ l hl]
      refine lookup_zip _ _ (fieldRefs_nodup (.named ns) hw) (.selfNamed ns[i].1, l[i]) ?_
      rw [List.mem_iff_getElem]
      exact ⟨i, by simp only [fieldRefExprs, List.length_zip, List.length_map, List.length_range]; omega, by simp [fieldRefExprs]⟩
    · have := lookup_zip _ l (fieldVars_nodup (.named ns) hw) (.user ns[i].1, l[i]) (by
        rw [List.mem_iff_getElem]
        exact ⟨i, by simp only [fieldVars, List.length_zip, List.length_map]; omega, by simp [fieldVars]⟩)
      simp only [fieldVars] at this
      simp [refTree, runE, Ev.bind, Ev.ok, Decl.fieldNamed, this]

/-- `&self.0` in a tuple. -/
theorem run_selfRefTuple (tys : List ι) (l : List Ty.Val) (hl : l.map Sigma.fst = tys) (env : VEnv Ty) :
    ∀ r ∈ fieldRefExprs (.unnamed tys), ∃ v, (selfRefs Ty (.unnamed tys) l).lookup r = some v ∧
      runE c (.tuple tys) size (some (0, l)) .runtime (refTree r) env = .ok (.val (.fldRef v), env) := by
  intro r hr
  have hlen : l.length = tys.length := by simpa using congrArg List.length hl
  simp only [fieldRefExprs, List.mem_map, List.mem_range] at hr
  obtain ⟨i, hi, rfl⟩ := hr
  have hi' : i < l.length := by rw [hlen]; exact hi
  refine ⟨l[i], ?_, ?_⟩
  · rw [selfRefs_eq (.unnamed tys) l hl]
    refine lookup_zip _ _ (fieldRefs_nodup (.unnamed tys) trivial) (.selfIdx i, l[i]) ?_
    rw [List.mem_iff_getElem]
    exact ⟨i, by simp only [fieldRefExprs, List.length_zip, List.length_map, List.length_range]; omega, by simp [fieldRefExprs]⟩
  · simp [refTree, runE, Ev.bind, Ev.ok, Decl.fieldAt, hi']

/-! ## Match arms -/

omit [DecidableEq ι] in
theorem variantOf_get (vs : List (String × Fields ι)) (hn : (vs.map (·.1)).Nodup) (i j : Nat) (p : String × Fields ι)
    (h : vs[j]? = some p) : variantOf p.1 i vs = some (i + j, p.2) := by
  induction vs generalizing i j with
  | nil => simp at h
  | cons v vs ih =>
    rw [List.map_cons, List.nodup_cons] at hn
    cases j with
    | zero =>
      simp only [List.getElem?_cons_zero, Option.some.injEq] at h
      subst h
      simp [variantOf]
    | succ j =>
      simp only [List.getElem?_cons_succ] at h
      have hne : v.1 ≠ p.1 := fun e => hn.1 (e ▸ List.mem_map.2 ⟨p, List.mem_of_getElem? h, rfl⟩)
      rw [variantOf, if_neg hne, ih hn.2 (i + 1) j h]
      congr 2
      omega

/-- The variables a pattern binds. -/
def newVars (xs : List Ident) (l : List Ty.Val) : VEnv Ty := xs.zip (l.map fun v => (false, .fldRef v))

omit [DecidableEq ι] in
theorem bindAll_eq (xs : List Ident) (l : List Ty.Val) (hl : xs.length = l.length)
    (hb : ∀ x ∈ xs, x.bindable = true) : bindAll xs (l.map some) = some (newVars xs l) := by
  induction xs generalizing l with
  | nil =>
    cases l with
    | nil => rfl
    | cons _ _ => cases hl
  | cons x xs ih =>
    cases l with
    | nil => cases hl
    | cons v l =>
      rw [List.map_cons, bindAll, if_pos (hb x (by simp)),
        ih l (by simpa using hl) fun y hy => hb y (by simp [hy])]
      rfl

omit [DecidableEq ι] in
theorem match_self (k : Nat) (l : List Ty.Val) (s : String) (v : Fields ι) (hw : v.WF) (hc : NoClash v)
    (hd : d.ctor (variantSegs s) = some (k, v)) (hl : l.map Sigma.fst = fieldTypes v) :
    matchPat d k l (patTree s (variantPat v)) = some (some (newVars (fieldVars v) l)) := by
  have hlen : (fieldVars v).length = l.length := by
    rw [fieldVars_length, ← hl, List.length_map]
  have hn := fieldVars_nodup v hw
  have hb := bindAll_eq (Ty := Ty) (fieldVars v) l hlen hc.bindable
  cases v with
  | unit =>
    cases l with
    | nil => simp [variantPat, patTree, matchPat, hd, newVars, fieldVars]
    | cons _ _ => cases hl
  | unnamed tys =>
    have : (fieldVars (.unnamed tys)).length = tys.length := by simp [fieldVars]
    simp [variantPat, patTree, matchPat, hd, hn, this, hb]
  | named ns =>
    have : (fieldVars (.named ns)).length = ns.length := by simp [fieldVars]
    have hz := lookup_zip _ l hn
    have hm : (fieldVars (.named ns)).map (fun x => ((ns.map fun n => Ident.user n.1).zip l).lookup x) = l.map some := by
      apply List.ext_getElem
      · simpa using hlen
      · intro i h1 h2
        simp only [List.length_map] at h1 h2
        simp only [List.getElem_map]
        exact hz ((fieldVars (.named ns))[i], l[i]) (by
          rw [List.mem_iff_getElem]
          exact ⟨i, by rw [List.length_zip]; omega, by simp⟩)
    simp only [variantPat, patTree, matchPat, hd]
    rw [if_pos ⟨hn, this⟩, if_pos trivial, hm, hb]
    rfl

omit [DecidableEq ι] in
theorem match_other (j k : Nat) (l : List Ty.Val) (s : String) (v : Fields ι) (hw : v.WF) (hjk : j ≠ k)
    (hd : d.ctor (variantSegs s) = some (j, v)) :
    matchPat d k l (patTree s (variantPat v)) = some none := by
  have hn := fieldVars_nodup v hw
  cases v with
  | unit => simp [variantPat, patTree, matchPat, hd, hjk]
  | unnamed tys =>
    have : (fieldVars (.unnamed tys)).length = tys.length := by simp [fieldVars]
    simp [variantPat, patTree, matchPat, hd, hn, this, hjk]
  | named ns =>
    have : (fieldVars (.named ns)).length = ns.length := by simp [fieldVars]
    simp [variantPat, patTree, matchPat, hd, hn, this, hjk]

/-- The variables of an arm. -/
theorem run_armVar (v : Fields ι) (hw : v.WF) (hc : NoClash v) (l : List Ty.Val) (hl : l.map Sigma.fst = fieldTypes v)
    (env : VEnv Ty) :
    ∀ r ∈ (fieldVars v).map Ref.var, ∃ w, ((variantPat v).bind Ty v l).lookup r = some w ∧
      runE c d size self .runtime (refTree r) (newVars (fieldVars v) l ++ env) =
        .ok (.val (.fldRef w), newVars (fieldVars v) l ++ env) := by
  intro r hr
  have hlen : (fieldVars v).length = l.length := by rw [fieldVars_length, ← hl, List.length_map]
  obtain ⟨x, hx, rfl⟩ := List.mem_map.1 hr
  obtain ⟨i, hi, rfl⟩ := List.mem_iff_getElem.1 hx
  have hi' : i < l.length := by omega
  refine ⟨l[i], ?_, ?_⟩
  · refine bind_lookup v hw l hl (.var (fieldVars v)[i], l[i]) ?_
    rw [List.mem_iff_getElem]
    exact ⟨i, by simp only [List.length_zip, List.length_map]; omega, by simp⟩
  · have h := lookup_zip _ (l.map fun v => ((false, .fldRef v) : Bool × V Ty)) (fieldVars_nodup v hw)
      ((fieldVars v)[i], (false, .fldRef l[i])) (by
        rw [List.mem_iff_getElem]
        exact ⟨i, by simp only [List.length_zip, List.length_map]; omega, by simp⟩)
    rw [refTree, run_var (hc.bindable _ hx), readV, List.lookup_append]
    simp only at h
    rw [newVars, h]
    rfl

theorem run_arms (V : List (String × Fields ι)) (hn : (V.map (·.1)).Nodup) (hw : ∀ p ∈ V, p.2.WF)
    (hc : ∀ p ∈ V, NoClash p.2) (k : Nat) (l : List Ty.Val) (p : String × Fields ι) (hk : V[k]? = some p)
    (hl : l.map Sigma.fst = fieldTypes p.2) (env : VEnv Ty) (rest : List (String × Fields ι))
    (arms : List (Pat × Expr ι)) (j : Nat) (hrest : ∀ i, rest[i]? = V[j + i]?) (hlen : arms.length = rest.length)
    (ha : ∀ q ∈ rest.zip arms, q.2.1 = variantPat q.1.2 ∧ q.2.2.check ((fieldVars q.1.2).map .var) [] = true)
    (hj : j ≤ k) (a : Pat × Expr ι) (hka : arms[k - j]? = some a) :
    runArms c (.enum V) size self .runtime k l (armsTree ((rest.map (·.1)).zip arms)) env =
      lift (a.2.eval c Ty (a.1.bind Ty p.2 l) [] .runtime) env := by
  induction rest generalizing arms j with
  | nil =>
    cases arms with
    | nil => simp at hka
    | cons _ _ => cases hlen
  | cons q rest ih =>
    cases arms with
    | nil => cases hlen
    | cons b arms =>
      obtain ⟨bp, be⟩ := b
      have h0 : V[j]? = some q := by simpa using (hrest 0).symm
      have hq := ha (q, (bp, be)) (by simp)
      simp only at hq
      obtain ⟨rfl, hq⟩ := hq
      have hd : (Decl.enum V).ctor (variantSegs q.1) = some (j, q.2) := by
        simpa [Decl.ctor, variantSegs] using variantOf_get V hn 0 j q h0
      rw [List.map_cons, List.zip_cons_cons, armsTree, runArms]
      by_cases hjk : j = k
      · subst hjk
        rw [h0] at hk
        cases hk
        have hV := List.mem_of_getElem? h0
        simp only [Nat.sub_self, List.getElem?_cons_zero, Option.some.injEq] at hka
        subst hka
        rw [match_self j l p.1 p.2 (hw _ hV) (hc _ hV) hd hl]
        simp only [Ev.scoped, runE, runB]
        rw [run_expr (relV_nil _) (run_armVar p.2 (hw _ hV) (hc _ hV) l hl env) be hq]
        cases be.eval c Ty ((variantPat p.2).bind Ty p.2 l) [] .runtime with
        | error f => rfl
        | ok n => simp [lift]
      · rw [match_other j k l q.1 q.2 (hw _ (List.mem_of_getElem? h0)) hjk hd]
        simp only
        refine ih arms (j + 1) (fun i => ?_) (by simpa using hlen) (fun x hx => ha x (by simp [hx])) (by omega) ?_
        · have := hrest (i + 1)
          rw [List.getElem?_cons_succ] at this
          rw [this]; congr 1; omega
        · have : k - j = (k - (j + 1)) + 1 := by omega
          rw [this, List.getElem?_cons_succ] at hka
          exact hka

/-! ## The statements of `from_ordinal` of an enum -/

/-- The value of a function body. -/
def fnVal (r : R (Out Ty (V Ty) × VEnv Ty)) : R (V Ty) :=
  match r with
  | .error e => .error e
  | .ok (.val v, _) => .ok v
  | .ok (.ret v, _) => .ok v

/-- The value `from_ordinal` returns. -/
def optVal (r : R (Option (Nat × List Ty.Val))) : R (V Ty) :=
  match r with
  | .error e => .error e
  | .ok none => .ok .none
  | .ok (some p) => .ok (.some (.obj p.1 p.2))

theorem run_enumStmts (V : List (String × Fields ι)) (hn : (V.map (·.1)).Nodup) (hw : ∀ p ∈ V, p.2.WF) (i : Nat)
    (b : B ι) (hb : fnVal (runB c (.enum V) size self .runtime b [(ordinalVar, false, .num i)]) = .ok .none)
    (rest : List (String × Fields ι)) (ss : List (Expr ι × Block ι)) (k : Nat)
    (hrest : ∀ j, rest[j]? = V[k + j]?) (hlen : ss.length = rest.length)
    (hs : ∀ q ∈ rest.zip ss, q.2.1.check [] paramCtx = true ∧ q.2.2.check paramCtx q.1.2 = true ∧
      q.2.2.build = structBuild q.1.2) :
    fnVal (runB c (.enum V) size self .runtime (enumStmtsTree ((rest.map (·.1)).zip ss) b)
        [(ordinalVar, false, .num i)]) =
      optVal (execEnumStmts c Ty i k (rest.map (·.2)) ss) ∧
    ∀ p, execEnumStmts c Ty i k (rest.map (·.2)) ss = .ok (some p) →
      ∃ v, (V.map (·.2))[p.1]? = some v ∧ p.2.map Sigma.fst = fieldTypes v := by
  induction rest generalizing ss k with
  | nil =>
    cases ss with
    | nil => exact ⟨hb, fun p h => by cases h⟩
    | cons _ _ => cases hlen
  | cons q rest ih =>
    cases ss with
    | nil => cases hlen
    | cons s ss =>
      obtain ⟨e, blk⟩ := s
      have h0 : V[k]? = some q := by simpa using (hrest 0).symm
      obtain ⟨h1, h2, h3⟩ := hs (q, (e, blk)) (by simp)
      simp only at h1 h2 h3
      have hd : (Decl.enum V).ctor (variantSegs q.1) = some (k, q.2) := by
        simpa [Decl.ctor, variantSegs] using variantOf_get V hn 0 k q h0
      have hr := relV_param (ι := ι) (Ty := Ty) i
      have hcond := run_bin (op := .lt)
        (run_expr (c := c) (d := .enum V) (size := size) (self := self) (refs := []) (rl := []) hr
          (fun r hr => by cases hr) (.var ordinalVar) rfl)
        (run_expr (c := c) (d := .enum V) (size := size) (self := self) (refs := []) (rl := []) hr
          (fun r hr => by cases hr) e h1)
      have hv : (Expr.var ordinalVar).eval c Ty [] [(ordinalVar, .num i)] .runtime = .ok i := rfl
      rw [hv, ok_bind] at hcond
      simp only [exprTree] at hcond
      rw [List.map_cons, List.map_cons, List.zip_cons_cons, enumStmtsTree, execEnumStmts]
      cases he : e.eval c Ty [] [(ordinalVar, .num i)] .runtime with
      | error f =>
        rw [he] at hcond
        refine ⟨?_, fun p h => by cases h⟩
        rw [runB, runE]
        simp only [Ev.bind, hcond]
        rfl
      | ok n =>
        rw [he, ok_bind] at hcond
        simp only [ok_bind, binOp] at hcond ⊢
        by_cases hin : i < n
        · simp only [hin, decide_true, ↓reduceIte] at hcond ⊢
          have hbk := run_block (c := c) (d := .enum V) (size := size) (self := self) hr q.2
            (.path (variantSegs q.1)) k blk h2 (fun ctx' old' env' hr' hc' => by
              rw [h3] at hc' ⊢
              exact run_build hr' q.2 (hw _ (List.mem_of_getElem? h0)) hc' _ k hd)
          rcases hbk with ⟨f, e1, e2⟩ | ⟨e1, env', e2⟩ | ⟨l, env', e1, e2, e3⟩
          · refine ⟨?_, fun p h => by rw [e1] at h; cases h⟩
            rw [runB, runE, e1]
            simp only [Ev.bind, hcond]
            simp only [Ev.scoped, runB, runE, Ev.bind, e2]
            rfl
          · refine ⟨?_, fun p h => by rw [e1] at h; cases h⟩
            rw [runB, runE, e1]
            simp only [Ev.bind, hcond]
            simp only [Ev.scoped, runB, runE, Ev.bind, e2]
            rfl
          · refine ⟨?_, fun p h => ?_⟩
            · rw [runB, runE, e1]
              simp only [Ev.bind, hcond]
              simp only [Ev.scoped, runB, runE, Ev.bind, e3]
              rfl
            · rw [e1] at h
              cases h
              exact ⟨q.2, by simp [h0], e2⟩
        · have hrec := ih ss (k + 1) (fun j => by
            have := hrest (j + 1)
            rw [List.getElem?_cons_succ] at this
            rw [this]; congr 1; omega) (by simpa using hlen) (fun x hx => hs x (by simp [hx]))
          simp only [hin, decide_false, ↓reduceIte] at hcond ⊢
          refine ⟨?_, hrec.2⟩
          rw [← hrec.1]
          rw [runB, runE]
          simp only [Ev.bind, hcond]
          rfl

/-! ## The functions -/

theorem run_selfSize (hd : d.ctor [.Self, .id (.user "ORDINAL_SIZE")] = none) (m : Mode) (env : VEnv Ty) :
    runE c d size self m selfSize env = lift size env := by
  rw [selfSize, runE]
  unfold pathV
  simp only [isNames_Self, Bool.or_self, Bool.false_eq_true, ↓reduceIte, hd, beq_self_eq_true]
  exact of_num _ _

theorem run_ordinalFn (hd : d.ctor [.Self, .id (.user "ORDINAL_SIZE")] = none) (e : E ι) :
    runFn c d size self (ordinalFn e) [] =
      size >>= fun n => fnVal (runE c d size self .runtime e [(.user "_check_overflow", false, .num n)]) := by
  rw [runFn, ordinalFn, runB, Ev.bind, run_selfSize hd]
  cases size with
  | error f => rfl
  | ok n =>
    simp only [lift_ok, Ev.bind, letV, ok_bind, runB, fnVal]
    rfl

theorem run_fromOrdinalFn (hd : d.ctor [.Self, .id (.user "ORDINAL_SIZE")] = none) (b : B ι) (env : VEnv Ty) :
    runFn c d size self (fromOrdinalFn b) env =
      size >>= fun n => if n = 0 then .ok .none else fnVal (runB c d size self .runtime b env) := by
  have h0 : runE c d size self .runtime (.int 0) env = lift (.ok 0) env := by
    rw [runE]; simp [c.M_pos, Ev.ok]
  have hb := run_bin (op := .eq) (run_selfSize hd .runtime env) h0
  rw [runFn, fromOrdinalFn, runB, runE]
  cases size with
  | error f => simp only [Ev.bind, hb]; rfl
  | ok n =>
    simp only [Ev.bind, hb, ok_bind, binOp]
    by_cases hn : n = 0
    · subst hn
      simp [Ev.scoped, runB, returnNone, runE, pathV, Ev.bind, Ev.ok]
    · simp only [hn, decide_false, ↓reduceIte, Ev.ok, runB, runE, Ev.scoped]
      cases runB c d (.ok n) self .runtime b env with
      | error f => rfl
      | ok o => obtain ⟨_ | _, _⟩ := o <;> rfl

theorem sizeOfImpl_eq (A : Impl ι) (e : Expr ι) (hA : A.size = exprTree e) (he : e.check [] [] = true) :
    sizeOfImpl c d Ty A = e.eval c Ty [] [] .const := by
  rw [sizeOfImpl, hA, run_const [] [] e he]
  cases e.eval c Ty [] [] .const <;> rfl

theorem tuple_check (tys : List ι) (h16 : tys.length ≤ 16) (x : Expr ι)
    (h3 : x.check (fieldRefExprs (.unnamed tys)) [] = true) :
    GenStruct.check (ι := ι) ⟨prodExpr tys, x,
      fromBlock (.var ordinalVar) (tupleVars tys.length) tys (.positional (tupleVars tys.length))⟩ (.unnamed tys) = true := by
  obtain ⟨hn, hx, hv⟩ := tupleVars_ok tys.length h16
  have hb := block_check (.unnamed tys) (.var ordinalVar) (.positional (tupleVars tys.length))
      (tupleVars tys.length) paramCtx (by simp [Expr.check, paramCtx])
      (by simp [tupleVars, fieldTypes]) hx hv hn (by
        intro ctx' h
        simp only [Build.check, tupleVars_length, beq_self_eq_true, Bool.true_and, List.all_eq_true]
        intro p hp
        exact hasTy_of (h p hp))
  simp only [fieldTypes] at hb
  simp [GenStruct.check, check_prodExpr, h3, hb]

omit [DecidableEq ι] in
theorem variantOf_none (s : String) (vs : List (String × Fields ι)) (h : s ∉ vs.map (·.1)) (k : Nat) :
    variantOf s k vs = none := by
  induction vs generalizing k with
  | nil => rfl
  | cons v vs ih =>
    simp only [List.map_cons, List.mem_cons, not_or] at h
    rw [variantOf, if_neg (fun e => h.1 e.symm)]
    exact ih h.2 _

end OrdinalMap.Derive.Src
