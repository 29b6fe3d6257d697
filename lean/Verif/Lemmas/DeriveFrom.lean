import Verif.Lemmas.DeriveEval
/-!
# Running and checking the generated `from_ordinal` blocks
-/

namespace OrdinalMap.Derive
open OrdinalMap SizeExpr

variable {ι : Type} {c : Cfg} {Ty : Types ι} {sz : ι → Nat}

theorem lookup_self {κ β : Type} [BEq κ] [LawfulBEq κ] (k : κ) (v : β) (l : List (κ × β)) :
    List.lookup k ((k, v) :: l) = some v := by simp [List.lookup]

theorem lookup_ne {κ β : Type} [BEq κ] [LawfulBEq κ] {k k' : κ} (h : k ≠ k') (v : β)
    (l : List (κ × β)) : List.lookup k ((k', v) :: l) = List.lookup k l := by
  have : (k == k') = false := by simpa using h
  simp [List.lookup, this]

/-- Looking up the keys of a zip. -/
theorem lookup_zip {κ β : Type} [BEq κ] [LawfulBEq κ] (ks : List κ) (vs : List β) (hn : ks.Nodup) :
    ∀ p ∈ ks.zip vs, List.lookup p.1 (ks.zip vs) = some p.2 := by
  induction ks generalizing vs with
  | nil => simp
  | cons k ks ih =>
    cases vs with
    | nil => simp
    | cons v vs =>
      intro p hp
      rw [List.nodup_cons] at hn
      rcases List.mem_cons.1 hp with rfl | hp
      · exact lookup_self _ _ _
      · have hne : p.1 ≠ k := fun e => hn.1 (e ▸ (List.of_mem_zip hp).1)
        rw [List.zip_cons_cons, lookup_ne hne]
        exact ih vs hn.2 p hp

theorem nodup_reverse' {α : Type} {l : List α} (h : l.Nodup) : l.reverse.Nodup := by
  rw [List.Nodup, List.pairwise_reverse]
  exact h.imp fun hab => Ne.symm hab

theorem zip_reverse' {α β : Type} (a : List α) (b : List β) (h : a.length = b.length) :
    a.reverse.zip b.reverse = (a.zip b).reverse := by
  induction a generalizing b with
  | nil => simp
  | cons x a ih =>
    match b, h with
    | y :: b, h =>
      simp only [List.reverse_cons, List.zip_cons_cons]
      rw [List.zip_append (by simpa using h), ih b (by simpa using h)]
      rfl

/-- The two statements of one field. -/
def fieldStmts' (p : Ident × ι) : List (Stmt ι) :=
  [.letFromOrdinal p.1 p.2 (.rem (.var remVar) (.constBlock (.sizeOf p.2))),
    .divAssign remVar (.constBlock (.sizeOf p.2))]

theorem fieldsStmts_eq (fs : List (Ident × ι)) : fieldsStmts fs = .ok (fs.flatMap fieldStmts') := by
  induction fs with
  | nil => rfl
  | cons f fs ih =>
    obtain ⟨x, t⟩ := f
    simp [fieldsStmts, ih, fieldStmts, ordinalSize, constExpr, expr, fieldStmts']

/-- The block for a field list. -/
def fromBlock (ordinal : Expr ι) (vars : List Ident) (tys : List ι) (build : Build) : Block ι :=
  ⟨.letMut remVar ordinal :: ((vars.zip tys).reverse.flatMap fieldStmts' ++
    [.returnNoneIfNonzero remVar]), build⟩

theorem structFromOrdinal_eq (ordinal : Expr ι) (vars : List Ident) (tys : List ι) (build : Build) :
    structFromOrdinal ordinal vars tys build = .ok (fromBlock ordinal vars tys build) := by
  simp [structFromOrdinal, fieldsStmts_eq, fromBlock]

/-! ## Execution -/

theorem execStmts_append (env : Env Ty) (a b : List (Stmt ι)) :
    execStmts c Ty env (a ++ b) =
      (execStmts c Ty env a >>= fun
        | none => .ok none
        | some env' => execStmts c Ty env' b) := by
  induction a generalizing env with
  | nil => simp [execStmts]
  | cons s a ih =>
    simp only [List.cons_append, execStmts]
    rcases s.exec c Ty env with e | (_ | env') <;> simp [ih]

/-- Little-endian mixed-radix value. -/
def encR (sz : ι → Nat) : List Ty.Val → Nat
  | [] => 0
  | v :: vs => vord v + sz v.1 * encR sz vs

theorem enc_append_one (l : List Ty.Val) (v : Ty.Val) :
    enc sz (l ++ [v]) = enc sz l * sz v.1 + vord v := by
  induction l with
  | nil => simp [enc]
  | cons w l ih =>
    simp only [List.cons_append, enc, ih, List.map_append, List.map_cons, List.map_nil,
      prodSz_append, prodSz_cons, prodSz_nil, Nat.mul_one, Nat.add_mul, ← Nat.mul_assoc]
    omega

theorem enc_reverse (l : List Ty.Val) : enc sz l.reverse = encR sz l := by
  induction l with
  | nil => simp [enc, encR]
  | cons v l ih =>
    simp only [List.reverse_cons, enc_append_one, ih, encR]
    rw [Nat.mul_comm, Nat.add_comm]

theorem exec_field (L : ∀ t, Lawful c (Ty.impl t) (sz t)) (env : Env Ty) (x : Ident) (t : ι)
    (r : Nat) (hr : env.lookup remVar = some (.num r)) (hx : x ≠ remVar) (hp : 0 < sz t) :
    ∃ v : Ty.T t, ordOf (Ty.impl t) v = r % sz t ∧
      execStmts c Ty env (fieldStmts' (x, t)) =
        .ok (some ((remVar, .num (r / sz t)) :: (x, .field ⟨t, v⟩) :: env)) := by
  obtain ⟨v, h1, h2⟩ := (L t).exists_ord (Nat.mod_lt r hp)
  refine ⟨v, h2, ?_⟩
  have hne : sz t ≠ 0 := by omega
  simp [fieldStmts', execStmts, Stmt.exec, Expr.eval, hr, (L t).size, remU_ok hne, h1,
    lookup_ne (Ne.symm hx), divU_ok hne]

theorem exec_fields (L : ∀ t, Lawful c (Ty.impl t) (sz t)) (fs : List (Ident × ι)) (env : Env Ty)
    (r : Nat) (hr : env.lookup remVar = some (.num r)) (hx : remVar ∉ fs.map (·.1))
    (hn : (fs.map (·.1)).Nodup) (hp : ∀ f ∈ fs, 0 < sz f.2) :
    ∃ (env' : Env Ty) (l : List Ty.Val),
      execStmts c Ty env (fs.flatMap fieldStmts') = .ok (some env') ∧
      env'.lookup remVar = some (.num (r / prodSz sz (fs.map (·.2)))) ∧
      l.map Sigma.fst = fs.map (·.2) ∧
      (∀ p ∈ (fs.map (·.1)).zip l, env'.lookup p.1 = some (.field p.2)) ∧
      (∀ y, y ∉ fs.map (·.1) → y ≠ remVar → env'.lookup y = env.lookup y) ∧
      encR sz l = r % prodSz sz (fs.map (·.2)) := by
  induction fs generalizing env r with
  | nil =>
    refine ⟨env, [], rfl, by simpa using hr, rfl, by simp, fun _ _ _ => rfl, ?_⟩
    simp [encR, Nat.mod_one]
  | cons f fs ih =>
    obtain ⟨x, t⟩ := f
    simp only [List.map_cons, List.mem_cons, not_or, List.nodup_cons] at hx hn
    obtain ⟨v, hv, he⟩ := exec_field L env x t r hr (Ne.symm hx.1) (hp (x, t) (by simp))
    obtain ⟨env', l, h1, h2, h3, h4, h5, h6⟩ := ih
      ((remVar, .num (r / sz t)) :: (x, .field ⟨t, v⟩) :: env) (r / sz t)
      (lookup_self _ _ _) hx.2 hn.2 (fun f hf => hp f (by simp [hf]))
    refine ⟨env', ⟨t, v⟩ :: l, ?_, ?_, ?_, ?_, ?_, ?_⟩
    · rw [List.flatMap_cons, execStmts_append, he]
      simpa using h1
    · simpa [Nat.div_div_eq_div_mul] using h2
    · simp [h3]
    · intro p hp
      simp only [List.map_cons, List.zip_cons_cons, List.mem_cons] at hp
      rcases hp with rfl | hp
      · rw [h5 x hn.1 (Ne.symm hx.1), lookup_ne (Ne.symm hx.1), lookup_self]
      · exact h4 p hp
    · intro y hy hyr
      simp only [List.map_cons, List.mem_cons, not_or] at hy
      rw [h5 y hy.2 hyr, lookup_ne hyr, lookup_ne hy.1]
    · simp only [encR, h6, vord, hv, List.map_cons, prodSz_cons]
      rw [Nat.mod_mul]

/-- The values read from the environment. -/
theorem readVars_zip [DecidableEq ι] (env : Env Ty) (xs : List Ident) (l : List Ty.Val)
    (h : ∀ p ∈ xs.zip l, env.lookup p.1 = some (.field p.2)) (hl : xs.length = l.length) :
    readVars Ty env (xs.zip (l.map Sigma.fst)) = .ok l := by
  induction l generalizing xs with
  | nil => cases xs <;> simp [readVars]
  | cons v l ih =>
    match xs, hl with
    | x :: xs, hl =>
      have h1 := h (x, v) (by simp)
      simp only [List.map_cons, List.zip_cons_cons, readVars, readVar, h1, if_pos, ok_bind]
      rw [ih xs (fun p hp => h p (by simp [hp])) (by simpa using hl)]
      rfl

/-- The constructor used for a field list. -/
theorem structBuild_eval [DecidableEq ι] (env : Env Ty) (fs : Fields ι) (hw : fs.WF)
    (l : List Ty.Val) (ht : l.map Sigma.fst = fieldTypes fs)
    (h : ∀ p ∈ (fieldVars fs).zip l, env.lookup p.1 = some (.field p.2)) :
    (structBuild fs).eval Ty env fs = .ok l := by
  match fs with
  | .unit => cases l <;> simp_all [structBuild, Build.eval, fieldTypes]
  | .unnamed tys =>
    have hl : l.length = tys.length := by simpa [fieldTypes] using congrArg List.length ht
    simp only [structBuild, Build.eval, fieldVars, List.length_map, List.length_range, if_true]
    rw [show tys = l.map Sigma.fst from ht.symm]
    refine readVars_zip env _ l ?_ (by simp)
    simpa [fieldVars, hl] using h
  | .named ns =>
    have hl : l.length = ns.length := by simpa [fieldTypes] using congrArg List.length ht
    simp only [Fields.WF] at hw
    simp only [structBuild, Build.eval, fieldVars, fieldTypes] at *
    -- each name is bound to its own variable
    have hlk : ∀ f ∈ ns, List.lookup f.1
        ((ns.map (·.1)).zip (ns.map fun f => Ident.user f.1)) = some (Ident.user f.1) := by
      intro f hf
      refine lookup_zip _ _ hw (f.1, Ident.user f.1) ?_
      rw [List.zip_map']
      exact List.mem_map.2 ⟨f, hf, rfl⟩
    have key : ∀ (ms : List (String × ι)) (k : List Ty.Val), k.map Sigma.fst = ms.map (·.2) →
        (∀ p ∈ (ms.map fun f => Ident.user f.1).zip k, env.lookup p.1 = some (.field p.2)) →
        (∀ f ∈ ms, f ∈ ns) →
        (ms.mapM fun f => match List.lookup f.1
          ((ns.map (·.1)).zip (ns.map fun f => Ident.user f.1)) with
          | some x => readVar Ty env x f.2
          | none => .error .compileError) = (.ok k : R (List Ty.Val)) := by
      intro ms
      induction ms with
      | nil => intro k hk _ _; cases k <;> simp_all
      | cons m ms ih =>
        intro k hk hlk' hsub
        match k, hk with
        | v :: k, hk =>
          simp only [List.map_cons, List.cons.injEq] at hk
          rw [List.mapM_cons, hlk m (hsub m (by simp))]
          have hv := hlk' (Ident.user m.1, v) (by simp)
          rw [ih k hk.2 (fun p hp => hlk' p (by simp [hp])) (fun f hf => hsub f (by simp [hf]))]
          simp [readVar, hv, hk.1]
    exact key ns l ht h (fun _ h => h)

/-- Running a generated block on ordinal `r`. -/
theorem block_exec [DecidableEq ι] (L : ∀ t, Lawful c (Ty.impl t) (sz t)) (fs : Fields ι) (e : Expr ι)
    (b : Build) (vars : List Ident) (env : Env Ty) (r : Nat)
    (he : e.eval c Ty [] env .runtime = .ok r)
    (hl : vars.length = (fieldTypes fs).length) (hx : remVar ∉ vars) (hn : vars.Nodup)
    (hp : 0 < prodSz sz (fieldTypes fs))
    (hb : ∀ (env' : Env Ty) (l : List Ty.Val), l.map Sigma.fst = fieldTypes fs →
      (∀ p ∈ vars.zip l, env'.lookup p.1 = some (.field p.2)) → b.eval Ty env' fs = .ok l) :
    (prodSz sz (fieldTypes fs) ≤ r →
      (fromBlock e vars (fieldTypes fs) b).exec c Ty env fs = .ok none) ∧
    (r < prodSz sz (fieldTypes fs) → ∃ l : List Ty.Val, l.map Sigma.fst = fieldTypes fs ∧
      enc sz l = r ∧ (fromBlock e vars (fieldTypes fs) b).exec c Ty env fs = .ok (some l)) := by
  have hpos := prodSz_pos.1 hp
  have hm1 : ((vars.zip (fieldTypes fs)).reverse).map (·.1) = vars.reverse := by
    rw [List.map_reverse, List.map_fst_zip (by omega)]
  have hm2 : ((vars.zip (fieldTypes fs)).reverse).map (·.2) = (fieldTypes fs).reverse := by
    rw [List.map_reverse, List.map_snd_zip (by omega)]
  have hprod : prodSz sz (fieldTypes fs).reverse = prodSz sz (fieldTypes fs) := by
    generalize fieldTypes fs = ts
    induction ts with
    | nil => rfl
    | cons t ts ih => simp [prodSz_append, ih, Nat.mul_comm]
  obtain ⟨env', l, h1, h2, h3, h4, -, h6⟩ := exec_fields L (vars.zip (fieldTypes fs)).reverse
    ((remVar, .num r) :: env) r (lookup_self _ _ _) (by rw [hm1]; simpa using hx)
    (by rw [hm1]; exact nodup_reverse' hn)
    (by intro f hf
        exact hpos _ (List.of_mem_zip (List.mem_reverse.1 hf)).2)
  rw [hm2, hprod] at h2 h6
  rw [hm2] at h3
  rw [hm1] at h4
  have hstm : execStmts c Ty env (fromBlock e vars (fieldTypes fs) b).stmts =
      .ok (if r / prodSz sz (fieldTypes fs) ≠ 0 then none else some env') := by
    simp only [fromBlock, execStmts, Stmt.exec, he, ok_bind]
    rw [execStmts_append, h1]
    simp only [ok_bind, execStmts, Stmt.exec, h2]
    split <;> simp_all
  constructor
  · intro hge
    have : r / prodSz sz (fieldTypes fs) ≠ 0 := by
      have := Nat.div_pos hge hp
      omega
    simp [Block.exec, hstm, this]
  · intro hlt
    have hz : r / prodSz sz (fieldTypes fs) = 0 := Nat.div_eq_of_lt hlt
    have h3' : l.reverse.map Sigma.fst = fieldTypes fs := by rw [List.map_reverse, h3]; simp
    refine ⟨l.reverse, h3', ?_, ?_⟩
    · rw [enc_reverse, h6, Nat.mod_eq_of_lt hlt]
    · simp only [Block.exec, hstm, hz]
      simp only [ne_eq, not_true_eq_false, if_false, ok_bind]
      have hb' := hb env' l.reverse h3' ?_
      · rw [show (fromBlock e vars (fieldTypes fs) b).build = b from rfl, hb']; rfl
      · intro p hp
        refine h4 p ?_
        have hll : vars.length = l.length := by
          have := congrArg List.length h3
          simp at this; omega
        have : vars.zip l.reverse = (vars.reverse.zip l).reverse := by
          rw [← zip_reverse' _ _ (by simpa using hll), List.reverse_reverse]
        rw [this] at hp
        exact List.mem_reverse.1 hp

/-! ## Static checks -/

theorem checkStmts_append (ctx : Ctx ι) (a b : List (Stmt ι)) :
    checkStmts ctx (a ++ b) = (checkStmts ctx a).bind fun ctx' => checkStmts ctx' b := by
  induction a generalizing ctx with
  | nil => simp [checkStmts]
  | cons s a ih =>
    simp only [List.cons_append, checkStmts]
    cases s.check ctx <;> simp [ih]

theorem check_fields (fs : List (Ident × ι)) (ctx : Ctx ι)
    (hr : ctx.lookup remVar = some (.usize true)) (hx : remVar ∉ fs.map (·.1))
    (hb : ∀ x ∈ fs.map (·.1), x.bindable = true) (hn : (fs.map (·.1)).Nodup) :
    ∃ ctx' : Ctx ι, checkStmts ctx (fs.flatMap fieldStmts') = some ctx' ∧
      ctx'.lookup remVar = some (.usize true) ∧
      (∀ f ∈ fs, ctx'.lookup f.1 = some (.field f.2)) ∧
      (∀ y, y ∉ fs.map (·.1) → ctx'.lookup y = ctx.lookup y) := by
  induction fs generalizing ctx with
  | nil => exact ⟨ctx, rfl, hr, by simp, fun _ _ => rfl⟩
  | cons f fs ih =>
    obtain ⟨x, t⟩ := f
    simp only [List.map_cons, List.mem_cons, not_or, List.nodup_cons, forall_eq_or_imp] at hx hn hb
    obtain ⟨ctx', h1, h2, h3, h4⟩ := ih ((x, .field t) :: ctx) (by rw [lookup_ne hx.1]; exact hr)
      hx.2 hb.2 hn.2
    refine ⟨ctx', ?_, h2, ?_, ?_⟩
    · rw [List.flatMap_cons, checkStmts_append]
      simp [fieldStmts', checkStmts, Stmt.check, Expr.check, hr, lookup_ne hx.1, h1, hb.1]
    · intro f hf
      rcases List.mem_cons.1 hf with rfl | hf
      · rw [h4 x hn.1]; exact lookup_self _ _ _
      · exact h3 f hf
    · intro y hy
      simp only [List.map_cons, List.mem_cons, not_or] at hy
      rw [h4 y hy.2, lookup_ne hy.1]

/-- A field variable that is called `rem` or cannot be bound is rejected. -/
theorem check_fields_clash (fs : List (Ident × ι)) (ctx : Ctx ι)
    (hx : ∃ x ∈ fs.map (·.1), x = remVar ∨ x.bindable = false) : checkStmts ctx (fs.flatMap fieldStmts') = none := by
  induction fs generalizing ctx with
  | nil => simp at hx
  | cons f fs ih =>
    obtain ⟨x, t⟩ := f
    rw [List.flatMap_cons, checkStmts_append]
    by_cases h : x = remVar ∨ x.bindable = false
    · have : checkStmts ctx (fieldStmts' (x, t)) = none := by
        simp only [fieldStmts', checkStmts, Stmt.check]
        split
        · rfl
        · rename_i ctx' h
          split at h
          · rename_i hc
            cases h
            rcases ‹x = remVar ∨ _› with rfl | hb
            · simp [List.lookup]
            · simp [hb] at hc
          · cases h
      simp [this]
    · have hx' : ∃ x ∈ fs.map (·.1), x = remVar ∨ x.bindable = false := by
        obtain ⟨y, hy, hyc⟩ := hx
        simp only [List.map_cons, List.mem_cons] at hy
        rcases hy with rfl | hy
        · exact absurd hyc h
        · exact ⟨y, hy, hyc⟩
      cases checkStmts ctx (fieldStmts' (x, t)) with
      | none => rfl
      | some ctx' => simpa using ih ctx' hx'

theorem hasTy_of [DecidableEq ι] {ctx : Ctx ι} {x : Ident} {t : ι}
    (h : ctx.lookup x = some (.field t)) : hasTy ctx x t = true := by
  simp [hasTy, h]

theorem eraseDups_of_nodup {α : Type} [BEq α] [LawfulBEq α] (l : List α) (h : l.Nodup) :
    l.eraseDups = l := by
  induction l with
  | nil => rfl
  | cons a l ih =>
    rw [List.nodup_cons] at h
    rw [List.eraseDups_cons]
    have : l.filter (fun b => !b == a) = l := by
      rw [List.filter_eq_self]
      intro b hb
      have : b ≠ a := fun e => h.1 (e ▸ hb)
      simpa using this
    rw [this, ih h.2]

theorem structBuild_check [DecidableEq ι] (fs : Fields ι) (hw : fs.WF) (ctx : Ctx ι)
    (h : ∀ p ∈ (fieldVars fs).zip (fieldTypes fs), ctx.lookup p.1 = some (.field p.2)) :
    (structBuild fs).check ctx fs = true := by
  match fs with
  | .unit => rfl
  | .unnamed tys =>
    simp only [structBuild, Build.check, fieldVars, List.length_map, List.length_range, beq_self_eq_true,
      Bool.true_and, List.all_eq_true]
    intro p hp
    exact hasTy_of (h p hp)
  | .named ns =>
    simp only [Fields.WF] at hw
    simp only [structBuild, Build.check, fieldVars]
    have h1 : ((ns.map (·.1)).zip (ns.map fun f => Ident.user f.1)).map (·.1) = ns.map (·.1) :=
      List.map_fst_zip (by simp)
    rw [h1, eraseDups_of_nodup _ hw]
    simp only [List.length_zip, List.length_map, Nat.min_self, beq_self_eq_true, Bool.and_self,
      Bool.true_and, List.all_eq_true]
    intro f hf
    have : List.lookup f.1 ((ns.map (·.1)).zip (ns.map fun f => Ident.user f.1)) =
        some (Ident.user f.1) := by
      refine lookup_zip _ _ hw (f.1, Ident.user f.1) ?_
      rw [List.zip_map']
      exact List.mem_map.2 ⟨f, hf, rfl⟩
    rw [this]
    refine hasTy_of (h (Ident.user f.1, f.2) ?_)
    simp only [fieldVars, fieldTypes]
    rw [List.zip_map']
    exact List.mem_map.2 ⟨f, hf, rfl⟩

theorem block_check [DecidableEq ι] (fs : Fields ι) (e : Expr ι) (b : Build) (vars : List Ident)
    (ctx : Ctx ι) (he : e.check [] ctx = true)
    (hl : vars.length = (fieldTypes fs).length) (hx : remVar ∉ vars)
    (hv : ∀ x ∈ vars, x.bindable = true) (hn : vars.Nodup)
    (hb : ∀ ctx' : Ctx ι, (∀ p ∈ vars.zip (fieldTypes fs), ctx'.lookup p.1 = some (.field p.2)) →
      b.check ctx' fs = true) :
    (fromBlock e vars (fieldTypes fs) b).check ctx fs = true := by
  have hm1 : ((vars.zip (fieldTypes fs)).reverse).map (·.1) = vars.reverse := by
    rw [List.map_reverse, List.map_fst_zip (by omega)]
  obtain ⟨ctx', h1, h2, h3, -⟩ := check_fields (vars.zip (fieldTypes fs)).reverse
    ((remVar, .usize true) :: ctx) (lookup_self _ _ _) (by rw [hm1]; simpa using hx)
    (by rw [hm1]; simpa using hv) (by rw [hm1]; exact nodup_reverse' hn)
  simp only [Block.check, fromBlock, checkStmts, Stmt.check, he, show remVar.bindable = true from rfl, Bool.and_self, if_true]
  rw [checkStmts_append, h1]
  simp only [Option.bind_some, checkStmts, Stmt.check, h2]
  exact hb ctx' fun p hp => h3 p (List.mem_reverse.2 hp)

theorem block_check_clash [DecidableEq ι] (fs : Fields ι) (e : Expr ι) (b : Build) (vars : List Ident)
    (ctx : Ctx ι) (hl : vars.length = (fieldTypes fs).length) 
    (hx : ∃ x ∈ vars, x = remVar ∨ x.bindable = false) :
    (fromBlock e vars (fieldTypes fs) b).check ctx fs = false := by
  have hm1 : ((vars.zip (fieldTypes fs)).reverse).map (·.1) = vars.reverse := by
    rw [List.map_reverse, List.map_fst_zip (by omega)]
  simp only [Block.check, fromBlock, checkStmts, Stmt.check]
  split
  · rfl
  · rename_i ctx' h
    split at h
    · cases h
    · rename_i ctx'' h'
      rw [checkStmts_append, check_fields_clash _ _ (by rw [hm1]; simpa using hx)] at h
      cases h

/-! ## Field variables -/

theorem fieldVars_length (fs : Fields ι) : (fieldVars fs).length = (fieldTypes fs).length := by
  cases fs <;> simp [fieldVars, fieldTypes]

theorem fieldRefExprs_length (fs : Fields ι) :
    (fieldRefExprs fs).length = (fieldTypes fs).length := by
  cases fs <;> simp [fieldRefExprs, fieldTypes]

theorem nodup_map_inj {α β : Type} {f : α → β} (hf : ∀ a b, f a = f b → a = b) {l : List α}
    (h : l.Nodup) : (l.map f).Nodup := by
  rw [List.Nodup, List.pairwise_map]
  exact h.imp fun hab e => hab (hf _ _ e)

theorem fieldVars_nodup (fs : Fields ι) (hw : fs.WF) : (fieldVars fs).Nodup := by
  match fs with
  | .unit => exact List.nodup_nil
  | .unnamed tys => exact nodup_map_inj (fun a b h => by injection h) List.nodup_range
  | .named ns =>
    simp only [Fields.WF] at hw
    have : fieldVars (.named ns) = (ns.map (·.1)).map Ident.user := by simp [fieldVars]
    rw [this]
    exact nodup_map_inj (fun a b h => by injection h) hw

theorem fieldRefs_nodup (fs : Fields ι) (hw : fs.WF) : (fieldRefExprs fs).Nodup := by
  match fs with
  | .unit => exact List.nodup_nil
  | .unnamed tys => exact nodup_map_inj (fun a b h => by injection h) List.nodup_range
  | .named ns =>
    simp only [Fields.WF] at hw
    have : fieldRefExprs (.named ns) = (ns.map (·.1)).map Ref.selfNamed := by simp [fieldRefExprs]
    rw [this]
    exact nodup_map_inj (fun a b h => by injection h) hw

/-- No field variable is called `rem` or cannot be bound. -/
def NoClash (fs : Fields ι) : Prop :=
  ∀ x ∈ fieldVars fs, x ≠ remVar ∧ x.bindable = true

theorem not_noClash {fs : Fields ι} (h : ¬ NoClash fs) :
    ∃ x ∈ fieldVars fs, x = remVar ∨ x.bindable = false := by
  apply Classical.byContradiction
  intro hn
  refine h fun x hx => ⟨fun e => hn ⟨x, hx, .inl e⟩, ?_⟩
  cases hb : x.bindable with
  | true => rfl
  | false => exact absurd ⟨x, hx, .inr hb⟩ hn

theorem NoClash.rem {fs : Fields ι} (h : NoClash fs) : remVar ∉ fieldVars fs :=
  fun hm => (h _ hm).1 rfl

theorem NoClash.bindable {fs : Fields ι} (h : NoClash fs) : ∀ x ∈ fieldVars fs, x.bindable = true :=
  fun x hx => (h x hx).2

end OrdinalMap.Derive
