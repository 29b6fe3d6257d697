import Verif.Lemmas.EffectDerive
/-! # Soundness and calls of derived impls over field types with state -/

namespace OrdinalMap.Derive
open OrdinalMap

variable {ι σ : Type} {c : Cfg} {Ty : Types ι} {J : SImpls σ Ty} {sz : ι → Nat}

/-- `T st l`: in the state `st` the calls so far are (possibly) `l`. -/
structure FTraced (J : SImpls σ Ty) (T : σ → List (FCall Ty) → Prop) : Prop where
  size : ∀ t, Sound (J t).size
  ordinal : ∀ t k st l, T st l → Sound ((J t).ordinal k st).1 ∧ T ((J t).ordinal k st).2 (l ++ [⟨t, .ordinal k⟩])
  fromOrdinal : ∀ t i st l, T st l →
    Sound ((J t).fromOrdinal i st).1 ∧ T ((J t).fromOrdinal i st).2 (l ++ [⟨t, .from i⟩])

/-- Forgetting the calls. -/
theorem ftraced (h : ∀ t, SoundSImpl c (J t)) : FTraced J fun _ _ => True :=
  ⟨fun t => (h t).size, fun t _ _ _ _ => ⟨(h t).ordinal _ _, trivial⟩, fun t _ _ _ _ => ⟨(h t).fromOrdinal _ _, trivial⟩⟩

/-- Recording the calls. -/
theorem flogged (h : ∀ t, SoundSImpl c (J t)) : FTraced (loggedAll J) fun st l => st.2 = l := by
  refine ⟨fun t => (h t).size, fun t k st l e => ⟨(h t).ordinal _ _, ?_⟩, fun t i st l e => ⟨(h t).fromOrdinal _ _, ?_⟩⟩ <;>
    simp [loggedAll, e]

variable {T : σ → List (FCall Ty) → Prop}

/-- Some of the calls `q`, from the first on, after the calls `l`. -/
def Upto (T : σ → List (FCall Ty) → Prop) (l q : List (FCall Ty)) (st : σ) : Prop := ∃ p, p <+: q ∧ T st (l ++ p)

theorem upto_nil {l q : List (FCall Ty)} {st : σ} (h : T st l) : Upto T l q st :=
  ⟨[], List.nil_prefix, by simpa using h⟩

theorem upto_full {l q : List (FCall Ty)} {st : σ} (h : T st (l ++ q)) : Upto T l q st := ⟨q, List.prefix_refl q, h⟩

theorem Upto.left {l a b : List (FCall Ty)} {st : σ} (h : Upto T l a st) : Upto T l (a ++ b) st :=
  let ⟨p, h1, h2⟩ := h
  ⟨p, h1.trans (List.prefix_append a b), h2⟩

theorem Upto.right {l a b : List (FCall Ty)} {st : σ} (h : Upto T (l ++ a) b st) : Upto T l (a ++ b) st :=
  let ⟨p, h1, h2⟩ := h
  ⟨a ++ p, (List.prefix_append_right_inj a).2 h1, by rw [← List.append_assoc]; exact h2⟩

/-! ## Expressions -/

/-- The field references whose `ordinal` an expression computes, from left to right. -/
def Expr.refs : Expr ι → List Ref
  | .ordinalOf r => [r]
  | .add a b => a.refs ++ b.refs
  | .mul a b => a.refs ++ b.refs
  | .sub a b => a.refs ++ b.refs
  | .rem a b => a.refs ++ b.refs
  | _ => []

/-- The calls for a list of references. -/
def callsFor (refs : RefEnv Ty) (rs : List Ref) : List (FCall Ty) :=
  rs.filterMap fun r => (refs.lookup r).map fun v => ⟨v.1, .ordinal v.2⟩

theorem callsFor_append (refs : RefEnv Ty) (a b : List Ref) :
    callsFor refs (a ++ b) = callsFor refs a ++ callsFor refs b := List.filterMap_append

theorem callsFor_zip (refs : RefEnv Ty) (rs : List Ref) (l : List Ty.Val) (hl : rs.length = l.length)
    (h : ∀ p ∈ rs.zip l, refs.lookup p.1 = some p.2) : callsFor refs rs = ordinalCalls l := by
  induction rs generalizing l with
  | nil =>
    cases l with
    | nil => rfl
    | cons v l => simp at hl
  | cons r rs ih =>
    cases l with
    | nil => simp at hl
    | cons v l =>
      have h1 := h (r, v) (by simp)
      have h2 := ih l (by simpa using hl) fun p hp => h p (by simp [hp])
      simp only [callsFor, ordinalCalls] at h2 ⊢
      rw [List.filterMap_cons, h1, List.map_cons]
      simp only [Option.map_some, h2]

theorem sound_evalC {size : ι → R Nat} (h : ∀ t, Sound (size t)) (e : Expr ι) : Sound (e.evalC c size) := by
  induction e with
  | lit n => unfold Expr.evalC; split <;> first | exact Sound.mk_ok _ | exact Sound.mk_compileError
  | sizeOf t => exact h t
  | ordinalOf r => exact Sound.mk_compileError
  | add a b iha ihb => exact (iha.bind fun x => ihb.bind fun y => (sound_addC c x y).holds).sound
  | mul a b iha ihb => exact (iha.bind fun x => ihb.bind fun y => (sound_mulC c x y).holds).sound
  | var x => exact Sound.mk_compileError
  | sub a b iha ihb => exact (iha.bind fun x => ihb.bind fun y => (sound_subC x y).holds).sound
  | rem a b iha ihb => exact (iha.bind fun x => ihb.bind fun y => (sound_remC x y).holds).sound
  | constBlock e ih => exact ih

theorem holds_evalC {size : ι → R Nat} (h : ∀ t, Sound (size t)) (hlt : ∀ t n, size t = .ok n → n < c.M) (e : Expr ι) :
    Holds (e.evalC c size) fun n => n < c.M := by
  induction e with
  | lit n => unfold Expr.evalC; split <;> simp_all
  | sizeOf t =>
    have := (h t).holds
    unfold Expr.evalC
    rcases hs : size t with (_ | _ | _ | _) | n <;> simp_all [Holds]
    exact hlt t n hs
  | ordinalOf r => trivial
  | add a b iha ihb => exact iha.bind fun x _ => ihb.bind fun y _ => by unfold addC; split <;> simp_all
  | mul a b iha ihb => exact iha.bind fun x _ => ihb.bind fun y _ => by unfold mulC; split <;> simp_all
  | var x => trivial
  | sub a b iha ihb =>
    exact iha.bind fun x hx => ihb.bind fun y _ => by
      unfold subC
      split
      · simp only [holds_ok]; omega
      · trivial
  | rem a b iha ihb =>
    exact iha.bind fun x hx => ihb.bind fun y _ => by
      unfold remC
      split
      · trivial
      · simp only [holds_ok]; exact Nat.lt_of_le_of_lt (Nat.mod_le _ _) hx
  | constBlock e ih => exact ih

theorem mholds_two (hT : FTraced J T) {x y : M σ Nat} {f : Nat → Nat → R Nat} (hf : ∀ a b, Sound (f a b))
    {A B : List (FCall Ty)}
    (hx : ∀ st l, T st l → MHolds x st (fun _ st' => T st' (l ++ A)) (Upto T l A))
    (hy : ∀ st l, T st l → MHolds y st (fun _ st' => T st' (l ++ B)) (Upto T l B)) {st : σ} {l : List (FCall Ty)}
    (h : T st l) :
    MHolds (x >>= fun a => y >>= fun b => .of (f a b)) st (fun _ st' => T st' (l ++ (A ++ B))) (Upto T l (A ++ B)) := by
  refine ((hx st l h).mono (fun _ _ h => h) fun _ h => h.left).bind fun a st1 h1 => ?_
  refine ((hy st1 _ h1).mono (fun _ _ h => h) fun _ h => h.right).bind fun b st2 h2 => ?_
  rw [List.append_assoc] at h2
  exact mholds_of ((hf a b).holds.mono fun _ _ => h2) (upto_full h2)

theorem mholds_eval (hT : FTraced J T) (refs : RefEnv Ty) (env : Env Ty) (e : Expr ι) {st : σ} {l : List (FCall Ty)}
    (h : T st l) :
    MHolds (e.evalM c Ty J refs env) st (fun _ st' => T st' (l ++ callsFor refs e.refs))
      (Upto T l (callsFor refs e.refs)) := by
  have none_ : ∀ {x : R Nat}, Sound x → MHolds (M.of x) st (fun _ st' => T st' (l ++ [])) (Upto T l []) := fun hx =>
    mholds_of (hx.holds.mono fun _ _ => by simpa using h) (upto_nil h)
  induction e generalizing st l with
  | lit n => exact none_ (by split <;> first | exact Sound.mk_ok _ | exact Sound.mk_compileError)
  | sizeOf t => exact none_ (hT.size t)
  | ordinalOf r =>
    unfold Expr.evalM Expr.refs
    cases hr : refs.lookup r with
    | none => simpa [callsFor, hr] using none_ Sound.mk_compileError
    | some v =>
      have := hT.ordinal v.1 v.2 st l h
      have e : callsFor refs [r] = [⟨v.1, .ordinal v.2⟩] := by simp [callsFor, hr]
      rw [e]
      exact mholds_of_sound this.1 (fun _ => this.2) (upto_full this.2)
  | add a b iha ihb =>
    unfold Expr.evalM Expr.refs
    rw [callsFor_append]
    exact mholds_two hT (sound_addU c) (fun _ _ h => iha h (fun hx => mholds_of (hx.holds.mono fun _ _ => by simpa using h) (upto_nil h)))
      (fun _ _ h => ihb h (fun hx => mholds_of (hx.holds.mono fun _ _ => by simpa using h) (upto_nil h))) h
  | mul a b iha ihb =>
    unfold Expr.evalM Expr.refs
    rw [callsFor_append]
    exact mholds_two hT (sound_mulU c) (fun _ _ h => iha h (fun hx => mholds_of (hx.holds.mono fun _ _ => by simpa using h) (upto_nil h)))
      (fun _ _ h => ihb h (fun hx => mholds_of (hx.holds.mono fun _ _ => by simpa using h) (upto_nil h))) h
  | var x =>
    unfold Expr.evalM
    rcases env.lookup x with _ | (_ | _)
    · exact none_ Sound.mk_compileError
    · exact none_ (Sound.mk_ok _)
    · exact none_ Sound.mk_compileError
  | sub a b iha ihb =>
    unfold Expr.evalM Expr.refs
    rw [callsFor_append]
    exact mholds_two hT (sound_subU c) (fun _ _ h => iha h (fun hx => mholds_of (hx.holds.mono fun _ _ => by simpa using h) (upto_nil h)))
      (fun _ _ h => ihb h (fun hx => mholds_of (hx.holds.mono fun _ _ => by simpa using h) (upto_nil h))) h
  | rem a b iha ihb =>
    unfold Expr.evalM Expr.refs
    rw [callsFor_append]
    exact mholds_two hT sound_remU (fun _ _ h => iha h (fun hx => mholds_of (hx.holds.mono fun _ _ => by simpa using h) (upto_nil h)))
      (fun _ _ h => ihb h (fun hx => mholds_of (hx.holds.mono fun _ _ => by simpa using h) (upto_nil h))) h
  | constBlock e ih => exact none_ (sound_evalC hT.size e)

/-! ## The references of the generated expressions -/

mutual
/-- The references in a `SizeExpr`, from left to right. -/
def SizeExpr.refs : SizeExpr ι → List Ref
  | .const _ => []
  | .syn e => e.refs
  | .sum es => refsL es
  | .product es => refsL es
/-- The same for a list. -/
def SizeExpr.refsL : List (SizeExpr ι) → List Ref
  | [] => []
  | e :: es => e.refs ++ refsL es
end

open SizeExpr

theorem refsL_append (a b : List (SizeExpr ι)) : refsL (a ++ b) = refsL a ++ refsL b := by
  induction a with
  | nil => rfl
  | cons e a ih => simp [refsL, ih]

theorem refs_foldl_add (xs : List (Expr ι)) (x : Expr ι) :
    (xs.foldl .add x).refs = x.refs ++ xs.flatMap Expr.refs := by
  induction xs generalizing x with
  | nil => simp
  | cons y xs ih => simp [ih, Expr.refs]

theorem refs_foldl_mul (xs : List (Expr ι)) (x : Expr ι) :
    (xs.foldl .mul x).refs = x.refs ++ xs.flatMap Expr.refs := by
  induction xs generalizing x with
  | nil => simp
  | cons y xs ih => simp [ih, Expr.refs]

mutual
theorem expr_refs : (e : SizeExpr ι) → (x : Expr ι) → e.expr = .ok x → x.refs = e.refs
  | .const n, x, h => by
    simp only [SizeExpr.expr] at h
    cases h
    rfl
  | .syn e, x, h => by
    simp only [SizeExpr.expr] at h
    cases h
    rfl
  | .sum es, x, h => by
    simp only [SizeExpr.expr] at h
    cases hx : exprs es with
    | error e => rw [hx] at h; unfold constAssert at h; split at h <;> cases h
    | ok xs =>
      have := exprs_refs es xs hx
      rw [hx] at h
      unfold constAssert at h
      split at h
      · cases xs with
        | nil => cases h
        | cons y ys =>
          cases h
          rw [refs_foldl_add, SizeExpr.refs, ← this]
          rfl
      · cases h
  | .product es, x, h => by
    simp only [SizeExpr.expr] at h
    cases hx : exprs es with
    | error e => rw [hx] at h; unfold constAssert at h; split at h <;> cases h
    | ok xs =>
      have := exprs_refs es xs hx
      rw [hx] at h
      unfold constAssert at h
      split at h
      · cases xs with
        | nil => cases h
        | cons y ys =>
          cases h
          rw [refs_foldl_mul, SizeExpr.refs, ← this]
          rfl
      · cases h
theorem exprs_refs : (es : List (SizeExpr ι)) → (xs : List (Expr ι)) → exprs es = .ok xs → xs.flatMap Expr.refs = refsL es
  | [], xs, h => by
    simp only [exprs] at h
    cases h
    rfl
  | e :: es, xs, h => by
    simp only [exprs] at h
    cases he : e.expr with
    | error f => rw [he] at h; cases h
    | ok y =>
      cases hes : exprs es with
      | error f => rw [he, hes] at h; cases h
      | ok ys =>
        rw [he, hes] at h
        cases h
        rw [List.flatMap_cons, expr_refs e y he, exprs_refs es ys hes]
        rfl
end

theorem refs_sumIgnoreConst (es : List (SizeExpr ι)) : (sumIgnoreConst es).refs = refsL es := by
  match es with
  | [] => rfl
  | [e] => simp [sumIgnoreConst, refsL]
  | e1 :: e2 :: es => rfl

theorem refs_productIgnoreConst (es : List (SizeExpr ι)) : (productIgnoreConst es).refs = refsL es := by
  match es with
  | [] => rfl
  | [e] => simp [productIgnoreConst, refsL]
  | e1 :: e2 :: es => rfl

theorem refs_sumLoop (es : List (SizeExpr ι)) (s : Nat) (items : List (SizeExpr ι)) (s' : Nat) (items' : List (SizeExpr ι))
    (h : sumLoop es s items = .ok (s', items')) : refsL items' = refsL items ++ refsL es := by
  induction es generalizing s items with
  | nil =>
    simp only [sumLoop] at h
    cases h
    simp [refsL]
  | cons e es ih =>
    cases e with
    | const n =>
      simp only [sumLoop] at h
      split at h
      · cases h
      · rw [ih _ _ h]; simp [refsL, SizeExpr.refs]
    | syn x => simp only [sumLoop] at h; rw [ih _ _ h]; simp [refsL, refsL_append]
    | sum xs => simp only [sumLoop] at h; rw [ih _ _ h]; simp [refsL, refsL_append, SizeExpr.refs]
    | product xs => simp only [sumLoop] at h; rw [ih _ _ h]; simp [refsL, refsL_append]

theorem refs_mkSum (es : List (SizeExpr ι)) (e : SizeExpr ι) (h : mkSum es = .ok e) : e.refs = refsL es := by
  simp only [mkSum] at h
  cases hl : sumLoop es 0 [] with
  | error f => rw [hl] at h; cases h
  | ok p =>
    obtain ⟨s, items⟩ := p
    rw [hl] at h
    have := refs_sumLoop es 0 [] s items hl
    simp only [bind, Except.bind] at h
    cases h
    split
    · rw [refs_sumIgnoreConst, this]; simp [refsL]
    · rw [refs_sumIgnoreConst]; simp [refsL, SizeExpr.refs, this]

theorem refsL_sizes (ts : List ι) : refsL (ts.map ordinalSize) = [] := by
  induction ts with
  | nil => rfl
  | cons t ts ih => simp [refsL, SizeExpr.refs, ordinalSize, Expr.refs, ih]

theorem refsL_terms (rs : List Ref) (ts : List ι) (h : rs.length = ts.length) : refsL (terms rs ts) = rs := by
  induction rs generalizing ts with
  | nil => cases ts <;> rfl
  | cons r rs ih =>
    cases ts with
    | nil => simp at h
    | cons t ts =>
      simp only [terms, refsL, ih ts (by simpa using h)]
      split <;> simp [SizeExpr.refs, ordinalExpr, Expr.refs, refsL, refsL_sizes]

theorem refs_structOrdinal (rs : List Ref) (ts : List ι) (h : rs.length = ts.length) (e : SizeExpr ι)
    (he : structOrdinal rs ts = .ok e) : e.refs = rs := by
  rw [structOrdinal_eq rs ts h] at he
  cases he
  rw [refs_sumIgnoreConst, refsL_terms rs ts h]

theorem refsL_sizeS (vs : List (Fields ι)) : refsL (vs.map sizeS) = [] := by
  induction vs with
  | nil => rfl
  | cons v vs ih => simp only [List.map_cons, refsL, ih, sizeS, refs_productIgnoreConst, refsL_sizes]; rfl

theorem refs_first [DecidableEq ι] (vs : List (Fields ι)) (i : Nat) (e : SizeExpr ι) (h : sizeOfFirstVariants vs i = .ok e) :
    e.refs = [] := by
  simp only [sizeOfFirstVariants, variantSizes_eq] at h
  rw [refs_mkSum _ _ h, refsL_sizeS]

/-! ## Statements: soundness -/

/-- Whatever the statement: it returns or panics. -/
theorem msound_stmt (h : ∀ t, SoundSImpl c (J t)) (env : Env Ty) (s : Stmt ι) (st : σ) :
    MHolds (s.execM c Ty J env) st (fun _ _ => True) (fun _ => True) := by
  have hT := ftraced h
  have he : ∀ (e : Expr ι) (st : σ), MHolds (e.evalM c Ty J [] env) st (fun _ _ => True) (fun _ => True) := fun e st =>
    (mholds_eval hT [] env e (st := st) (l := []) trivial).mono (fun _ _ _ => trivial) fun _ _ => trivial
  cases s with
  | letMut x e => exact (he e st).bind fun n st1 _ => mholds_ok trivial
  | letFromOrdinal x t e =>
    exact (he e st).bind fun n st1 _ =>
      (mholds_of_sound (P := fun _ _ => True) ((h t).fromOrdinal n st1) (fun _ => trivial) trivial).bind fun o st2 _ =>
        (sound_unwrap o).mbind trivial fun v => mholds_ok trivial
  | divAssign x e =>
    simp only [Stmt.execM]
    rcases env.lookup x with _ | (n | _)
    · exact mholds_of trivial trivial
    · exact (he e st).bind fun d st1 _ => (sound_divU n d).mbind trivial fun m => mholds_ok trivial
    · exact mholds_of trivial trivial
  | returnNoneIfNonzero x =>
    simp only [Stmt.execM]
    rcases env.lookup x with _ | (n | _) <;> exact mholds_of trivial trivial

theorem msound_stmts (h : ∀ t, SoundSImpl c (J t)) (ss : List (Stmt ι)) (env : Env Ty) (st : σ) :
    MHolds (execStmtsM c Ty J env ss) st (fun _ _ => True) (fun _ => True) := by
  induction ss generalizing env st with
  | nil => exact mholds_ok trivial
  | cons s ss ih =>
    refine (msound_stmt h env s st).bind fun o st1 _ => ?_
    cases o with
    | none => exact mholds_ok trivial
    | some env' => exact ih env' st1

theorem msound_block [DecidableEq ι] (h : ∀ t, SoundSImpl c (J t)) (env : Env Ty) (fs : Fields ι) (b : Block ι) (st : σ) :
    MHolds (b.execM c Ty J env fs) st (fun _ _ => True) (fun _ => True) := by
  refine (msound_stmts h b.stmts env st).bind fun o st1 _ => ?_
  cases o with
  | none => exact mholds_ok trivial
  | some env' => exact (sound_buildEval env' fs b.build).mbind trivial fun l => mholds_ok trivial

theorem sound_toSImpl [DecidableEq ι] (h : ∀ t, SoundSImpl c (J t)) (g : GenStruct ι) (fs : Fields ι) :
    SoundSImpl c (g.toSImpl c Ty J fs) := by
  have hs := holds_evalC (c := c) (fun t => (h t).size) (fun t n => (h t).size_lt n) g.size
  refine ⟨hs.sound, fun n hn => ?_, fun v st => ?_, fun i st => ?_⟩
  · change g.size.evalC c _ = _ at hn
    rw [hn] at hs
    exact hs
  · exact (hs.sound.mbind (Q := fun _ => True) trivial fun n =>
      (mholds_eval (ftraced h) _ _ _ (l := []) trivial).mono (fun _ _ h => h) fun _ _ => trivial).sound
  · refine (hs.sound.mbind (Q := fun _ => True) (P' := fun _ _ => True) trivial fun n => ?_).sound
    split
    · exact mholds_ok trivial
    · refine (msound_block h _ fs _ st).bind fun o st1 _ => ?_
      cases o with
      | none => exact mholds_ok trivial
      | some l => dsimp only; split <;> exact mholds_of trivial trivial

theorem sound_rejectedS {α : Type} : SoundSImpl c (rejectedS (σ := σ) α) :=
  ⟨Sound.mk_compileError, (fun _ h => by cases h), fun _ _ => Sound.mk_compileError, fun _ _ => Sound.mk_compileError⟩

theorem msound_enumStmts [DecidableEq ι] (h : ∀ t, SoundSImpl c (J t)) (i : Nat) (vs : List (Fields ι))
    (rs : List (Expr ι × Block ι)) (k : Nat) (st : σ) :
    MHolds (execEnumStmtsM c Ty J i k vs rs) st (fun _ _ => True) (fun _ => True) := by
  induction vs generalizing rs k st with
  | nil => cases rs <;> exact mholds_ok trivial
  | cons v vs ih =>
    cases rs with
    | nil => exact mholds_ok trivial
    | cons r rs =>
      obtain ⟨e, b⟩ := r
      refine ((mholds_eval (ftraced h) [] _ e (st := st) (l := []) trivial).mono (fun _ _ h => h) fun _ _ => trivial).bind
        fun n st1 _ => ?_
      split
      · refine (msound_block h _ v b st1).bind fun o st2 _ => ?_
        cases o <;> exact mholds_ok trivial
      · exact ih _ _ _

theorem sound_toSImplEnum [DecidableEq ι] (h : ∀ t, SoundSImpl c (J t)) (g : GenEnum ι) (vs : List (Fields ι)) :
    SoundSImpl c (g.toSImpl c Ty J vs) := by
  have hs := holds_evalC (c := c) (fun t => (h t).size) (fun t n => (h t).size_lt n) g.size
  refine ⟨hs.sound, fun n hn => ?_, fun v st => ?_, fun i st => ?_⟩
  · change g.size.evalC c _ = _ at hn
    rw [hn] at hs
    exact hs
  · refine (hs.sound.mbind (Q := fun _ => True) (P' := fun _ _ => True) trivial fun n => ?_).sound
    split
    · exact mholds_ok trivial
    · split
      · exact (mholds_eval (ftraced h) _ _ _ (l := []) trivial).mono (fun _ _ h => trivial) fun _ _ => trivial
      · exact mholds_of trivial trivial
  · refine (hs.sound.mbind (Q := fun _ => True) (P' := fun _ _ => True) trivial fun n => ?_).sound
    split
    · exact mholds_ok trivial
    · refine (msound_enumStmts h i vs _ 0 st).bind fun o st1 _ => ?_
      cases o with
      | none => exact mholds_ok trivial
      | some l => dsimp only; split <;> exact mholds_of trivial trivial

/-! ## Statements: calls -/

theorem execStmtsM_append (env : Env Ty) (a b : List (Stmt ι)) :
    execStmtsM c Ty J env (a ++ b) = (execStmtsM c Ty J env a >>= fun o => match o with
      | none => .of (.ok none)
      | some env' => execStmtsM c Ty J env' b) := by
  induction a generalizing env with
  | nil => rfl
  | cons s a ih =>
    simp only [List.cons_append, execStmtsM]
    rw [M.bind_assoc']
    congr 1
    funext o
    cases o with
    | none => rfl
    | some env' => exact ih env'

/-- Two statements of a field: one call. -/
theorem mholds_field (hT : FTraced J T) (hs : ∀ t, (J t).size = .ok (sz t)) (env : Env Ty) (x : Ident) (t : ι) (r : Nat)
    (hr : env.lookup remVar = some (.num r)) {st : σ} {l : List (FCall Ty)} (h : T st l) :
    MHolds (execStmtsM c Ty J env (fieldStmts' (x, t))) st
      (fun o st' => (∃ env', o = some env' ∧ env'.lookup remVar = some (.num (r / sz t))) ∧
        T st' (l ++ [⟨t, .from (r % sz t)⟩]))
      (Upto T l [⟨t, .from (r % sz t)⟩]) := by
  have hc : ∀ env : Env Ty, (Expr.constBlock (.sizeOf t)).evalM c Ty J [] env = .of (.ok (sz t)) := fun env => by
    simp only [Expr.evalM, Expr.evalC, hs]
  by_cases h0 : sz t = 0
  · have : execStmtsM c Ty J env (fieldStmts' (x, t)) = .of (.error .panic) := by
      simp only [fieldStmts', execStmtsM, Stmt.execM, Expr.evalM, hr, Expr.evalC, hs, M.ok_bind, remU, h0, if_true,
        M.error_bind]
    rw [this]
    exact mholds_of trivial (upto_nil h)
  · have e : execStmtsM c Ty J env (fieldStmts' (x, t)) = ((J t).fromOrdinal (r % sz t) >>= fun o =>
        M.of (unwrap o) >>= fun v => execStmtsM c Ty J ((x, .field ⟨t, v⟩) :: env)
          [.divAssign remVar (.constBlock (.sizeOf t))]) := by
      simp only [fieldStmts', execStmtsM, Stmt.execM, Expr.evalM, hr, Expr.evalC, hs, M.ok_bind, remU, h0, if_false,
        M.bind_assoc']
    rw [e]
    have hf := hT.fromOrdinal t (r % sz t) st l h
    refine (mholds_of_sound (P := fun _ st' => T st' (l ++ [⟨t, .from (r % sz t)⟩])) hf.1 (fun _ => hf.2)
      (upto_full hf.2)).bind fun o st1 h1 => ?_
    refine (sound_unwrap o).mbind (upto_full h1) fun v => ?_
    by_cases hx : x = remVar
    · subst hx
      simp only [execStmtsM, Stmt.execM, lookup_self, M.error_bind]
      exact mholds_of trivial (upto_full h1)
    · simp only [execStmtsM, Stmt.execM, lookup_ne (Ne.symm hx), hr, hc, M.ok_bind, divU, h0, if_false]
      exact mholds_ok ⟨⟨_, rfl, lookup_self _ _ _⟩, h1⟩

theorem mholds_fields (hT : FTraced J T) (hs : ∀ t, (J t).size = .ok (sz t)) (fs : List (Ident × ι)) (env : Env Ty)
    (r : Nat) (hr : env.lookup remVar = some (.num r)) {st : σ} {l : List (FCall Ty)} (h : T st l) :
    MHolds (execStmtsM c Ty J env (fs.flatMap fieldStmts')) st
      (fun o st' => (∃ env' r', o = some env' ∧ env'.lookup remVar = some (.num r')) ∧
        T st' (l ++ digitCalls Ty sz (fs.map (·.2)) r))
      (Upto T l (digitCalls Ty sz (fs.map (·.2)) r)) := by
  induction fs generalizing env r st l with
  | nil => exact mholds_ok ⟨⟨env, r, rfl, hr⟩, by simpa [digitCalls] using h⟩
  | cons f fs ih =>
    obtain ⟨x, t⟩ := f
    rw [List.flatMap_cons, execStmtsM_append]
    simp only [List.map_cons, digitCalls]
    rw [← List.singleton_append (l := digitCalls Ty sz (fs.map (·.2)) (r / sz t))]
    refine ((mholds_field hT hs env x t r hr h).mono (fun _ _ h => h) fun _ h => h.left).bind ?_
    rintro o st1 ⟨⟨env', rfl, hr'⟩, h1⟩
    refine (ih env' (r / sz t) hr' h1).mono ?_ fun _ h => h.right
    rintro o st2 ⟨h2, h3⟩
    exact ⟨h2, by rw [← List.append_assoc]; exact h3⟩

/-- The block of a struct or variant. -/
theorem mholds_block [DecidableEq ι] (hT : FTraced J T) (hs : ∀ t, (J t).size = .ok (sz t)) (fs : Fields ι) (e : Expr ι)
    (b : Build) (vars : List Ident) (env : Env Ty) (r : Nat) (he : e.evalM c Ty J [] env = .of (.ok r))
    (tys : List ι) (hl : vars.length = tys.length) {st : σ} {l : List (FCall Ty)} (h : T st l) :
    MHolds ((fromBlock e vars tys b).execM c Ty J env fs) st
      (fun _ st' => T st' (l ++ digitCalls Ty sz tys.reverse r)) (Upto T l (digitCalls Ty sz tys.reverse r)) := by
  have hm : (vars.zip tys).reverse.map (·.2) = tys.reverse := by
    rw [List.map_reverse, List.map_snd_zip (by omega)]
  have hf := mholds_fields (c := c) hT hs (vars.zip tys).reverse ((remVar, .num r) :: env) r (lookup_self _ _ _) h
  rw [hm] at hf
  simp only [Block.execM, fromBlock, execStmtsM, Stmt.execM, he, M.ok_bind]
  rw [execStmtsM_append, M.bind_assoc']
  refine hf.bind ?_
  rintro o st1 ⟨⟨env', r', rfl, hr'⟩, h1⟩
  simp only [execStmtsM, Stmt.execM, hr', M.ok_bind]
  by_cases h0 : r' = 0
  · simp only [h0, ne_eq, not_true_eq_false, if_false, M.ok_bind]
    exact (sound_buildEval env' fs b).mbind (upto_full h1) fun l => mholds_ok h1
  · simp only [h0, ne_eq, not_false_eq_true, if_true, M.ok_bind]
    exact mholds_ok h1

/-! ## Sizes -/

/-- A type with `n` values. -/
def finImpl (n : Nat) : OrdinalImpl (Fin n) where
  size := .ok n
  ordinal k := .ok k.1
  fromOrdinal i := .ok (if h : i < n then some ⟨i, h⟩ else none)

/-- Field types with the given numbers of values.  Constants depend on these numbers only. -/
def finTypes (sz : ι → Nat) : Types ι := ⟨fun t => Fin (sz t), fun t => finImpl (sz t)⟩

theorem finTypes_lawful (h : ∀ t, sz t < c.M) (t : ι) : Lawful c ((finTypes sz).impl t) (sz t) := by
  refine ⟨rfl, h t, fun k => ⟨k.1, k.2, rfl, ?_⟩, fun i hi => ⟨⟨i, hi⟩, ?_, rfl⟩⟩
  · have hk : k.1 < sz t := k.2
    simp only [finTypes, finImpl, hk, dif_pos]
    rfl
  · simp [finTypes, finImpl, hi]

theorem evalC_fin (hs : ∀ t, (J t).size = .ok (sz t)) (e : Expr ι) :
    (e.evalC c fun t => (J t).size) = e.eval c (finTypes sz) [] [] .const :=
  evalC_eval _ (fun t => (hs t).symm) _ _ e

theorem constExpr_evalM (hs : ∀ t, (J t).size = .ok (sz t)) (e : SizeExpr ι) (x : Expr ι) (h : e.constExpr = .ok x)
    (refs : RefEnv Ty) (env : Env Ty) :
    x.evalM c Ty J refs env = .of (x.eval c (finTypes sz) [] [] .runtime) := by
  have key : ∀ y : R (Expr ι), (y >>= fun y => .ok (Expr.constBlock y)) = .ok x →
      x.evalM c Ty J refs env = .of (x.eval c (finTypes sz) [] [] .runtime) := by
    intro y hy
    cases y with
    | error f => cases hy
    | ok y =>
      cases hy
      simp only [Expr.evalM, Expr.eval, evalC_fin hs]
  cases e with
  | const n =>
    simp only [SizeExpr.constExpr] at h
    cases h
    rfl
  | syn e => exact key _ h
  | sum es => exact key _ h
  | product es => exact key _ h

/-! ## Structs and tuples -/

theorem mholds_structOrdinal [DecidableEq ι] (hT : FTraced J T) (g : GenStruct ι) (fs : Fields ι) (hw : fs.WF)
    (hg : g.ordinal.refs = fieldRefExprs fs) (v : FieldVals Ty (fieldTypes fs)) {st : σ} (h : T st []) :
    MHolds ((g.toSImpl c Ty J fs).ordinal v) st (fun _ st' => T st' (ordinalCalls v.1)) (Upto T [] (ordinalCalls v.1)) := by
  have hl : (fieldRefExprs fs).length = v.1.length := by
    have := congrArg List.length v.2
    rw [List.length_map] at this
    rw [fieldRefExprs_length, this]
  have hc : callsFor (selfRefs Ty fs v.1) g.ordinal.refs = ordinalCalls v.1 := by
    rw [hg, selfRefs_eq fs v.1 v.2]
    exact callsFor_zip _ _ _ hl (lookup_zip _ _ (fieldRefs_nodup fs hw))
  refine (sound_evalC hT.size g.size).mbind (upto_nil h) fun n => ?_
  have := mholds_eval (c := c) hT (selfRefs Ty fs v.1) [] g.ordinal h
  rw [hc] at this
  exact this

theorem mholds_structFrom [DecidableEq ι] (hT : FTraced J T) (hs : ∀ t, (J t).size = .ok (sz t)) (hlt : ∀ t, sz t < c.M)
    (g : GenStruct ι) (fs : Fields ι) (vars : List Ident) (b : Build) (hsz : g.size = prodExpr (fieldTypes fs))
    (hf : g.fromOrdinal = fromBlock (.var ordinalVar) vars (fieldTypes fs) b)
    (hl : vars.length = (fieldTypes fs).length) (i : Nat) {st : σ} (h : T st []) :
    MHolds ((g.toSImpl c Ty J fs).fromOrdinal i) st
      (fun _ st' => T st' (if fieldsSize sz (fieldTypes fs) = 0 then [] else digitCalls Ty sz (fieldTypes fs).reverse i))
      (Upto T [] (if fieldsSize sz (fieldTypes fs) = 0 then [] else digitCalls Ty sz (fieldTypes fs).reverse i)) := by
  have ha := approx_prodExpr (finTypes_lawful hlt) [] [] (fieldTypes fs)
  simp only [GenStruct.toSImpl, hsz, evalC_fin hs, hf]
  rcases ha with ha | ha
  · rw [ha, M.ok_bind]
    change MHolds _ st (fun _ st' => T st' (if prodSz sz (fieldTypes fs) = 0 then [] else _))
      (Upto T [] (if prodSz sz (fieldTypes fs) = 0 then [] else _))
    split
    · exact mholds_ok h
    · refine (mholds_block hT hs fs (.var ordinalVar) b vars [(ordinalVar, .num i)] i ?_ _ hl h).bind fun o st1 h1 => ?_
      · simp only [Expr.evalM, lookup_self]
      · have h1' : T st1 (digitCalls Ty sz (fieldTypes fs).reverse i) := h1
        cases o with
        | none => exact mholds_ok h1'
        | some l =>
          dsimp only
          split
          · exact mholds_ok h1'
          · exact mholds_of trivial (upto_full h1)
  · rw [ha, M.error_bind]
    exact mholds_of trivial (upto_nil h)

/-! ## Enums -/

theorem arm_refs [DecidableEq ι] (vs : List (Fields ι)) (i : Nat) (v : Fields ι) (arm : Pat × Expr ι)
    (h : enumArm vs i v = .ok arm) : arm.1 = variantPat v ∧ arm.2.refs = (fieldVars v).map .var := by
  simp only [enumArm] at h
  cases h1 : sizeOfFirstVariants vs i with
  | error f => rw [h1] at h; cases h
  | ok e1 =>
    cases h2 : structOrdinal ((fieldVars v).map .var) (fieldTypes v) with
    | error f => rw [h1, h2] at h; cases h
    | ok e2 =>
      cases h3 : mkSum [e1, e2] with
      | error f => rw [h1, h2] at h; simp only [bind, Except.bind, h3] at h; cases h
      | ok e3 =>
        cases h4 : e3.expr with
        | error f => rw [h1, h2] at h; simp only [bind, Except.bind, h3, h4] at h; cases h
        | ok x =>
          rw [h1, h2] at h
          simp only [bind, Except.bind, h3, h4] at h
          cases h
          refine ⟨rfl, ?_⟩
          rw [expr_refs e3 x h4, refs_mkSum _ _ h3]
          simp only [refsL, refs_first vs i e1 h1, List.nil_append, List.append_nil]
          exact refs_structOrdinal _ _ (by rw [List.length_map, fieldVars_length]) _ h2

theorem mholds_arm [DecidableEq ι] (hT : FTraced J T) (vs : List (Fields ι)) (i : Nat) (v : Fields ι) (hw : v.WF)
    (arm : Pat × Expr ι) (ha : enumArm vs i v = .ok arm) (l : List Ty.Val) (hl : l.map Sigma.fst = fieldTypes v)
    {st : σ} (h : T st []) :
    MHolds (arm.2.evalM c Ty J (arm.1.bind Ty v l) []) st (fun _ st' => T st' (ordinalCalls l))
      (Upto T [] (ordinalCalls l)) := by
  obtain ⟨h1, h2⟩ := arm_refs vs i v arm ha
  have := mholds_eval (c := c) hT (arm.1.bind Ty v l) [] arm.2 h
  rw [h2, h1, callsFor_zip _ _ l (by rw [List.length_map, fieldVars_length, ← hl, List.length_map])
    (bind_lookup v hw l hl)] at this
  rw [h1]
  exact this

/-- The calls of `from_ordinal` of an enum. -/
def enumCalls (Ty : Types ι) (sz : ι → Nat) (vs : List (Fields ι)) (i : Nat) : List (FCall Ty) :=
  match variantAt sz vs i with
  | none => []
  | some (v, j) => digitCalls Ty sz (fieldTypes v).reverse j

theorem variantAt_none {vs : List (Fields ι)} (h : vsum sz vs = 0) (i : Nat) : variantAt sz vs i = none := by
  induction vs generalizing i with
  | nil => rfl
  | cons v vs ih =>
    have h' : prodSz sz (fieldTypes v) + vsum sz vs = 0 := by simpa [vsum] using h
    have hf : fieldsSize sz (fieldTypes v) = prodSz sz (fieldTypes v) := rfl
    rw [variantAt, if_neg (by omega)]
    exact ih (by omega) _

theorem mholds_enumStmts [DecidableEq ι] (hT : FTraced J T) (hs : ∀ t, (J t).size = .ok (sz t)) (hlt : ∀ t, sz t < c.M)
    (vs : List (Fields ι)) (h64 : vs.countP noFields < 2 ^ 64)
    (hev : ∀ v ∈ vs, (prodExpr (fieldTypes v)).eval c (finTypes sz) [] [] .const = .ok (prodSz sz (fieldTypes v)))
    (hM : vsum sz vs < c.M) (i : Nat) {st : σ} (h : T st []) :
    ∀ (rest : List (Fields ι)) (rs : List (Expr ι × Block ι)) (k : Nat),
      rest = vs.drop k → k + rest.length = vs.length → rs.length = rest.length →
      (∀ j v, rest[j]? = some v → ∃ s, rs[j]? = some s ∧ enumFromStmt vs (k + j) v = .ok s) →
      vsum sz (vs.take k) ≤ i →
      MHolds (execEnumStmtsM c Ty J i k rest rs) st
        (fun _ st' => T st' (enumCalls Ty sz rest (i - vsum sz (vs.take k))))
        (Upto T [] (enumCalls Ty sz rest (i - vsum sz (vs.take k)))) := by
  have L := finTypes_lawful hlt
  intro rest
  induction rest with
  | nil =>
    intro rs k _ _ _ _ _
    cases rs <;> exact mholds_ok h
  | cons v rest ih =>
    intro rs k hd hk hlen hst hle
    match rs, hlen with
    | (inc, blk) :: rs, hlen =>
      have hkv : vs[k]? = some v := by
        have := congrArg List.head? hd
        simpa using this.symm
      obtain ⟨s, hs1, hs2⟩ := hst 0 v rfl
      simp only [List.getElem?_cons_zero, Option.some.injEq] at hs1
      subst hs1
      obtain ⟨b, inc', hb, hinc, -, -, hs'⟩ := stmt_ok vs h64 k v
      rw [Nat.add_zero, hs'] at hs2
      injection hs2 with hs2
      injection hs2 with h1 h2
      subst h1 h2
      have heb := first_eval L vs hev hM k b hb
      have hei := first_eval L vs hev hM (k + 1) inc' hinc
      have hcb : ∀ (refs : RefEnv Ty) (env : Env Ty), b.evalM c Ty J refs env = .of (.ok (vsum sz (vs.take k))) := by
        intro refs env
        cases hx : sizeOfFirstVariants vs k with
        | error f => rw [hx] at hb; cases hb
        | ok e =>
          rw [hx] at hb
          rw [constExpr_evalM hs e b hb, heb]
      have hci : ∀ (refs : RefEnv Ty) (env : Env Ty),
          inc'.evalM c Ty J refs env = .of (.ok (vsum sz (vs.take (k + 1)))) := by
        intro refs env
        cases hx : sizeOfFirstVariants vs (k + 1) with
        | error f => rw [hx] at hinc; cases hinc
        | ok e =>
          rw [hx] at hinc
          rw [constExpr_evalM hs e inc' hinc, hei]
      have hstep := vsum_take_succ sz vs k v hkv
      have hfs : fieldsSize sz (fieldTypes v) = prodSz sz (fieldTypes v) := rfl
      simp only [execEnumStmtsM, hci, M.ok_bind]
      by_cases hi : i < vsum sz (vs.take (k + 1))
      · rw [if_pos hi]
        have he : enumCalls Ty sz (v :: rest) (i - vsum sz (vs.take k)) =
            digitCalls Ty sz (fieldTypes v).reverse (i - vsum sz (vs.take k)) := by
          unfold enumCalls variantAt
          rw [if_pos (by omega)]
        rw [he]
        refine (mholds_block hT hs v (.sub (.var ordinalVar) b) (structBuild v) (fieldVars v) [(ordinalVar, .num i)]
          (i - vsum sz (vs.take k)) ?_ _ (fieldVars_length v) h).bind fun o st1 h1 => ?_
        · simp only [Expr.evalM, lookup_self, hcb, M.ok_bind, subU_ok hle]
        · cases o <;> exact mholds_ok h1
      · rw [if_neg hi]
        have he : enumCalls Ty sz (v :: rest) (i - vsum sz (vs.take k)) =
            enumCalls Ty sz rest (i - vsum sz (vs.take (k + 1))) := by
          unfold enumCalls
          rw [variantAt, if_neg (by omega), hfs, show i - vsum sz (vs.take k) - prodSz sz (fieldTypes v) =
            i - vsum sz (vs.take (k + 1)) by omega]
        rw [he]
        refine ih rs (k + 1) ?_ (by simp at hk; omega) (by simpa using hlen) ?_ (by omega)
        · have := congrArg List.tail hd
          simpa [← List.drop_one, List.drop_drop] using this
        · intro j w hj
          obtain ⟨s, hs1, hs2⟩ := hst (j + 1) w (by simpa using hj)
          exact ⟨s, by simpa using hs1, by rw [← hs2]; congr 1; omega⟩

end OrdinalMap.Derive
