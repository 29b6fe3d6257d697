import Verif.Model.Run
import Verif.SpecSource
/-!
# Lemmas about running the emitted text

The interpreter of `Model/Run.lean` on the trees of `SpecSource.lean`, against the evaluator of
`Model/Derive.lean`.
-/

namespace OrdinalMap.Derive.Src
open OrdinalMap OrdinalMap.Derive

variable {ι : Type} {Ty : Types ι} {c : Cfg} {d : Decl ι} {size : R Nat}
variable {self : Option (Nat × List Ty.Val)}

/-- The outcome of an expression that is a `usize`. -/
def lift (r : R Nat) (env : VEnv Ty) : R (Out Ty (V Ty) × VEnv Ty) :=
  match r with
  | .error e => .error e
  | .ok n => .ok (.val (.num n), env)

@[simp] theorem lift_ok (n : Nat) (env : VEnv Ty) : lift (.ok n) env = .ok (.val (.num n), env) := rfl
@[simp] theorem lift_error (e : Fault) (env : VEnv Ty) : lift (.error e) env = .error e := rfl

theorem of_num (r : R Nat) (env : VEnv Ty) : (Ev.of (V.num <$> r) : Ev Ty (V Ty)) env = lift r env := by
  cases r <;> rfl

@[simp] theorem isNames_Self (l : List String) (p : List Seg) : isNames l (.Self :: p) = false := by
  cases l <;> simp [isNames]

@[simp] theorem isNames_names (l l' : List String) : isNames l (names l') = (l' == l) := by
  unfold isNames names
  induction l' generalizing l with
  | nil => cases l <;> simp
  | cons a l' ih => cases l with
    | nil => simp
    | cons b l =>
      have h : (Seg.id (Ident.user a) == Seg.id (Ident.user b)) = (a == b) := by
        rw [Bool.eq_iff_iff, beq_iff_eq, beq_iff_eq, Seg.id.injEq, Ident.user.injEq]
      simp [ih, h]

section
variable [DecidableEq ι]

/-- A binary operator on two `usize`. -/
theorem run_bin {m : Mode} {op : BinOp} {a b : E ι} {env : VEnv Ty} {x y : R Nat}
    (ha : runE c d size self m a env = lift x env) (hb : runE c d size self m b env = lift y env) :
    runE c d size self m (.bin op a b) env =
      (x >>= fun i => y >>= fun j => (binOp (Ty := Ty) c m op i j) >>= fun v => .ok (.val v, env)) := by
  rw [runE, Ev.bind, ha]
  cases x with
  | error e => rfl
  | ok i =>
    simp only [lift_ok, Ev.bind, hb]
    cases y with
    | error e => rfl
    | ok j => rfl

omit [DecidableEq ι] in
theorem num_bind (r : R Nat) (env : VEnv Ty) :
    ((V.num <$> r : R (V Ty)) >>= fun v => (.ok (.val v, env) : R (Out Ty (V Ty) × VEnv Ty))) = lift r env := by
  cases r <;> rfl

omit [DecidableEq ι] in
theorem lift_bind2 (x y : R Nat) (f : Nat → Nat → R Nat) (env : VEnv Ty) :
    (x >>= fun i => y >>= fun j => lift (f i j) env) = lift (x >>= fun i => y >>= fun j => f i j) env := by
  cases x with
  | error e => rfl
  | ok i => cases y <;> rfl

/-- Constants. -/
theorem run_const (refs : RefEnv Ty) (old : Env Ty) (e : Expr ι) (h : e.check [] [] = true)
    (self : Option (Nat × List Ty.Val)) (env : VEnv Ty) :
    runE c d size self .const (exprTree e) env = lift (e.eval c Ty refs old .const) env := by
  induction e generalizing self env refs old with
  | lit n =>
    rw [exprTree, runE, Expr.eval]
    split <;> rfl
  | sizeOf t => rw [exprTree, runE]; simp [of_num, Expr.eval]
  | ordinalOf r => simp [Expr.check] at h
  | add a b iha ihb =>
    simp only [Expr.check, Bool.and_eq_true] at h
    rw [exprTree, run_bin (iha refs old h.1 self env) (ihb refs old h.2 self env)]
    simp only [binOp, num_bind, lift_bind2, Expr.eval]
  | mul a b iha ihb =>
    simp only [Expr.check, Bool.and_eq_true] at h
    rw [exprTree, run_bin (iha refs old h.1 self env) (ihb refs old h.2 self env)]
    simp only [binOp, num_bind, lift_bind2, Expr.eval]
  | var x => simp [Expr.check] at h
  | sub a b iha ihb =>
    simp only [Expr.check, Bool.and_eq_true] at h
    rw [exprTree, run_bin (iha refs old h.1 self env) (ihb refs old h.2 self env)]
    simp only [binOp, num_bind, lift_bind2, Expr.eval]
  | rem a b iha ihb =>
    simp only [Expr.check, Bool.and_eq_true] at h
    rw [exprTree, run_bin (iha refs old h.1 self env) (ihb refs old h.2 self env)]
    simp only [binOp, num_bind, lift_bind2, Expr.eval]
  | constBlock e ih =>
    rw [exprTree, runE, runB, ih [] [] h none []]
    simp only [Expr.eval]
    cases e.eval c Ty [] [] .const <;> rfl

/-- The two kinds of scope agree on what the static check knows of. -/
def RelV (ctx : Ctx ι) (old : Env Ty) (env : VEnv Ty) : Prop :=
  ∀ x τ, ctx.lookup x = some τ → x.bindable = true ∧
    match τ with
    | .usize m => ∃ n, old.lookup x = some (.num n) ∧ env.lookup x = some (m, .num n)
    | .field t => ∃ v : Ty.T t, old.lookup x = some (.field ⟨t, v⟩) ∧ env.lookup x = some (false, .fld ⟨t, v⟩)

theorem run_var {x : Ident} (hx : x.bindable = true) (m : Mode) (env : VEnv Ty) :
    runE c d size self m (var x) env = readV x env := by
  have h : isNames ["None"] [.id x] = false := by
    cases x with
    | pos i => rfl
    | user s =>
      cases hn : isNames ["None"] [.id (.user s)] with
      | false => rfl
      | true =>
        simp [isNames] at hn
        subst hn
        exact absurd hx (by decide)
  have h' : isNames ["std", "option", "Option", "None"] [.id x] = false := by simp [isNames]
  rw [var, runE, pathV]
  simp [h, h']

theorem read_num {ctx : Ctx ι} {old : Env Ty} {env : VEnv Ty} (hr : RelV ctx old env) {x : Ident} {m : Bool}
    (h : ctx.lookup x = some (.usize m)) (mode : Mode) :
    ∃ n, old.lookup x = some (.num n) ∧ env.lookup x = some (m, .num n) ∧
      runE c d size self mode (var x) env = .ok (.val (.num n), env) := by
  obtain ⟨hb, n, h1, h2⟩ := hr x _ h
  exact ⟨n, h1, h2, by rw [run_var hb, readV, h2]⟩

theorem read_fld {ctx : Ctx ι} {old : Env Ty} {env : VEnv Ty} (hr : RelV ctx old env) {x : Ident} {t : ι}
    (h : ctx.lookup x = some (.field t)) (mode : Mode) :
    ∃ v : Ty.T t, old.lookup x = some (.field ⟨t, v⟩) ∧
      runE c d size self mode (var x) env = .ok (.val (.fld ⟨t, v⟩), env) := by
  obtain ⟨hb, v, h1, h2⟩ := hr x _ h
  exact ⟨v, h1, by rw [run_var hb, readV, h2]⟩

/-- Expressions at run time. -/
theorem run_expr {rl : List Ref} {ctx : Ctx ι} {refs : RefEnv Ty} {old : Env Ty} {env : VEnv Ty}
    (hr : RelV ctx old env)
    (href : ∀ r ∈ rl, ∃ v, refs.lookup r = some v ∧
      runE c d size self .runtime (refTree r) env = .ok (.val (.fldRef v), env))
    (e : Expr ι) (h : e.check rl ctx = true) :
    runE c d size self .runtime (exprTree e) env = lift (e.eval c Ty refs old .runtime) env := by
  induction e with
  | lit n =>
    rw [exprTree, runE, Expr.eval]
    split <;> rfl
  | sizeOf t => rw [exprTree, runE]; simp [of_num, Expr.eval]
  | ordinalOf r =>
    simp only [Expr.check, List.contains_iff_mem] at h
    obtain ⟨v, h1, h2⟩ := href r h
    rw [exprTree, runE, one]
    simp only [runEs, Ev.bind, h2, Ev.ok, callV, isNames_names, Expr.eval, h1]
    exact of_num _ _
  | add a b iha ihb =>
    simp only [Expr.check, Bool.and_eq_true] at h
    rw [exprTree, run_bin (iha h.1) (ihb h.2)]
    simp only [binOp, num_bind, lift_bind2, Expr.eval]
  | mul a b iha ihb =>
    simp only [Expr.check, Bool.and_eq_true] at h
    rw [exprTree, run_bin (iha h.1) (ihb h.2)]
    simp only [binOp, num_bind, lift_bind2, Expr.eval]
  | var x =>
    rw [Expr.check] at h
    split at h
    · next m hx =>
      obtain ⟨n, h1, _, h2⟩ := read_num (c := c) (d := d) (size := size) (self := self) hr hx .runtime
      rw [exprTree, h2, Expr.eval, h1]; rfl
    · cases h
  | sub a b iha ihb =>
    simp only [Expr.check, Bool.and_eq_true] at h
    rw [exprTree, run_bin (iha h.1) (ihb h.2)]
    simp only [binOp, num_bind, lift_bind2, Expr.eval]
  | rem a b iha ihb =>
    simp only [Expr.check, Bool.and_eq_true] at h
    rw [exprTree, run_bin (iha h.1) (ihb h.2)]
    simp only [binOp, num_bind, lift_bind2, Expr.eval]
  | constBlock e ih =>
    rw [exprTree, runE, runB, run_const [] [] e h none []]
    simp only [Expr.eval]
    cases e.eval c Ty [] [] .const <;> rfl

/-! ## Statements -/

omit [DecidableEq ι] in
theorem lookup_assign {x : Ident} {env : VEnv Ty} {m : Bool} {w : V Ty} (v : V Ty)
    (h : env.lookup x = some (m, w)) (y : Ident) :
    (assign x v env).lookup y = if y == x then some (m, v) else env.lookup y := by
  induction env with
  | nil => cases h
  | cons p env ih =>
    obtain ⟨z, b, u⟩ := p
    rw [assign]
    by_cases hz : x = z
    · subst hz
      simp only [beq_self_eq_true, ↓reduceIte]
      simp only [List.lookup, beq_self_eq_true, Option.some.injEq, Prod.mk.injEq] at h
      obtain ⟨rfl, rfl⟩ := h
      by_cases hy : y = x
      · subst hy; simp [List.lookup]
      · have : (y == x) = false := by simpa using hy
        simp [List.lookup, this]
    · have hxz : (x == z) = false := by simpa using hz
      simp only [List.lookup, hxz] at h
      simp only [hxz, Bool.false_eq_true, ↓reduceIte, List.lookup]
      by_cases hy : y = z
      · subst hy
        have : (y == x) = false := by simpa using fun e => hz e.symm
        simp [this]
      · have : (y == z) = false := by simpa using hy
        simp only [this]
        exact ih h

omit [DecidableEq ι] in
theorem RelV.cons_num {ctx : Ctx ι} {old : Env Ty} {env : VEnv Ty} (hr : RelV ctx old env) {x : Ident}
    (hx : x.bindable = true) (m : Bool) (n : Nat) :
    RelV ((x, .usize m) :: ctx) ((x, .num n) :: old) ((x, m, .num n) :: env) := by
  intro y τ h
  by_cases hy : y = x
  · subst hy
    simp only [List.lookup, beq_self_eq_true, Option.some.injEq] at h
    subst h
    exact ⟨hx, n, by simp [List.lookup], by simp [List.lookup]⟩
  · have hyx : (y == x) = false := by simpa using hy
    simp only [List.lookup, hyx] at h
    simpa only [List.lookup, hyx] using hr y τ h

omit [DecidableEq ι] in
theorem RelV.cons_fld {ctx : Ctx ι} {old : Env Ty} {env : VEnv Ty} (hr : RelV ctx old env) {x : Ident}
    (hx : x.bindable = true) (t : ι) (v : Ty.T t) :
    RelV ((x, .field t) :: ctx) ((x, .field ⟨t, v⟩) :: old) ((x, false, .fld ⟨t, v⟩) :: env) := by
  intro y τ h
  by_cases hy : y = x
  · subst hy
    simp only [List.lookup, beq_self_eq_true, Option.some.injEq] at h
    subst h
    exact ⟨hx, v, by simp [List.lookup], by simp [List.lookup]⟩
  · have hyx : (y == x) = false := by simpa using hy
    simp only [List.lookup, hyx] at h
    simpa only [List.lookup, hyx] using hr y τ h

omit [DecidableEq ι] in
theorem RelV.assign {ctx : Ctx ι} {old : Env Ty} {env : VEnv Ty} (hr : RelV ctx old env) {x : Ident} {m : Bool}
    (hx : ctx.lookup x = some (.usize m)) (n : Nat) :
    RelV ctx ((x, .num n) :: old) (assign x (.num n) env) := by
  obtain ⟨hb, k, _, h2⟩ := hr x _ hx
  intro y τ h
  by_cases hy : y = x
  · subst hy
    rw [hx] at h
    cases h
    exact ⟨hb, n, by simp [List.lookup], by simp [lookup_assign _ h2]⟩
  · have hyx : (y == x) = false := by simpa using hy
    rw [lookup_assign _ h2]
    simpa only [List.lookup, hyx, Bool.false_eq_true, ↓reduceIte] using hr y τ h

/-- What a statement or some statements do, in both evaluators; `tree b` are the statements followed by `b`. -/
def Agrees (c : Cfg) (d : Decl ι) (size : R Nat) (self : Option (Nat × List Ty.Val)) (ctx' : Ctx ι) (env : VEnv Ty)
    (tree : B ι → B ι) (r : R (Option (Env Ty))) : Prop :=
  (∃ f, r = .error f ∧ ∀ b, runB c d size self .runtime (tree b) env = .error f) ∨
  (r = .ok none ∧ ∃ env', ∀ b, runB c d size self .runtime (tree b) env = .ok (.ret .none, env')) ∨
  (∃ old' env', r = .ok (some old') ∧ RelV ctx' old' env' ∧
    ∀ b, runB c d size self .runtime (tree b) env = runB c d size self .runtime b env')

theorem run_stmt {ctx ctx' : Ctx ι} {old : Env Ty} {env : VEnv Ty} (hr : RelV ctx old env) (s : Stmt ι)
    (h : s.check ctx = some ctx') :
    Agrees c d size self ctx' env (stmtTree s) (s.exec c Ty old) := by
  have he : ∀ e : Expr ι, e.check [] ctx = true →
      runE c d size self .runtime (exprTree e) env = lift (e.eval c Ty [] old .runtime) env := fun e h =>
    run_expr (rl := []) hr (fun r hr => by cases hr) e h
  cases s with
  | letMut x e =>
    rw [Stmt.check] at h
    split at h
    · next hc =>
      simp only [Bool.and_eq_true] at hc
      cases h
      simp only [Stmt.exec]
      have hx := he e hc.2
      cases hn : e.eval c Ty [] old .runtime with
      | error f =>
        exact .inl ⟨f, rfl, fun b => by rw [stmtTree, runB, Ev.bind, hx, hn]; rfl⟩
      | ok n =>
        refine .inr (.inr ⟨_, _, rfl, hr.cons_num hc.1 true n, fun b => ?_⟩)
        rw [stmtTree, runB, Ev.bind, hx, hn]
        simp only [lift_ok, Ev.bind, letV, hc.1, ↓reduceIte]
    · cases h
  | letFromOrdinal x t e =>
    rw [Stmt.check] at h
    split at h
    · next hc =>
      simp only [Bool.and_eq_true] at hc
      cases h
      simp only [Stmt.exec]
      have hx := he e hc.2
      cases hn : e.eval c Ty [] old .runtime with
      | error f =>
        refine .inl ⟨f, rfl, fun b => ?_⟩
        rw [stmtTree, runB]
        simp only [runE, one, runEs, Ev.bind, hx, hn, lift_error]
      | ok n =>
        simp only [ok_bind]
        cases hf : (Ty.impl t).fromOrdinal n with
        | error f =>
          refine .inl ⟨f, rfl, fun b => ?_⟩
          rw [stmtTree, runB]
          simp [runE, one, runEs, Ev.bind, hx, hn, Ev.ok, Ev.of, callQ, hf]
        | ok o =>
          cases o with
          | none =>
            refine .inl ⟨.panic, rfl, fun b => ?_⟩
            rw [stmtTree, runB]
            simp [runE, one, runEs, Ev.bind, hx, hn, Ev.ok, Ev.of, callQ, hf, methodV]
          | some v =>
            refine .inr (.inr ⟨_, _, rfl, hr.cons_fld hc.1 t v, fun b => ?_⟩)
            rw [stmtTree, runB]
            simp [runE, one, runEs, Ev.bind, hx, hn, Ev.ok, Ev.of, callQ, hf, methodV, letV, hc.1]
    · cases h
  | divAssign x e =>
    rw [Stmt.check] at h
    split at h
    · next hx =>
      split at h
      · next hc =>
        cases h
        obtain ⟨n, h1, h2, h3⟩ := read_num (c := c) (d := d) (size := size) (self := self) hr hx .runtime
        have hx' := he e hc
        simp only [Stmt.exec, h1]
        cases hn : e.eval c Ty [] old .runtime with
        | error f =>
          refine .inl ⟨f, rfl, fun b => ?_⟩
          rw [stmtTree, runB, var, runE]
          simp only [Ev.bind, hx', hn, lift_error]
        | ok k =>
          simp only [ok_bind]
          cases hq : divU n k with
          | error f =>
            refine .inl ⟨f, rfl, fun b => ?_⟩
            rw [stmtTree, runB, var, runE]
            simp only [Ev.bind, hx', hn, lift_ok, divV, h2, hq]
          | ok q =>
            refine .inr (.inr ⟨_, _, rfl, hr.assign hx q, fun b => ?_⟩)
            rw [stmtTree, runB, var, runE]
            simp only [Ev.bind, hx', hn, lift_ok, divV, h2, hq]
      · cases h
    · cases h
  | returnNoneIfNonzero x =>
    rw [Stmt.check] at h
    split at h
    · next m hx =>
      cases h
      obtain ⟨n, h1, h2, h3⟩ := read_num (c := c) (d := d) (size := size) (self := self) hr hx .runtime
      have h0 : runE c d size self .runtime (.int 0) env = lift (.ok 0) env := by
        rw [runE]; simp [c.M_pos, Ev.ok]
      have hb := run_bin (op := .ne) (show _ = lift (.ok n) env from h3) h0
      simp only [Stmt.exec, h1]
      by_cases hn : n = 0
      · subst hn
        refine .inr (.inr ⟨old, env, rfl, hr, fun b => ?_⟩)
        rw [stmtTree, runB, runE]
        simp only [Ev.bind, hb, ok_bind, binOp]
        rfl
      · refine .inr (.inl ⟨by simp [hn], ?_⟩)
        have hd : decide (n ≠ 0) = true := by simpa using hn
        refine ⟨env, fun b => ?_⟩
        rw [stmtTree, runB, runE]
        simp only [Ev.bind, hb, ok_bind, binOp, hd]
        simp [Ev.scoped, runB, returnNone, runE, pathV, Ev.bind, Ev.ok]
    · cases h

theorem run_stmts {ctx ctx' : Ctx ι} {old : Env Ty} {env : VEnv Ty} (hr : RelV ctx old env) (ss : List (Stmt ι))
    (h : checkStmts ctx ss = some ctx') :
    Agrees c d size self ctx' env (stmtsTree ss) (execStmts c Ty old ss) := by
  induction ss generalizing ctx old env with
  | nil =>
    cases h
    exact .inr (.inr ⟨old, env, rfl, hr, fun b => rfl⟩)
  | cons s ss ih =>
    rw [checkStmts] at h
    split at h
    · cases h
    · next ctx1 h1 =>
      simp only [execStmts]
      rcases run_stmt (c := c) (d := d) (size := size) (self := self) hr s h1 with ⟨f, e1, e2⟩ | ⟨e1, env', e2⟩ | ⟨old', env', e1, e2, e3⟩
      · exact .inl ⟨f, by rw [e1]; rfl, fun b => e2 _⟩
      · exact .inr (.inl ⟨by rw [e1]; rfl, env', fun b => e2 _⟩)
      · rw [e1, ok_bind]
        simp only
        rcases ih e2 h with ⟨f, g1, g2⟩ | ⟨g1, env2, g2⟩ | ⟨old2, env2, g1, g2, g3⟩
        · exact .inl ⟨f, g1, fun b => by rw [stmtsTree, e3, g2]⟩
        · exact .inr (.inl ⟨g1, env2, fun b => by rw [stmtsTree, e3, g2]⟩)
        · exact .inr (.inr ⟨old2, env2, g1, g2, fun b => by rw [stmtsTree, e3, g3]⟩)

end

end OrdinalMap.Derive.Src
