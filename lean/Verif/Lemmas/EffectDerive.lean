import Verif.SpecEffectDerive
import Verif.Lemmas.EffectSound
import Verif.Lemmas.Effect
import Verif.Lemmas.DeriveEnum
/-! # Derived impls over field types with state -/

namespace OrdinalMap.Derive
open OrdinalMap

variable {ι σ : Type} {c : Cfg} {Ty : Types ι} {J : SImpls σ Ty} {sz : ι → Nat}

/-! ## Without state: the model of the other properties -/

theorem evalC_eval {size : ι → R Nat} (Ty : Types ι) (hs : ∀ t, (Ty.impl t).size = size t) (refs : RefEnv Ty) (env : Env Ty)
    (e : Expr ι) : e.evalC c size = e.eval c Ty refs env .const := by
  induction e generalizing refs env with
  | lit n => rfl
  | sizeOf t => exact (hs t).symm
  | ordinalOf r => rfl
  | add a b iha ihb => simp only [Expr.evalC, Expr.eval, iha refs env, ihb refs env]
  | mul a b iha ihb => simp only [Expr.evalC, Expr.eval, iha refs env, ihb refs env]
  | var x => rfl
  | sub a b iha ihb => simp only [Expr.evalC, Expr.eval, iha refs env, ihb refs env]
  | rem a b iha ihb => simp only [Expr.evalC, Expr.eval, iha refs env, ihb refs env]
  | constBlock e ih => simp only [Expr.evalC, Expr.eval, ih [] []]

/-- Field impls without state. -/
abbrev pureAll (σ : Type) (Ty : Types ι) : SImpls σ Ty := fun t => .ofPure (Ty.impl t)

theorem pure_eval (refs : RefEnv Ty) (env : Env Ty) (e : Expr ι) :
    e.evalM c Ty (pureAll σ Ty) refs env = .of (e.eval c Ty refs env .runtime) := by
  induction e with
  | lit n => rfl
  | sizeOf t => rfl
  | ordinalOf r => simp only [Expr.evalM, Expr.eval]; cases refs.lookup r <;> rfl
  | add a b iha ihb =>
    simp only [Expr.evalM, Expr.eval, iha, ihb]
    exact M.bind_of rfl fun x => M.bind_of rfl fun y => rfl
  | mul a b iha ihb =>
    simp only [Expr.evalM, Expr.eval, iha, ihb]
    exact M.bind_of rfl fun x => M.bind_of rfl fun y => rfl
  | var x => simp only [Expr.evalM, Expr.eval]; rcases env.lookup x with _ | (_ | _) <;> rfl
  | sub a b iha ihb =>
    simp only [Expr.evalM, Expr.eval, iha, ihb]
    exact M.bind_of rfl fun x => M.bind_of rfl fun y => rfl
  | rem a b iha ihb =>
    simp only [Expr.evalM, Expr.eval, iha, ihb]
    exact M.bind_of rfl fun x => M.bind_of rfl fun y => rfl
  | constBlock e ih =>
    simp only [Expr.evalM, Expr.eval]
    exact congrArg M.of (evalC_eval Ty (fun t => rfl) [] [] e)

theorem pure_stmt (env : Env Ty) (s : Stmt ι) :
    s.execM c Ty (pureAll σ Ty) env = .of (s.exec c Ty env) := by
  cases s with
  | letMut x e =>
    simp only [Stmt.execM, Stmt.exec, pure_eval]
    exact M.bind_of rfl fun n => rfl
  | letFromOrdinal x t e =>
    simp only [Stmt.execM, Stmt.exec, pure_eval]
    exact M.bind_of rfl fun n => M.bind_of rfl fun o => M.bind_of rfl fun v => rfl
  | divAssign x e =>
    simp only [Stmt.execM, Stmt.exec, pure_eval]
    rcases env.lookup x with _ | (_ | _)
    · rfl
    · exact M.bind_of rfl fun d => M.bind_of rfl fun m => rfl
    · rfl
  | returnNoneIfNonzero x =>
    simp only [Stmt.execM, Stmt.exec]
    rcases env.lookup x with _ | (_ | _) <;> rfl

theorem pure_stmts (env : Env Ty) (ss : List (Stmt ι)) :
    execStmtsM c Ty (pureAll σ Ty) env ss = .of (execStmts c Ty env ss) := by
  induction ss generalizing env with
  | nil => rfl
  | cons s ss ih =>
    simp only [execStmtsM, execStmts, pure_stmt]
    refine M.bind_of rfl fun o => ?_
    cases o with
    | none => rfl
    | some env' => exact ih env'

theorem pure_block [DecidableEq ι] (env : Env Ty) (fs : Fields ι) (b : Block ι) :
    b.execM c Ty (pureAll σ Ty) env fs = .of (b.exec c Ty env fs) := by
  simp only [Block.execM, Block.exec, pure_stmts]
  refine M.bind_of rfl fun o => ?_
  cases o with
  | none => rfl
  | some env' => exact M.bind_of rfl fun l => rfl

theorem simpl_ext {K : Type} {A B : SImpl σ K} (h1 : A.size = B.size) (h2 : ∀ k, A.ordinal k = B.ordinal k)
    (h3 : ∀ i, A.fromOrdinal i = B.fromOrdinal i) : A = B := by
  cases A; cases B
  simp only [SImpl.mk.injEq]
  exact ⟨h1, funext h2, funext h3⟩

theorem pure_struct [DecidableEq ι] (g : GenStruct ι) (fs : Fields ι) :
    g.toSImpl c Ty (pureAll σ Ty) fs = .ofPure (g.toImpl c Ty fs) := by
  have hs : (g.size.evalC c fun t => (pureAll σ Ty t).size) = g.size.eval c Ty [] [] .const :=
    evalC_eval Ty (fun t => rfl) [] [] _
  refine simpl_ext hs (fun v => ?_) fun i => ?_
  · simp only [GenStruct.toSImpl, GenStruct.toImpl, SImpl.ofPure, pure_eval]
    exact M.bind_of (congrArg M.of hs) fun n => rfl
  · simp only [GenStruct.toSImpl, GenStruct.toImpl, SImpl.ofPure, pure_block]
    refine M.bind_of (congrArg M.of hs) fun n => ?_
    split
    · rfl
    · refine M.bind_of rfl fun o => ?_
      cases o with
      | none => rfl
      | some l => dsimp only; split <;> rfl

theorem pure_enumStmts [DecidableEq ι] (i k : Nat) (vs : List (Fields ι)) (rs : List (Expr ι × Block ι)) :
    execEnumStmtsM c Ty (pureAll σ Ty) i k vs rs = .of (execEnumStmts c Ty i k vs rs) := by
  induction vs generalizing k rs with
  | nil => cases rs <;> rfl
  | cons v vs ih =>
    cases rs with
    | nil => rfl
    | cons r rs =>
      obtain ⟨e, b⟩ := r
      simp only [execEnumStmtsM, execEnumStmts, pure_eval, pure_block]
      refine M.bind_of rfl fun n => ?_
      split
      · refine M.bind_of rfl fun o => ?_
        cases o <;> rfl
      · exact ih _ _

theorem pure_enum [DecidableEq ι] (g : GenEnum ι) (vs : List (Fields ι)) :
    g.toSImpl c Ty (pureAll σ Ty) vs = .ofPure (g.toImpl c Ty vs) := by
  have hs : (g.size.evalC c fun t => (pureAll σ Ty t).size) = g.size.eval c Ty [] [] .const :=
    evalC_eval Ty (fun t => rfl) [] [] _
  refine simpl_ext hs (fun v => ?_) fun i => ?_
  · simp only [GenEnum.toSImpl, GenEnum.toImpl, SImpl.ofPure, pure_eval]
    refine M.bind_of (congrArg M.of hs) fun n => ?_
    cases g.ordinal with
    | none => rfl
    | some arms => dsimp only; cases arms[v.1.1]? <;> cases vs[v.1.1]? <;> rfl
  · simp only [GenEnum.toSImpl, GenEnum.toImpl, SImpl.ofPure, pure_enumStmts]
    refine M.bind_of (congrArg M.of hs) fun n => ?_
    split
    · rfl
    · refine M.bind_of rfl fun o => ?_
      cases o with
      | none => rfl
      | some l => dsimp only; split <;> rfl

theorem pure_structImpl [DecidableEq ι] (fs : Fields ι) :
    structSImpl c Ty (pureAll σ Ty) fs = .ofPure (structImpl c Ty fs) := by
  unfold structSImpl structImpl
  cases genStruct fs with
  | error e => rfl
  | ok g =>
    dsimp only
    split
    · exact pure_struct g fs
    · rfl

theorem pure_tupleImpl [DecidableEq ι] (tys : List ι) :
    tupleSImpl c Ty (pureAll σ Ty) tys = .ofPure (tupleImpl c Ty tys) := by
  unfold tupleSImpl tupleImpl
  split
  · cases genTuple tys with
    | error e => rfl
    | ok g =>
      by_cases h : g.check (.unnamed tys) = true
      · simp only [h]
        exact pure_struct g (.unnamed tys)
      · simp only [h]
        rfl
  · rfl

theorem pure_enumImpl [DecidableEq ι] (vs : List (Fields ι)) :
    enumSImpl c Ty (pureAll σ Ty) vs = .ofPure (enumImpl c Ty vs) := by
  unfold enumSImpl enumImpl
  cases genEnum vs with
  | error e => rfl
  | ok g =>
    dsimp only
    split
    · exact pure_enum g vs
    · rfl

end OrdinalMap.Derive
