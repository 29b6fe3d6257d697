import Verif.Model.Derive
import Verif.Model.Effect
/-!
# The derived impls over field types with state

The code generated by the macro (Model/Derive.lean) is run again, here over field types whose `ordinal` and
`from_ordinal` may have state.  The syntax, the generators and the static checks are those of Model/Derive.lean;
only the evaluator differs.  It fixes what a pure evaluator cannot see: how often the generated code calls a field
type, in which order, and with which numbers.  Rust evaluates the operands of `+`, `*`, `-`, `%` from left to right.

Of `Ty : Types ι` only the types `Ty.T` are used; the impls are `J`.
-/

namespace OrdinalMap.Derive
open OrdinalMap

variable {ι σ : Type}

/-- An `Ordinal` impl with state for each field type. -/
abbrev SImpls (σ : Type) (Ty : Types ι) := (t : ι) → SImpl σ (Ty.T t)

/-- Const evaluation of a generated expression: `Expr.eval` in mode `const`.  It calls no functions. -/
def Expr.evalC (c : Cfg) (size : ι → R Nat) : Expr ι → R Nat
  | .lit n => if n < c.M then .ok n else .error .compileError
  | .sizeOf t => size t
  | .ordinalOf _ => .error .compileError
  | .add a b => do addC c (← a.evalC c size) (← b.evalC c size)
  | .mul a b => do mulC c (← a.evalC c size) (← b.evalC c size)
  | .var _ => .error .compileError
  | .sub a b => do subC (← a.evalC c size) (← b.evalC c size)
  | .rem a b => do remC (← a.evalC c size) (← b.evalC c size)
  | .constBlock e => e.evalC c size

variable (c : Cfg) (Ty : Types ι) (J : SImpls σ Ty)

/-- A generated expression at run time: `Expr.eval` in mode `runtime`. -/
def Expr.evalM (refs : RefEnv Ty) (env : Env Ty) : Expr ι → M σ Nat
  | .lit n => .of (if n < c.M then .ok n else .error .compileError)
  | .sizeOf t => .of (J t).size
  | .ordinalOf r => match refs.lookup r with
    | some v => (J v.1).ordinal v.2
    | none => .of (.error .compileError)
  | .add a b => do
    let x ← a.evalM refs env
    let y ← b.evalM refs env
    .of (addU c x y)
  | .mul a b => do
    let x ← a.evalM refs env
    let y ← b.evalM refs env
    .of (mulU c x y)
  | .var x => match env.lookup x with
    | some (.num n) => .of (.ok n)
    | _ => .of (.error .compileError)
  | .sub a b => do
    let x ← a.evalM refs env
    let y ← b.evalM refs env
    .of (subU c x y)
  | .rem a b => do
    let x ← a.evalM refs env
    let y ← b.evalM refs env
    .of (remU x y)
  | .constBlock e => .of (e.evalC c fun t => (J t).size)

/-- A generated statement (ordinal.rs:271-295): `Stmt.exec`. -/
def Stmt.execM (env : Env Ty) : Stmt ι → M σ (Option (Env Ty))
  | .letMut x e => do
    let n ← e.evalM c Ty J [] env
    .of (.ok (some ((x, .num n) :: env)))
  | .letFromOrdinal x t e => do
    let n ← e.evalM c Ty J [] env
    let o ← (J t).fromOrdinal n
    let v ← M.of (unwrap o)
    .of (.ok (some ((x, .field ⟨t, v⟩) :: env)))
  | .divAssign x e => match env.lookup x with
    | some (.num n) => do
      let d ← e.evalM c Ty J [] env
      let m ← M.of (divU n d)
      .of (.ok (some ((x, .num m) :: env)))
    | _ => .of (.error .compileError)
  | .returnNoneIfNonzero x => match env.lookup x with
    | some (.num n) => .of (.ok (if n ≠ 0 then none else some env))
    | _ => .of (.error .compileError)

/-- Statements one after another: `execStmts`. -/
def execStmtsM : Env Ty → List (Stmt ι) → M σ (Option (Env Ty))
  | env, [] => .of (.ok (some env))
  | env, s :: ss => s.execM c Ty J env >>= fun o => match o with
    | none => .of (.ok none)
    | some env' => execStmtsM env' ss

/-- The block of a struct or variant (ordinal.rs:297-302): `Block.exec`. -/
def Block.execM [DecidableEq ι] (env : Env Ty) (fs : Fields ι) (b : Block ι) : M σ (Option (List Ty.Val)) :=
  execStmtsM c Ty J env b.stmts >>= fun o => match o with
  | none => .of (.ok none)
  | some env' => do
    let l ← M.of (b.build.eval Ty env' fs)
    .of (.ok (some l))

/-- The impl generated for a struct (ordinal.rs:44-60) or tuple (ordinal.rs:515-530): `GenStruct.toImpl`. -/
def GenStruct.toSImpl [DecidableEq ι] (g : GenStruct ι) (fs : Fields ι) :
    SImpl σ (FieldVals Ty (fieldTypes fs)) where
  size := g.size.evalC c fun t => (J t).size
  ordinal v := M.of (g.size.evalC c fun t => (J t).size) >>= fun _ =>
    g.ordinal.evalM c Ty J (selfRefs Ty fs v.1) []
  fromOrdinal i := M.of (g.size.evalC c fun t => (J t).size) >>= fun n =>
    if n = 0 then .of (.ok none)
    else g.fromOrdinal.execM c Ty J [(ordinalVar, .num i)] fs >>= fun o => match o with
      | none => .of (.ok none)
      | some l => if h : l.map Sigma.fst = fieldTypes fs then .of (.ok (some ⟨l, h⟩)) else .of (.error .compileError)

/-- An impl whose code is rejected by the compiler. -/
def rejectedS (α : Type) : SImpl σ α :=
  ⟨.error .compileError, fun _ => .of (.error .compileError), fun _ => .of (.error .compileError)⟩

/-- `#[derive(Ordinal)] struct` (ordinal.rs:44-60). -/
def structSImpl [DecidableEq ι] (fs : Fields ι) : SImpl σ (FieldVals Ty (fieldTypes fs)) :=
  match genStruct fs with
  | .error _ => rejectedS _
  | .ok g => if g.check fs then g.toSImpl c Ty J fs else rejectedS _

/-- The tuple impls (ordinal.rs:515-541), arities `0..=16`. -/
def tupleSImpl [DecidableEq ι] (tys : List ι) : SImpl σ (FieldVals Ty tys) :=
  if tys.length ≤ 16 then
    match genTuple tys with
    | .error _ => rejectedS _
    | .ok g => if g.check (.unnamed tys) then g.toSImpl c Ty J (.unnamed tys) else rejectedS _
  else rejectedS _

/-- The `if ordinal < e { return block; }` chain of an enum (ordinal.rs:439-480): `execEnumStmts`. -/
def execEnumStmtsM [DecidableEq ι] (i : Nat) :
    Nat → List (Fields ι) → List (Expr ι × Block ι) → M σ (Option (Nat × List Ty.Val))
  | k, v :: vs, (e, b) :: rest => e.evalM c Ty J [] [(ordinalVar, .num i)] >>= fun n =>
    if i < n then b.execM c Ty J [(ordinalVar, .num i)] v >>= fun o => match o with
      | none => .of (.ok none)
      | some l => .of (.ok (some (k, l)))
    else execEnumStmtsM i (k + 1) vs rest
  | _, _, _ => .of (.ok none)

/-- The impl generated for an enum: `GenEnum.toImpl`. -/
def GenEnum.toSImpl [DecidableEq ι] (g : GenEnum ι) (vs : List (Fields ι)) : SImpl σ (EnumVal Ty vs) where
  size := g.size.evalC c fun t => (J t).size
  ordinal x := M.of (g.size.evalC c fun t => (J t).size) >>= fun _ =>
    match g.ordinal with
    | none => .of (.ok 0)
    | some arms => match arms[x.1.1]?, vs[x.1.1]? with
      | some arm, some v => arm.2.evalM c Ty J (arm.1.bind Ty v x.1.2) []
      | _, _ => .of (.error .compileError)
  fromOrdinal i := M.of (g.size.evalC c fun t => (J t).size) >>= fun n =>
    if n = 0 then .of (.ok none)
    else execEnumStmtsM c Ty J i 0 vs g.fromOrdinal >>= fun o => match o with
      | none => .of (.ok none)
      | some p =>
        if h : ∃ v, vs[p.1]? = some v ∧ p.2.map Sigma.fst = fieldTypes v then .of (.ok (some ⟨p, h⟩))
        else .of (.error .compileError)

/-- `#[derive(Ordinal)] enum` (ordinal.rs:44-60). -/
def enumSImpl [DecidableEq ι] (vs : List (Fields ι)) : SImpl σ (EnumVal Ty vs) :=
  match genEnum vs with
  | .error _ => rejectedS _
  | .ok g => if g.check vs then g.toSImpl c Ty J vs else rejectedS _

end OrdinalMap.Derive
