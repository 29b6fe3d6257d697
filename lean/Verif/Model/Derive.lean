import Verif.Spec
/-!
# Model of the derive macro (`ordinal-map-derive/src/ordinal.rs`)

The macro is modelled as what it is: functions producing code.  `SizeExpr`, `struct_ordinal`,
`struct_from_ordinal`, `StructGen`, `EnumGen` and the tuple generator produce an abstract syntax of
generated Rust (`Expr`, `Stmt`, `Block`, …).  That syntax has a static check (scoping, types and
mutability, as far as the generated statements need it) and an evaluator.

A macro panic and a rejected expansion are `Fault.compileError`.

Simplifications: spans and token-level syntax are dropped; generics are not modelled (a field type is
an index `t : ι` with a Lean type `T t` and an `OrdinalImpl`); enum variants are referred to by
position (their names are distinct by the language); rustc lints are not modelled.
-/

namespace OrdinalMap.Derive
open OrdinalMap

/-! ## Syntax of the input -/

/-- Identifiers in generated code.  `pos i` is the identifier `f{i}` made by `field_vars`
(ordinal.rs:83); it is only used when no user-named field is in scope. -/
inductive Ident where
  | user (s : String)
  | pos (i : Nat)
  deriving DecidableEq, Repr

/-- `syn::Fields`. -/
inductive Fields (ι : Type) where
  | unit
  | unnamed (tys : List ι)
  | named (fs : List (String × ι))
  deriving DecidableEq, Repr

variable {ι : Type}

/-- `field_types` (ordinal.rs:87-89). -/
def fieldTypes : Fields ι → List ι
  | .unit => []
  | .unnamed tys => tys
  | .named fs => fs.map (·.2)

/-- `field_vars` (ordinal.rs:80-85). -/
def fieldVars : Fields ι → List Ident
  | .unit => []
  | .unnamed tys => (List.range tys.length).map .pos
  | .named fs => fs.map fun f => .user f.1

/-- What rustc has already checked when the macro runs: field names are distinct (E0124). -/
def Fields.WF : Fields ι → Prop
  | .named fs => (fs.map (·.1)).Nodup
  | _ => True

/-! ## Syntax of the output -/

/-- How generated code refers to a field: `&self.name`, `&self.0`, or a pattern variable. -/
inductive Ref where
  | selfNamed (s : String)
  | selfIdx (i : Nat)
  | var (x : Ident)
  deriving DecidableEq, Repr

/-- Generated `usize` expressions. -/
inductive Expr (ι : Type) where
  /-- `{c}usize` -/
  | lit (c : Nat)
  /-- `<T as ordinal_map::Ordinal>::ORDINAL_SIZE` -/
  | sizeOf (t : ι)
  /-- `ordinal_map::Ordinal::ordinal(r)` -/
  | ordinalOf (r : Ref)
  /-- `a + b` -/
  | add (a b : Expr ι)
  /-- `a * b` -/
  | mul (a b : Expr ι)
  /-- a variable -/
  | var (x : Ident)
  /-- `a - b` -/
  | sub (a b : Expr ι)
  /-- `a % b` -/
  | rem (a b : Expr ι)
  /-- `const { e }` -/
  | constBlock (e : Expr ι)
  deriving DecidableEq, Repr

/-- Generated statements. -/
inductive Stmt (ι : Type) where
  /-- `let mut x = e;` -/
  | letMut (x : Ident) (e : Expr ι)
  /-- `let x = <T as ordinal_map::Ordinal>::from_ordinal(e).unwrap();` -/
  | letFromOrdinal (x : Ident) (t : ι) (e : Expr ι)
  /-- `x /= e;` -/
  | divAssign (x : Ident) (e : Expr ι)
  /-- `if x != 0 { return None }` -/
  | returnNoneIfNonzero (x : Ident)
  deriving DecidableEq, Repr

/-- The constructor expression: `Self`, `Self(x, ..)`, `Self { f: x, .. }` (or with `Self::Variant`). -/
inductive Build where
  | unit
  | positional (xs : List Ident)
  | record (xs : List (String × Ident))
  deriving DecidableEq, Repr

/-- `{ stmts; std::option::Option::Some(build) }` -/
structure Block (ι : Type) where
  stmts : List (Stmt ι)
  build : Build
  deriving DecidableEq, Repr

/-- A pattern `Self::V`, `Self::V(x, ..)`, `Self::V { x, .. }`. -/
inductive Pat where
  | unit
  | tuple (xs : List Ident)
  | record (xs : List Ident)
  deriving DecidableEq, Repr

/-! ## `SizeExpr` -/

/-- `enum SizeExpr` (ordinal.rs:91-96). -/
inductive SizeExpr (ι : Type) where
  | const (c : Nat)
  | syn (e : Expr ι)
  | sum (es : List (SizeExpr ι))
  | product (es : List (SizeExpr ι))

/-- `u64::checked_mul` (std). -/
def checkedMul64 (a b : Nat) : Option Nat := if a * b < 2 ^ 64 then some (a * b) else none
/-- `u64::checked_add` (std). -/
def checkedAdd64 (a b : Nat) : Option Nat := if a + b < 2 ^ 64 then some (a + b) else none

namespace SizeExpr

/-- `SizeExpr::ordinal_size` (ordinal.rs:99-103). -/
def ordinalSize (t : ι) : SizeExpr ι := .syn (.sizeOf t)

/-- `SizeExpr::ordinal_expr` (ordinal.rs:105-109). -/
def ordinalExpr (r : Ref) : SizeExpr ι := .syn (.ordinalOf r)

/-- `product_ignore_const` (ordinal.rs:112-121). -/
def productIgnoreConst : List (SizeExpr ι) → SizeExpr ι
  | [] => .const 1
  | [first] => first
  | first :: second :: es => .product (first :: second :: es)

/-- The `for expr in exprs` loop of `product` (ordinal.rs:125-131); `.expect("size overflow")` is a
macro panic. -/
def productLoop : List (SizeExpr ι) → Nat → List (SizeExpr ι) → R (Nat × List (SizeExpr ι))
  | [], p, items => .ok (p, items)
  | .const c :: es, p, items =>
    match checkedMul64 p c with
    | none => .error .compileError
    | some p' => productLoop es p' items
  | .product xs :: es, p, items => productLoop es p (items ++ xs)
  | e :: es, p, items => productLoop es p (items ++ [e])

/-- `SizeExpr::product` (ordinal.rs:111-137). -/
def mkProduct (es : List (SizeExpr ι)) : R (SizeExpr ι) := do
  let (p, items) ← productLoop es 1 []
  .ok (match p with
    | 0 => .const 0
    | 1 => productIgnoreConst items
    | c => productIgnoreConst (.const c :: items))

/-- `sum_ignore_const` (ordinal.rs:140-149). -/
def sumIgnoreConst : List (SizeExpr ι) → SizeExpr ι
  | [] => .const 0
  | [first] => first
  | first :: second :: es => .sum (first :: second :: es)

/-- The loop of `sum` (ordinal.rs:153-159). -/
def sumLoop : List (SizeExpr ι) → Nat → List (SizeExpr ι) → R (Nat × List (SizeExpr ι))
  | [], s, items => .ok (s, items)
  | .const c :: es, s, items =>
    match checkedAdd64 s c with
    | none => .error .compileError
    | some s' => sumLoop es s' items
  | .sum xs :: es, s, items => sumLoop es s (items ++ xs)
  | e :: es, s, items => sumLoop es s (items ++ [e])

/-- `SizeExpr::sum` (ordinal.rs:139-164). -/
def mkSum (es : List (SizeExpr ι)) : R (SizeExpr ι) := do
  let (s, items) ← sumLoop es 0 []
  .ok (match s with
    | 0 => sumIgnoreConst items
    | c => sumIgnoreConst (.const c :: items))

/-- `( first + e + e … )`: left associative. -/
def foldExprs (op : Expr ι → Expr ι → Expr ι) : List (Expr ι) → R (Expr ι)
  | [] => .error .compileError
  | first :: es => .ok (es.foldl op first)

mutual
/-- `SizeExpr::expr` (ordinal.rs:171-196).  `assert!(exprs.len() >= 2)` is a macro panic. -/
def expr : SizeExpr ι → R (Expr ι)
  | .const c => .ok (.lit c)
  | .syn e => .ok e
  | .sum es => do
    constAssert (es.length ≥ 2)
    foldExprs .add (← exprs es)
  | .product es => do
    constAssert (es.length ≥ 2)
    foldExprs .mul (← exprs es)
/-- `exprs.iter().map(|e| e.expr())` (ordinal.rs:177, 187). -/
def exprs : List (SizeExpr ι) → R (List (Expr ι))
  | [] => .ok []
  | e :: es => do .ok ((← expr e) :: (← exprs es))
end

/-- `SizeExpr::const_expr` (ordinal.rs:198-210). -/
def constExpr : SizeExpr ι → R (Expr ι)
  | .const c => .ok (.lit c)
  | e => do .ok (.constBlock (← e.expr))

end SizeExpr

/-! ## Generators shared by structs, enum variants and tuples -/

/-- `struct_ordinal_size` (ordinal.rs:217-219). -/
def structOrdinalSize (tys : List ι) : R (SizeExpr ι) :=
  SizeExpr.mkProduct (tys.map SizeExpr.ordinalSize)

/-- `tuple_2_ordinal` (ordinal.rs:226-228). -/
def tuple2Ordinal (a b bCount : SizeExpr ι) : R (SizeExpr ι) := do
  SizeExpr.mkSum [← SizeExpr.mkProduct [a, bCount], b]

/-- `struct_ordinal_impl` (ordinal.rs:230-250). -/
def structOrdinal : List Ref → List ι → R (SizeExpr ι)
  | [], [] => .ok (.const 0)
  | [r], [_] => .ok (SizeExpr.ordinalExpr r)
  | r :: r2 :: rs, _ :: ts => do
    let remCount ← SizeExpr.mkProduct (ts.map SizeExpr.ordinalSize)
    let remExpr ← structOrdinal (r2 :: rs) ts
    tuple2Ordinal (SizeExpr.ordinalExpr r) remExpr remCount
  | [r], _ :: t2 :: ts => do
    let remCount ← SizeExpr.mkProduct ((t2 :: ts).map SizeExpr.ordinalSize)
    let remExpr ← structOrdinal [] (t2 :: ts)
    tuple2Ordinal (SizeExpr.ordinalExpr r) remExpr remCount
  | _, _ => .error .compileError

/-- The identifier `rem` of the generated `let mut rem` (ordinal.rs:272). -/
def remVar : Ident := .user "rem"

/-- The identifier of the parameter of `from_ordinal` (ordinal.rs:12, 485). -/
def ordinalVar : Ident := .user "ordinal"

/-- The two statements generated per field (ordinal.rs:274-285). -/
def fieldStmts (x : Ident) (t : ι) : R (List (Stmt ι)) := do
  let size ← (SizeExpr.ordinalSize t).constExpr
  .ok [.letFromOrdinal x t (.rem (.var remVar) size), .divAssign remVar size]

/-- The statements for a list of fields, in the given order. -/
def fieldsStmts : List (Ident × ι) → R (List (Stmt ι))
  | [] => .ok []
  | (x, t) :: fs => do .ok ((← fieldStmts x t) ++ (← fieldsStmts fs))

/-- `struct_from_ordinal` (ordinal.rs:260-303). -/
def structFromOrdinal (ordinal : Expr ι) (vars : List Ident) (tys : List ι) (build : Build) :
    R (Block ι) := do
  let fs ← fieldsStmts (vars.zip tys).reverse
  .ok ⟨[.letMut remVar ordinal] ++ fs ++ [.returnNoneIfNonzero remVar], build⟩

/-! ## `StructGen` -/

/-- Generated `impl`: `ORDINAL_SIZE`, `ordinal` body, `from_ordinal` body. -/
structure GenStruct (ι : Type) where
  size : Expr ι
  ordinal : Expr ι
  fromOrdinal : Block ι
  deriving DecidableEq, Repr

/-- `StructGen::field_ref_exprs` (ordinal.rs:306-314). -/
def fieldRefExprs : Fields ι → List Ref
  | .unit => []
  | .unnamed tys => (List.range tys.length).map .selfIdx
  | .named fs => fs.map fun f => .selfNamed f.1

/-- The struct constructor closure (ordinal.rs:341-359): `exprs` are the field variables. -/
def structBuild (fs : Fields ι) : Build :=
  match fs with
  | .unit => .unit
  | .unnamed _ => .positional (fieldVars fs)
  | .named l => .record ((l.map (·.1)).zip (fieldVars fs))

/-- `derive_ordinal` for structs (ordinal.rs:15-22, 316-361). -/
def genStruct (fs : Fields ι) : R (GenStruct ι) := do
  let size ← (← structOrdinalSize (fieldTypes fs)).expr
  let ordinal ← (← structOrdinal (fieldRefExprs fs) (fieldTypes fs)).expr
  let from' ← structFromOrdinal (.var ordinalVar) (fieldVars fs) (fieldTypes fs) (structBuild fs)
  .ok ⟨size, ordinal, from'⟩

/-! ## `EnumGen` -/

/-- Generated `impl` for an enum. -/
structure GenEnum (ι : Type) where
  size : Expr ι
  /-- `match self { pat => { expr } , .. }`; `none` is the literal `0` of the empty enum. -/
  ordinal : Option (List (Pat × Expr ι))
  /-- `if ordinal < e { return block; }` per variant, then `None`. -/
  fromOrdinal : List (Expr ι × Block ι)
  deriving DecidableEq, Repr

/-- `structOrdinalSize` of each variant (ordinal.rs:370-375). -/
def variantSizes : List (Fields ι) → R (List (SizeExpr ι))
  | [] => .ok []
  | v :: vs => do .ok ((← structOrdinalSize (fieldTypes v)) :: (← variantSizes vs))

/-- `EnumGen::size_of_first_variants` (ordinal.rs:369-377). -/
def sizeOfFirstVariants (vs : List (Fields ι)) (i : Nat) : R (SizeExpr ι) := do
  SizeExpr.mkSum (← variantSizes (vs.take i))

/-- The pattern of a match arm (ordinal.rs:395-412). -/
def variantPat (v : Fields ι) : Pat :=
  match v with
  | .unit => .unit
  | .unnamed _ => .tuple (fieldVars v)
  | .named _ => .record (fieldVars v)

/-- One match arm of `EnumGen::ordinal` (ordinal.rs:390-427), variant number `i`. -/
def enumArm (vs : List (Fields ι)) (i : Nat) (v : Fields ι) : R (Pat × Expr ι) := do
  let first ← sizeOfFirstVariants vs i
  let so ← structOrdinal ((fieldVars v).map .var) (fieldTypes v)
  let value ← (← SizeExpr.mkSum [first, so]).expr
  .ok (variantPat v, value)

/-- The variant constructor closure (ordinal.rs:451-465). -/
def variantBuild (v : Fields ι) : Build :=
  match v with
  | .unit => .unit
  | .unnamed _ => .positional (fieldVars v)
  | .named l => .record ((l.map (·.1)).zip (fieldVars v))

/-- One statement of `EnumGen::from_ordinal` (ordinal.rs:439-472), variant number `i`. -/
def enumFromStmt (vs : List (Fields ι)) (i : Nat) (v : Fields ι) : R (Expr ι × Block ι) := do
  let before ← (← sizeOfFirstVariants vs i).constExpr
  let including ← (← sizeOfFirstVariants vs (i + 1)).constExpr
  let block ← structFromOrdinal (.sub (.var ordinalVar) before) (fieldVars v) (fieldTypes v)
    (variantBuild v)
  .ok (including, block)

/-- `for (i, variant) in variants.iter().enumerate()`: variants from number `i` on. -/
def enumArms (vs : List (Fields ι)) : Nat → List (Fields ι) → R (List (Pat × Expr ι))
  | _, [] => .ok []
  | i, v :: rest => do .ok ((← enumArm vs i v) :: (← enumArms vs (i + 1) rest))

/-- Same for `from_ordinal`. -/
def enumFromStmts (vs : List (Fields ι)) : Nat → List (Fields ι) → R (List (Expr ι × Block ι))
  | _, [] => .ok []
  | i, v :: rest => do .ok ((← enumFromStmt vs i v) :: (← enumFromStmts vs (i + 1) rest))

/-- `derive_ordinal` for enums (ordinal.rs:23-30, 379-481). -/
def genEnum (vs : List (Fields ι)) : R (GenEnum ι) := do
  let size ← (← sizeOfFirstVariants vs vs.length).expr
  let ordinal ← if vs.isEmpty then .ok none else some <$> enumArms vs 0 vs
  let from' ← enumFromStmts vs 0 vs
  .ok ⟨size, ordinal, from'⟩

/-! ## Tuples -/

/-- The variables `a`, `b`, … of `impl_ordinal_for_tuple_n` (ordinal.rs:489-491). -/
def tupleVars (n : Nat) : List Ident :=
  (List.range n).map fun i => .user (String.singleton (Char.ofNat ('a'.toNat + i)))

/-- `impl_ordinal_for_tuple_n` (ordinal.rs:484-530). -/
def genTuple (tys : List ι) : R (GenStruct ι) := do
  let size ← (← structOrdinalSize tys).expr
  let ordinal ← (← structOrdinal ((List.range tys.length).map .selfIdx) tys).expr
  let from' ← structFromOrdinal (.var ordinalVar) (tupleVars tys.length) tys
    (.positional (tupleVars tys.length))
  .ok ⟨size, ordinal, from'⟩

/-! ## The entry point -/

/-- `syn::Data`. -/
inductive Data (ι : Type) where
  | struct (fs : Fields ι)
  | enum (vs : List (Fields ι))
  | union (fs : List (String × ι))

/-- The generated `impl`. -/
inductive Gen (ι : Type) where
  | struct (g : GenStruct ι)
  | enum (g : GenEnum ι)

/-- `derive_ordinal` (ordinal.rs:4-60): `match input.data`; for a union the error becomes a
`compile_error!` (lib.rs:11, ordinal.rs:31-36). -/
def deriveOrdinal : Data ι → R (Gen ι)
  | .struct fs => do .ok (.struct (← genStruct fs))
  | .enum vs => do .ok (.enum (← genEnum vs))
  | .union _ => .error .compileError

/-! ## Static checks of the generated code -/

/-- Type of a variable: `usize` (mutable or not), or a field type. -/
inductive VarTy (ι : Type) where
  | usize (isMut : Bool)
  | field (t : ι)
  deriving DecidableEq

/-- Constructors the prelude brings into scope.  An identifier pattern with such a name is not a
binding: it is the constructor (`None`, a refutable pattern of the wrong type) or error E0530
(`Some`, `Ok`, `Err`). -/
def preludeCtors : List String := ["None", "Some", "Ok", "Err"]

/-- Can an identifier pattern of the generated code (`let #field_var`, ordinal.rs:274-285, and the
variant patterns, ordinal.rs:406-412) bind this name? -/
def Ident.bindable : Ident → Bool
  | .user s => !preludeCtors.contains s
  | .pos _ => true

/-- Variables in scope, innermost first. -/
abbrev Ctx (ι : Type) := List (Ident × VarTy ι)

/-- Does the expression type-check as `usize`?  `refs` are the field references available,
constants see no variables. -/
def Expr.check (refs : List Ref) (ctx : Ctx ι) : Expr ι → Bool
  | .lit _ => true
  | .sizeOf _ => true
  | .ordinalOf r => refs.contains r
  | .add a b => a.check refs ctx && b.check refs ctx
  | .mul a b => a.check refs ctx && b.check refs ctx
  | .var x => match ctx.lookup x with
    | some (.usize _) => true
    | _ => false
  | .sub a b => a.check refs ctx && b.check refs ctx
  | .rem a b => a.check refs ctx && b.check refs ctx
  | .constBlock e => e.check [] []

/-- Check a statement; returns the scope after it, `none` if rejected.  `x /= e` needs a mutable
`usize` variable. -/
def Stmt.check (ctx : Ctx ι) : Stmt ι → Option (Ctx ι)
  | .letMut x e => if x.bindable && e.check [] ctx then some ((x, .usize true) :: ctx) else none
  | .letFromOrdinal x t e =>
    if x.bindable && e.check [] ctx then some ((x, .field t) :: ctx) else none
  | .divAssign x e => match ctx.lookup x with
    | some (.usize true) => if e.check [] ctx then some ctx else none
    | _ => none
  | .returnNoneIfNonzero x => match ctx.lookup x with
    | some (.usize _) => some ctx
    | _ => none

/-- Check a statement list. -/
def checkStmts : Ctx ι → List (Stmt ι) → Option (Ctx ι)
  | ctx, [] => some ctx
  | ctx, s :: ss => match s.check ctx with
    | none => none
    | some ctx' => checkStmts ctx' ss

/-- Does variable `x` have field type `t`? -/
def hasTy [DecidableEq ι] (ctx : Ctx ι) (x : Ident) (t : ι) : Bool :=
  ctx.lookup x == some (.field t)

/-- Check a constructor expression against the declared fields. -/
def Build.check [DecidableEq ι] (ctx : Ctx ι) (fs : Fields ι) : Build → Bool
  | .unit => match fs with
    | .unit => true
    | _ => false
  | .positional xs => match fs with
    | .unnamed tys => xs.length == tys.length && (xs.zip tys).all fun p => hasTy ctx p.1 p.2
    | _ => false
  | .record xs => match fs with
    | .named l => xs.length == l.length && (xs.map (·.1)).eraseDups.length == xs.length &&
        l.all fun f => match xs.lookup f.1 with
          | some x => hasTy ctx x f.2
          | none => false
    | _ => false

/-- Check a block in a scope. -/
def Block.check [DecidableEq ι] (ctx : Ctx ι) (fs : Fields ι) (b : Block ι) : Bool :=
  match checkStmts ctx b.stmts with
  | none => false
  | some ctx' => b.build.check ctx' fs

/-- The parameter scope of `from_ordinal`. -/
def paramCtx : Ctx ι := [(ordinalVar, .usize false)]

/-- Static check of a generated struct impl. -/
def GenStruct.check [DecidableEq ι] (g : GenStruct ι) (fs : Fields ι) : Bool :=
  g.size.check [] [] && g.ordinal.check (fieldRefExprs fs) [] && g.fromOrdinal.check paramCtx fs

/-- Check a pattern against the declared fields; returns the variables it binds. -/
def Pat.check (fs : Fields ι) : Pat → Option (List Ref)
  | .unit => match fs with
    | .unit => some []
    | _ => none
  | .tuple xs => match fs with
    | .unnamed tys => if xs.length = tys.length ∧ xs.Nodup ∧ xs.all Ident.bindable then some (xs.map .var) else none
    | _ => none
  | .record xs => match fs with
    | .named l =>
      if xs.length = l.length ∧ xs.Nodup ∧ xs.all Ident.bindable ∧ ∀ f ∈ l, Ident.user f.1 ∈ xs then
        some (xs.map .var)
      else none
    | _ => none

/-- Check one match arm. -/
def checkArm (v : Fields ι) (arm : Pat × Expr ι) : Bool :=
  match arm.1.check v with
  | none => false
  | some refs => arm.2.check refs []

/-- Static check of a generated enum impl: one arm and one statement per variant. -/
def GenEnum.check [DecidableEq ι] (g : GenEnum ι) (vs : List (Fields ι)) : Bool :=
  g.size.check [] [] &&
  (match g.ordinal with
    | none => true
    | some arms => arms.length == vs.length && (vs.zip arms).all fun p => checkArm p.1 p.2) &&
  g.fromOrdinal.length == vs.length &&
  (vs.zip g.fromOrdinal).all fun p => p.2.1.check [] paramCtx && p.2.2.check paramCtx p.1

/-! ## Running the generated code -/

/-- The field types and their `Ordinal` impls. -/
structure Types (ι : Type) where
  T : ι → Type
  impl : (t : ι) → OrdinalImpl (T t)

/-- A field value together with its type. -/
abbrev Types.Val (Ty : Types ι) := (t : ι) × Ty.T t

/-- Values of variables. -/
inductive VarVal (Ty : Types ι) where
  | num (n : Nat)
  | field (v : Ty.Val)

/-- Variables in scope, innermost first. -/
abbrev Env (Ty : Types ι) := List (Ident × VarVal Ty)

/-- Field references in scope. -/
abbrev RefEnv (Ty : Types ι) := List (Ref × Ty.Val)

/-- Const evaluation or run time. -/
inductive Mode where
  | const
  | runtime
  deriving DecidableEq

variable (c : Cfg) (Ty : Types ι)

/-- Evaluate a generated expression.  An out-of-range literal is rejected at compile time. -/
def Expr.eval (refs : RefEnv Ty) (env : Env Ty) : Mode → Expr ι → R Nat
  | _, .lit n => if n < c.M then .ok n else .error .compileError
  | _, .sizeOf t => (Ty.impl t).size
  | .const, .ordinalOf _ => .error .compileError
  | .runtime, .ordinalOf r => match refs.lookup r with
    | some v => (Ty.impl v.1).ordinal v.2
    | none => .error .compileError
  | .const, .add a b => do addC c (← a.eval refs env .const) (← b.eval refs env .const)
  | .runtime, .add a b => do addU c (← a.eval refs env .runtime) (← b.eval refs env .runtime)
  | .const, .mul a b => do mulC c (← a.eval refs env .const) (← b.eval refs env .const)
  | .runtime, .mul a b => do mulU c (← a.eval refs env .runtime) (← b.eval refs env .runtime)
  | .const, .var _ => .error .compileError
  | .runtime, .var x => match env.lookup x with
    | some (.num n) => .ok n
    | _ => .error .compileError
  | .const, .sub a b => do subC (← a.eval refs env .const) (← b.eval refs env .const)
  | .runtime, .sub a b => do subU c (← a.eval refs env .runtime) (← b.eval refs env .runtime)
  | .const, .rem a b => do remC (← a.eval refs env .const) (← b.eval refs env .const)
  | .runtime, .rem a b => do remU (← a.eval refs env .runtime) (← b.eval refs env .runtime)
  | _, .constBlock e => e.eval [] [] .const

/-- Run a statement: the new scope, or `none` for `return None`. -/
def Stmt.exec (env : Env Ty) : Stmt ι → R (Option (Env Ty))
  | .letMut x e => do
    let n ← e.eval c Ty [] env .runtime
    .ok (some ((x, .num n) :: env))
  | .letFromOrdinal x t e => do
    let n ← e.eval c Ty [] env .runtime
    let v ← unwrap (← (Ty.impl t).fromOrdinal n)
    .ok (some ((x, .field ⟨t, v⟩) :: env))
  | .divAssign x e => match env.lookup x with
    | some (.num n) => do
      let m ← divU n (← e.eval c Ty [] env .runtime)
      .ok (some ((x, .num m) :: env))
    | _ => .error .compileError
  | .returnNoneIfNonzero x => match env.lookup x with
    | some (.num n) => .ok (if n ≠ 0 then none else some env)
    | _ => .error .compileError

/-- Run statements. -/
def execStmts : Env Ty → List (Stmt ι) → R (Option (Env Ty))
  | env, [] => .ok (some env)
  | env, s :: ss => do
    match ← s.exec c Ty env with
    | none => .ok none
    | some env' => execStmts env' ss

/-- Read a field variable of the given type. -/
def readVar [DecidableEq ι] (env : Env Ty) (x : Ident) (t : ι) : R Ty.Val :=
  match env.lookup x with
  | some (.field v) => if v.1 = t then .ok v else .error .compileError
  | _ => .error .compileError

/-- Read the variables for a list of (variable, expected type). -/
def readVars [DecidableEq ι] (env : Env Ty) : List (Ident × ι) → R (List Ty.Val)
  | [] => .ok []
  | (x, t) :: l => do .ok ((← readVar Ty env x t) :: (← readVars env l))

/-- Evaluate the constructor: the field values in declaration order. -/
def Build.eval [DecidableEq ι] (env : Env Ty) (fs : Fields ι) : Build → R (List Ty.Val)
  | .unit => match fs with
    | .unit => .ok []
    | _ => .error .compileError
  | .positional xs => match fs with
    | .unnamed tys =>
      if xs.length = tys.length then readVars Ty env (xs.zip tys) else .error .compileError
    | _ => .error .compileError
  | .record xs => match fs with
    | .named l => l.mapM fun f => match xs.lookup f.1 with
      | some x => readVar Ty env x f.2
      | none => .error .compileError
    | _ => .error .compileError

/-- Run a block: `None`, or `Some` of the field values in declaration order. -/
def Block.exec [DecidableEq ι] (env : Env Ty) (fs : Fields ι) (b : Block ι) :
    R (Option (List Ty.Val)) := do
  match ← execStmts c Ty env b.stmts with
  | none => .ok none
  | some env' => do .ok (some (← b.build.eval Ty env' fs))

/-- A struct/tuple/variant value: field values whose types are the declared ones. -/
abbrev FieldVals (tys : List ι) := { l : List Ty.Val // l.map Sigma.fst = tys }

/-- `&self.name` / `&self.0` for a struct value. -/
def selfRefs (fs : Fields ι) (l : List Ty.Val) : RefEnv Ty :=
  match fs with
  | .unit => []
  | .unnamed _ => ((List.range l.length).map Ref.selfIdx).zip l
  | .named ns => (ns.map fun n => Ref.selfNamed n.1).zip l

/-- The `impl` made of generated code, for values of the declared field types.
`check_overflow` and `check_zero_size` (ordinal.rs:49-58, 63-78, 519-527) come first. -/
def GenStruct.toImpl [DecidableEq ι] (g : GenStruct ι) (fs : Fields ι) :
    OrdinalImpl (FieldVals Ty (fieldTypes fs)) where
  size := g.size.eval c Ty [] [] .const
  ordinal v := do
    let _ ← g.size.eval c Ty [] [] .const
    g.ordinal.eval c Ty (selfRefs Ty fs v.1) [] .runtime
  fromOrdinal i := do
    if (← g.size.eval c Ty [] [] .const) = 0 then .ok none
    else
      match ← g.fromOrdinal.exec c Ty [(ordinalVar, .num i)] fs with
      | none => .ok none
      | some l => if h : l.map Sigma.fst = fieldTypes fs then .ok (some ⟨l, h⟩) else .error .compileError

/-- An impl whose code is rejected by the compiler. -/
def rejected (α : Type) : OrdinalImpl α :=
  ⟨.error .compileError, fun _ => .error .compileError, fun _ => .error .compileError⟩

/-- `#[derive(Ordinal)] struct` (ordinal.rs:44-60). -/
def structImpl [DecidableEq ι] (fs : Fields ι) : OrdinalImpl (FieldVals Ty (fieldTypes fs)) :=
  match genStruct fs with
  | .error _ => rejected _
  | .ok g => if g.check fs then g.toImpl c Ty fs else rejected _

/-- The tuple impls (ordinal.rs:515-541), generated for arities `0..=16`; larger tuples have no impl. -/
def tupleImpl [DecidableEq ι] (tys : List ι) : OrdinalImpl (FieldVals Ty tys) :=
  if tys.length ≤ 16 then
    match genTuple tys with
    | .error _ => rejected _
    | .ok g => if g.check (.unnamed tys) then g.toImpl c Ty (.unnamed tys) else rejected _
  else rejected _

/-- A value of an enum: variant number and its field values. -/
abbrev EnumVal (vs : List (Fields ι)) :=
  { p : Nat × List Ty.Val // ∃ v, vs[p.1]? = some v ∧ p.2.map Sigma.fst = fieldTypes v }

/-- The variables bound by a pattern matched against a variant with fields `fs` and values `l`. -/
def Pat.bind (fs : Fields ι) (l : List Ty.Val) : Pat → RefEnv Ty
  | .unit => []
  | .tuple xs => (xs.map Ref.var).zip l
  | .record xs => match fs with
    | .named ns => xs.filterMap fun x =>
      (((ns.map fun n => Ident.user n.1).zip l).lookup x).map fun v => (Ref.var x, v)
    | _ => []

/-- The chain of `if ordinal < e { return block; }` statements of an enum's `from_ordinal`, for
variants from number `k` on. -/
def execEnumStmts [DecidableEq ι] (i : Nat) :
    Nat → List (Fields ι) → List (Expr ι × Block ι) → R (Option (Nat × List Ty.Val))
  | k, v :: vs, (e, b) :: rest => do
    if i < (← e.eval c Ty [] [(ordinalVar, .num i)] .runtime) then
      match ← b.exec c Ty [(ordinalVar, .num i)] v with
      | none => .ok none
      | some l => .ok (some (k, l))
    else execEnumStmts i (k + 1) vs rest
  | _, _, _ => .ok none

/-- The run-time result is a value of the enum, decidably. -/
instance decEnumVal [DecidableEq ι] (vs : List (Fields ι)) (p : Nat × List Ty.Val) :
    Decidable (∃ v, vs[p.1]? = some v ∧ p.2.map Sigma.fst = fieldTypes v) :=
  match vs[p.1]? with
  | none => isFalse (by rintro ⟨v, h, _⟩; simp at h)
  | some v =>
    if h : p.2.map Sigma.fst = fieldTypes v then isTrue ⟨v, rfl, h⟩
    else isFalse (by rintro ⟨w, hw, h'⟩; cases hw; exact h h')

/-- The `impl` made of generated code for an enum. -/
def GenEnum.toImpl [DecidableEq ι] (g : GenEnum ι) (vs : List (Fields ι)) :
    OrdinalImpl (EnumVal Ty vs) where
  size := g.size.eval c Ty [] [] .const
  ordinal x := do
    let _ ← g.size.eval c Ty [] [] .const
    match g.ordinal with
    | none => .ok 0
    | some arms => match arms[x.1.1]?, vs[x.1.1]? with
      | some arm, some v => arm.2.eval c Ty (arm.1.bind Ty v x.1.2) [] .runtime
      | _, _ => .error .compileError
  fromOrdinal i := do
    if (← g.size.eval c Ty [] [] .const) = 0 then .ok none
    else
      match ← execEnumStmts c Ty i 0 vs g.fromOrdinal with
      | none => .ok none
      | some p =>
        if h : ∃ v, vs[p.1]? = some v ∧ p.2.map Sigma.fst = fieldTypes v then .ok (some ⟨p, h⟩)
        else .error .compileError

/-- `#[derive(Ordinal)] enum` (ordinal.rs:44-60). -/
def enumImpl [DecidableEq ι] (vs : List (Fields ι)) : OrdinalImpl (EnumVal Ty vs) :=
  match genEnum vs with
  | .error _ => rejected _
  | .ok g => if g.check vs then g.toImpl c Ty vs else rejected _

end OrdinalMap.Derive
