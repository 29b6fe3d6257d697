import Verif.Model.Derive
/-!
# The items in scope where the derive is written

`Model/Derive.lean` checks generated code as if only the standard prelude were in scope.  The macro
does not write absolute paths, so what its output means depends on the module it lands in: `return
None` (ordinal.rs:75, 288) is whatever `None` is there; `std::option::Option` (ordinal.rs:56, 300,
478, 525), `ordinal_map::Ordinal` (ordinal.rs:46, 101, 107, 276) and `usize` (ordinal.rs:47-56) are
looked up there; an identifier pattern (`let #field_var`, `let mut rem`, the parameter `ordinal`, the
variables of match arms) does not bind if a constant, a static or a constructor has that name; and
`Self::ORDINAL_SIZE` (ordinal.rs:66, 74) prefers a variant and an inherent constant to the trait's.
This file checks and runs the generated code in an arbitrary scope.

Rust's rules used here: the pattern rules of `rustc_resolve` (functions may be shadowed by a binding;
unit structs, unit variants and constants are path patterns unless the binding says `mut`; statics,
tuple constructors and const generic parameters are errors E0530/E0158), and the order variant,
inherent constant, trait constant for `Self::NAME`.
-/

namespace OrdinalMap.Derive.Names
open OrdinalMap OrdinalMap.Derive

variable {ι : Type}

/-- What a name means in the value namespace.  `covers t` says that the path, as a pattern, has type
`t` and matches every value of it (a unit struct against its own type, a constant of type `()`,
`None` against `Option<Infallible>`). -/
inductive Item (ι : Type) where
  /-- a function -/
  | fn
  /-- a static, a tuple struct or variant, a const generic parameter -/
  | ctor
  /-- a unit struct, unit variant or constant, other than `Option::None` and other than a constant of
  type `Option<Self>` -/
  | const (covers : ι → Bool)
  /-- `std::option::Option::None` -/
  | none (covers : ι → Bool)

/-- An inherent constant called `ORDINAL_SIZE` on the type: of type `usize`, with its value, or of
some other type that cannot be compared with an integer. -/
inductive Inherent where
  | usize (k : R Nat)
  | other

/-- What the generated code can see. -/
structure Scope (ι : Type) where
  /-- the value namespace: prelude, imports, items, const generic parameters -/
  value : String → Option (Item ι)
  /-- `ordinal_map` is this crate -/
  crateOk : Bool
  /-- `std` is the standard library -/
  stdOk : Bool
  /-- `usize` is the primitive type -/
  usizeOk : Bool
  /-- an inherent `ORDINAL_SIZE` of the type -/
  inherent : Option Inherent
  /-- another trait in scope, implemented by the type, also has an `ORDINAL_SIZE` -/
  traitClash : Bool

/-- Only the prelude in scope, nothing unusual on the type.  (`None` is given no type it covers.) -/
def prelude : Scope ι where
  value s := if s = "None" then some (.none fun _ => false)
    else if s = "Some" ∨ s = "Ok" ∨ s = "Err" then some .ctor else Option.none
  crateOk := true
  stdOk := true
  usizeOk := true
  inherent := Option.none
  traitClash := false

/-- The identifier as written: positional variables are `f{i}` (ordinal.rs:83). -/
def text : Ident → String
  | .user s => s
  | .pos i => "f" ++ toString i

/-- What an identifier pattern is. -/
inductive PatRes (ι : Type) where
  | fresh
  | path (covers : ι → Bool)
  | error

/-- Resolve an identifier pattern without `mut`. -/
def Scope.pat (sc : Scope ι) (x : Ident) : PatRes ι :=
  match sc.value (text x) with
  | Option.none => .fresh
  | some .fn => .fresh
  | some .ctor => .error
  | some (.const cov) => .path cov
  | some (.none cov) => .path cov

/-- Does the pattern bind a new variable?  With `mut`, and for patterns of type `usize`, nothing else
is accepted. -/
def Scope.binds (sc : Scope ι) (x : Ident) : Bool :=
  match sc.pat x with
  | .fresh => true
  | _ => false

/-- Is the expression `None` (ordinal.rs:75, 288) the constructor of `Option`? -/
def Scope.bareNone (sc : Scope ι) (ctx : Ctx ι) : Bool :=
  match ctx.lookup (.user "None"), sc.value "None" with
  | Option.none, some (.none _) => true
  | _, _ => false

/-- What `Self::ORDINAL_SIZE` (ordinal.rs:66, 74) is. -/
inductive SizePath where
  | trait
  | inherent (k : R Nat)
  /-- a value that `== 0` rejects, or an ambiguity error -/
  | bad

/-- Resolve `Self::ORDINAL_SIZE`; `variants` are the names of the variants of the type. -/
def Scope.sizePath (sc : Scope ι) (variants : List String) : SizePath :=
  if variants.contains "ORDINAL_SIZE" then .bad
  else match sc.inherent with
    | some (.usize k) => .inherent k
    | some .other => .bad
    | Option.none => if sc.traitClash then .bad else .trait

/-- Is the resolution usable? -/
def SizePath.ok : SizePath → Bool
  | .bad => false
  | _ => true

/-! ## Static checks in a scope -/

/-- `Stmt.check` (`Model/Derive.lean`) in a scope.  A path pattern brings no variable into scope. -/
def checkStmtIn (sc : Scope ι) (ctx : Ctx ι) : Stmt ι → Option (Ctx ι)
  | .letMut x e =>
    if sc.binds x && e.check [] ctx then some ((x, .usize true) :: ctx) else Option.none
  | .letFromOrdinal x t e =>
    if e.check [] ctx then
      match sc.pat x with
      | .fresh => some ((x, .field t) :: ctx)
      | .path cov => if cov t then some ctx else Option.none
      | .error => Option.none
    else Option.none
  | .divAssign x e => Stmt.check ctx (.divAssign x e)
  | .returnNoneIfNonzero x =>
    if sc.bareNone ctx then Stmt.check ctx (.returnNoneIfNonzero x) else Option.none

/-- Check a statement list. -/
def checkStmtsIn (sc : Scope ι) : Ctx ι → List (Stmt ι) → Option (Ctx ι)
  | ctx, [] => some ctx
  | ctx, s :: ss => match checkStmtIn sc ctx s with
    | Option.none => Option.none
    | some ctx' => checkStmtsIn sc ctx' ss

/-- Does the expression `x` have field type `t`?  A local variable, or else the item. -/
def hasTyIn [DecidableEq ι] (sc : Scope ι) (ctx : Ctx ι) (x : Ident) (t : ι) : Bool :=
  match ctx.lookup x with
  | some v => v == .field t
  | Option.none => match sc.pat x with
    | .path cov => cov t
    | _ => false

/-- Check a constructor expression against the declared fields. -/
def buildIn [DecidableEq ι] (sc : Scope ι) (ctx : Ctx ι) (fs : Fields ι) : Build → Bool
  | .unit => match fs with
    | .unit => true
    | _ => false
  | .positional xs => match fs with
    | .unnamed tys => xs.length == tys.length && (xs.zip tys).all fun p => hasTyIn sc ctx p.1 p.2
    | _ => false
  | .record xs => match fs with
    | .named l => xs.length == l.length && (xs.map (·.1)).eraseDups.length == xs.length &&
        l.all fun f => match xs.lookup f.1 with
          | some x => hasTyIn sc ctx x f.2
          | Option.none => false
    | _ => false

/-- Check a block in a scope. -/
def blockIn [DecidableEq ι] (sc : Scope ι) (ctx : Ctx ι) (fs : Fields ι) (b : Block ι) : Bool :=
  match checkStmtsIn sc ctx b.stmts with
  | Option.none => false
  | some ctx' => buildIn sc ctx' fs b.build

/-- What every expansion needs (ordinal.rs:44-78): the paths, the parameter `ordinal`, `let
_check_overflow`, `Self::ORDINAL_SIZE == 0` and `return None`. -/
def Scope.frame (sc : Scope ι) (variants : List String) : Bool :=
  sc.crateOk && sc.stdOk && sc.usizeOk && (sc.sizePath variants).ok && sc.binds ordinalVar &&
    sc.binds (.user "_check_overflow") && sc.bareNone paramCtx

/-- Static check of a generated struct impl in a scope. -/
def structIn [DecidableEq ι] (sc : Scope ι) (g : GenStruct ι) (fs : Fields ι) : Bool :=
  sc.frame [] && g.size.check [] [] && g.ordinal.check (fieldRefExprs fs) [] &&
    blockIn sc paramCtx fs g.fromOrdinal

/-- Check a pattern.  Every variable of an arm must be a binding: it is used as a reference (`match
self` binds by reference, ordinal.rs:431), which the item of a path pattern is not. -/
def patIn (sc : Scope ι) (fs : Fields ι) : Pat → Option (List Ref)
  | .unit => match fs with
    | .unit => some []
    | _ => Option.none
  | .tuple xs => match fs with
    | .unnamed tys => if xs.length = tys.length ∧ xs.Nodup ∧ xs.all sc.binds then some (xs.map .var)
      else Option.none
    | _ => Option.none
  | .record xs => match fs with
    | .named l =>
      if xs.length = l.length ∧ xs.Nodup ∧ xs.all sc.binds ∧ ∀ f ∈ l, Ident.user f.1 ∈ xs then
        some (xs.map .var)
      else Option.none
    | _ => Option.none

/-- Check one match arm. -/
def armIn (sc : Scope ι) (v : Fields ι) (arm : Pat × Expr ι) : Bool :=
  match patIn sc v arm.1 with
  | Option.none => false
  | some refs => arm.2.check refs []

/-- Static check of a generated enum impl in a scope; `let _ignore` is ordinal.rs:477. -/
def enumIn [DecidableEq ι] (sc : Scope ι) (variants : List String) (g : GenEnum ι)
    (vs : List (Fields ι)) : Bool :=
  sc.frame variants && sc.binds (.user "_ignore") && g.size.check [] [] &&
  (match g.ordinal with
    | Option.none => true
    | some arms => arms.length == vs.length && (vs.zip arms).all fun p => armIn sc p.1 p.2) &&
  g.fromOrdinal.length == vs.length &&
  (vs.zip g.fromOrdinal).all fun p => p.2.1.check [] paramCtx && blockIn sc paramCtx p.1 p.2.2

/-! ## Running in a scope -/

variable (c : Cfg) (Ty : Types ι)

/-- The value of `Self::ORDINAL_SIZE`, given the trait's constant. -/
def SizePath.value (size : R Nat) : SizePath → R Nat
  | .trait => size
  | .inherent k => k
  | .bad => .error .compileError

/-- `GenStruct.toImpl` with `Self::ORDINAL_SIZE` resolved.  (A path pattern that covers its type has
matched the only value there is, so reading the item and reading the field agree.) -/
def structRun [DecidableEq ι] (p : SizePath) (g : GenStruct ι) (fs : Fields ι) :
    OrdinalImpl (FieldVals Ty (fieldTypes fs)) where
  size := g.size.eval c Ty [] [] .const
  ordinal v := do
    let _ ← p.value (g.size.eval c Ty [] [] .const)
    g.ordinal.eval c Ty (selfRefs Ty fs v.1) [] .runtime
  fromOrdinal i := do
    if (← p.value (g.size.eval c Ty [] [] .const)) = 0 then .ok Option.none
    else
      match ← g.fromOrdinal.exec c Ty [(ordinalVar, .num i)] fs with
      | Option.none => .ok Option.none
      | some l => if h : l.map Sigma.fst = fieldTypes fs then .ok (some ⟨l, h⟩) else .error .compileError

/-- `#[derive(Ordinal)] struct` written in a scope. -/
def structImplIn [DecidableEq ι] (sc : Scope ι) (fs : Fields ι) :
    OrdinalImpl (FieldVals Ty (fieldTypes fs)) :=
  match genStruct fs with
  | .error _ => rejected _
  | .ok g => if structIn sc g fs then structRun c Ty (sc.sizePath []) g fs else rejected _

/-- `GenEnum.toImpl` with `Self::ORDINAL_SIZE` resolved. -/
def enumRun [DecidableEq ι] (p : SizePath) (g : GenEnum ι) (vs : List (Fields ι)) :
    OrdinalImpl (EnumVal Ty vs) where
  size := g.size.eval c Ty [] [] .const
  ordinal x := do
    let _ ← p.value (g.size.eval c Ty [] [] .const)
    match g.ordinal with
    | Option.none => .ok 0
    | some arms => match arms[x.1.1]?, vs[x.1.1]? with
      | some arm, some v => arm.2.eval c Ty (arm.1.bind Ty v x.1.2) [] .runtime
      | _, _ => .error .compileError
  fromOrdinal i := do
    if (← p.value (g.size.eval c Ty [] [] .const)) = 0 then .ok Option.none
    else
      match ← execEnumStmts c Ty i 0 vs g.fromOrdinal with
      | Option.none => .ok Option.none
      | some p =>
        if h : ∃ v, vs[p.1]? = some v ∧ p.2.map Sigma.fst = fieldTypes v then .ok (some ⟨p, h⟩)
        else .error .compileError

/-- `#[derive(Ordinal)] enum` written in a scope. -/
def enumImplIn [DecidableEq ι] (sc : Scope ι) (variants : List String) (vs : List (Fields ι)) :
    OrdinalImpl (EnumVal Ty vs) :=
  match genEnum vs with
  | .error _ => rejected _
  | .ok g => if enumIn sc variants g vs then enumRun c Ty (sc.sizePath variants) g vs else rejected _

end OrdinalMap.Derive.Names
