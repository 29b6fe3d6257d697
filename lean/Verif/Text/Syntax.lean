import Verif.Text.Lex
/-!
# Rust syntax trees

The part of Rust's syntax that the crate uses, outside tests.
-/

namespace OrdinalMap.Text

mutual
/-- Types.  Lifetimes are dropped. -/
inductive Ty where
  /-- `a::b<T, U>` -/
  | path (p : List String) (args : Tys)
  | ref (isMut : Bool) (t : Ty)
  /-- `*const T`, `*mut T` -/
  | ptr (isMut : Bool) (t : Ty)
  /-- `[T; N]` -/
  | arr (t : Ty) (n : String)
  | slice (t : Ty)
  | tuple (ts : Tys)
  /-- `impl Tr` in a signature, or a binding `Item = T` in arguments -/
  | impl (t : Ty)
  | assoc (x : String) (t : Ty)
  /-- `FnMut(A, B) -> C` -/
  | fn (p : List String) (args : Tys) (ret : Ty)
  /-- `<T as Tr>::X` -/
  | proj (t tr : Ty) (x : String)
  | infer
/-- Lists of types. -/
inductive Tys where
  | nil
  | cons (t : Ty) (ts : Tys)
end

deriving instance DecidableEq for Ty, Tys

mutual
/-- Patterns. -/
inductive Pat where
  | wild
  | num (n : Nat)
  | bool (b : Bool)
  /-- a path, or a variable -/
  | path (p : List String)
  /-- `mut x` -/
  | mutVar (x : String)
  /-- `P(p, q)` -/
  | ctor (p : List String) (ps : Pats)
  | tuple (ps : Pats)
  | ref (p : Pat)
/-- Lists of patterns. -/
inductive Pats where
  | nil
  | cons (p : Pat) (ps : Pats)
end

deriving instance DecidableEq for Pat, Pats

/-- Part of a path in an expression: `name::<args>`. -/
structure Seg where
  name : String
  args : Tys := .nil
  deriving DecidableEq

/-- Prefix operators. -/
inductive UnOp where
  | neg | not | deref
  deriving DecidableEq, Repr

/-- Infix operators. -/
inductive BinOp where
  | add | sub | mul | div | rem | and | or | xor | shl | shr | eq | ne | lt | gt | le | ge | land | lor
  deriving DecidableEq, Repr

mutual
/-- Expressions. -/
inductive Ex where
  | num (n : Nat) (suffix : String)
  | str (s : String)
  | bool (b : Bool)
  | path (p : List Seg)
  /-- `<T as Tr>::x` -/
  | qpath (t : Ty) (tr : Ty) (x : String)
  | un (o : UnOp) (e : Ex)
  | ref (isMut : Bool) (e : Ex)
  | bin (o : BinOp) (a b : Ex)
  | assign (a b : Ex)
  /-- `a += b` and so on -/
  | assignOp (o : BinOp) (a b : Ex)
  | cast (e : Ex) (t : Ty)
  | call (f : Ex) (args : Exs)
  | method (e : Ex) (x : String) (tys : Tys) (args : Exs)
  | field (e : Ex) (x : String)
  | index (e i : Ex)
  | try (e : Ex)
  | tuple (es : Exs)
  | array (es : Exs)
  /-- `[e; n]` -/
  | repeat (e n : Ex)
  | record (p : List Seg) (fs : Fls)
  | block (b : Blk)
  | constBlock (b : Blk)
  | unsafeBlock (b : Blk)
  /-- `if e { b } else { els }`; a missing `else` is `()` -/
  | ifE (e : Ex) (b : Blk) (els : Ex)
  /-- `if let p = e { b } else { els }` -/
  | ifLet (p : Pat) (e : Ex) (b : Blk) (els : Ex)
  | matchE (e : Ex) (arms : Arms)
  | whileE (e : Ex) (b : Blk)
  | whileLet (p : Pat) (e : Ex) (b : Blk)
  | loopE (b : Blk)
  | forE (p : Pat) (e : Ex) (b : Blk)
  | ret0
  | ret (e : Ex)
  | break
  | continue
  /-- `x!(args)` -/
  | mac (x : String) (args : Exs)
  | range (a b : Ex)
  | rangeIncl (a b : Ex)
  | rangeFull
  | closure (ps : Pats) (e : Ex)
/-- Lists of expressions. -/
inductive Exs where
  | nil
  | cons (e : Ex) (es : Exs)
/-- Fields of a struct literal. -/
inductive Fls where
  | nil
  | cons (x : String) (e : Ex) (fs : Fls)
/-- Arms of a `match`. -/
inductive Arms where
  | nil
  | cons (p : Pat) (e : Ex) (arms : Arms)
/-- Contents of a block. -/
inductive Blk where
  | nil
  | tail (e : Ex)
  /-- `let p = e;` -/
  | letS (p : Pat) (e : Ex) (b : Blk)
  /-- `let p: t = e;` -/
  | letT (p : Pat) (t : Ty) (e : Ex) (b : Blk)
  /-- `let p = e else { els };` -/
  | letElse (p : Pat) (e : Ex) (els b : Blk)
  /-- `e;` -/
  | semi (e : Ex) (b : Blk)
  /-- an expression ending in `}` used as a statement -/
  | stmt (e : Ex) (b : Blk)
end

deriving instance DecidableEq for Ex, Exs, Fls, Arms, Blk

/-- How a function takes `self`. -/
inductive SelfKind where
  | none | value | ref | refMut
  deriving DecidableEq, Repr

/-- A function. -/
structure FnDef where
  name : String
  self : SelfKind
  params : List (Pat × Ty)
  ret : Ty
  body : Blk
  deriving DecidableEq

/-- A generic parameter: name, and whether it is a `const`. -/
abbrev Gens := List (String × Bool)

/-- An `impl` block; `tr` is the trait. -/
structure ImplDef where
  gens : Gens
  tr : Option Ty
  ty : Ty
  consts : List (String × Ty × Ex)
  fns : List FnDef
  deriving DecidableEq

/-- Items.  `use`, macro calls, structs without named fields and tests are dropped. -/
inductive Item where
  | impl (d : ImplDef)
  | const (x : String) (t : Ty) (e : Ex)
  | fn (gens : Gens) (d : FnDef)
  /-- a struct with its fields -/
  | struct (x : String) (fields : List (String × Ty))
  /-- an enum with its variants -/
  | enum (x : String) (variants : List (String × Tys))
  /-- a trait with the functions it defines; the others are dropped -/
  | trait (x : String) (fns : List FnDef)
  deriving DecidableEq

end OrdinalMap.Text
