import Verif.Model.Source
/-!
# The syntax trees the emitted text should have

For each tree of `Model/Derive.lean`, the Rust syntax tree it stands for.
-/

namespace OrdinalMap.Derive.Src
open OrdinalMap OrdinalMap.Derive

variable {ι : Type}

/-- A path written as names. -/
def names (l : List String) : List Seg := l.map fun s => .id (.user s)

/-- A variable. -/
def var (x : Ident) : E ι := .path [.id x]

/-- `&self.name`, `&self.0`, `x` -/
def refTree : Ref → E ι
  | .selfNamed s => .ref (.field .self (.user s))
  | .selfIdx i => .ref (.index .self i)
  | .var x => var x

/-- A one-element argument list. -/
def one (e : E ι) : Es ι := .cons e .nil

/-- Expressions. -/
def exprTree : Expr ι → E ι
  | .lit c => .usize c
  | .sizeOf t => .qpath t (names ["ordinal_map", "Ordinal"]) (.user "ORDINAL_SIZE")
  | .ordinalOf r => .call (.path (names ["ordinal_map", "Ordinal", "ordinal"])) (one (refTree r))
  | .add a b => .bin .add (exprTree a) (exprTree b)
  | .mul a b => .bin .mul (exprTree a) (exprTree b)
  | .var x => var x
  | .sub a b => .bin .sub (exprTree a) (exprTree b)
  | .rem a b => .bin .rem (exprTree a) (exprTree b)
  | .constBlock e => .constBlock (.tail (exprTree e))

/-- `return None` -/
def returnNone : E ι := .ret (.path (names ["None"]))

/-- A statement, followed by `b`. -/
def stmtTree : Stmt ι → B ι → B ι
  | .letMut x e, b => .letS true x (exprTree e) b
  | .letFromOrdinal x t e, b =>
    .letS false x (.method (.call (.qpath t (names ["ordinal_map", "Ordinal"]) (.user "from_ordinal"))
      (one (exprTree e))) (.user "unwrap") .nil) b
  | .divAssign x e, b => .semi (.divAssign (var x) (exprTree e)) b
  | .returnNoneIfNonzero x, b => .stmt (.ifE (.bin .ne (var x) (.int 0)) (.tail returnNone)) b

/-- Statements, followed by `b`. -/
def stmtsTree : List (Stmt ι) → B ι → B ι
  | [], b => b
  | s :: ss, b => stmtTree s (stmtsTree ss b)

/-- Variables as arguments. -/
def varsTree : List Ident → Es ι
  | [] => .nil
  | x :: xs => .cons (var x) (varsTree xs)

/-- Variables as fields. -/
def fieldsTree : List (String × Ident) → Fs ι
  | [] => .nil
  | (s, x) :: xs => .cons (.user s) (var x) (fieldsTree xs)

/-- What constructs the value: the path of the struct or variant, or nothing for a tuple. -/
inductive Ctor where
  | path (p : List Seg)
  | tuple

/-- The constructor expression. -/
def buildTree : Ctor → Build → E ι
  | .path p, .unit => .path p
  | .path p, .positional xs => .call (.path p) (varsTree xs)
  | .path p, .record xs => .record p (fieldsTree xs)
  | .tuple, .positional xs => .tuple (varsTree xs)
  | .tuple, _ => .tuple .nil

/-- `std::option::Option::Some(e)` -/
def someTree (e : E ι) : E ι := .call (.path (names ["std", "option", "Option", "Some"])) (one e)

/-- A block. -/
def blockTree (k : Ctor) (b : Block ι) : B ι := stmtsTree b.stmts (.tail (someTree (buildTree k b.build)))

/-- `Self::ORDINAL_SIZE` -/
def selfSize : E ι := .path [.Self, .id (.user "ORDINAL_SIZE")]

/-- `let _check_overflow = Self::ORDINAL_SIZE; e` -/
def ordinalFn (e : E ι) : B ι := .letS false (.user "_check_overflow") selfSize (.tail e)

/-- `if Self::ORDINAL_SIZE == 0 { return None; } { b }` -/
def fromOrdinalFn (b : B ι) : B ι :=
  .stmt (.ifE (.bin .eq selfSize (.int 0)) (.semi returnNone .nil)) (.tail (.block b))

/-- The impl of a struct or tuple. -/
def structTree (k : Ctor) (g : GenStruct ι) : Impl ι where
  size := exprTree g.size
  ordinal := ordinalFn (exprTree g.ordinal)
  param := ordinalVar
  fromOrdinal := fromOrdinalFn (blockTree k g.fromOrdinal)

/-- The path of a variant. -/
def variantSegs (name : String) : List Seg := [.Self, .id (.user name)]

/-- A pattern. -/
def patTree (name : String) : Pat → PatT
  | .unit => .path (variantSegs name)
  | .tuple xs => .tuple (variantSegs name) xs
  | .record xs => .record (variantSegs name) xs

/-- Match arms, with the names of the variants. -/
def armsTree : List (String × Pat × Expr ι) → Arms ι
  | [] => .nil
  | (s, p, e) :: as => .cons (patTree s p) (.block (.tail (exprTree e))) (armsTree as)

/-- `if ordinal < e { return { b }; }` per variant, followed by `b`. -/
def enumStmtsTree : List (String × Expr ι × Block ι) → B ι → B ι
  | [], b => b
  | (s, e, blk) :: l, b =>
    .stmt (.ifE (.bin .lt (var ordinalVar) (exprTree e))
      (.semi (.ret (.block (blockTree (.path (variantSegs s)) blk))) .nil)) (enumStmtsTree l b)

/-- The impl of an enum whose variants have the given names. -/
def enumTree (ns : List String) (g : GenEnum ι) : Impl ι where
  size := exprTree g.size
  ordinal := ordinalFn (match g.ordinal with
    | none => .usize 0
    | some arms => .matchE .self (armsTree (ns.zip arms)))
  param := ordinalVar
  fromOrdinal := fromOrdinalFn (enumStmtsTree (ns.zip g.fromOrdinal)
    (.letS false (.user "_ignore") (var ordinalVar)
      (.tail (.path (names ["std", "option", "Option", "None"])))))

end OrdinalMap.Derive.Src
