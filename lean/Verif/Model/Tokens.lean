import Verif.Model.Derive
/-!
# The arithmetic the derive macro emits, as tokens

`Model/Derive.lean` works with expression trees.  The macro pastes tokens: `parse_quote!` splices the
tokens of an inner expression without grouping them, so the tree rustc builds depends on operator
precedence and on the parentheses the macro writes.  Here are the emitted tokens, and the part of
Rust's expression grammar they use.  Paths, calls and literals are single tokens.
-/

namespace OrdinalMap.Derive
open OrdinalMap

variable {ι : Type}

/-- Tokens. -/
inductive Tok (ι : Type) where
  /-- `{c}usize` -/
  | lit (c : Nat)
  /-- `<T as ordinal_map::Ordinal>::ORDINAL_SIZE` -/
  | sizeOf (t : ι)
  /-- `ordinal_map::Ordinal::ordinal(r)` -/
  | ordinalOf (r : Ref)
  | ident (x : Ident)
  | plus
  | minus
  | star
  | percent
  | lt
  | lparen
  | rparen
  | lbrace
  | rbrace
  /-- the keyword `const` -/
  | const
  deriving DecidableEq, Repr

/-! ## What the macro emits -/

/-- The tokens of an expression that the macro wrote itself into `SizeExpr::Syn` (ordinal.rs:99-109):
a path or a call.  Other trees are never put there. -/
def Expr.synToks : Expr ι → List (Tok ι)
  | .lit c => [.lit c]
  | .sizeOf t => [.sizeOf t]
  | .ordinalOf r => [.ordinalOf r]
  | .var x => [.ident x]
  | .add a b => synToks a ++ [.plus] ++ synToks b
  | .mul a b => synToks a ++ [.star] ++ synToks b
  | .sub a b => synToks a ++ [.minus] ++ synToks b
  | .rem a b => synToks a ++ [.percent] ++ synToks b
  | .constBlock e => [.const, .lbrace] ++ synToks e ++ [.rbrace]

namespace SizeExpr

mutual
/-- `SizeExpr::expr` (ordinal.rs:166-196) as tokens: `( #first #( + #exprs )* )`. -/
def toks : SizeExpr ι → List (Tok ι)
  | .const c => [.lit c]
  | .syn e => e.synToks
  | .sum [] => [.lparen, .rparen]
  | .sum (first :: es) => [.lparen] ++ toks first ++ tailToks .plus es ++ [.rparen]
  | .product [] => [.lparen, .rparen]
  | .product (first :: es) => [.lparen] ++ toks first ++ tailToks .star es ++ [.rparen]
/-- `#( op #exprs )*`. -/
def tailToks (op : Tok ι) : List (SizeExpr ι) → List (Tok ι)
  | [] => []
  | e :: es => [op] ++ toks e ++ tailToks op es
end

/-- `SizeExpr::const_expr` (ordinal.rs:198-210) as tokens. -/
def constToks : SizeExpr ι → List (Tok ι)
  | .const c => [.lit c]
  | e => [.const, .lbrace] ++ e.toks ++ [.rbrace]

end SizeExpr

/-- `rem % #field_ordinal_size` (ordinal.rs:278-279). -/
def remToks (t : ι) : List (Tok ι) :=
  [.ident remVar, .percent] ++ (SizeExpr.ordinalSize t).constToks

/-- `#ordinal_var - #size_of_first_variants_before` (ordinal.rs:442-444). -/
def subToks (before : SizeExpr ι) : List (Tok ι) :=
  [.ident ordinalVar, .minus] ++ before.constToks

/-- `#ordinal_var < #size_of_first_variants_including`, the condition of the `if` (ordinal.rs:470),
with the brace that follows. -/
def condToks (including : SizeExpr ι) : List (Tok ι) :=
  [.ident ordinalVar, .lt] ++ including.constToks ++ [.lbrace]

/-- The expressions of the statements of `struct_from_ordinal` (ordinal.rs:270-285), in order: the
initial value of `rem`, and per field, last field first, the argument of `from_ordinal` and the
right-hand side of `rem /= …`. -/
def blockToks (ordinal : List (Tok ι)) (tys : List ι) : List (List (Tok ι)) :=
  ordinal :: tys.reverse.flatMap fun t => [remToks t, (SizeExpr.ordinalSize t).constToks]

/-- The expressions emitted for a struct or tuple. -/
structure StructToks (ι : Type) where
  size : List (Tok ι)
  ordinal : List (Tok ι)
  fromOrdinal : List (List (Tok ι))
  deriving DecidableEq, Repr

/-- Those of a struct (ordinal.rs:15-22, 316-361). -/
def structToks (fs : Fields ι) : R (StructToks ι) := do
  let size ← structOrdinalSize (fieldTypes fs)
  let ordinal ← structOrdinal (fieldRefExprs fs) (fieldTypes fs)
  .ok ⟨size.toks, ordinal.toks, blockToks [.ident ordinalVar] (fieldTypes fs)⟩

/-- Those of a tuple (ordinal.rs:484-530). -/
def tupleToks (tys : List ι) : R (StructToks ι) := do
  let size ← structOrdinalSize tys
  let ordinal ← structOrdinal ((List.range tys.length).map .selfIdx) tys
  .ok ⟨size.toks, ordinal.toks, blockToks [.ident ordinalVar] tys⟩

/-- The expressions emitted for an enum: the size; per variant the match arm of `ordinal`, and for
`from_ordinal` the condition and the block. -/
structure EnumToks (ι : Type) where
  size : List (Tok ι)
  arms : List (List (Tok ι))
  stmts : List (List (Tok ι) × List (List (Tok ι)))
  deriving DecidableEq, Repr

/-- Variant number `i` (ordinal.rs:413-427). -/
def armToks (vs : List (Fields ι)) (i : Nat) (v : Fields ι) : R (List (Tok ι)) := do
  let first ← sizeOfFirstVariants vs i
  let so ← structOrdinal ((fieldVars v).map .var) (fieldTypes v)
  .ok (← SizeExpr.mkSum [first, so]).toks

/-- Variant number `i` (ordinal.rs:439-472). -/
def fromStmtToks (vs : List (Fields ι)) (i : Nat) (v : Fields ι) :
    R (List (Tok ι) × List (List (Tok ι))) := do
  let before ← sizeOfFirstVariants vs i
  let including ← sizeOfFirstVariants vs (i + 1)
  .ok (condToks including, blockToks (subToks before) (fieldTypes v))

/-- `for (i, variant) in variants.iter().enumerate()`, variants from number `i` on. -/
def armsToks (vs : List (Fields ι)) : Nat → List (Fields ι) → R (List (List (Tok ι)))
  | _, [] => .ok []
  | i, v :: rest => do .ok ((← armToks vs i v) :: (← armsToks vs (i + 1) rest))

/-- Same for `from_ordinal`. -/
def fromStmtsToks (vs : List (Fields ι)) :
    Nat → List (Fields ι) → R (List (List (Tok ι) × List (List (Tok ι))))
  | _, [] => .ok []
  | i, v :: rest => do .ok ((← fromStmtToks vs i v) :: (← fromStmtsToks vs (i + 1) rest))

/-- Those of an enum (ordinal.rs:23-30, 379-481). -/
def enumToks (vs : List (Fields ι)) : R (EnumToks ι) := do
  let size ← sizeOfFirstVariants vs vs.length
  let arms ← armsToks vs 0 vs
  let stmts ← fromStmtsToks vs 0 vs
  .ok ⟨size.toks, arms, stmts⟩

/-! ## How rustc reads it

Rust's grammar, precedence from high to low: primary, `*` and `%` (left associative), `+` and `-`
(left associative), `<`.  The parser consumes a prefix and returns the rest; `fuel` bounds the
recursion. -/

mutual
/-- A literal, path, call, variable, parenthesised expression or `const` block. -/
def parsePrimary : Nat → List (Tok ι) → Option (Expr ι × List (Tok ι))
  | 0, _ => none
  | _ + 1, .lit c :: ts => some (.lit c, ts)
  | _ + 1, .sizeOf t :: ts => some (.sizeOf t, ts)
  | _ + 1, .ordinalOf r :: ts => some (.ordinalOf r, ts)
  | _ + 1, .ident x :: ts => some (.var x, ts)
  | fuel + 1, .lparen :: ts =>
    match parseSum fuel ts with
    | some (e, .rparen :: ts) => some (e, ts)
    | _ => none
  | fuel + 1, .const :: .lbrace :: ts =>
    match parseSum fuel ts with
    | some (e, .rbrace :: ts) => some (.constBlock e, ts)
    | _ => none
  | _ + 1, _ => none

/-- Products. -/
def parseProduct : Nat → List (Tok ι) → Option (Expr ι × List (Tok ι))
  | 0, _ => none
  | fuel + 1, ts =>
    match parsePrimary fuel ts with
    | some (e, ts) => parseProductTail fuel e ts
    | none => none

/-- `e` is what was read of the product so far. -/
def parseProductTail : Nat → Expr ι → List (Tok ι) → Option (Expr ι × List (Tok ι))
  | 0, _, _ => none
  | fuel + 1, e, .star :: ts =>
    match parsePrimary fuel ts with
    | some (e', ts) => parseProductTail fuel (.mul e e') ts
    | none => none
  | fuel + 1, e, .percent :: ts =>
    match parsePrimary fuel ts with
    | some (e', ts) => parseProductTail fuel (.rem e e') ts
    | none => none
  | _ + 1, e, ts => some (e, ts)

/-- Sums. -/
def parseSum : Nat → List (Tok ι) → Option (Expr ι × List (Tok ι))
  | 0, _ => none
  | fuel + 1, ts =>
    match parseProduct fuel ts with
    | some (e, ts) => parseSumTail fuel e ts
    | none => none

/-- `e` is what was read of the sum so far. -/
def parseSumTail : Nat → Expr ι → List (Tok ι) → Option (Expr ι × List (Tok ι))
  | 0, _, _ => none
  | fuel + 1, e, .plus :: ts =>
    match parseProduct fuel ts with
    | some (e', ts) => parseSumTail fuel (.add e e') ts
    | none => none
  | fuel + 1, e, .minus :: ts =>
    match parseProduct fuel ts with
    | some (e', ts) => parseSumTail fuel (.sub e e') ts
    | none => none
  | _ + 1, e, ts => some (e, ts)
end

/-- A whole token list read as an arithmetic expression. -/
def parseExpr (fuel : Nat) (ts : List (Tok ι)) : Option (Expr ι) :=
  match parseSum fuel ts with
  | some (e, []) => some e
  | _ => none

/-- The condition of an `if`, up to the brace of its body: `a < b {`. -/
def parseCond (fuel : Nat) (ts : List (Tok ι)) : Option (Expr ι × Expr ι) :=
  match parseSum fuel ts with
  | some (a, .lt :: ts) =>
    match parseSum fuel ts with
    | some (b, [.lbrace]) => some (a, b)
    | _ => none
  | _ => none

/-- rustc reads `ts` as `e`: so does the parser with any sufficient fuel. -/
def ReadsAs (ts : List (Tok ι)) (e : Expr ι) : Prop := ∃ k, ∀ fuel, k ≤ fuel → parseExpr fuel ts = some e

/-- rustc reads `ts` as the condition `a < b`. -/
def ReadsAsCond (ts : List (Tok ι)) (a b : Expr ι) : Prop :=
  ∃ k, ∀ fuel, k ≤ fuel → parseCond fuel ts = some (a, b)

/-- rustc reads the token lists as the expressions, one by one. -/
inductive ReadAll : List (List (Tok ι)) → List (Expr ι) → Prop
  | nil : ReadAll [] []
  | cons {ts tss e es} : ReadsAs ts e → ReadAll tss es → ReadAll (ts :: tss) (e :: es)

/-- The expression of a statement. -/
def Stmt.exprs : Stmt ι → List (Expr ι)
  | .letMut _ e => [e]
  | .letFromOrdinal _ _ e => [e]
  | .divAssign _ e => [e]
  | .returnNoneIfNonzero _ => []

/-- rustc reads the statements of an enum's `from_ordinal`: conditions `ordinal < e` and blocks. -/
inductive ReadStmts : List (List (Tok ι) × List (List (Tok ι))) → List (Expr ι × Block ι) → Prop
  | nil : ReadStmts [] []
  | cons {c b tss e blk es} : ReadsAsCond c (.var ordinalVar) e → ReadAll b (blk.stmts.flatMap Stmt.exprs) →
      ReadStmts tss es → ReadStmts ((c, b) :: tss) ((e, blk) :: es)

end OrdinalMap.Derive
