import Verif.Model.Tokens
/-!
# The whole text the derive macro emits

`Model/Tokens.lean` has the arithmetic as tokens.  Here is everything the macro writes: the `impl`
with its constant and its two functions, statement by statement, as the tokens rustc receives; and a
parser for the part of Rust's grammar that this text uses.  A written type, the generics of the `impl`
and its self type are single tokens.

What the parser does the way rustc does it, because the emitted text depends on it:

* precedence and associativity of the operators, comparisons not being associative;
* no struct literal in the condition of an `if` or the scrutinee of a `match`, so that the `{` after
  `Self::ORDINAL_SIZE == 0` or after `ordinal < const { .. }` starts the body;
* an `if`, `match` or block at the start of a statement is a statement by itself: what follows is not
  an operand, and it needs no semicolon;
* a last expression without semicolon is the value of the block;
* `return` takes the expression that follows, if one can start there;
* `<` starts a qualified path where an expression starts, and is an operator after one.
-/

namespace OrdinalMap.Derive.Src
open OrdinalMap OrdinalMap.Derive

variable {ι : Type}

/-! ## Tokens -/

/-- Keywords. -/
inductive Kw where
  | «let» | «mut» | «if» | «return» | «match» | «fn» | «const» | «impl» | «for» | «as» | self | Self
  deriving DecidableEq, Repr

/-- Punctuation and delimiters. -/
inductive Pn where
  | lparen | rparen | lbrace | rbrace | lbracket | rbracket
  | colon2 | colon | semi | comma | dot | eq | eqEq | ne | lt | gt | plus | minus | star | percent
  | slashEq | amp | arrow | fatArrow | hash
  deriving DecidableEq, Repr

/-- Tokens of the emitted text. -/
inductive T (ι : Type) where
  | id (x : Ident)
  | kw (k : Kw)
  | pn (p : Pn)
  /-- an integer literal without suffix, also a tuple index -/
  | int (n : Nat)
  /-- `{n}usize` -/
  | usize (n : Nat)
  /-- a written type (`#ty`) -/
  | ty (t : ι)
  /-- `#impl_generics` -/
  | generics
  /-- `#ident #ty_generics #where_clause`, or the tuple type -/
  | selfTy
  deriving DecidableEq, Repr

/-- An identifier the macro writes. -/
abbrev T.nm (s : String) : T ι := .id (.user s)

/-! ## What the macro emits -/

/-- `ordinal_map::Ordinal` -/
def traitSrc : List (T ι) := [.nm "ordinal_map", .pn .colon2, .nm "Ordinal"]

/-- `&self.name`, `&self.0` (ordinal.rs:310-311), or a variable (ordinal.rs:415). -/
def refSrc : Ref → List (T ι)
  | .selfNamed s => [.pn .amp, .kw .self, .pn .dot, .nm s]
  | .selfIdx i => [.pn .amp, .kw .self, .pn .dot, .int i]
  | .var x => [.id x]

/-- The tokens that `Model/Tokens.lean` takes as one, spelled out (ordinal.rs:99-109, 166-169). -/
def tokSrc : Tok ι → List (T ι)
  | .lit c => [.usize c]
  | .sizeOf t => [.pn .lt, .ty t, .kw .as] ++ traitSrc ++ [.pn .gt, .pn .colon2, .nm "ORDINAL_SIZE"]
  | .ordinalOf r => traitSrc ++ [.pn .colon2, .nm "ordinal", .pn .lparen] ++ refSrc r ++ [.pn .rparen]
  | .ident x => [.id x]
  | .plus => [.pn .plus]
  | .minus => [.pn .minus]
  | .star => [.pn .star]
  | .percent => [.pn .percent]
  | .lt => [.pn .lt]
  | .lparen => [.pn .lparen]
  | .rparen => [.pn .rparen]
  | .lbrace => [.pn .lbrace]
  | .rbrace => [.pn .rbrace]
  | .const => [.kw .const]

/-- A token list of `Model/Tokens.lean`, spelled out. -/
def src (ts : List (Tok ι)) : List (T ι) := ts.flatMap tokSrc

/-- `check_overflow` (ordinal.rs:63-68). -/
def checkOverflowSrc : List (T ι) :=
  [.kw .let, .nm "_check_overflow", .pn .eq, .kw .Self, .pn .colon2, .nm "ORDINAL_SIZE", .pn .semi]

/-- `check_zero_size` (ordinal.rs:70-78). -/
def checkZeroSizeSrc : List (T ι) :=
  [.kw .if, .kw .Self, .pn .colon2, .nm "ORDINAL_SIZE", .pn .eqEq, .int 0, .pn .lbrace,
    .kw .return, .nm "None", .pn .semi, .pn .rbrace]

/-- The two statements per field (ordinal.rs:274-285). -/
def fieldSrc (x : Ident) (t : ι) : List (T ι) :=
  [.kw .let, .id x, .pn .eq, .pn .lt, .ty t, .kw .as] ++ traitSrc ++
    [.pn .gt, .pn .colon2, .nm "from_ordinal", .pn .lparen] ++ src (remToks t) ++
    [.pn .rparen, .pn .dot, .nm "unwrap", .pn .lparen, .pn .rparen, .pn .semi] ++
  [.id remVar, .pn .slashEq] ++ src (SizeExpr.ordinalSize t).constToks ++ [.pn .semi]

/-- `std::option::Option` -/
def optionSrc : List (T ι) :=
  [.nm "std", .pn .colon2, .nm "option", .pn .colon2, .nm "Option"]

/-- `struct_from_ordinal` (ordinal.rs:260-303); `ordinal` and `build` are the tokens of the expression
and of the constructor. -/
def structFromSrc (ordinal : List (T ι)) (vars : List Ident) (tys : List ι) (build : List (T ι)) :
    List (T ι) :=
  [.pn .lbrace] ++
  ([.kw .let, .kw .mut, .id remVar, .pn .eq] ++ ordinal ++ [.pn .semi]) ++
  (vars.zip tys).reverse.flatMap (fun p => fieldSrc p.1 p.2) ++
  [.kw .if, .id remVar, .pn .ne, .int 0, .pn .lbrace, .kw .return, .nm "None", .pn .rbrace] ++
  (optionSrc ++ [.pn .colon2, .nm "Some", .pn .lparen] ++ build ++ [.pn .rparen]) ++
  [.pn .rbrace]

/-- `#( #xs, )*` -/
def commaAfter (xs : List (List (T ι))) : List (T ι) := xs.flatMap fun x => x ++ [.pn .comma]

/-- `#( #xs ),*` -/
def commaSep : List (List (T ι)) → List (T ι)
  | [] => []
  | [x] => x
  | x :: y :: xs => x ++ [.pn .comma] ++ commaSep (y :: xs)

/-- The struct constructor closure (ordinal.rs:341-359). -/
def structBuildSrc (fs : Fields ι) : List (T ι) :=
  match fs with
  | .unit => [.kw .Self]
  | .unnamed _ =>
    [.kw .Self, .pn .lparen] ++ commaAfter ((fieldVars fs).map fun x => [.id x]) ++ [.pn .rparen]
  | .named _ =>
    [.kw .Self, .pn .lbrace] ++ commaAfter ((fieldVars fs).map fun x => [.id x, .pn .colon, .id x]) ++
      [.pn .rbrace]

/-- `#[allow(clippy::all)]` (ordinal.rs:45). -/
def allowClippy : List (T ι) :=
  [.pn .hash, .pn .lbracket, .nm "allow", .pn .lparen, .nm "clippy", .pn .colon2, .nm "all", .pn .rparen,
    .pn .rbracket]

/-- `#[allow(unreachable_code, unused_mut)]` (ordinal.rs:54). -/
def allowUnused : List (T ι) :=
  [.pn .hash, .pn .lbracket, .nm "allow", .pn .lparen, .nm "unreachable_code", .pn .comma, .nm "unused_mut",
    .pn .rparen, .pn .rbracket]

/-- The `impl` (ordinal.rs:44-60 with the attributes, 515-529 without). -/
def implSrc (derive : Bool) (size ordinal fromOrdinal : List (T ι)) : List (T ι) :=
  (if derive then allowClippy else []) ++
  [.kw .impl, .generics] ++ traitSrc ++ [.kw .for, .selfTy, .pn .lbrace] ++
  ([.kw .const, .nm "ORDINAL_SIZE", .pn .colon, .nm "usize", .pn .eq] ++ size ++ [.pn .semi]) ++
  ([.kw .fn, .nm "ordinal", .pn .lparen, .pn .amp, .kw .self, .pn .rparen, .pn .arrow, .nm "usize", .pn .lbrace] ++
    checkOverflowSrc ++ ordinal ++ [.pn .rbrace]) ++
  (if derive then allowUnused else []) ++
  ([.kw .fn, .nm "from_ordinal", .pn .lparen, .id ordinalVar, .pn .colon, .nm "usize", .pn .rparen, .pn .arrow] ++
    optionSrc ++ [.pn .lt, .kw .Self, .pn .gt, .pn .lbrace] ++
    checkZeroSizeSrc ++ fromOrdinal ++ [.pn .rbrace]) ++
  [.pn .rbrace]

/-- What is emitted for a struct (ordinal.rs:15-22, 44-60). -/
def structSrc (fs : Fields ι) : R (List (T ι)) := do
  let size ← structOrdinalSize (fieldTypes fs)
  let ordinal ← structOrdinal (fieldRefExprs fs) (fieldTypes fs)
  .ok (implSrc true (src size.toks) (src ordinal.toks)
    (structFromSrc [.id ordinalVar] (fieldVars fs) (fieldTypes fs) (structBuildSrc fs)))

/-- What is emitted for a tuple (ordinal.rs:484-530). -/
def tupleSrc (tys : List ι) : R (List (T ι)) := do
  let size ← structOrdinalSize tys
  let ordinal ← structOrdinal ((List.range tys.length).map .selfIdx) tys
  .ok (implSrc false (src size.toks) (src ordinal.toks)
    (structFromSrc [.id ordinalVar] (tupleVars tys.length) tys
      ([.pn .lparen] ++ commaAfter ((tupleVars tys.length).map fun x => [.id x]) ++ [.pn .rparen])))

/-- `Self::#variant_name` -/
def variantPath (name : String) : List (T ι) := [.kw .Self, .pn .colon2, .nm name]

/-- The pattern of a match arm (ordinal.rs:395-412), and the variant constructor (ordinal.rs:451-465):
the same tokens. -/
def variantSrc (name : String) (v : Fields ι) : List (T ι) :=
  match v with
  | .unit => variantPath name
  | .unnamed _ =>
    variantPath name ++ [.pn .lparen] ++ commaSep ((fieldVars v).map fun x => [.id x]) ++ [.pn .rparen]
  | .named _ =>
    variantPath name ++ [.pn .lbrace] ++ commaSep ((fieldVars v).map fun x => [.id x]) ++ [.pn .rbrace]

/-- One match arm, `#bind => { #value }` (ordinal.rs:390-427). -/
def armSrc (vs : List (Fields ι)) (i : Nat) (name : String) (v : Fields ι) : R (List (T ι)) := do
  let value ← armToks vs i v
  .ok (variantSrc name v ++ [.pn .fatArrow, .pn .lbrace] ++ src value ++ [.pn .rbrace])

/-- The loop over the variants, from number `i` on. -/
def armsSrc (vs : List (Fields ι)) : Nat → List (String × Fields ι) → R (List (List (T ι)))
  | _, [] => .ok []
  | i, v :: rest => do .ok ((← armSrc vs i v.1 v.2) :: (← armsSrc vs (i + 1) rest))

/-- `EnumGen::ordinal` (ordinal.rs:383-435). -/
def enumOrdinalSrc (vs : List (String × Fields ι)) : R (List (T ι)) :=
  if vs.isEmpty then .ok [.usize 0]
  else do
    let arms ← armsSrc (vs.map (·.2)) 0 vs
    .ok ([.kw .match, .kw .self, .pn .lbrace] ++ commaAfter arms ++ [.pn .rbrace])

/-- One statement of `EnumGen::from_ordinal` (ordinal.rs:439-472). -/
def enumStmtSrc (vs : List (Fields ι)) (i : Nat) (name : String) (v : Fields ι) : R (List (T ι)) := do
  let before ← sizeOfFirstVariants vs i
  let including ← sizeOfFirstVariants vs (i + 1)
  .ok ([.kw .if] ++ src (condToks including) ++
    ([.kw .return] ++ structFromSrc (src (subToks before)) (fieldVars v) (fieldTypes v) (variantSrc name v) ++
      [.pn .semi]) ++
    [.pn .rbrace])

/-- The loop over the variants, from number `i` on. -/
def enumStmtsSrc (vs : List (Fields ι)) : Nat → List (String × Fields ι) → R (List (List (T ι)))
  | _, [] => .ok []
  | i, v :: rest => do .ok ((← enumStmtSrc vs i v.1 v.2) :: (← enumStmtsSrc vs (i + 1) rest))

/-- `EnumGen::from_ordinal` (ordinal.rs:437-481). -/
def enumFromSrc (vs : List (String × Fields ι)) : R (List (T ι)) := do
  let stmts ← enumStmtsSrc (vs.map (·.2)) 0 vs
  .ok ([.pn .lbrace] ++ stmts.flatten ++
    [.kw .let, .nm "_ignore", .pn .eq, .id ordinalVar, .pn .semi] ++
    (optionSrc ++ [.pn .colon2, .nm "None"]) ++ [.pn .rbrace])

/-- What is emitted for an enum (ordinal.rs:23-30, 44-60); variants with their names. -/
def enumSrc (vs : List (String × Fields ι)) : R (List (T ι)) := do
  let size ← sizeOfFirstVariants (vs.map (·.2)) vs.length
  let ordinal ← enumOrdinalSrc vs
  let from' ← enumFromSrc vs
  .ok (implSrc true (src size.toks) ordinal from')

/-! ## Syntax trees -/

/-- A path segment. -/
inductive Seg where
  | Self
  | id (x : Ident)
  deriving DecidableEq, Repr

/-- Binary operators. -/
inductive BinOp where
  | add | sub | mul | rem | lt | gt | eq | ne
  deriving DecidableEq, Repr

/-- A pattern of a match arm: `P`, `P(x, ..)`, `P { x, .. }`. -/
inductive PatT where
  | path (p : List Seg)
  | tuple (p : List Seg) (xs : List Ident)
  | record (p : List Seg) (xs : List Ident)
  deriving DecidableEq, Repr

mutual
/-- Expressions. -/
inductive E (ι : Type) where
  | int (n : Nat)
  | usize (n : Nat)
  | path (p : List Seg)
  /-- `<t as tr>::x` -/
  | qpath (t : ι) (tr : List Seg) (x : Ident)
  | self
  | ref (e : E ι)
  | field (e : E ι) (x : Ident)
  | index (e : E ι) (i : Nat)
  | call (f : E ι) (args : Es ι)
  | method (e : E ι) (x : Ident) (args : Es ι)
  | bin (op : BinOp) (a b : E ι)
  | divAssign (a b : E ι)
  | tuple (es : Es ι)
  | record (p : List Seg) (fs : Fs ι)
  | block (b : B ι)
  | constBlock (b : B ι)
  /-- `if` without `else` -/
  | ifE (c : E ι) (b : B ι)
  | ret0
  | ret (e : E ι)
  | matchE (e : E ι) (arms : Arms ι)
/-- Lists of expressions. -/
inductive Es (ι : Type) where
  | nil
  | cons (e : E ι) (es : Es ι)
/-- The fields of a struct literal. -/
inductive Fs (ι : Type) where
  | nil
  | cons (x : Ident) (e : E ι) (fs : Fs ι)
/-- Match arms. -/
inductive Arms (ι : Type) where
  | nil
  | cons (p : PatT) (e : E ι) (arms : Arms ι)
/-- Blocks: statements, then possibly a value. -/
inductive B (ι : Type) where
  | nil
  | tail (e : E ι)
  /-- `let x = e;`, `let mut x = e;` -/
  | letS (isMut : Bool) (x : Ident) (e : E ι) (b : B ι)
  /-- `e;` -/
  | semi (e : E ι) (b : B ι)
  /-- a statement without semicolon -/
  | stmt (e : E ι) (b : B ι)
end

/-- The parsed `impl`. -/
structure Impl (ι : Type) where
  size : E ι
  ordinal : B ι
  /-- the parameter of `from_ordinal` -/
  param : Ident
  fromOrdinal : B ι

/-! ## How rustc reads the text -/

/-- The rest of a path: `:: segment`, repeated. -/
def pSegs : List (T ι) → List Seg × List (T ι)
  | .pn .colon2 :: .id x :: ts => let r := pSegs ts; (.id x :: r.1, r.2)
  | ts => ([], ts)

/-- Identifiers separated by commas, up to the closing token; a last comma is allowed. -/
def pIdents (close : Pn) : List (T ι) → Option (List Ident × List (T ι))
  | .id x :: .pn p :: ts =>
    if p = close then some ([x], ts)
    else if p = .comma then
      match pIdents close ts with
      | some (xs, ts) => some (x :: xs, ts)
      | none => none
    else none
  | .pn p :: ts => if p = close then some ([], ts) else none
  | _ => none

/-- A pattern. -/
def pPat : List (T ι) → Option (PatT × List (T ι))
  | .kw .Self :: ts =>
    match pSegs ts with
    | (p, .pn .lparen :: ts) =>
      match pIdents .rparen ts with
      | some (xs, ts) => some (.tuple (.Self :: p) xs, ts)
      | none => none
    | (p, .pn .lbrace :: ts) =>
      match pIdents .rbrace ts with
      | some (xs, ts) => some (.record (.Self :: p) xs, ts)
      | none => none
    | (p, ts) => some (.path (.Self :: p), ts)
  | _ => none

/-- Can an expression start with this token? -/
def startsExpr : List (T ι) → Bool
  | .id _ :: _ => true
  | .int _ :: _ => true
  | .usize _ :: _ => true
  | .kw .self :: _ => true
  | .kw .Self :: _ => true
  | .kw .const :: _ => true
  | .kw .if :: _ => true
  | .kw .match :: _ => true
  | .kw .return :: _ => true
  | .pn .lparen :: _ => true
  | .pn .lbrace :: _ => true
  | .pn .lt :: _ => true
  | .pn .amp :: _ => true
  | _ => false

/-- Does a statement starting with this token end with the block of its first expression? -/
def startsBlockLike : List (T ι) → Bool
  | .kw .if :: _ => true
  | .kw .match :: _ => true
  | .kw .const :: _ => true
  | .pn .lbrace :: _ => true
  | _ => false

/-- Comparison operators. -/
def cmpOp : Pn → Option BinOp
  | .eqEq => some .eq
  | .ne => some .ne
  | .lt => some .lt
  | .gt => some .gt
  | _ => none

mutual
/-- A primary expression.  `s` says whether a struct literal may start here. -/
def pPrim : Nat → Bool → List (T ι) → Option (E ι × List (T ι))
  | n + 1, s, .id x :: ts => pAfterPath n s (.id x :: (pSegs ts).1) (pSegs ts).2
  | n + 1, s, .kw .Self :: ts => pAfterPath n s (.Self :: (pSegs ts).1) (pSegs ts).2
  | _ + 1, _, .int k :: ts => some (.int k, ts)
  | _ + 1, _, .usize k :: ts => some (.usize k, ts)
  | _ + 1, _, .kw .self :: ts => some (.self, ts)
  | _ + 1, _, .pn .lt :: .ty t :: .kw .as :: .id a :: ts =>
    match pSegs ts with
    | (p, .pn .gt :: .pn .colon2 :: .id x :: ts) => some (.qpath t (.id a :: p) x, ts)
    | _ => none
  | _ + 1, _, .pn .lparen :: .pn .rparen :: ts => some (.tuple .nil, ts)
  | n + 1, _, .pn .lparen :: ts =>
    match pExpr n true ts with
    | some (e, .pn .rparen :: ts) => some (e, ts)
    | some (e, .pn .comma :: ts) =>
      match pArgs n ts with
      | some (es, ts) => some (.tuple (.cons e es), ts)
      | none => none
    | _ => none
  | n + 1, _, .pn .lbrace :: ts =>
    match pBlock n ts with
    | some (b, ts) => some (.block b, ts)
    | none => none
  | n + 1, _, .kw .const :: .pn .lbrace :: ts =>
    match pBlock n ts with
    | some (b, ts) => some (.constBlock b, ts)
    | none => none
  | n + 1, _, .kw .if :: ts =>
    match pExpr n false ts with
    | some (c, .pn .lbrace :: ts) =>
      match pBlock n ts with
      | some (b, ts) => some (.ifE c b, ts)
      | none => none
    | _ => none
  | n + 1, _, .kw .match :: ts =>
    match pExpr n false ts with
    | some (e, .pn .lbrace :: ts) =>
      match pArms n ts with
      | some (arms, ts) => some (.matchE e arms, ts)
      | none => none
    | _ => none
  | n + 1, s, .kw .return :: ts =>
    if startsExpr ts then
      match pExpr n s ts with
      | some (e, ts) => some (.ret e, ts)
      | none => none
    else some (.ret0, ts)
  | _, _, _ => none

/-- After a path: a struct literal, or just the path. -/
def pAfterPath : Nat → Bool → List Seg → List (T ι) → Option (E ι × List (T ι))
  | n + 1, true, p, .pn .lbrace :: ts =>
    match pFields n ts with
    | some (fs, ts) => some (.record p fs, ts)
    | none => none
  | _ + 1, _, p, ts => some (.path p, ts)
  | 0, _, _, _ => none

/-- Calls, method calls and field accesses after `e`. -/
def pPost : Nat → E ι → List (T ι) → Option (E ι × List (T ι))
  | n + 1, e, .pn .lparen :: ts =>
    match pArgs n ts with
    | some (es, ts) => pPost n (.call e es) ts
    | none => none
  | n + 1, e, .pn .dot :: .id x :: .pn .lparen :: ts =>
    match pArgs n ts with
    | some (es, ts) => pPost n (.method e x es) ts
    | none => none
  | n + 1, e, .pn .dot :: .id x :: ts => pPost n (.field e x) ts
  | n + 1, e, .pn .dot :: .int i :: ts => pPost n (.index e i) ts
  | _ + 1, _, .pn .dot :: _ => none
  | _ + 1, e, ts => some (e, ts)
  | 0, _, _ => none

/-- `&`, then a primary expression with what follows it. -/
def pUnary : Nat → Bool → List (T ι) → Option (E ι × List (T ι))
  | n + 1, s, .pn .amp :: ts =>
    match pUnary n s ts with
    | some (e, ts) => some (.ref e, ts)
    | none => none
  | n + 1, s, ts =>
    match pPrim n s ts with
    | some (e, ts) => pPost n e ts
    | none => none
  | 0, _, _ => none

/-- Products. -/
def pProd : Nat → Bool → List (T ι) → Option (E ι × List (T ι))
  | n + 1, s, ts =>
    match pUnary n s ts with
    | some (e, ts) => pProdTail n s e ts
    | none => none
  | 0, _, _ => none

/-- `e` is what was read of the product so far. -/
def pProdTail : Nat → Bool → E ι → List (T ι) → Option (E ι × List (T ι))
  | n + 1, s, e, .pn .star :: ts =>
    match pUnary n s ts with
    | some (e', ts) => pProdTail n s (.bin .mul e e') ts
    | none => none
  | n + 1, s, e, .pn .percent :: ts =>
    match pUnary n s ts with
    | some (e', ts) => pProdTail n s (.bin .rem e e') ts
    | none => none
  | _ + 1, _, e, ts => some (e, ts)
  | 0, _, _, _ => none

/-- Sums. -/
def pSum : Nat → Bool → List (T ι) → Option (E ι × List (T ι))
  | n + 1, s, ts =>
    match pProd n s ts with
    | some (e, ts) => pSumTail n s e ts
    | none => none
  | 0, _, _ => none

/-- `e` is what was read of the sum so far. -/
def pSumTail : Nat → Bool → E ι → List (T ι) → Option (E ι × List (T ι))
  | n + 1, s, e, .pn .plus :: ts =>
    match pProd n s ts with
    | some (e', ts) => pSumTail n s (.bin .add e e') ts
    | none => none
  | n + 1, s, e, .pn .minus :: ts =>
    match pProd n s ts with
    | some (e', ts) => pSumTail n s (.bin .sub e e') ts
    | none => none
  | _ + 1, _, e, ts => some (e, ts)
  | 0, _, _, _ => none

/-- Comparisons; `a < b < c` is an error. -/
def pCmp : Nat → Bool → List (T ι) → Option (E ι × List (T ι))
  | n + 1, s, ts =>
    match pSum n s ts with
    | some (a, .pn p :: ts) =>
      match cmpOp p with
      | none => some (a, .pn p :: ts)
      | some op =>
        match pSum n s ts with
        | some (b, .pn q :: ts) => if (cmpOp q).isSome then none else some (.bin op a b, .pn q :: ts)
        | some (b, ts) => some (.bin op a b, ts)
        | none => none
    | r => r
  | 0, _, _ => none

/-- Assignments. -/
def pExpr : Nat → Bool → List (T ι) → Option (E ι × List (T ι))
  | n + 1, s, ts =>
    match pCmp n s ts with
    | some (a, .pn .slashEq :: ts) =>
      match pExpr n s ts with
      | some (b, ts) => some (.divAssign a b, ts)
      | none => none
    | r => r
  | 0, _, _ => none

/-- Expressions separated by commas, up to `)`; a last comma is allowed. -/
def pArgs : Nat → List (T ι) → Option (Es ι × List (T ι))
  | _ + 1, .pn .rparen :: ts => some (.nil, ts)
  | n + 1, ts =>
    match pExpr n true ts with
    | some (e, .pn .rparen :: ts) => some (.cons e .nil, ts)
    | some (e, .pn .comma :: ts) =>
      match pArgs n ts with
      | some (es, ts) => some (.cons e es, ts)
      | none => none
    | _ => none
  | 0, _ => none

/-- The fields of a struct literal up to `}`: `x: e` or `x`. -/
def pFields : Nat → List (T ι) → Option (Fs ι × List (T ι))
  | _ + 1, .pn .rbrace :: ts => some (.nil, ts)
  | n + 1, .id x :: .pn .colon :: ts =>
    match pExpr n true ts with
    | some (e, .pn .rbrace :: ts) => some (.cons x e .nil, ts)
    | some (e, .pn .comma :: ts) =>
      match pFields n ts with
      | some (fs, ts) => some (.cons x e fs, ts)
      | none => none
    | _ => none
  | _ + 1, .id x :: .pn .rbrace :: ts => some (.cons x (.path [.id x]) .nil, ts)
  | n + 1, .id x :: .pn .comma :: ts =>
    match pFields n ts with
    | some (fs, ts) => some (.cons x (.path [.id x]) fs, ts)
    | none => none
  | _, _ => none

/-- Match arms up to `}`; after a block the comma may be missing. -/
def pArms : Nat → List (T ι) → Option (Arms ι × List (T ι))
  | _ + 1, .pn .rbrace :: ts => some (.nil, ts)
  | n + 1, ts =>
    match pPat ts with
    | some (p, .pn .fatArrow :: .pn .lbrace :: ts) =>
      match pBlock n ts with
      | some (b, .pn .comma :: ts) =>
        match pArms n ts with
        | some (arms, ts) => some (.cons p (.block b) arms, ts)
        | none => none
      | some (b, ts) =>
        match pArms n ts with
        | some (arms, ts) => some (.cons p (.block b) arms, ts)
        | none => none
      | none => none
    | some (p, .pn .fatArrow :: ts) =>
      match pExpr n true ts with
      | some (e, .pn .rbrace :: ts) => some (.cons p e .nil, ts)
      | some (e, .pn .comma :: ts) =>
        match pArms n ts with
        | some (arms, ts) => some (.cons p e arms, ts)
        | none => none
      | _ => none
    | _ => none
  | 0, _ => none

/-- The content of a block, after `{`, up to and with `}`. -/
def pBlock : Nat → List (T ι) → Option (B ι × List (T ι))
  | _ + 1, .pn .rbrace :: ts => some (.nil, ts)
  | n + 1, .pn .semi :: ts => pBlock n ts
  | n + 1, .kw .let :: .kw .mut :: .id x :: .pn .eq :: ts => pLet n true x ts
  | n + 1, .kw .let :: .id x :: .pn .eq :: ts => pLet n false x ts
  | n + 1, ts =>
    if startsBlockLike ts then
      match pPrim n true ts with
      | some (e, .pn .rbrace :: ts) => some (.tail e, ts)
      | some (e, .pn .semi :: ts) =>
        match pBlock n ts with
        | some (b, ts) => some (.semi e b, ts)
        | none => none
      | some (_, .pn .dot :: _) => none
      | some (e, ts) =>
        match pBlock n ts with
        | some (b, ts) => some (.stmt e b, ts)
        | none => none
      | none => none
    else
      match pExpr n true ts with
      | some (e, .pn .rbrace :: ts) => some (.tail e, ts)
      | some (e, .pn .semi :: ts) =>
        match pBlock n ts with
        | some (b, ts) => some (.semi e b, ts)
        | none => none
      | _ => none
  | 0, _ => none

/-- After `let x =`. -/
def pLet : Nat → Bool → Ident → List (T ι) → Option (B ι × List (T ι))
  | n + 1, m, x, ts =>
    match pExpr n true ts with
    | some (e, .pn .semi :: ts) =>
      match pBlock n ts with
      | some (b, ts) => some (.letS m x e b, ts)
      | none => none
    | _ => none
  | 0, _, _, _ => none
end

/-- `#[ .. ]` -/
def pAttrBody : List (T ι) → Option (List (T ι))
  | .pn .rbracket :: ts => some ts
  | .pn .lbracket :: _ => none
  | _ :: ts => pAttrBody ts
  | [] => none

/-- An attribute, if there is one. -/
def pAttr : List (T ι) → Option (List (T ι))
  | .pn .hash :: .pn .lbracket :: ts => pAttrBody ts
  | ts => some ts

/-- Remove a fixed prefix. -/
def pExact [DecidableEq ι] : List (T ι) → List (T ι) → Option (List (T ι))
  | [], ts => some ts
  | p :: ps, t :: ts => if p = t then pExact ps ts else none
  | _ :: _, [] => none

/-- An `impl` of `ordinal_map::Ordinal` with the three items in this order and the signatures of the
trait (traits.rs:63, 76, 87); attributes are ignored. -/
def pImpl [DecidableEq ι] (n : Nat) (ts : List (T ι)) : Option (Impl ι) := do
  let ts ← pAttr ts
  let ts ← pExact ([.kw .impl, .generics] ++ traitSrc ++ [.kw .for, .selfTy, .pn .lbrace]) ts
  let ts ← pExact [.kw .const, .nm "ORDINAL_SIZE", .pn .colon, .nm "usize", .pn .eq] ts
  let (size, ts) ← pExpr n true ts
  let ts ← pExact [.pn .semi] ts
  let ts ← pAttr ts
  let ts ← pExact [.kw .fn, .nm "ordinal", .pn .lparen, .pn .amp, .kw .self, .pn .rparen, .pn .arrow,
    .nm "usize", .pn .lbrace] ts
  let (ordinal, ts) ← pBlock n ts
  let ts ← pAttr ts
  let ts ← pExact [.kw .fn, .nm "from_ordinal", .pn .lparen] ts
  let (param, ts) ← match ts with
    | .id x :: ts => some (x, ts)
    | _ => none
  let ts ← pExact ([.pn .colon, .nm "usize", .pn .rparen, .pn .arrow] ++ optionSrc ++
    [.pn .lt, .kw .Self, .pn .gt, .pn .lbrace]) ts
  let (from', ts) ← pBlock n ts
  match ts with
  | [.pn .rbrace] => some ⟨size, ordinal, param, from'⟩
  | _ => none

/-- rustc reads `ts` as `A`: so does the parser with any sufficient fuel. -/
def ReadsImpl [DecidableEq ι] (ts : List (T ι)) (A : Impl ι) : Prop :=
  ∃ k, ∀ n, k ≤ n → pImpl n ts = some A

end OrdinalMap.Derive.Src
