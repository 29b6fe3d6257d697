import Verif.Text.Syntax
/-!
# A parser for Rust

Recursive descent, as in rustc: operators by precedence, no struct literals in conditions, an expression that ends in `}` at
the start of a statement is a statement of its own.  The first argument of every function bounds the depth.
-/

namespace OrdinalMap.Text

/-- Parsers. -/
abbrev P (α : Type) := List Tok → Option (α × List Tok)

/-- A given symbol. -/
def expect (s : Sym) : P Unit
  | .sym t :: r => if s = t then some ((), r) else none
  | _ => none

/-- A given symbol, if it comes next. -/
def accept (s : Sym) (ts : List Tok) : Bool × List Tok :=
  match ts with
  | .sym t :: r => if s = t then (true, r) else (false, ts)
  | _ => (false, ts)

/-- An identifier. -/
def ident : P String
  | .id s :: r => some (String.ofList s, r)
  | _ => none

/-- Skip to after the bracket that closes `depth` open ones. -/
def skipBrackets : Nat → List Tok → Option (List Tok)
  | _, [] => none
  | depth, .sym .lpar :: r => skipBrackets (depth + 1) r
  | depth, .sym .lbrack :: r => skipBrackets (depth + 1) r
  | depth, .sym .lbrace :: r => skipBrackets (depth + 1) r
  | depth, .sym .rpar :: r => if depth ≤ 1 then some r else skipBrackets (depth - 1) r
  | depth, .sym .rbrack :: r => if depth ≤ 1 then some r else skipBrackets (depth - 1) r
  | depth, .sym .rbrace :: r => if depth ≤ 1 then some r else skipBrackets (depth - 1) r
  | depth, _ :: r => skipBrackets depth r

/-- Skip an item whose contents are not needed: up to `;` or a `{..}` outside brackets. -/
def skipItem : Nat → List Tok → Option (List Tok)
  | 0, _ => none
  | _, [] => none
  | _, .sym .semi :: r => some r
  | _, .sym .lbrace :: r => skipBrackets 1 r
  | fuel + 1, .sym .lpar :: r => match skipBrackets 1 r with
    | some r => skipItem fuel r
    | none => none
  | fuel + 1, .sym .lbrack :: r => match skipBrackets 1 r with
    | some r => skipItem fuel r
    | none => none
  | fuel + 1, _ :: r => skipItem fuel r

/-- The tokens of `cfg(test)`. -/
def isCfgTest : List Tok → Bool
  | .id ['c', 'f', 'g'] :: .sym .lpar :: .id ['t', 'e', 's', 't'] :: .sym .rpar :: _ => true
  | _ => false

/-- Skip attributes; whether one was `cfg(test)`. -/
def attrs : Nat → List Tok → Option (Bool × List Tok)
  | fuel + 1, .sym .hash :: .sym .bang :: .sym .lbrack :: r => match skipBrackets 1 r with
    | some r => attrs fuel r
    | none => none
  | fuel + 1, .sym .hash :: .sym .lbrack :: r => match skipBrackets 1 r with
    | some r' => (attrs fuel r').map fun (b, r') => (b || isCfgTest r, r')
    | none => none
  | _, ts => some (false, ts)

/-- Skip a visibility. -/
def vis : List Tok → List Tok
  | .sym .kPub :: .sym .lpar :: .sym .kCrate :: .sym .rpar :: r => r
  | .sym .kPub :: .sym .lpar :: .sym .kSuper :: .sym .rpar :: r => r
  | .sym .kPub :: r => r
  | r => r

/-- Close a list of generic arguments; `>>` counts as two. -/
def closeAngle : P Unit
  | .sym .gt :: r => some ((), r)
  | .sym .shr :: r => some ((), .sym .gt :: r)
  | .sym .ge :: r => some ((), .sym .eq :: r)
  | _ => none

/-- A name in a path. -/
def pathName : P String
  | .id s :: r => some (String.ofList s, r)
  | .sym .kSelfTy :: r => some ("Self", r)
  | .sym .kSelf :: r => some ("self", r)
  | .sym .kCrate :: r => some ("crate", r)
  | .sym .kSuper :: r => some ("super", r)
  | _ => none

mutual
/-- A type. -/
def ty : Nat → P Ty
  | 0, _ => none
  | fuel + 1, ts => match ts with
    | .sym .amp :: .lifetime _ :: .sym .kMut :: r => (ty fuel r).map fun (t, r) => (.ref true t, r)
    | .sym .amp :: .lifetime _ :: r => (ty fuel r).map fun (t, r) => (.ref false t, r)
    | .sym .amp :: .sym .kMut :: r => (ty fuel r).map fun (t, r) => (.ref true t, r)
    | .sym .amp :: r => (ty fuel r).map fun (t, r) => (.ref false t, r)
    | .sym .star :: .sym .kMut :: r => (ty fuel r).map fun (t, r) => (.ptr true t, r)
    | .sym .star :: .sym .kConst :: r => (ty fuel r).map fun (t, r) => (.ptr false t, r)
    | .sym .underscore :: r => some (.infer, r)
    | .sym .kImpl :: r => (ty fuel r).map fun (t, r) => (.impl t, r)
    | .sym .lbrack :: r => match ty fuel r with
      | some (t, .sym .semi :: .id n :: .sym .rbrack :: r) => some (.arr t (String.ofList n), r)
      | some (t, .sym .rbrack :: r) => some (.slice t, r)
      | _ => none
    | .sym .lpar :: r => (tysUntil fuel .rpar r).map fun (l, r) => (.tuple l, r)
    | .sym .lt :: r => match ty fuel r with
      | some (t, .sym .kAs :: r) => match ty fuel r with
        | some (tr, .sym .gt :: .sym .colon2 :: .id x :: r) => some (.proj t tr (String.ofList x), r)
        | _ => none
      | _ => none
    | r => pathTy fuel [] r
/-- A path type after the given names. -/
def pathTy : Nat → List String → P Ty
  | 0, _, _ => none
  | fuel + 1, acc, ts => match pathName ts with
    | none => none
    | some (x, .sym .colon2 :: r) => pathTy fuel (acc ++ [x]) r
    | some (x, .sym .lt :: r) => (angles fuel r).map fun (l, r) => (.path (acc ++ [x]) l, r)
    | some (x, .sym .lpar :: r) => match tysUntil fuel .rpar r with
      | some (l, .sym .arrow :: r) => (ty fuel r).map fun (t, r) => (.fn (acc ++ [x]) l t, r)
      | some (l, r) => some (.fn (acc ++ [x]) l (.tuple .nil), r)
      | none => none
    | some (x, r) => some (.path (acc ++ [x]) .nil, r)
/-- Generic arguments after `<`. -/
def angles : Nat → P Tys
  | 0, _ => none
  | fuel + 1, ts => match ts with
    | .sym .gt :: r => some (.nil, r)
    | .lifetime _ :: .sym .comma :: r => angles fuel r
    | .lifetime _ :: r => (closeAngle r).map fun (_, r) => (.nil, r)
    | .id x :: .sym .eq :: r => match ty fuel r with
      | some (t, .sym .comma :: r) => (angles fuel r).map fun (l, r) => (.cons (.assoc (String.ofList x) t) l, r)
      | some (t, r) => (closeAngle r).map fun (_, r) => (.cons (.assoc (String.ofList x) t) .nil, r)
      | none => none
    | r => match ty fuel r with
      | some (t, .sym .comma :: r) => (angles fuel r).map fun (l, r) => (.cons t l, r)
      | some (t, r) => (closeAngle r).map fun (_, r) => (.cons t .nil, r)
      | none => none
/-- Types separated by commas, up to a symbol. -/
def tysUntil : Nat → Sym → P Tys
  | 0, _, _ => none
  | fuel + 1, s, ts =>
    match expect s ts with
    | some (_, r) => some (.nil, r)
    | none => match ty fuel ts with
      | some (t, .sym .comma :: r) => (tysUntil fuel s r).map fun (l, r) => (.cons t l, r)
      | some (t, r) => (expect s r).map fun (_, r) => (.cons t .nil, r)
      | none => none
end

/-- The names of a path. -/
def names : Nat → P (List String)
  | 0, _ => none
  | fuel + 1, ts => match pathName ts with
    | some (x, .sym .colon2 :: r) => (names fuel r).map fun (l, r) => (x :: l, r)
    | some (x, r) => some ([x], r)
    | none => none

mutual
/-- A pattern. -/
def pat : Nat → P Pat
  | 0, _ => none
  | fuel + 1, ts => match ts with
    | .sym .underscore :: r => some (.wild, r)
    | .sym .kTrue :: r => some (.bool true, r)
    | .sym .kFalse :: r => some (.bool false, r)
    | .num n _ :: r => some (.num n, r)
    | .sym .kMut :: .id x :: r => some (.mutVar (String.ofList x), r)
    | .sym .amp :: .sym .kMut :: r => (pat fuel r).map fun (p, r) => (.ref p, r)
    | .sym .amp :: r => (pat fuel r).map fun (p, r) => (.ref p, r)
    | .sym .lpar :: r => match patsUntil fuel .rpar r with
      | some (.cons p .nil, r) => some (p, r)
      | some (l, r) => some (.tuple l, r)
      | none => none
    | r => match names fuel r with
      | some (p, .sym .lpar :: r) => (patsUntil fuel .rpar r).map fun (l, r) => (.ctor p l, r)
      | some (p, r) => some (.path p, r)
      | none => none
/-- Patterns separated by commas, up to a symbol. -/
def patsUntil : Nat → Sym → P Pats
  | 0, _, _ => none
  | fuel + 1, s, ts =>
    match expect s ts with
    | some (_, r) => some (.nil, r)
    | none => match pat fuel ts with
      | some (p, .sym .comma :: r) => (patsUntil fuel s r).map fun (l, r) => (.cons p l, r)
      | some (p, r) => (expect s r).map fun (_, r) => (.cons p .nil, r)
      | none => none
end

/-- Infix operators with their precedence; all associate to the left. -/
def binOp : Sym → Option (BinOp × Nat)
  | .bar2 => some (.lor, 1)
  | .amp2 => some (.land, 2)
  | .eq2 => some (.eq, 3)
  | .ne => some (.ne, 3)
  | .lt => some (.lt, 3)
  | .gt => some (.gt, 3)
  | .le => some (.le, 3)
  | .ge => some (.ge, 3)
  | .bar => some (.or, 4)
  | .caret => some (.xor, 5)
  | .amp => some (.and, 6)
  | .shl => some (.shl, 7)
  | .shr => some (.shr, 7)
  | .plus => some (.add, 8)
  | .minus => some (.sub, 8)
  | .star => some (.mul, 9)
  | .slash => some (.div, 9)
  | .percent => some (.rem, 9)
  | _ => none

/-- Compound assignment. -/
def assignOp : Sym → Option BinOp
  | .plusEq => some .add
  | .minusEq => some .sub
  | .starEq => some .mul
  | .slashEq => some .div
  | .percentEq => some .rem
  | .caretEq => some .xor
  | .ampEq => some .and
  | .barEq => some .or
  | .shlEq => some .shl
  | .shrEq => some .shr
  | _ => none

/-- Whether an expression starts with a word after which a statement may end without `;`. -/
def blockLike : List Tok → Bool
  | .sym .lbrace :: _ => true
  | .sym .kIf :: _ => true
  | .sym .kMatch :: _ => true
  | .sym .kWhile :: _ => true
  | .sym .kLoop :: _ => true
  | .sym .kFor :: _ => true
  | .sym .kUnsafe :: _ => true
  | .sym .kConst :: _ => true
  | _ => false

/-- Whether no expression can start here. -/
def noExpr : List Tok → Bool
  | [] => true
  | .sym .rpar :: _ => true
  | .sym .rbrack :: _ => true
  | .sym .rbrace :: _ => true
  | .sym .comma :: _ => true
  | .sym .semi :: _ => true
  | _ => false

mutual
/-- An expression; `st` says whether struct literals are allowed. -/
def expr : Nat → Bool → P Ex
  | 0, _, _ => none
  | fuel + 1, st, ts => match ts with
    | .sym .dot2 :: r => if noExpr r then some (.rangeFull, r) else none
    | ts => match binary fuel st 1 ts with
      | none => none
      | some (a, .sym .eq :: r) => (expr fuel st r).map fun (b, r) => (.assign a b, r)
      | some (a, .sym .dot2 :: r) => (binary fuel st 1 r).map fun (b, r) => (.range a b, r)
      | some (a, .sym .dot2Eq :: r) => (binary fuel st 1 r).map fun (b, r) => (.rangeIncl a b, r)
      | some (a, .sym s :: r) => match assignOp s with
        | some o => (expr fuel st r).map fun (b, r) => (.assignOp o a b, r)
        | none => some (a, .sym s :: r)
      | some (a, r) => some (a, r)
/-- Operators of at least the given precedence. -/
def binary : Nat → Bool → Nat → P Ex
  | 0, _, _, _ => none
  | fuel + 1, st, p, ts => match unary fuel st ts with
    | some (a, r) => binaryRest fuel st p a r
    | none => none
/-- The operators after a first operand. -/
def binaryRest : Nat → Bool → Nat → Ex → P Ex
  | 0, _, _, _, _ => none
  | fuel + 1, st, p, a, ts => match ts with
    | .sym .kAs :: r => match ty fuel r with
      | some (t, r) => binaryRest fuel st p (.cast a t) r
      | none => none
    | .sym s :: r => match binOp s with
      | some (o, q) =>
        if p.ble q then match binary fuel st (q + 1) r with
          | some (b, r) => binaryRest fuel st p (.bin o a b) r
          | none => none
        else some (a, .sym s :: r)
      | none => some (a, .sym s :: r)
    | r => some (a, r)
/-- Prefix operators. -/
def unary : Nat → Bool → P Ex
  | 0, _, _ => none
  | fuel + 1, st, ts => match ts with
    | .sym .minus :: r => (unary fuel st r).map fun (e, r) => (.un .neg e, r)
    | .sym .bang :: r => (unary fuel st r).map fun (e, r) => (.un .not e, r)
    | .sym .star :: r => (unary fuel st r).map fun (e, r) => (.un .deref e, r)
    | .sym .amp :: .sym .kMut :: r => (unary fuel st r).map fun (e, r) => (.ref true e, r)
    | .sym .amp :: r => (unary fuel st r).map fun (e, r) => (.ref false e, r)
    | r => match primary fuel st r with
      | some (e, r) => postfixes fuel e r
      | none => none
/-- What follows a primary expression. -/
def postfixes : Nat → Ex → P Ex
  | 0, _, _ => none
  | fuel + 1, e, ts => match ts with
    | .sym .question :: r => postfixes fuel (.try e) r
    | .sym .dot :: .id x :: .sym .lpar :: r => match exprsUntil fuel .rpar r with
      | some (l, r) => postfixes fuel (.method e (String.ofList x) .nil l) r
      | none => none
    | .sym .dot :: .id x :: .sym .colon2 :: .sym .lt :: r => match angles fuel r with
      | some (tys, .sym .lpar :: r) => match exprsUntil fuel .rpar r with
        | some (l, r) => postfixes fuel (.method e (String.ofList x) tys l) r
        | none => none
      | _ => none
    | .sym .dot :: .id x :: r => postfixes fuel (.field e (String.ofList x)) r
    | .sym .dot :: .num n _ :: r => postfixes fuel (.field e (String.ofList (Nat.toDigits 10 n))) r
    | .sym .lpar :: r => match exprsUntil fuel .rpar r with
      | some (l, r) => postfixes fuel (.call e l) r
      | none => none
    | .sym .lbrack :: r => match expr fuel true r with
      | some (i, .sym .rbrack :: r) => postfixes fuel (.index e i) r
      | _ => none
    | r => some (e, r)
/-- Expressions without operators around them. -/
def primary : Nat → Bool → P Ex
  | 0, _, _ => none
  | fuel + 1, st, ts => match ts with
    | .num n s :: r => some (.num n (String.ofList s), r)
    | .str s :: r => some (.str (String.ofList s), r)
    | .sym .kTrue :: r => some (.bool true, r)
    | .sym .kFalse :: r => some (.bool false, r)
    | .sym .lpar :: r => match expr fuel true r with
      | some (e, .sym .rpar :: r) => some (e, r)
      | some (e, .sym .comma :: r) => (exprsUntil fuel .rpar r).map fun (l, r) => (.tuple (.cons e l), r)
      | _ => (expect .rpar r).map fun (_, r) => (.tuple .nil, r)
    | .sym .lbrack :: r => match expr fuel true r with
      | some (e, .sym .semi :: r) => match expr fuel true r with
        | some (n, .sym .rbrack :: r) => some (.repeat e n, r)
        | _ => none
      | some (e, .sym .comma :: r) => (exprsUntil fuel .rbrack r).map fun (l, r) => (.array (.cons e l), r)
      | some (e, .sym .rbrack :: r) => some (.array (.cons e .nil), r)
      | _ => (expect .rbrack r).map fun (_, r) => (.array .nil, r)
    | .sym .lbrace :: r => (block fuel r).map fun (b, r) => (.block b, r)
    | .sym .kConst :: .sym .lbrace :: r => (block fuel r).map fun (b, r) => (.constBlock b, r)
    | .sym .kUnsafe :: .sym .lbrace :: r => (block fuel r).map fun (b, r) => (.unsafeBlock b, r)
    | .sym .kIf :: .sym .kLet :: r => match pat fuel r with
      | some (p, .sym .eq :: r) => match expr fuel false r with
        | some (e, .sym .lbrace :: r) => match block fuel r with
          | some (b, .sym .kElse :: r) => (primary fuel true r).map fun (f, r) => (.ifLet p e b f, r)
          | some (b, r) => some (.ifLet p e b (.tuple .nil), r)
          | none => none
        | _ => none
      | _ => none
    | .sym .kIf :: r => match expr fuel false r with
      | some (e, .sym .lbrace :: r) => match block fuel r with
        | some (b, .sym .kElse :: r) => (primary fuel true r).map fun (f, r) => (.ifE e b f, r)
        | some (b, r) => some (.ifE e b (.tuple .nil), r)
        | none => none
      | _ => none
    | .sym .kMatch :: r => match expr fuel false r with
      | some (e, .sym .lbrace :: r) => (arms fuel r).map fun (l, r) => (.matchE e l, r)
      | _ => none
    | .sym .kWhile :: .sym .kLet :: r => match pat fuel r with
      | some (p, .sym .eq :: r) => match expr fuel false r with
        | some (e, .sym .lbrace :: r) => (block fuel r).map fun (b, r) => (.whileLet p e b, r)
        | _ => none
      | _ => none
    | .sym .kWhile :: r => match expr fuel false r with
      | some (e, .sym .lbrace :: r) => (block fuel r).map fun (b, r) => (.whileE e b, r)
      | _ => none
    | .sym .kLoop :: .sym .lbrace :: r => (block fuel r).map fun (b, r) => (.loopE b, r)
    | .sym .kFor :: r => match pat fuel r with
      | some (p, .sym .kIn :: r) => match expr fuel false r with
        | some (e, .sym .lbrace :: r) => (block fuel r).map fun (b, r) => (.forE p e b, r)
        | _ => none
      | _ => none
    | .sym .kReturn :: r => if noExpr r then some (.ret0, r) else (expr fuel st r).map fun (e, r) => (.ret e, r)
    | .sym .kBreak :: r => some (.break, r)
    | .sym .kContinue :: r => some (.continue, r)
    | .sym .kMove :: r => primary fuel st r
    | .sym .bar2 :: r => (expr fuel st r).map fun (e, r) => (.closure .nil e, r)
    | .sym .bar :: r => match patsUntil fuel .bar r with
      | some (l, r) => (expr fuel st r).map fun (e, r) => (.closure l e, r)
      | none => none
    | .sym .lt :: r => match ty fuel r with
      | some (t, .sym .kAs :: r) => match ty fuel r with
        | some (tr, .sym .gt :: .sym .colon2 :: .id x :: r) => some (.qpath t tr (String.ofList x), r)
        | _ => none
      | _ => none
    | .id x :: .sym .bang :: .sym .lpar :: r => (exprsUntil fuel .rpar r).map fun (l, r) => (.mac (String.ofList x) l, r)
    | .id x :: .sym .bang :: .sym .lbrack :: r =>
      (primary fuel st (.sym .lbrack :: r)).map fun (e, r) => (.mac (String.ofList x) (.cons e .nil), r)
    | r => match segs fuel r with
      | some (p, .sym .lbrace :: r) =>
        if st then (flds fuel r).map fun (l, r) => (.record p l, r) else some (.path p, .sym .lbrace :: r)
      | some (p, r) => some (.path p, r)
      | none => none
/-- A path in an expression. -/
def segs : Nat → P (List Seg)
  | 0, _ => none
  | fuel + 1, ts => match pathName ts with
    | some (x, .sym .colon2 :: .sym .lt :: r) => match angles fuel r with
      | some (l, .sym .colon2 :: r) => (segs fuel r).map fun (p, r) => (⟨x, l⟩ :: p, r)
      | some (l, r) => some ([⟨x, l⟩], r)
      | none => none
    | some (x, .sym .colon2 :: r) => (segs fuel r).map fun (p, r) => (⟨x, .nil⟩ :: p, r)
    | some (x, r) => some ([⟨x, .nil⟩], r)
    | none => none
/-- Expressions separated by commas, up to a symbol. -/
def exprsUntil : Nat → Sym → P Exs
  | 0, _, _ => none
  | fuel + 1, s, ts =>
    match expect s ts with
    | some (_, r) => some (.nil, r)
    | none => match expr fuel true ts with
      | some (e, .sym .comma :: r) => (exprsUntil fuel s r).map fun (l, r) => (.cons e l, r)
      | some (e, r) => (expect s r).map fun (_, r) => (.cons e .nil, r)
      | none => none
/-- Fields of a struct literal; `x` is short for `x: x`. -/
def flds : Nat → P Fls
  | 0, _ => none
  | fuel + 1, ts => match ts with
    | .sym .rbrace :: r => some (.nil, r)
    | .id x :: .sym .colon :: r => match expr fuel true r with
      | some (e, .sym .comma :: r) => (flds fuel r).map fun (l, r) => (.cons (String.ofList x) e l, r)
      | some (e, r) => (expect .rbrace r).map fun (_, r) => (.cons (String.ofList x) e .nil, r)
      | none => none
    | .id x :: .sym .comma :: r =>
      (flds fuel r).map fun (l, r) => (.cons (String.ofList x) (.path [⟨String.ofList x, .nil⟩]) l, r)
    | .id x :: .sym .rbrace :: r => some (.cons (String.ofList x) (.path [⟨String.ofList x, .nil⟩]) .nil, r)
    | _ => none
/-- The arms of a `match` after `{`. -/
def arms : Nat → P Arms
  | 0, _ => none
  | fuel + 1, ts => match ts with
    | .sym .rbrace :: r => some (.nil, r)
    | ts => match pat fuel ts with
      | some (p, .sym .fatArrow :: .sym .lbrace :: r) => match block fuel r with
        | some (b, r) => (arms fuel (accept .comma r).2).map fun (l, r) => (.cons p (.block b) l, r)
        | none => none
      | some (p, .sym .fatArrow :: r) => match expr fuel true r with
        | some (e, .sym .comma :: r) => (arms fuel r).map fun (l, r) => (.cons p e l, r)
        | some (e, .sym .rbrace :: r) => some (.cons p e .nil, r)
        | _ => none
      | _ => none
/-- The contents of a block after `{`. -/
def block : Nat → P Blk
  | 0, _ => none
  | fuel + 1, ts => match ts with
    | .sym .rbrace :: r => some (.nil, r)
    | .sym .semi :: r => block fuel r
    | .sym .kLet :: r => match pat fuel r with
      | some (p, .sym .colon :: r) => match ty fuel r with
        | some (t, .sym .eq :: r) => match expr fuel true r with
          | some (e, .sym .semi :: r) => (block fuel r).map fun (b, r) => (.letT p t e b, r)
          | _ => none
        | _ => none
      | some (p, .sym .eq :: r) => match expr fuel true r with
        | some (e, .sym .semi :: r) => (block fuel r).map fun (b, r) => (.letS p e b, r)
        | some (e, .sym .kElse :: .sym .lbrace :: r) => match block fuel r with
          | some (els, .sym .semi :: r) => (block fuel r).map fun (b, r) => (.letElse p e els b, r)
          | _ => none
        | _ => none
      | _ => none
    | ts =>
      if blockLike ts then match primary fuel true ts with
        | none => none
        | some (e, .sym .rbrace :: r) => some (.tail e, r)
        | some (e, .sym .semi :: r) => (block fuel r).map fun (b, r) => (.semi e b, r)
        | some (e, .sym .dot :: r) => match postfixes fuel e (.sym .dot :: r) with
          | some (e, .sym .rbrace :: r) => some (.tail e, r)
          | some (e, .sym .semi :: r) => (block fuel r).map fun (b, r) => (.semi e b, r)
          | _ => none
        | some (e, r) => (block fuel r).map fun (b, r) => (.stmt e b, r)
      else match expr fuel true ts with
        | some (e, .sym .rbrace :: r) => some (.tail e, r)
        | some (e, .sym .semi :: r) => (block fuel r).map fun (b, r) => (.semi e b, r)
        | _ => none
end

/-- Skip the bounds of a generic parameter: up to `,` or `>` outside `<>`. -/
def skipBounds : Nat → List Tok → Option (List Tok)
  | _, [] => none
  | 0, .sym .comma :: r => some (.sym .comma :: r)
  | 0, .sym .gt :: r => some (.sym .gt :: r)
  | 1, .sym .shr :: r => some (.sym .gt :: r)
  | depth, .sym .lt :: r => skipBounds (depth + 1) r
  | depth + 1, .sym .gt :: r => skipBounds depth r
  | depth + 2, .sym .shr :: r => skipBounds depth r
  | depth, _ :: r => skipBounds depth r

/-- Generic parameters after `<`; lifetimes and bounds are dropped. -/
def gens : Nat → P Gens
  | 0, _ => none
  | fuel + 1, ts => match ts with
    | .sym .gt :: r => some ([], r)
    | .sym .comma :: r => gens fuel r
    | .lifetime _ :: r => gens fuel r
    | .sym .kConst :: .id x :: r => match skipBounds 0 r with
      | some r => (gens fuel r).map fun (l, r) => ((String.ofList x, true) :: l, r)
      | none => none
    | .id x :: r => match skipBounds 0 r with
      | some r => (gens fuel r).map fun (l, r) => ((String.ofList x, false) :: l, r)
      | none => none
    | _ => none

/-- Generic parameters, if any. -/
def optGens (fuel : Nat) : P Gens
  | .sym .lt :: r => gens fuel r
  | r => some ([], r)

/-- Parameters up to `)`. -/
def params : Nat → P (List (Pat × Ty))
  | 0, _ => none
  | fuel + 1, ts => match ts with
    | .sym .rpar :: r => some ([], r)
    | .sym .comma :: r => params fuel r
    | ts => match pat fuel ts with
      | some (p, .sym .colon :: r) => match ty fuel r with
        | some (t, r) => (params fuel r).map fun (l, r) => ((p, t) :: l, r)
        | none => none
      | _ => none

/-- The `self` parameter, if any. -/
def selfParam : List Tok → SelfKind × List Tok
  | .sym .kSelf :: r => (.value, r)
  | .sym .kMut :: .sym .kSelf :: r => (.value, r)
  | .sym .amp :: .sym .kSelf :: r => (.ref, r)
  | .sym .amp :: .sym .kMut :: .sym .kSelf :: r => (.refMut, r)
  | .sym .amp :: .lifetime _ :: .sym .kSelf :: r => (.ref, r)
  | .sym .amp :: .lifetime _ :: .sym .kMut :: .sym .kSelf :: r => (.refMut, r)
  | r => (.none, r)

/-- Skip a `where` clause: up to `{`. -/
def skipWhere : List Tok → List Tok
  | .sym .lbrace :: r => .sym .lbrace :: r
  | _ :: r => skipWhere r
  | [] => []

/-- A function after `fn`, up to its body. -/
def fnSig (fuel : Nat) (ts : List Tok) : Option ((Gens × String × SelfKind × List (Pat × Ty) × Ty) × List Tok) := do
  let (x, r) ← ident ts
  let (g, r) ← optGens fuel r
  let (_, r) ← expect .lpar r
  let (s, r) := selfParam r
  let (ps, r) ← params fuel r
  let (t, r) ← match r with
    | .sym .arrow :: r => ty fuel r
    | r => some (.tuple .nil, r)
  let r := match r with
    | .sym .kWhere :: r => skipWhere r
    | r => r
  some ((g, x, s, ps, t), r)

/-- A function after `fn`. -/
def fnDef (fuel : Nat) (ts : List Tok) : Option ((Gens × FnDef) × List Tok) := do
  let ((g, x, s, ps, t), r) ← fnSig fuel ts
  let (_, r) ← expect .lbrace r
  let (b, r) ← block fuel r
  some ((g, ⟨x, s, ps, t, b⟩), r)

/-- A constant after `const`. -/
def constDef (fuel : Nat) (ts : List Tok) : Option ((String × Ty × Ex) × List Tok) := do
  let (x, r) ← ident ts
  let (_, r) ← expect .colon r
  let (t, r) ← ty fuel r
  let (_, r) ← expect .eq r
  let (e, r) ← expr fuel true r
  let (_, r) ← expect .semi r
  some ((x, t, e), r)

/-- The contents of an `impl` block after `{`. -/
def implItems : Nat → P (List (String × Ty × Ex) × List FnDef)
  | 0, _ => none
  | fuel + 1, ts => match attrs fuel ts with
    | none => none
    | some (_, ts) => match vis ts with
      | .sym .rbrace :: r => some (([], []), r)
      | .sym .kType :: r => match skipItem fuel r with
        | some r => implItems fuel r
        | none => none
      | .sym .kConst :: .sym .kFn :: r => match fnDef fuel r with
        | some ((_, f), r) => (implItems fuel r).map fun ((cs, fs), r) => ((cs, f :: fs), r)
        | none => none
      | .sym .kConst :: r => match constDef fuel r with
        | some (c, r) => (implItems fuel r).map fun ((cs, fs), r) => ((c :: cs, fs), r)
        | none => none
      | .sym .kFn :: r => match fnDef fuel r with
        | some ((_, f), r) => (implItems fuel r).map fun ((cs, fs), r) => ((cs, f :: fs), r)
        | none => none
      | _ => none

/-- An `impl` block after `impl`. -/
def implDef (fuel : Nat) (ts : List Tok) : Option (ImplDef × List Tok) := do
  let (g, r) ← optGens fuel ts
  let (t, r) ← ty fuel r
  let (tr, t, r) ← match r with
    | .sym .kFor :: r => (ty fuel r).map fun (u, r) => (some t, u, r)
    | r => some (none, t, r)
  let r := match r with
    | .sym .kWhere :: r => skipWhere r
    | r => r
  let (_, r) ← expect .lbrace r
  let ((cs, fs), r) ← implItems fuel r
  some (⟨g, tr, t, cs, fs⟩, r)

/-- The fields of a struct after `{`. -/
def fieldTys : Nat → P (List (String × Ty))
  | 0, _ => none
  | fuel + 1, ts => match attrs fuel ts with
    | none => none
    | some (_, ts) => match vis ts with
      | .sym .rbrace :: r => some ([], r)
      | .id x :: .sym .colon :: r => match ty fuel r with
        | some (t, .sym .comma :: r) => (fieldTys fuel r).map fun (l, r) => ((String.ofList x, t) :: l, r)
        | some (t, .sym .rbrace :: r) => some ([(String.ofList x, t)], r)
        | _ => none
      | _ => none

/-- The variants of an enum after `{`. -/
def variants : Nat → P (List (String × Tys))
  | 0, _ => none
  | fuel + 1, ts => match attrs fuel ts with
    | none => none
    | some (_, ts) => match ts with
      | .sym .rbrace :: r => some ([], r)
      | .id x :: .sym .lpar :: r => match tysUntil fuel .rpar r with
        | some (l, r) => (variants fuel (accept .comma r).2).map fun (vs, r) => ((String.ofList x, l) :: vs, r)
        | none => none
      | .id x :: r => (variants fuel (accept .comma r).2).map fun (vs, r) => ((String.ofList x, .nil) :: vs, r)
      | _ => none

/-- The functions that a trait defines, after `{`. -/
def traitItems : Nat → P (List FnDef)
  | 0, _ => none
  | fuel + 1, ts => match attrs fuel ts with
    | none => none
    | some (_, ts) => match ts with
      | .sym .rbrace :: r => some ([], r)
      | .sym .kType :: r => match skipItem fuel r with
        | some r => traitItems fuel r
        | none => none
      | .sym .kConst :: r => match skipItem fuel r with
        | some r => traitItems fuel r
        | none => none
      | .sym .kFn :: r => match fnSig fuel r with
        | some (_, .sym .semi :: r) => traitItems fuel r
        | some ((_, x, s, ps, t), .sym .lbrace :: r) => match block fuel r with
          | some (b, r) => (traitItems fuel r).map fun (l, r) => (⟨x, s, ps, t, b⟩ :: l, r)
          | none => none
        | _ => none
      | _ => none

/-- A struct after `struct`; `none` for those without named fields. -/
def structDef (fuel : Nat) (ts : List Tok) : Option (Option (String × List (String × Ty)) × List Tok) := do
  let (x, r) ← ident ts
  let (_, r) ← optGens fuel r
  match r with
  | .sym .lbrace :: r => (fieldTys fuel r).map fun (l, r) => (some (x, l), r)
  | r => (skipItem fuel r).map fun r => (none, r)

/-- The items of a file. -/
def items : Nat → List Tok → Option (List Item)
  | _, [] => some []
  | 0, _ => none
  | fuel + 1, ts => match attrs fuel ts with
    | none => none
    | some (_, []) => some []
    | some (true, ts) => match skipItem fuel ts with
      | some r => items fuel r
      | none => none
    | some (false, ts) => match vis ts with
      | .sym .kImpl :: r => match implDef fuel r with
        | some (d, r) => (items fuel r).map (.impl d :: ·)
        | none => none
      | .sym .kUnsafe :: .sym .kImpl :: r => match implDef fuel r with
        | some (d, r) => (items fuel r).map (.impl d :: ·)
        | none => none
      | .sym .kConst :: .sym .kFn :: r => match fnDef fuel r with
        | some ((g, f), r) => (items fuel r).map (.fn g f :: ·)
        | none => none
      | .sym .kConst :: r => match constDef fuel r with
        | some ((x, t, e), r) => (items fuel r).map (.const x t e :: ·)
        | none => none
      | .sym .kFn :: r => match fnDef fuel r with
        | some ((g, f), r) => (items fuel r).map (.fn g f :: ·)
        | none => none
      | .sym .kStruct :: r => match structDef fuel r with
        | some (some (x, l), r) => (items fuel r).map (.struct x l :: ·)
        | some (none, r) => items fuel r
        | none => none
      | .sym .kEnum :: .id x :: r => match optGens fuel r with
        | some (_, .sym .lbrace :: r) => match variants fuel r with
          | some (l, r) => (items fuel r).map (.enum (String.ofList x) l :: ·)
          | none => none
        | _ => none
      | .sym .kTrait :: .id x :: r => match expect .lbrace (skipWhere r) with
        | some (_, r) => match traitItems fuel r with
          | some (l, r) => (items fuel r).map (.trait (String.ofList x) l :: ·)
          | none => none
        | none => none
      | ts => match skipItem fuel ts with
        | some r => items fuel r
        | none => none

/-- The items of a text. -/
def parse (s : String) : Option (List Item) :=
  match lex s.toList with
  | some ts => items (ts.length + 100) ts
  | none => none

end OrdinalMap.Text
