/-!
# Rust tokens

A lexer for Rust source text (the part of the lexical grammar that the crate uses).  Comments, including doc comments, are
dropped.  It works on lists of characters and compares code points, so that the kernel can run it.
-/

namespace OrdinalMap.Text

/-- Keywords and punctuation. -/
inductive Sym where
  | kAs | kBreak | kConst | kContinue | kCrate | kElse | kEnum | kFalse | kFn | kFor | kIf | kImpl | kIn | kLet | kLoop
  | kMatch | kMod | kMove | kMut | kPub | kRef | kReturn | kSelf | kSelfTy | kStatic | kStruct | kSuper | kTrait | kTrue | kType
  | kUnsafe | kUse | kWhere | kWhile
  | lpar | rpar | lbrace | rbrace | lbrack | rbrack
  | comma | semi | colon | colon2 | dot | dot2 | dot2Eq | arrow | fatArrow | eq | question | hash | bang | underscore
  | plus | minus | star | slash | percent | caret | amp | bar | shl | shr
  | amp2 | bar2 | eq2 | ne | lt | gt | le | ge
  | plusEq | minusEq | starEq | slashEq | percentEq | caretEq | ampEq | barEq | shlEq | shrEq
  deriving DecidableEq, Repr

/-- Tokens. -/
inductive Tok where
  | sym (s : Sym)
  | id (s : List Char)
  /-- number and suffix -/
  | num (n : Nat) (suffix : List Char)
  | str (s : List Char)
  | chr (n : Nat)
  | lifetime (s : List Char)
  deriving DecidableEq, Repr

/-- `a ≤ c ≤ b` as code points. -/
def inRange (a b : Nat) (c : Char) : Bool := a.ble c.toNat && c.toNat.ble b

/-- `0-9` -/
def isDigit (c : Char) : Bool := inRange 48 57 c

/-- Letters and `_`. -/
def isStart (c : Char) : Bool := inRange 97 122 c || inRange 65 90 c || c.toNat.beq 95

/-- What may follow in an identifier. -/
def isCont (c : Char) : Bool := isStart c || isDigit c

/-- Space, tab, line feed, carriage return. -/
def isSpace (c : Char) : Bool := c.toNat.beq 32 || c.toNat.beq 10 || c.toNat.beq 9 || c.toNat.beq 13

/-- Up to the end of the line. -/
def skipLine : List Char → List Char
  | [] => []
  | c :: cs => if c.toNat.beq 10 then cs else skipLine cs

/-- A string literal after the opening quote: contents and rest.  Escapes are kept as written. -/
def takeStr : List Char → Option (List Char × List Char)
  | [] => none
  | '\\' :: c :: cs => (takeStr cs).map fun (s, r) => ('\\' :: c :: s, r)
  | c :: cs => if c.toNat.beq 34 then some ([], cs) else (takeStr cs).map fun (s, r) => (c :: s, r)

/-- The value of a digit in base 16. -/
def digit (c : Char) : Option Nat :=
  if isDigit c then some (c.toNat - 48)
  else if inRange 97 102 c then some (c.toNat - 87)
  else if inRange 65 70 c then some (c.toNat - 55)
  else none

/-- Digits in the given base (with `_` between them), then the suffix. -/
def number (base : Nat) : Nat → List Char → Tok
  | n, [] => .num n []
  | n, c :: cs =>
    if c.toNat.beq 95 then number base n cs
    else match digit c with
    | some d => if d.blt base then number base (n * base + d) cs else .num n (c :: cs)
    | none => .num n (c :: cs)

/-- A number from its characters. -/
def numTok : List Char → Tok
  | '0' :: 'x' :: cs => number 16 0 cs
  | '0' :: 'b' :: cs => number 2 0 cs
  | cs => number 10 0 cs

/-- A word: keyword or identifier. -/
def word : List Char → Tok
  | ['a', 's'] => .sym .kAs
  | ['b', 'r', 'e', 'a', 'k'] => .sym .kBreak
  | ['c', 'o', 'n', 's', 't'] => .sym .kConst
  | ['c', 'o', 'n', 't', 'i', 'n', 'u', 'e'] => .sym .kContinue
  | ['c', 'r', 'a', 't', 'e'] => .sym .kCrate
  | ['e', 'l', 's', 'e'] => .sym .kElse
  | ['e', 'n', 'u', 'm'] => .sym .kEnum
  | ['f', 'a', 'l', 's', 'e'] => .sym .kFalse
  | ['f', 'n'] => .sym .kFn
  | ['f', 'o', 'r'] => .sym .kFor
  | ['i', 'f'] => .sym .kIf
  | ['i', 'm', 'p', 'l'] => .sym .kImpl
  | ['i', 'n'] => .sym .kIn
  | ['l', 'e', 't'] => .sym .kLet
  | ['l', 'o', 'o', 'p'] => .sym .kLoop
  | ['m', 'a', 't', 'c', 'h'] => .sym .kMatch
  | ['m', 'o', 'd'] => .sym .kMod
  | ['m', 'o', 'v', 'e'] => .sym .kMove
  | ['m', 'u', 't'] => .sym .kMut
  | ['p', 'u', 'b'] => .sym .kPub
  | ['r', 'e', 'f'] => .sym .kRef
  | ['r', 'e', 't', 'u', 'r', 'n'] => .sym .kReturn
  | ['s', 'e', 'l', 'f'] => .sym .kSelf
  | ['S', 'e', 'l', 'f'] => .sym .kSelfTy
  | ['s', 't', 'a', 't', 'i', 'c'] => .sym .kStatic
  | ['s', 't', 'r', 'u', 'c', 't'] => .sym .kStruct
  | ['s', 'u', 'p', 'e', 'r'] => .sym .kSuper
  | ['t', 'r', 'a', 'i', 't'] => .sym .kTrait
  | ['t', 'r', 'u', 'e'] => .sym .kTrue
  | ['t', 'y', 'p', 'e'] => .sym .kType
  | ['u', 'n', 's', 'a', 'f', 'e'] => .sym .kUnsafe
  | ['u', 's', 'e'] => .sym .kUse
  | ['w', 'h', 'e', 'r', 'e'] => .sym .kWhere
  | ['w', 'h', 'i', 'l', 'e'] => .sym .kWhile
  | ['_'] => .sym .underscore
  | cs => .id cs

/-- Punctuation, the longest that fits. -/
def punct : List Char → Option (Sym × List Char)
  | '.' :: '.' :: '=' :: r => some (.dot2Eq, r)
  | '<' :: '<' :: '=' :: r => some (.shlEq, r)
  | '>' :: '>' :: '=' :: r => some (.shrEq, r)
  | ':' :: ':' :: r => some (.colon2, r)
  | '-' :: '>' :: r => some (.arrow, r)
  | '=' :: '>' :: r => some (.fatArrow, r)
  | '=' :: '=' :: r => some (.eq2, r)
  | '!' :: '=' :: r => some (.ne, r)
  | '<' :: '=' :: r => some (.le, r)
  | '>' :: '=' :: r => some (.ge, r)
  | '&' :: '&' :: r => some (.amp2, r)
  | '|' :: '|' :: r => some (.bar2, r)
  | '<' :: '<' :: r => some (.shl, r)
  | '>' :: '>' :: r => some (.shr, r)
  | '.' :: '.' :: r => some (.dot2, r)
  | '+' :: '=' :: r => some (.plusEq, r)
  | '-' :: '=' :: r => some (.minusEq, r)
  | '*' :: '=' :: r => some (.starEq, r)
  | '/' :: '=' :: r => some (.slashEq, r)
  | '%' :: '=' :: r => some (.percentEq, r)
  | '^' :: '=' :: r => some (.caretEq, r)
  | '&' :: '=' :: r => some (.ampEq, r)
  | '|' :: '=' :: r => some (.barEq, r)
  | '(' :: r => some (.lpar, r)
  | ')' :: r => some (.rpar, r)
  | '{' :: r => some (.lbrace, r)
  | '}' :: r => some (.rbrace, r)
  | '[' :: r => some (.lbrack, r)
  | ']' :: r => some (.rbrack, r)
  | ',' :: r => some (.comma, r)
  | ';' :: r => some (.semi, r)
  | ':' :: r => some (.colon, r)
  | '.' :: r => some (.dot, r)
  | '=' :: r => some (.eq, r)
  | '?' :: r => some (.question, r)
  | '#' :: r => some (.hash, r)
  | '!' :: r => some (.bang, r)
  | '+' :: r => some (.plus, r)
  | '-' :: r => some (.minus, r)
  | '*' :: r => some (.star, r)
  | '/' :: r => some (.slash, r)
  | '%' :: r => some (.percent, r)
  | '^' :: r => some (.caret, r)
  | '&' :: r => some (.amp, r)
  | '|' :: r => some (.bar, r)
  | '<' :: r => some (.lt, r)
  | '>' :: r => some (.gt, r)
  | _ => none

/-- Tokens of a text; the first argument bounds their number. -/
def lexLoop : Nat → List Char → Option (List Tok)
  | _, [] => some []
  | 0, _ => none
  | fuel + 1, c :: cs =>
    if isSpace c then lexLoop fuel cs
    else if isStart c then (lexLoop fuel (cs.dropWhile isCont)).map (word (c :: cs.takeWhile isCont) :: ·)
    else if isDigit c then (lexLoop fuel (cs.dropWhile isCont)).map (numTok (c :: cs.takeWhile isCont) :: ·)
    else match c, cs with
    | '/', '/' :: r => lexLoop fuel (skipLine r)
    | '"', r => match takeStr r with
      | some (s, r) => (lexLoop fuel r).map (.str s :: ·)
      | none => none
    | '\'', x :: '\'' :: r => (lexLoop fuel r).map (.chr x.toNat :: ·)
    | '\'', r => (lexLoop fuel (r.dropWhile isCont)).map (.lifetime (r.takeWhile isCont) :: ·)
    | c, r => match punct (c :: r) with
      | some (s, r) => (lexLoop fuel r).map (.sym s :: ·)
      | none => none

/-- The tokens of a text. -/
def lex (cs : List Char) : Option (List Tok) := lexLoop cs.length cs

end OrdinalMap.Text
