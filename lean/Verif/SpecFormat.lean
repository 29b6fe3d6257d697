import Verif.SpecDebug
import Verif.Model.Effect
/-!
# Printing to any writer, with any flags

`{:?}` prints to anything that implements `fmt::Write`: a `String`, a file, a buffer of fixed size.  A writer has
state, may refuse (`Err(fmt::Error)`) and may panic.  A caller may ask for a width, a precision, a fill character;
what that means is up to the `Debug` of the values.  Here a `Debug` impl is a function that is given a writer and the
flags, and the specification says which calls of the writer and of other `Debug` impls a collection makes, in which
order, and when it stops.
-/

namespace OrdinalMap.Format
open OrdinalMap

/-- A call of a writer: `write_str` or `write_char`. -/
inductive Piece where
  | str (s : String)
  | char (ch : Char)
  deriving DecidableEq, Repr

/-- The text of the call. -/
def Piece.text : Piece → String
  | .str s => s
  | .char ch => String.singleton ch

/-- The text of several calls. -/
def textOf : List Piece → String
  | [] => ""
  | p :: ps => p.text ++ textOf ps

/-- `dyn fmt::Write` with state `ω`: `true` is `Ok(())`, `false` is `Err(fmt::Error)`. -/
abbrev Writer (ω : Type) := Piece → M ω Bool

/-- `FormattingOptions`: the flags a caller may give. -/
structure Options where
  alternate : Bool := false
  width : Option Nat := none
  precision : Option Nat := none
  fill : Char := ' '
  align : Option Ordering := none
  plus : Bool := false
  zeroPad : Bool := false
  debugHex : Option Bool := none
  deriving DecidableEq, Repr

/-- `Debug::fmt` of a value: a function of the writer and the flags, the same for all writers.  It may do anything with the
writer: also go on after it was refused, report an error that was none, panic. -/
abbrev Show := (ω : Type) → Writer ω → Options → M ω Bool

variable {ω K V : Type}

/-- First `x`; if that is `Ok(())`, `y`. -/
def andThen (x y : M ω Bool) : M ω Bool := fun st =>
  match x st with
  | (.ok true, st) => y st
  | r => r

/-- One after the other, up to the first that is not `Ok(())`. -/
def inOrder : List (M ω Bool) → M ω Bool
  | [] => .of (.ok true)
  | x :: xs => andThen x (inOrder xs)

/-- Calls of the writer, up to the first that is refused. -/
def emitAll (w : Writer ω) (ps : List Piece) : M ω Bool := inOrder (ps.map w)

/-- The lines of a text, each with its `\n` (`str::split_inclusive('\n')`). -/
def splitLines : List Char → List (List Char)
  | [] => []
  | ch :: cs =>
    if ch = '\n' then [ch] :: splitLines cs
    else match splitLines cs with
      | [] => [[ch]]
      | l :: ls => (ch :: l) :: ls

/-- The indentation, if at the start of a line. -/
def lead (nl : Bool) : List (Piece × Bool) := if nl then [(.str "    ", true)] else []

/-- What an indenting writer passes on for a call, piece by piece, and for each piece whether it takes itself to be at the
start of a line once it has tried to pass it on; `nl`: whether it was before. -/
def indentPiece (nl : Bool) : Piece → List (Piece × Bool)
  | .str s => go nl (splitLines s.toList)
  | .char ch => lead nl ++ [(.char ch, ch == '\n')]
where
  /-- Line by line. -/
  go (nl : Bool) : List (List Char) → List (Piece × Bool)
  | [] => []
  | l :: ls => lead nl ++ (.str (String.ofList l), l.getLast? == some '\n') :: go (l.getLast? == some '\n') ls

/-- Pass on one piece. -/
def passOn (w : Writer ω) (p : Piece × Bool) : M (ω × Bool) Bool := fun st =>
  let r := w p.1 st.1
  (r.1, (r.2, p.2))

/-- A writer that indents (what `PadAdapter` of `core::fmt` documents): it passes the pieces on, up to the first that is
refused.  Its state: that of the inner writer, and whether it is at the start of a line. -/
def indented (w : Writer ω) : Writer (ω × Bool) := fun p st =>
  inOrder ((indentPiece st.2 p).map (passOn w)) st

/-- Use an indenting writer, starting on a new line. -/
def indent (x : M (ω × Bool) Bool) : M ω Bool := fun st =>
  let r := x (st, true)
  (r.1, r.2.1)

/-- The steps between the brackets: separators and items on one line, or each item on its own lines, indented. -/
def itemSteps (w : Writer ω) (o : Options) (items : List Show) : List (M ω Bool) :=
  match o.alternate, items with
  | _, [] => []
  | false, x :: xs => x ω w o :: xs.flatMap fun x => [w (.str ", "), x ω w o]
  | true, xs => w (.str "\n") :: xs.map fun x => indent (inOrder [x _ (indented w) o, indented w (.str ",\n")])

/-- Print a sequence in brackets. -/
def seqShow (opn cls : String) (items : List Show) : Show := fun _ w o =>
  inOrder (w (.str opn) :: itemSteps w o items ++ [w (.str cls)])

/-- An entry of a map: `key: value`. -/
def entryShow (key : K → Show) (value : V → Show) (p : K × V) : Show := fun ω w o =>
  inOrder [key p.1 ω w o, w (.str ": "), value p.2 ω w o]

/-- A pair, as `core::fmt` prints it. -/
def pairShow (key : K → Show) (value : V → Show) (p : K × V) : Show := fun ω w o =>
  if o.alternate then
    inOrder [w (.str ""), w (.str "(\n"),
      indent (inOrder [key p.1 _ (indented w) o, indented w (.str ",\n")]),
      indent (inOrder [value p.2 _ (indented w) o, indented w (.str ",\n")]), w (.str ")")]
  else inOrder [w (.str ""), w (.str "("), key p.1 ω w o, w (.str ", "), value p.2 ω w o, w (.str ")")]

/-- A list. -/
def listShow {ι : Type} (item : ι → Show) (l : List ι) : Show := seqShow "[" "]" (l.map item)

/-- A set. -/
def setShow {ι : Type} (item : ι → Show) (l : List ι) : Show := seqShow "{" "}" (l.map item)

/-- A map. -/
def mapShow (key : K → Show) (value : V → Show) (l : List (K × V)) : Show := seqShow "{" "}" (l.map (entryShow key value))

/-- A `Debug` that, under these flags, writes the text in pieces and stops when it is refused. -/
def Writes (x : Show) (o : Options) (t : String) : Prop :=
  ∃ ps, textOf ps = t ∧ ∀ (ω : Type) (w : Writer ω), x ω w o = emitAll w ps

/-! ## Writers for examples -/

/-- A `String`. -/
def stringWriter : Writer String := fun p s => (.ok true, s ++ p.text)

/-- A buffer that refuses what does not fit. -/
def bufferWriter (n : Nat) : Writer String := fun p s =>
  if (s ++ p.text).length ≤ n then (.ok true, s ++ p.text) else (.ok false, s)

/-- A value that is printed as a text, in one piece. -/
def plainShow (t : String) : Show := fun _ w _ => w (.str t)

/-- A number: heeds the width. -/
def natShow (n : Nat) : Show := fun _ w o =>
  w (.str (String.ofList (List.replicate (o.width.getD 0 - (toString n).length) o.fill) ++ toString n))

example : seqShow "[" "]" [natShow 1, natShow 22] String stringWriter {} "" = (.ok true, "[1, 22]") := by rfl
example : seqShow "[" "]" [natShow 1, natShow 22] String stringWriter { alternate := true, width := some 3 } "" =
    (.ok true, "[\n      1,\n     22,\n]") := by rfl
example : seqShow "[" "]" [natShow 1, natShow 22] String (bufferWriter 5) {} "" = (.ok false, "[1, ") := by rfl
example : seqShow "[" "]" [pairShow natShow natShow (1, 2)] String stringWriter { alternate := true } "" =
    (.ok true, "[\n    (\n        1,\n        2,\n    ),\n]") := by rfl

end OrdinalMap.Format
