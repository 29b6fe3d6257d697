import Verif.SpecMap
/-!
# What `Debug` prints

`alt` is the alternate flag: `{:?}` (`false`) or `{:#?}` (`true`).  `pad` is the indentation that the
standard library applies to nested values under `{:#?}`.
-/

namespace OrdinalMap

/-- Indent a text by four spaces at the start of each line (`PadAdapter` of `core::fmt`). -/
def padChars : Bool → List Char → List Char
  | _, [] => []
  | nl, ch :: cs => (if nl then [' ', ' ', ' ', ' '] else []) ++ ch :: padChars (ch == '\n') cs

/-- Indent a text. -/
def pad (s : String) : String := String.ofList (padChars true s.toList)

/-- `a, b, c`. -/
def commaText : List String → String
  | [] => ""
  | [x] => x
  | x :: xs => x ++ ", " ++ commaText xs

/-- One line (or several, if the value has several) for each value. -/
def linesText : List String → String
  | [] => ""
  | x :: xs => pad (x ++ ",\n") ++ linesText xs

/-- A sequence of values in brackets. -/
def seqText (opn cls : String) (alt : Bool) (l : List String) : String :=
  if alt then
    match l with
    | [] => opn ++ cls
    | _ => opn ++ "\n" ++ linesText l ++ cls
  else opn ++ commaText l ++ cls

variable {K V ι : Type}

/-- A list, given how an item is printed. -/
def listText (alt : Bool) (item : ι → String) (l : List ι) : String := seqText "[" "]" alt (l.map item)

/-- A set. -/
def setText (alt : Bool) (item : ι → String) (l : List ι) : String := seqText "{" "}" alt (l.map item)

/-- A map. -/
def mapText (alt : Bool) (key : K → String) (value : V → String) (l : List (K × V)) : String :=
  seqText "{" "}" alt (l.map fun p => key p.1 ++ ": " ++ value p.2)

/-- A pair. -/
def pairText (alt : Bool) (key : K → String) (value : V → String) (p : K × V) : String :=
  seqText "(" ")" alt [key p.1, value p.2]

example : mapText false (toString (α := Nat)) (toString (α := Bool)) [(1, true), (2, false)] = "{1: true, 2: false}" := by
  decide
example : listText true (pairText true (toString (α := Nat)) (toString (α := Bool))) [(1, true)] =
    "[\n    (\n        1,\n        true,\n    ),\n]" := by
  decide
example : setText true (toString (α := Nat)) [] = "{}" := by decide

end OrdinalMap
