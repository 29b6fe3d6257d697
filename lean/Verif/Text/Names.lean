import Verif.Text.Parse
/-!
# Names of `map` and of `map/total`

Both modules define iterators called `Iter`, `IterMut`, `IntoIter` and `IntoIterArray`.  Before parsing, those of `map/total`
get the name `total::Iter` and so on, both in the files of `map/total` (where they are in scope as `Iter`) and in the files of
`map` (which write `total::Iter`).  This file is part of the trusted base.
-/

namespace OrdinalMap.Text

/-- The iterators of `map/total`. -/
def isTotalName (x : List Char) : Bool :=
  x == "Iter".toList || x == "IterMut".toList || x == "IntoIter".toList || x == "IntoIterArray".toList

/-- Rename; `total` tells whether the file is in `map/total`.  A name after `::` belongs to another path. -/
def qualify (total : Bool) : List Tok → List Tok
  | [] => []
  | .sym .colon2 :: .id x :: r => .sym .colon2 :: .id x :: qualify total r
  | .id x :: .sym .colon2 :: .id y :: r =>
    if x == "total".toList && isTotalName y then .id ("total::".toList ++ y) :: qualify total r
    else .id (if total && isTotalName x then "total::".toList ++ x else x) :: .sym .colon2 :: .id y :: qualify total r
  | .id x :: r => .id (if total && isTotalName x then "total::".toList ++ x else x) :: qualify total r
  | t :: r => t :: qualify total r

/-- The items of a text in `map` or in `map/total`. -/
def parseIn (total : Bool) (s : String) : Option (List Item) :=
  match lex s.toList with
  | some ts => items (ts.length + 100) (qualify total ts)
  | none => none

end OrdinalMap.Text
