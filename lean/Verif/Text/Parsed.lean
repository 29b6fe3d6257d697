import Verif.Text.Files
import Verif.Text.Trees
/-!
# The texts parse to the trees
-/

namespace OrdinalMap.Text

theorem parse_ofList {s : String} {l : List Char} {t : Option (List Item)} (h : s = String.ofList l)
    (ht : (match lex l with
      | some ts => items (ts.length + 100) ts
      | none => none) = t) : parse s = t := by
  subst h
  simp only [parse, String.toList_ofList]
  exact ht

set_option maxRecDepth 100000 in
theorem primitive_parsed : parse primitiveRs = some primitiveTree :=
  parse_ofList (l := _) (by unfold primitiveRs; rfl) (by decide +kernel)

set_option maxRecDepth 100000 in
theorem nonZero_parsed : parse nonZeroRs = some nonZeroTree :=
  parse_ofList (l := _) (by unfold nonZeroRs; rfl) (by decide +kernel)

set_option maxRecDepth 100000 in
theorem char_parsed : parse charRs = some charTree :=
  parse_ofList (l := _) (by unfold charRs; rfl) (by decide +kernel)

set_option maxRecDepth 100000 in
theorem ordering_parsed : parse orderingRs = some orderingTree :=
  parse_ofList (l := _) (by unfold orderingRs; rfl) (by decide +kernel)

set_option maxRecDepth 100000 in
theorem std_parsed : parse stdRs = some stdTree :=
  parse_ofList (l := _) (by unfold stdRs; rfl) (by decide +kernel)

set_option maxRecDepth 100000 in
theorem either_parsed : parse eitherRs = some eitherTree :=
  parse_ofList (l := _) (by unfold eitherRs; rfl) (by decide +kernel)

set_option maxRecDepth 100000 in
theorem boxed_parsed : parse boxedRs = some boxedTree :=
  parse_ofList (l := _) (by unfold boxedRs; rfl) (by decide +kernel)

set_option maxRecDepth 100000 in
theorem array_parsed : parse arrayRs = some arrayTree :=
  parse_ofList (l := _) (by unfold arrayRs; rfl) (by decide +kernel)

end OrdinalMap.Text
