import Verif.Text.FilesMap
import Verif.Text.FilesSet
import Verif.Text.TreesSet
import Verif.Text.TreesMap
import Verif.Text.Names
/-!
# The texts of `map/`, `array_from_iter.rs` and `array_as_mut.rs` parse to the trees
-/

namespace OrdinalMap.Text

theorem parseIn_ofList {total : Bool} {s : String} {l : List Char} {t : Option (List Item)} (h : s = String.ofList l)
    (ht : (match lex l with
      | some ts => items (ts.length + 100) (qualify total ts)
      | none => none) = t) : parseIn total s = t := by
  subst h
  simp only [parseIn, String.toList_ofList]
  exact ht

set_option maxRecDepth 100000 in
theorem mapEnumerate_parsed : parseIn false mapEnumerateRs = some mapEnumerateTree :=
  parseIn_ofList (l := _) (by unfold mapEnumerateRs; rfl) (by decide +kernel)

set_option maxRecDepth 100000 in
theorem totalIter_parsed : parseIn true totalIterRs = some totalIterTree :=
  parseIn_ofList (l := _) (by unfold totalIterRs; rfl) (by decide +kernel)

set_option maxRecDepth 100000 in
theorem totalMap_parsed : parseIn true totalMapRs = some totalMapTree :=
  parseIn_ofList (l := _) (by unfold totalMapRs; rfl) (by decide +kernel)

set_option maxRecDepth 100000 in
theorem totalArrayMap_parsed : parseIn true totalArrayMapRs = some totalArrayMapTree :=
  parseIn_ofList (l := _) (by unfold totalArrayMapRs; rfl) (by decide +kernel)

set_option maxRecDepth 100000 in
theorem mapIter_parsed : parseIn false mapIterRs = some mapIterTree :=
  parseIn_ofList (l := _) (by unfold mapIterRs; rfl) (by decide +kernel)

set_option maxRecDepth 100000 in
theorem mapEntry_parsed : parseIn false mapEntryRs = some mapEntryTree :=
  parseIn_ofList (l := _) (by unfold mapEntryRs; rfl) (by decide +kernel)

set_option maxRecDepth 100000 in
theorem map_parsed : parseIn false mapRs = some mapTree :=
  parseIn_ofList (l := _) (by unfold mapRs; rfl) (by decide +kernel)

set_option maxRecDepth 100000 in
theorem mapArrayMap_parsed : parseIn false mapArrayMapRs = some mapArrayMapTree :=
  parseIn_ofList (l := _) (by unfold mapArrayMapRs; rfl) (by decide +kernel)

set_option maxRecDepth 100000 in
theorem arrayFromIter_parsed : parseIn false arrayFromIterRs = some arrayFromIterTree :=
  parseIn_ofList (l := _) (by unfold arrayFromIterRs; rfl) (by decide +kernel)

theorem arrayAsMut_parsed : parseIn false arrayAsMutRs = some arrayAsMutTree :=
  parseIn_ofList (l := _) (by unfold arrayAsMutRs; rfl) (by decide +kernel)

set_option maxRecDepth 100000 in
theorem ordinalTraits_parsedIn : parseIn false ordinalTraitsRs = some ordinalTraitsTree :=
  parseIn_ofList (l := _) (by unfold ordinalTraitsRs; rfl) (by decide +kernel)

set_option maxRecDepth 100000 in
theorem values_parsedIn : parseIn false valuesRs = some valuesTree :=
  parseIn_ofList (l := _) (by unfold valuesRs; rfl) (by decide +kernel)

end OrdinalMap.Text
