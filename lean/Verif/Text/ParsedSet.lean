import Verif.Text.FilesSet
import Verif.Text.TreesSet
import Verif.Text.Parsed
/-!
# The texts of `values.rs` and `set/` parse to the trees
-/

namespace OrdinalMap.Text

set_option maxRecDepth 100000 in
theorem ordinalTraits_parsed : parse ordinalTraitsRs = some ordinalTraitsTree :=
  parse_ofList (l := _) (by unfold ordinalTraitsRs; rfl) (by decide +kernel)

set_option maxRecDepth 100000 in
theorem values_parsed : parse valuesRs = some valuesTree :=
  parse_ofList (l := _) (by unfold valuesRs; rfl) (by decide +kernel)

set_option maxRecDepth 100000 in
theorem setArray_parsed : parse setArrayRs = some setArrayTree :=
  parse_ofList (l := _) (by unfold setArrayRs; rfl) (by decide +kernel)

set_option maxRecDepth 100000 in
theorem setIter_parsed : parse setIterRs = some setIterTree :=
  parse_ofList (l := _) (by unfold setIterRs; rfl) (by decide +kernel)

set_option maxRecDepth 100000 in
theorem setRef_parsed : parse setRefRs = some setRefTree :=
  parse_ofList (l := _) (by unfold setRefRs; rfl) (by decide +kernel)

set_option maxRecDepth 100000 in
theorem setMut_parsed : parse setMutRs = some setMutTree :=
  parse_ofList (l := _) (by unfold setMutRs; rfl) (by decide +kernel)

set_option maxRecDepth 100000 in
theorem set_parsed : parse setRs = some setTree :=
  parse_ofList (l := _) (by unfold setRs; rfl) (by decide +kernel)

set_option maxRecDepth 100000 in
theorem set64_parsed : parse set64Rs = some set64Tree :=
  parse_ofList (l := _) (by unfold set64Rs; rfl) (by decide +kernel)

end OrdinalMap.Text
