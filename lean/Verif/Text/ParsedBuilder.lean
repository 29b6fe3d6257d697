import Verif.Text.FilesBuilder
import Verif.Text.TreesBuilder
import Verif.Text.ParsedSet
/-!
# The text of `array_builder.rs` parses to the tree
-/

namespace OrdinalMap.Text

set_option maxRecDepth 100000 in
theorem arrayBuilder_parsed : parse arrayBuilderRs = some arrayBuilderTree :=
  parse_ofList (l := _) (by unfold arrayBuilderRs; rfl) (by decide +kernel)

end OrdinalMap.Text
