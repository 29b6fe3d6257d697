import Verif.Text.FilesAtomic
import Verif.Text.TreesAtomic
import Verif.Text.ParsedSet
/-!
# The text of `atomic.rs` parses to the tree
-/

namespace OrdinalMap.Text

set_option maxRecDepth 100000 in
theorem atomic_parsed : parse atomicRs = some atomicTree :=
  parse_ofList (l := _) (by unfold atomicRs; rfl) (by decide +kernel)

end OrdinalMap.Text
