import Verif.Model.OsPath
import Verif.Spec.Parallel
/-!
# Archives whose names are text
-/
namespace Flatdata.Spec

/-- The names of all files and directories of the archive are text (as names in Rust source are). -/
def TextNames (u : RawBytes) (D : ArchiveDef) : Prop := ∀ t, HasFile D t → ∀ x ∈ t, u.text x = true

end Flatdata.Spec
