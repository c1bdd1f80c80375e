/-!
# Plain names
-/
namespace Flatdata

/-- A plain resource name: one path component, and not the current or parent directory. -/
def PlainName (n : String) : Prop := n.toList ≠ [] ∧ '/' ∉ n.toList ∧ n.toList ≠ ['.'] ∧ n.toList ≠ ['.', '.']

instance (n : String) : Decidable (PlainName n) := by unfold PlainName; infer_instance

end Flatdata
