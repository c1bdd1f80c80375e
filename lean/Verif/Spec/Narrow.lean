import Verif.Spec.Archive
import Verif.Spec.View
/-!
# Specification: archives on hosts where `usize` has `m` values
-/
namespace Flatdata.Spec

/-- The number in the first eight bytes of a resource: its size. -/
def sizeField (d : Bytes) : Nat := leNat (d.take 8)

/-- Contents that a host with `m` values of `usize` can hold and count: shorter than `m`, and the size field (if there is one)
together with header and padding is below `m`. -/
def FitsHost (m : Nat) (d : Bytes) : Prop := d.length < m ∧ (8 ≤ d.length → sizeField d + 16 < m)

instance (m : Nat) (d : Bytes) : Decidable (FitsHost m d) := by unfold FitsHost; infer_instance

mutual
/-- The names of the resources of an archive and its subarchives, without those of their schemas. -/
def resourceNames : ArchiveDef → List String
  | .mk name _ rs subs => (name ++ ".archive") :: (rs.flatMap fun r => (parts r).map Prod.fst) ++ subsNames subs

/-- ... of subarchives. -/
def subsNames : SubDefs → List String
  | .nil => []
  | .cons _ _ D rest => resourceNames D ++ subsNames rest
end

/-- Everything stored (and in memory also everything read so far) under one of the names, in any directory, fits. -/
def Kind.AllFit (m : Nat) (N : List String) : (k : Kind) → k.backend.W → Prop
  | .memory, w => ∀ i path n, n ∈ N →
      (∀ x, (w : MemW).streams (i, key (join path n)) = some x → FitsHost m x.1) ∧
      ∀ d, (w : MemW).resources (i, key (join path n)) = some d → FitsHost m d
  | .disk, w => ∀ path n, n ∈ N → ∀ d, (w : FileW).fs.files (key (join path n)) = some d → FitsHost m d

end Flatdata.Spec
