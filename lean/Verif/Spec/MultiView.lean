import Verif.Model.MultiView
import Verif.Spec.Bits
import Verif.Spec.View
/-!
# Specification of multi array views: a list of items, each a list of variants

The index holds numbers `o₀ ≤ o₁ ≤ ... ≤ oₙ`; item `i` consists of the bytes `oᵢ .. oᵢ₊₁` of the data. Inside an item every
element is one byte (the variant) followed by the bytes of its struct.
-/
namespace Flatdata.Spec

/-- Index types that `define_index!` is meant for: 1 to 64 bits, inside the struct. -/
structure IndexOK (V : Variadic) : Prop where
  pos : 1 ≤ V.indexBits
  le : V.indexBits ≤ 64
  inside : V.indexBits ≤ 8 * V.indexSize

/-- Variadic types: the index type is fine and no variant number is used twice. -/
structure VariadicOK (V : Variadic) : Prop where
  index : IndexOK V
  distinct : (V.types.map Prod.fst).Nodup

/-- The numbers in an index. -/
def offsets (V : Variadic) (index : Bytes) : List Nat :=
  (elems V.indexSize index).map fun x => fieldRaw x 0 V.indexBits

/-- The pieces of `data` between consecutive offsets. -/
def pieces : List Nat → Bytes → List Bytes
  | a :: b :: offs, data => (data.take b).drop a :: pieces (b :: offs) data
  | _, _ => []

/-- The items of a view, as byte strings. -/
def items (V : Variadic) (v : MultiView) : List Bytes := pieces (offsets V v.index) v.data

/-- Well-formed views: at least the sentinel is there, offsets do not decrease and lie inside the data. -/
structure MultiOK (V : Variadic) (v : MultiView) : Prop where
  def_ok : IndexOK V
  sentinel : offsets V v.index ≠ []
  sorted : (offsets V v.index).Pairwise (· ≤ ·)
  inside : ∀ o ∈ offsets V v.index, o ≤ v.data.length
  size : v.index.length < 2 ^ 63

/-- The bytes of an item with the given variants and struct contents. -/
def encodeItem : List (BitVec 8 × Bytes) → Bytes
  | [] => []
  | x :: xs => x.1 :: x.2 ++ encodeItem xs

/-- Variants of an item that exist, with struct contents of the right size. -/
def ItemOK (V : Variadic) (xs : List (BitVec 8 × Bytes)) : Prop :=
  ∀ x ∈ xs, ∃ S ∈ V.types, S.1 = x.1 ∧ x.2.length = S.2.size

instance (V : Variadic) (xs : List (BitVec 8 × Bytes)) : Decidable (ItemOK V xs) := by unfold ItemOK; infer_instance

/-- What the user sees of an element: the variant and the bytes of its struct. -/
def Elem.content (x : Elem) : BitVec 8 × Bytes := (x.type, x.mem.take x.struct.size)

end Flatdata.Spec
