import Verif.Model.Struct
import Verif.Spec.Field
/-!
# Which struct definitions a schema can declare

Only the shape of `Field`/`StructDef` is taken from the model.
-/
namespace Flatdata.Spec

/-- A field a flatdata schema can declare in a struct of `size` bytes: at least one bit, not wider than its type, inside
the struct; `IS_SIGNED` agrees with the underlying type; enum variants are representable. -/
structure FieldOK (size : Nat) (f : Field) : Prop where
  pos : 1 ≤ f.bits
  le : f.bits ≤ f.ty.bits
  inside : f.off + f.bits ≤ 8 * size
  sign : f.encSigned = f.ty.signed
  variants : ∀ l, f.variants = some l → ∀ v ∈ l.map Prod.fst, Fits f.ty f.bits v

/-- Two fields share no bit. -/
def Disjoint (f g : Field) : Prop := f.off + f.bits ≤ g.off ∨ g.off + g.bits ≤ f.off

/-- Struct definitions: all fields fine, pairwise disjoint. -/
structure WF (S : StructDef) : Prop where
  field : ∀ f ∈ S.fields, FieldOK S.size f
  disjoint : S.fields.Pairwise Disjoint

/-- The values a user can pass to the setter of `f` and expects to get back. -/
def Storable (f : Field) (v : Int) : Prop :=
  match f.variants with
  | none => Fits f.ty f.bits v
  | some l => v ∈ l.map Prod.fst

/-- The values the type of the setter accepts. -/
def Accepted (f : Field) (v : Int) : Prop :=
  match f.variants with
  | none => OfType f.ty v
  | some l => v ∈ l.map Prod.fst

instance (f : Field) (v : Int) : Decidable (Storable f v) := by
  unfold Storable; split <;> infer_instance

instance (f : Field) (v : Int) : Decidable (Accepted f v) := by
  unfold Accepted; split <;> infer_instance

end Flatdata.Spec
