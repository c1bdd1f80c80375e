import Verif.Spec.MultiVector
/-!
# Specification of histories of a multivector in which its own resources are read
-/
namespace Flatdata.Spec

/-- Everything that can happen to a multivector between creation and close (`MGrows`), and besides reading its index or its data
through its own storage object, any number of times and also between the elements of an item; the two flags say whether the index
and whether the data have been read. -/
inductive MPeeked [DiffLib] (k : Kind) (p : Profile) (e : Endian) (V : Variadic) (o : k.backend.Obj) (name : String) (w : k.backend.W)
    (v : MultiVec k.backend) : Bool → Bool → List (List Add) → k.backend.W → MultiVec k.backend → Prop
  | start : MPeeked k p e V o name w v false false [] w v
  | grow {bI bD its w1 v1 v2 w2} (g : MPeeked k p e V o name w v bI bD its w1 v1) (h : v1.grow p e V w1 = (.ok (.ok (), v2), w2)) :
      MPeeked k p e V o name w v bI bD (its ++ [[]]) w2 v2
  | add {bI bD its as w1 v1 a d pos d'} (g : MPeeked k p e V o name w v bI bD (its ++ [as]) w1 v1) (hm : (a.type, a.struct) ∈ V.types)
      (h : MultiVec.builderAdd p a.type a.struct.size v1.data = .ok (d, pos))
      (hw : Vector.writeAt p e a.struct d pos a.ops = .ok d') :
      MPeeked k p e V o name w v bI bD (its ++ [as ++ [a]]) w1 { v1 with data := d' }
  | failed {bI bD its w1 v1 x v2 w2} (g : MPeeked k p e V o name w v bI bD its w1 v1)
      (h : v1.grow p e V w1 = (.ok (.error x, v2), w2)) : MPeeked k p e V o name w v bI bD its w2 v2
  | other {bI bD its w1 v1 w2} (g : MPeeked k p e V o name w v bI bD its w1 v1) (h : k.StepAway (k.MOwn o name) w1 w2) :
      MPeeked k p e V o name w v bI bD its w2 v1
  | elsewhere {bI bD its w1 v1 o' n r w2} (g : MPeeked k p e V o name w v bI bD its w1 v1) (ho : k.alive w1 o')
      (hi : k.ident o' ≠ k.ident o) (h : k.backend.readResource o' n w1 = (r, w2)) : MPeeked k p e V o name w v bI bD its w2 v1
  | readIndex {bI bD its w1 v1 w2 r} (p' : Profile) (e' : Endian) (schema' : String) (g : MPeeked k p e V o name w v bI bD its w1 v1)
      (h : Storage.read k.backend p' e' o (name ++ "_index") schema' w1 = (r, w2)) : MPeeked k p e V o name w v true bD its w2 v1
  | readData {bI bD its w1 v1 w2 r} (p' : Profile) (e' : Endian) (schema' : String) (g : MPeeked k p e V o name w v bI bD its w1 v1)
      (h : Storage.read k.backend p' e' o name schema' w1 = (r, w2)) : MPeeked k p e V o name w v bI true its w2 v1

end Flatdata.Spec
