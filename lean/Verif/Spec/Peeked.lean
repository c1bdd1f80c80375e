import Verif.Spec.ExtVector
/-!
# Specification of histories of a vector in which its own resource is read
-/
namespace Flatdata.Spec

/-- Everything that can happen to a vector between creation and close (`Grows`), and besides reading its own resource through
its own storage object, any number of times; the flag says whether this has happened. -/
inductive Peeked [DiffLib] (k : Kind) (p : Profile) (e : Endian) (S : StructDef) (o : k.backend.Obj) (name : String) (w : k.backend.W)
    (v : ExtVec k.backend) : Bool → List (List HandleOp) → k.backend.W → ExtVec k.backend → Prop
  | start : Peeked k p e S o name w v false [] w v
  | grows {b es es' w1 v1 w2 v2} (g : Peeked k p e S o name w v b es w1 v1) (h : Grows k p e S o name w1 v1 es' w2 v2) :
      Peeked k p e S o name w v b (es ++ es') w2 v2
  | read {b es w1 v1 w2 r} (p' : Profile) (e' : Endian) (schema' : String) (g : Peeked k p e S o name w v b es w1 v1)
      (h : Storage.read k.backend p' e' o name schema' w1 = (r, w2)) : Peeked k p e S o name w v true es w2 v1

end Flatdata.Spec
