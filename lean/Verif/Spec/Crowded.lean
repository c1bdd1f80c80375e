import Verif.Spec.ExtVector
/-!
# Specification of crowded writing: others write to the resource, in memory, while a vector is being written
-/
namespace Flatdata.Spec

/-- Everything that can happen between creation and close of a vector in memory, if others create the same resource and write
to its stream, too (the stream is shared, src/memstorage.rs:97-107). The number counts the bytes written by others. Nobody
else reads the resource or moves its stream, which only reading and closing do; its schema may be written by anybody. -/
inductive Crowded (p : Profile) (e : Endian) (S : StructDef) (o : Obj) (name : String) (w : MemW) (v : ExtVec mem) :
    List (List HandleOp) → Nat → MemW → ExtVec mem → Prop
  | start : Crowded p e S o name w v [] 0 w v
  | grow {es n w1 v1 v2 pos w2 ops d} (g : Crowded p e S o name w v es n w1 v1) (h : v1.grow p S.size w1 = (.ok (v2, pos), w2))
      (hw : Vector.writeAt p e S v2.data pos ops = .ok d) : Crowded p e S o name w v (es ++ [ops]) n w2 { v2 with data := d }
  | create {es n w1 v1 r w2} (g : Crowded p e S o name w v es n w1 v1) (h : mem.createOutputStream o name w1 = (r, w2)) :
      Crowded p e S o name w v es n w2 v1
  | write {es n w1 v1 b r w2} (g : Crowded p e S o name w v es n w1 v1)
      (h : mem.writeAll (Kind.place .memory o name) b w1 = (r, w2)) : Crowded p e S o name w v es (n + b.length) w2 v1
  | other {es n w1 v1 w2} (g : Crowded p e S o name w v es n w1 v1)
      (h : Kind.StepAway .memory (fun l => l = Kind.place .memory o name) w1 w2) : Crowded p e S o name w v es n w2 v1

end Flatdata.Spec
