import Verif.Model.NarrowWrite
import Verif.Spec.MultiVector
import Verif.Spec.Narrow
/-!
# Specification: histories of vectors on hosts where `usize` has `m` values
-/
namespace Flatdata.Spec

/-- `Grows` on a host with `m` values of `usize`. -/
inductive NGrows (m : Nat) (k : Kind) (p : Profile) (e : Endian) (S : StructDef) (o : k.backend.Obj) (name : String) (w : k.backend.W)
    (v : ExtVec k.backend) : List (List HandleOp) → k.backend.W → ExtVec k.backend → Prop
  | start : NGrows m k p e S o name w v [] w v
  | grow {es w1 v1 v2 pos w2 ops d} (g : NGrows m k p e S o name w v es w1 v1)
      (h : Narrow.ExtVec.grow m p S.size v1 w1 = (.ok (v2, pos), w2)) (hw : Vector.writeAt p e S v2.data pos ops = .ok d) :
      NGrows m k p e S o name w v (es ++ [ops]) w2 { v2 with data := d }
  | failed {es w1 v1 x w2} (g : NGrows m k p e S o name w v es w1 v1) (h : Narrow.ExtVec.grow m p S.size v1 w1 = (.err x, w2)) :
      NGrows m k p e S o name w v es w2 v1
  | other {es w1 v1 w2} (g : NGrows m k p e S o name w v es w1 v1) (h : k.StepAway (k.Own o name) w1 w2) :
      NGrows m k p e S o name w v es w2 v1
  | elsewhere {es w1 v1 o' n r w2} (g : NGrows m k p e S o name w v es w1 v1) (ho : k.alive w1 o') (hi : k.ident o' ≠ k.ident o)
      (h : k.backend.readResource o' n w1 = (r, w2)) : NGrows m k p e S o name w v es w2 v1

/-- `MGrows` on a host with `m` values of `usize`. -/
inductive NMGrows (m : Nat) (k : Kind) (p : Profile) (e : Endian) (V : Variadic) (o : k.backend.Obj) (name : String) (w : k.backend.W)
    (v : MultiVec k.backend) : List (List Add) → k.backend.W → MultiVec k.backend → Prop
  | start : NMGrows m k p e V o name w v [] w v
  | grow {its w1 v1 v2 w2} (g : NMGrows m k p e V o name w v its w1 v1)
      (h : Narrow.MultiVec.grow m p e V v1 w1 = (.ok (.ok (), v2), w2)) : NMGrows m k p e V o name w v (its ++ [[]]) w2 v2
  | add {its as w1 v1 a d pos d'} (g : NMGrows m k p e V o name w v (its ++ [as]) w1 v1) (hm : (a.type, a.struct) ∈ V.types)
      (h : Narrow.MultiVec.builderAdd m p a.type a.struct.size v1.data = .ok (d, pos))
      (hw : Vector.writeAt p e a.struct d pos a.ops = .ok d') :
      NMGrows m k p e V o name w v (its ++ [as ++ [a]]) w1 { v1 with data := d' }
  | failed {its w1 v1 x v2 w2} (g : NMGrows m k p e V o name w v its w1 v1)
      (h : Narrow.MultiVec.grow m p e V v1 w1 = (.ok (.error x, v2), w2)) : NMGrows m k p e V o name w v its w2 v2
  | other {its w1 v1 w2} (g : NMGrows m k p e V o name w v its w1 v1) (h : k.StepAway (k.MOwn o name) w1 w2) :
      NMGrows m k p e V o name w v its w2 v1
  | elsewhere {its w1 v1 o' n r w2} (g : NMGrows m k p e V o name w v its w1 v1) (ho : k.alive w1 o')
      (hi : k.ident o' ≠ k.ident o) (h : k.backend.readResource o' n w1 = (r, w2)) : NMGrows m k p e V o name w v its w2 v1

/-- A host with `m` values of `usize` can count the bytes of a multivector with these items, and hold its buffers, which are flushed
beyond 32 MiB before an item is added. -/
structure MFits (m : Nat) (V : Variadic) (its : List (List Add)) : Prop where
  data : dataSize its + 16 < m
  index : (its.length + 1) * V.indexSize + 16 < m
  dataBuffer : (∀ as ∈ its, 2 * (32 * 1024 * 1024 + itemSize as) < m) ∨ 2 * (dataSize its + 8) < m
  indexBuffer : 2 * (32 * 1024 * 1024 + V.indexSize) < m ∨ 2 * ((its.length + 1) * V.indexSize + 8) < m

end Flatdata.Spec
