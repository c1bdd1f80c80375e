import Verif.Spec.Disturbed
import Verif.Spec.MultiVector
/-!
# Specification of disturbed writing of multivectors
-/
namespace Flatdata.Spec

/-- Everything that can happen between creation and close of a multivector whose files are left alone by nobody. -/
inductive MDisturbed (p : Profile) (e : Endian) (V : Variadic) (w : FileW) (v : MultiVec file) :
    List (List Add) → FileW → MultiVec file → Prop
  | start : MDisturbed p e V w v [] w v
  | grow {its w1 v1 v2 w2} (g : MDisturbed p e V w v its w1 v1) (h : v1.grow p e V w1 = (.ok (.ok (), v2), w2)) :
      MDisturbed p e V w v (its ++ [[]]) w2 v2
  | add {its as w1 v1 a d pos d'} (g : MDisturbed p e V w v (its ++ [as]) w1 v1) (hm : (a.type, a.struct) ∈ V.types)
      (h : MultiVec.builderAdd p a.type a.struct.size v1.data = .ok (d, pos))
      (hw : Vector.writeAt p e a.struct d pos a.ops = .ok d') :
      MDisturbed p e V w v (its ++ [as ++ [a]]) w1 { v1 with data := d' }
  | failed {its w1 v1 x v2 w2} (g : MDisturbed p e V w v its w1 v1) (h : v1.grow p e V w1 = (.ok (.error x, v2), w2)) :
      MDisturbed p e V w v its w2 v2
  | call {its w1 v1 sI sD w2} (g : MDisturbed p e V w v its w1 v1) (hI : v1.index.handle.stream = some sI)
      (hD : v1.handle.stream = some sD) (hcI : CallBeside sI w1 w2) (hcD : CallBeside sD w1 w2) : MDisturbed p e V w v its w2 v1
  | outside {its w1 v1 w2} (g : MDisturbed p e V w v its w1 v1) (h : Outside w1 w2) : MDisturbed p e V w v its w2 v1

end Flatdata.Spec
