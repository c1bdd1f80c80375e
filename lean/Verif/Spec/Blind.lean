import Verif.Spec.World
import Verif.Spec.ExtVector
import Verif.Model.Archive
/-!
# Specification: states that differ only in the data of resources; calls to the operating system
-/
namespace Flatdata.Spec

/-- Equally long contents that begin with the same size field. -/
def SameShape (a b : Option Bytes) : Prop := a.map (fun d => (d.length, d.take 8)) = b.map (fun d => (d.length, d.take 8))

/-- The place of a schema: some path whose last component ends in `.schema`. -/
def SchemaKey (k : Key) : Prop := ∃ path name, k = key (join path (name ++ ".schema"))

namespace Kind

/-- The two states differ only in bytes of resources behind the first eight bytes: there are the same resources, equally
long, with the same size fields and the same schemas, and everything else is the same. -/
def differInData : (k : Kind) → k.backend.W → k.backend.W → Prop
  | memory, w, w' =>
    (w' : MemW).next = (w : MemW).next ∧
    (∀ l, SameShape ((w : MemW).resources l) ((w' : MemW).resources l)) ∧
    (∀ l, SameShape (((w : MemW).streams l).map Prod.fst) (((w' : MemW).streams l).map Prod.fst)) ∧
    (∀ l, ((w' : MemW).streams l).map Prod.snd = ((w : MemW).streams l).map Prod.snd) ∧
    ∀ l, SchemaKey l.2 → (w' : MemW).resources l = (w : MemW).resources l ∧ (w' : MemW).streams l = (w : MemW).streams l
  | disk, w, w' =>
    (∃ files, (w' : FileW) = { (w : FileW) with fs := { (w : FileW).fs with files := files } } ∧
      (∀ l, SameShape ((w : FileW).fs.files l) (files l)) ∧ ∀ l, SchemaKey l → files l = (w : FileW).fs.files l)

/-- The number of calls to the operating system so far. -/
def calls : (k : Kind) → k.backend.W → Nat
  | memory, _ => 0
  | disk, w => (w : FileW).fs.tick

end Kind

mutual
/-- How many resources an archive has: its signature, one for each declaration and one more for the index of a multivector,
and those of its subarchives. -/
def resourceCount : ArchiveDef → Nat
  | .mk _ _ rs subs => 1 + (rs.map fun r => match r.type with | .multi _ _ => 2 | _ => 1).sum + subsCount subs

/-- ... of subarchives. -/
def subsCount : SubDefs → Nat
  | .nil => 0
  | .cons _ _ D rest => resourceCount D + subsCount rest
end

/-- A vector on disk to which `n` elements are appended, between two states, while the process does nothing else: after each
`grow` the buffer gets any content of the same length. -/
inductive Appends (p : Profile) (S : StructDef) (w : FileW) (v : ExtVec file) : Nat → FileW → ExtVec file → Prop
  | start : Appends p S w v 0 w v
  | grow {n w1 v1 v2 pos w2} (g : Appends p S w v n w1 v1) (h : v1.grow p S.size w1 = (.ok (v2, pos), w2)) (d : Bytes)
      (hd : d.length = v2.data.length) : Appends p S w v (n + 1) w2 { v2 with data := d }

/-- A multivector on disk to which `n` items with `b` bytes of data in total are appended (each element takes one byte for
its type and those of its struct), between two states, while the process does nothing else: after each `add_…` the buffer
gets any content of the same length. -/
inductive MAppends (p : Profile) (e : Endian) (V : Variadic) (w : FileW) (v : MultiVec file) :
    Nat → Nat → FileW → MultiVec file → Prop
  | start : MAppends p e V w v 0 0 w v
  | grow {n b w1 v1 v2 w2} (g : MAppends p e V w v n b w1 v1) (h : v1.grow p e V w1 = (.ok (.ok (), v2), w2)) :
      MAppends p e V w v (n + 1) b w2 v2
  | add {n b w1 v1 t d pos} (S : StructDef) (g : MAppends p e V w v n b w1 v1)
      (h : MultiVec.builderAdd p t S.size v1.data = .ok (d, pos)) (d' : Bytes) (hd : d'.length = d.length) :
      MAppends p e V w v n (b + (1 + S.size)) w1 { v1 with data := d' }

end Flatdata.Spec
