import Verif.Model.OpenFiles
import Verif.Spec.Program
/-!
# Programs that build an archive with a limited number of open files
-/
namespace Flatdata.Spec
open Limited

section
variable [DiffLib] (p : Profile) (e : Endian)

/-- The calls that write one resource, see `writeResource`. A vector that is not closed because of an error is dropped. -/
def writeLimited (o : Obj) (r : ResDecl) (s : Source) : Act LimW RErr Unit :=
  match r.type, s with
  | .struct S, .struct item => (Limited.setStruct p e o r S item).mapErr (RErr.io · r.name)
  | .vector _, .data b => (Limited.write p e o r.name r.schema b).mapErr (RErr.io · r.name)
  | .raw, .data b => (Limited.write p e o r.name r.schema b).mapErr (RErr.io · r.name)
  | .vector S, .elements es => do
    let v ← (Limited.createExternalVector p e o r.name r.schema).mapErr (RErr.io · r.name)
    let v ← passing v.held (inner ((es.foldlM (growOne file p e S) v).mapErr (RErr.io · r.name)))
    let _ ← Limited.close p e v
    pure ()
  | .multi V _, .items its => do
    let v ← (Limited.createMultiVector p e o r.name r.schema).mapErr (RErr.io · r.name)
    let v ← passing v.held (inner ((its.foldlM (growItem file p e V) v).mapErr (RErr.io · r.name)))
    let _ ← Limited.closeMulti p e V v
    pure ()
  | _, _ => Act.lift .ub

/-- Running a program with the builder `o`. -/
def Prog.runLimited : Prog → Obj → Act LimW RErr Unit
  | .done, _ => pure ()
  | .res r s rest, o => do
    writeLimited p e o r s
    rest.runLimited o
  | .sub name D inner rest, o => do
    let o' ← Limited.builderSub p e o name D
    inner.runLimited o'
    rest.runLimited o

/-- Creating the builder and running the program. -/
def buildLimited (o : Obj) (D : ArchiveDef) (prog : Prog) : Act LimW RErr Unit := do
  let o ← Limited.builderNew p e o D
  prog.runLimited p e o

end

/-- With at least `k` files that may be opened, `x` does what `y` does without a limit. However many there are and whatever `x` does, as
many may be opened afterwards as before, in addition the `g` it was given, without the `t` of its result. -/
def Balanced {E α : Type} (k g : Nat) (t : α → Nat) (x : Act LimW E α) (y : Act FileW E α) : Prop :=
  ∀ w n, (k ≤ n → (x (w, n)).1 = (y w).1 ∧ (x (w, n)).2.1 = (y w).2) ∧
    (∀ a, (x (w, n)).1 = .ok a → (x (w, n)).2.2 + t a = n + g) ∧ ((x (w, n)).1.isOk = false → (x (w, n)).2.2 = n + g)

end Flatdata.Spec
