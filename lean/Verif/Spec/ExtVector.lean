import Verif.Model.ExtVector
import Verif.Spec.World
/-!
# Specification of external vectors: histories of one vector amid everything else that happens
-/
namespace Flatdata.Spec

/-- What may be there before a resource is created: in memory nothing (an existing stream would be continued), on disk
anything (it is truncated). -/
def Kind.replaceable : Kind → Option Bytes → Prop
  | .memory, d => d = none
  | .disk, _ => True

/-- A resource can be newly created under a name: neither it nor its schema has been read by the storage object, and in
memory there is nothing yet. -/
structure Kind.Unused (k : Kind) (w : k.backend.W) (o : k.backend.Obj) (name : String) : Prop where
  data : k.replaceable (k.stored w o name)
  schema : k.replaceable (k.stored w o (name ++ ".schema"))
  unread : k.unread w o name
  unreadSchema : k.unread w o (name ++ ".schema")

/-- The two places of a resource. -/
def Kind.Own (k : Kind) (o : k.backend.Obj) (name : String) (l : k.Place) : Prop :=
  l = k.place o name ∨ l = k.place o (name ++ ".schema")

/-- Everything that can happen to a vector `v` between creation and close, in any order: successful `grow`s, each followed
by operations through the returned handle (recorded in the list); failed `grow`s; any calls by anybody that do not
concern the resource; and reading anything (also the resource itself) through other storage objects. -/
inductive Grows (k : Kind) (p : Profile) (e : Endian) (S : StructDef) (o : k.backend.Obj) (name : String) (w : k.backend.W)
    (v : ExtVec k.backend) : List (List HandleOp) → k.backend.W → ExtVec k.backend → Prop
  | start : Grows k p e S o name w v [] w v
  | grow {es w1 v1 v2 pos w2 ops d} (g : Grows k p e S o name w v es w1 v1) (h : v1.grow p S.size w1 = (.ok (v2, pos), w2))
      (hw : Vector.writeAt p e S v2.data pos ops = .ok d) : Grows k p e S o name w v (es ++ [ops]) w2 { v2 with data := d }
  | failed {es w1 v1 x w2} (g : Grows k p e S o name w v es w1 v1) (h : v1.grow p S.size w1 = (.err x, w2)) :
      Grows k p e S o name w v es w2 v1
  | other {es w1 v1 w2} (g : Grows k p e S o name w v es w1 v1) (h : k.StepAway (k.Own o name) w1 w2) :
      Grows k p e S o name w v es w2 v1
  | elsewhere {es w1 v1 o' n r w2} (g : Grows k p e S o name w v es w1 v1) (ho : k.alive w1 o') (hi : k.ident o' ≠ k.ident o)
      (h : k.backend.readResource o' n w1 = (r, w2)) : Grows k p e S o name w v es w2 v1

/-- States in the life of a vector, from the beginning of its creation to the end of its closing, with the elements grown so
far. As every call may fail at any byte, these are all states in which the process can die. -/
inductive Life [DiffLib] (k : Kind) (p : Profile) (e : Endian) (S : StructDef) (o : k.backend.Obj) (name schema : String)
    (w0 : k.backend.W) : List (List HandleOp) → k.backend.W → Prop
  | created {r w} (h : createExternalVector p e o name schema w0 = (r, w)) : Life k p e S o name schema w0 [] w
  | grown {v w es w1 v1} (h : createExternalVector p e o name schema w0 = (.ok v, w))
      (g : Grows k p e S o name w v es w1 v1) : Life k p e S o name schema w0 es w1
  | closed {v w es w1 v1 r w2} (h : createExternalVector p e o name schema w0 = (.ok v, w))
      (g : Grows k p e S o name w v es w1 v1) (c : v1.close p e w1 = (r, w2)) : Life k p e S o name schema w0 es w2

/-- The elements the user has written: each starts with all bytes zero. -/
def Elements (p : Profile) (e : Endian) (S : StructDef) : List (List HandleOp) → List Bytes → Prop
  | [], [] => True
  | ops :: es, x :: xs => runHandle p e S ops (zeros S.size) = .ok x ∧ Elements p e S es xs
  | _, _ => False

end Flatdata.Spec
