import Verif.Model.MultiVector
import Verif.Spec.MultiView
import Verif.Spec.ExtVector
/-!
# Specification of multivectors: histories of one multivector amid everything else that happens
-/
namespace Flatdata.Spec

/-- One `add_…` call of an item builder: the variant, its struct, and the operations through the returned handle. -/
structure Add where
  type : BitVec 8
  struct : StructDef
  ops : List HandleOp

/-- What the user has written into an item: each struct starts with all bytes zero. -/
def Contents (p : Profile) (e : Endian) : List Add → List (BitVec 8 × Bytes) → Prop
  | [], [] => True
  | a :: as, x :: xs => x.1 = a.type ∧ runHandle p e a.struct a.ops (zeros a.struct.size) = .ok x.2 ∧ Contents p e as xs
  | _, _ => False

/-- What the user has written into the items of a multivector. -/
def AllContents (p : Profile) (e : Endian) : List (List Add) → List (List (BitVec 8 × Bytes)) → Prop
  | [], [] => True
  | as :: its, xs :: xss => Contents p e as xs ∧ AllContents p e its xss
  | _, _ => False

/-- The number of bytes of an item. -/
def itemSize (as : List Add) : Nat := (as.map fun a => 1 + a.struct.size).sum

/-- The number of bytes of the data of a multivector. -/
def dataSize (its : List (List Add)) : Nat := (its.map itemSize).sum

/-- The data of a multivector: its items one after the other. -/
def encodeItems (xss : List (List (BitVec 8 × Bytes))) : Bytes := (xss.map encodeItem).flatten

/-- Where the items start if the first one starts at `a`. -/
def starts (a : Nat) : List (List Add) → List Nat
  | [] => []
  | as :: its => a :: starts (a + itemSize as) its

/-- The index of a multivector: the starts of all items and, as sentinel, the end of the last one. -/
def indexNumbers (its : List (List Add)) : List Nat := starts 0 its ++ [dataSize its]

/-- What the user of a multi array view sees, in every build: the items in order, each with its variants and the bytes of their
structs. -/
def Shows (V : Variadic) (v : MultiView) (xss : List (List (BitVec 8 × Bytes))) : Prop :=
  MultiOK V v ∧ ∀ (p : Profile) (e : Endian), MultiView.len p V v = .ok xss.length ∧
    ∀ i (h : i < xss.length), ∃ b l, MultiView.at' p e V v i = .ok b ∧ MultiView.itemCollect V b = .ok l ∧
      l.map Elem.content = xss[i]

/-- The four places of a multivector. -/
def Kind.MOwn (k : Kind) (o : k.backend.Obj) (name : String) (l : k.Place) : Prop :=
  k.Own o name l ∨ k.Own o (name ++ "_index") l

/-- A multivector can be newly created under a name. -/
structure Kind.MUnused (k : Kind) (w : k.backend.W) (o : k.backend.Obj) (name : String) : Prop where
  data : k.Unused w o name
  index : k.Unused w o (name ++ "_index")

/-- Everything that can happen to a multivector `v` between creation and close, in any order: successful `grow`s, each
starting a new item; `add_…` calls on the builder of the last item, each followed by operations through the returned
handle; failed `grow`s; any calls by anybody that do not concern the two resources; and reading anything (also these
resources) through other storage objects. -/
inductive MGrows (k : Kind) (p : Profile) (e : Endian) (V : Variadic) (o : k.backend.Obj) (name : String) (w : k.backend.W)
    (v : MultiVec k.backend) : List (List Add) → k.backend.W → MultiVec k.backend → Prop
  | start : MGrows k p e V o name w v [] w v
  | grow {its w1 v1 v2 w2} (g : MGrows k p e V o name w v its w1 v1) (h : v1.grow p e V w1 = (.ok (.ok (), v2), w2)) :
      MGrows k p e V o name w v (its ++ [[]]) w2 v2
  | add {its as w1 v1 a d pos d'} (g : MGrows k p e V o name w v (its ++ [as]) w1 v1) (hm : (a.type, a.struct) ∈ V.types)
      (h : MultiVec.builderAdd p a.type a.struct.size v1.data = .ok (d, pos))
      (hw : Vector.writeAt p e a.struct d pos a.ops = .ok d') :
      MGrows k p e V o name w v (its ++ [as ++ [a]]) w1 { v1 with data := d' }
  | failed {its w1 v1 x v2 w2} (g : MGrows k p e V o name w v its w1 v1) (h : v1.grow p e V w1 = (.ok (.error x, v2), w2)) :
      MGrows k p e V o name w v its w2 v2
  | other {its w1 v1 w2} (g : MGrows k p e V o name w v its w1 v1) (h : k.StepAway (k.MOwn o name) w1 w2) :
      MGrows k p e V o name w v its w2 v1
  | elsewhere {its w1 v1 o' n r w2} (g : MGrows k p e V o name w v its w1 v1) (ho : k.alive w1 o') (hi : k.ident o' ≠ k.ident o)
      (h : k.backend.readResource o' n w1 = (r, w2)) : MGrows k p e V o name w v its w2 v1

/-- States in the life of a multivector, from the beginning of its creation to the end of its closing, with the items so
far. As every call may fail at any byte, these are all states in which the process can die. -/
inductive MLife [DiffLib] (k : Kind) (p : Profile) (e : Endian) (V : Variadic) (o : k.backend.Obj) (name schema : String)
    (w0 : k.backend.W) : List (List Add) → k.backend.W → Prop
  | created {r w} (h : createMultiVector p e o name schema w0 = (r, w)) : MLife k p e V o name schema w0 [] w
  | grown {v w its w1 v1} (h : createMultiVector p e o name schema w0 = (.ok v, w))
      (g : MGrows k p e V o name w v its w1 v1) : MLife k p e V o name schema w0 its w1
  | closed {v w its w1 v1 r w2} (h : createMultiVector p e o name schema w0 = (.ok v, w))
      (g : MGrows k p e V o name w v its w1 v1) (c : v1.close p e V w1 = (r, w2)) : MLife k p e V o name schema w0 its w2

end Flatdata.Spec
