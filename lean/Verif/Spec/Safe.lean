import Verif.Spec.Client
import Verif.Spec.Debug
import Verif.Spec.World
/-!
# When a client program uses the library soundly

`Call.Guard` states what must hold when a function of the library is called: what the types of Rust guarantee about the arguments
(a reference to a struct has at least its size, a stream or storage object exists, a buffer is not longer than `isize::MAX`), and
what the user has to take care of because the library does not (the findings of C05, C09, C35, C39). `Call.Gives` states what is
known about the result, in the same terms, so that it can be passed on.
-/
namespace Flatdata.Spec

/-! ## Storage -/

namespace Kind

/-- No storage object of this process has mapped the file. (In memory it does not matter: what has been read is a copy.) -/
def unmapped : (k : Kind) → k.backend.W → k.Place → Prop
  | memory, _, _ => True
  | disk, w, l => ∀ i p n, (w : FileW).maps i p ≠ some (l, n)

/-- All of a file that has been mapped still exists. (In memory: nothing to say.) -/
def intact : (k : Kind) → k.backend.W → Prop
  | memory, _ => True
  | disk, w => ∀ i p l n, (w : FileW).maps i p = some (l, n) → ∃ d, (w : FileW).fs.files l = some d ∧ n ≤ d.length

/-- The slice is part of something that some storage object has read. -/
def held : (k : Kind) → k.backend.W → Slice k.backend.Base → Prop
  | memory, w, s => ∃ d, (w : MemW).resources s.base = some d ∧ s.off + s.len ≤ d.length
  | disk, w, s => ∃ i p n, (w : FileW).maps i p = some (s.base, n) ∧ s.off + s.len ≤ n

/-- The place of a resource in a subdirectory of a storage object. In memory, a subdirectory is a new storage object. -/
def subUnmapped : (k : Kind) → k.backend.W → k.backend.Obj → String → String → Prop
  | memory, _, _, _, _ => True
  | disk, w, o, d, n => unmapped disk w (key (join (join (o : Obj).path d) n))

/-- A resource that may be written: no process has mapped it or its schema. -/
def writable (k : Kind) (w : k.backend.W) (o : k.backend.Obj) (name : String) : Prop :=
  k.unmapped w (k.place o name) ∧ k.unmapped w (k.place o (name ++ ".schema"))

end Kind

section
variable {k : Kind}

/-- The stream of the handle exists, and its storage object. -/
structure HandleFine (w : k.backend.W) (h : Handle k.backend) : Prop where
  stream : ∀ s, h.stream = some s → k.streamOpen w s
  obj : k.alive w h.obj

/-- A multivector. -/
structure MultiFine (w : k.backend.W) (v : MultiVec k.backend) : Prop where
  handle : HandleFine w v.handle
  index : HandleFine w v.index.handle

/-- All slices of a list can be followed. -/
def AllHeld (w : k.backend.W) (l : List (Option (Slice k.backend.Base))) : Prop := ∀ s, some s ∈ l → k.held w s

/-- The descriptors of a resource. -/
def descriptors {Base : Type} : Opened Base → List (Option (Slice Base))
  | .one d => [d]
  | .two i d => [i, d]

/-- The descriptors of a resource of an archive: as declared, all there if the resource is not optional, and held. -/
def ResFine (w : k.backend.W) (r : ResDecl) (x : Opened k.backend.Base) : Prop :=
  (match r.type, x with
    | .multi _ _, .two _ _ => True
    | .multi _ _, .one _ => False
    | _, .one _ => True
    | _, .two _ _ => False) ∧
  (r.optional = false → none ∉ descriptors x) ∧ AllHeld w (descriptors x)

/-- ... of all resources. -/
def AllFine (w : k.backend.W) : List ResDecl → List (Opened k.backend.Base) → Prop
  | [], [] => True
  | r :: rs, x :: xs => ResFine w r x ∧ AllFine w rs xs
  | _, _ => False

mutual
/-- An opened archive of the given type. -/
def ArchiveFine (w : k.backend.W) : ArchiveDef → Archive k.backend.Base → Prop
  | .mk _ _ rs subs, .mk xs ss => AllFine w rs xs ∧ SubsFine w subs ss

/-- ... and its subarchives. -/
def SubsFine (w : k.backend.W) : SubDefs → SubArchives k.backend.Base → Prop
  | .nil, .nil => True
  | .cons _ optional D rest, .cons a ss =>
    (match a with
      | some a => ArchiveFine w D a
      | none => optional = true) ∧ SubsFine w rest ss
  | _, _ => False
end

end

/-! ## Structs -/

/-- Struct definitions whose fields can be read: no field straddles (C04), no enum field is a signed field of one bit (C03). -/
structure Legible (S : StructDef) : Prop where
  wf : WF S
  straight : ∀ f ∈ S.fields, f.bits + f.off % 8 ≤ 64 ∨ f.off < 8
  narrow : ∀ f ∈ S.fields, f.variants ≠ none → f.ty.signed = true → f.bits ≠ 1

/-- Memory from which all getters of a struct can read: all bytes are there (C39), enum fields hold variants (C09). -/
structure GoodMem (S : StructDef) (mem : Bytes) : Prop where
  legible : Legible S
  size : S.size ≤ mem.length
  enums : EnumsOK S mem

/-- A view of structs all of which can be read. -/
structure GoodView (S : StructDef) (view : Bytes) : Prop where
  legible : Legible S
  size : view.length < 2 ^ 63
  enums : ∀ x ∈ elems S.size view, EnumsOK S x

/-- Structs that can be read from any memory of their size: there is no enum field with bits that are no variant. -/
def AlwaysGood (S : StructDef) : Prop := ∀ mem : Bytes, S.size ≤ mem.length → GoodMem S mem

/-- A multi array view with an index of a proper type; sizes are below `isize::MAX`. -/
structure GoodIndex (V : Variadic) (index : Bytes) : Prop where
  ok : IndexOK V
  type : V.indexSize < 2 ^ 63
  size : index.length < 2 ^ 63

/-- A variadic type whose items can be read whatever they hold. -/
structure GoodVariadic (V : Variadic) : Prop where
  types : ∀ x ∈ V.types, AlwaysGood x.2

/-- What is done through a handle uses the fields of the struct. -/
def OpFine (S : StructDef) : HandleOp → Prop
  | .set f _ => f ∈ S.fields
  | .fill src => GoodMem S src

/-- The content of a resource can be read with its type. -/
def ContentReadable (k : Kind) (w : k.backend.W) (r : ResDecl) (x : Opened k.backend.Base) : Prop :=
  match r.type with
  | .struct S => ∀ b, x.bytes k.backend w = .ok (some b) → GoodMem S b
  | .vector S => ∀ b, x.bytes k.backend w = .ok (some b) → GoodView S b
  | .multi V _ => GoodVariadic V ∧ ∀ v, x.multi k.backend w = .ok (some v) → GoodIndex V v.index
  | .raw => True

/-- ... of all resources. -/
def AllReadable (k : Kind) (w : k.backend.W) : List ResDecl → List (Opened k.backend.Base) → Prop
  | r :: rs, x :: xs => ContentReadable k w r x ∧ AllReadable k w rs xs
  | _, _ => True

mutual
/-- ... of an archive. -/
def ArchiveReadable (k : Kind) (w : k.backend.W) : ArchiveDef → Archive k.backend.Base → Prop
  | .mk _ _ rs subs, .mk xs ss => AllReadable k w rs xs ∧ SubsReadable k w subs ss

/-- ... and of its subarchives. -/
def SubsReadable (k : Kind) (w : k.backend.W) : SubDefs → SubArchives k.backend.Base → Prop
  | .cons _ _ D rest, .cons a ss =>
    (match a with
      | some a => ArchiveReadable k w D a
      | none => True) ∧ SubsReadable k w rest ss
  | _, _ => True
end

/-! ## Calls -/

/-- What must hold when a function is called. -/
def Call.Guard (k : Kind) (w : k.backend.W) : {β : Type} → Call k.backend β → Prop
  | _, .get f mem => ∃ S, f ∈ S.fields ∧ GoodMem S mem
  | _, .edit S data pos ops => WF S ∧ pos + S.size ≤ data.length ∧ ∀ op ∈ ops, OpFine S op
  | _, .structEq S a b => GoodMem S a ∧ GoodMem S b
  | _, .structDebug S mem => GoodMem S mem
  | _, .bufDebug S data => GoodMem S data
  | _, .vecDebug S data => GoodView S (data.take (data.length - 8))
  | _, .viewDebug S _ view => GoodView S view
  | _, .elemEq x y => x.type = y.type → GoodMem x.struct x.mem ∧ GoodMem x.struct y.mem
  | _, .elemDebug x => GoodMem x.struct x.mem
  | _, .itemDebug V _ => GoodVariadic V
  | _, .multiAt V v _ => GoodIndex V v.index
  | _, .multiNext V v => GoodIndex V v.index
  | _, .multiNextBack V v => GoodIndex V v.index
  | _, .multiDebug V _ v => GoodIndex V v.index ∧ GoodVariadic V
  | _, .write o name _ _ => k.alive w o ∧ k.writable w o name
  | _, .read o _ _ => k.alive w o
  | _, .createArchive o signature _ => k.alive w o ∧ k.writable w o signature
  | _, .handleNew o _ _ s => k.alive w o ∧ k.streamOpen w s
  | _, .handleWrite h _ => HandleFine w h
  | _, .handleClose h => HandleFine w h
  | _, .createVector o name _ => k.alive w o ∧ k.writable w o name
  | _, .vectorGrow _ v => HandleFine w v.handle
  | _, .vectorClose v => HandleFine w v.handle
  | _, .createMulti o name _ => k.alive w o ∧ k.writable w o name ∧ k.writable w o (name ++ "_index")
  | _, .multiGrow V v => GoodIndex V v.index.data ∧ MultiFine w v
  | _, .multiClose V v => GoodIndex V v.index.data ∧ MultiFine w v
  | _, .openArchive o _ => k.alive w o
  | _, .archiveDebug _ D a => ArchiveFine w D a ∧ ArchiveReadable k w D a
  | _, .builderNew o D => k.alive w o ∧ k.writable w o (D.name ++ ".archive")
  | _, .builderSub o name D =>
    k.subUnmapped w o name (D.name ++ ".archive") ∧ k.subUnmapped w o name (D.name ++ ".archive" ++ ".schema")
  | _, .setStruct o r S item => k.alive w o ∧ k.writable w o r.name ∧ S.size ≤ item.length
  | _, .setVector o r _ => k.alive w o ∧ k.writable w o r.name
  | _, .setRaw o r _ => k.alive w o ∧ k.writable w o r.name
  | _, .startVector o r => k.alive w o ∧ k.writable w o r.name
  | _, .startMulti o r => k.alive w o ∧ k.writable w o r.name ∧ k.writable w o (r.name ++ "_index")
  | _, .other x => (x w).1 ≠ .ub ∧ k.Steps w (x w).2 ∧ k.intact (x w).2
  | _, _ => True

/-- What is known about the result of a call, in the state afterwards. -/
def Call.Gives (k : Kind) (w : k.backend.W) : {β : Type} → Call k.backend β → β → Prop
  | _, .edit _ data _ _, d => d.length = data.length
  | _, .vecGrow size data, r => 8 ≤ data.length → data.length < 2 ^ 63 → size < 2 ^ 63 → (data.length - 8) % size = 0 →
      r.1.length = data.length + size ∧ r.2 + size + 8 = r.1.length
  | _, .vecAt size data i, r => (i + 1) * size + 8 ≤ data.length → data.length < 2 ^ 63 → size ≤ r.length
  | _, .vecAtMut size data i, pos => (i + 1) * size + 8 ≤ data.length → data.length < 2 ^ 63 → pos + size ≤ data.length
  | _, .viewAt size data _, r => size < 2 ^ 63 → data.length < 2 ^ 63 → size ≤ r.length
  | _, .viewNext size view, r => view.length < 2 ^ 63 → ∀ x, r.1 = some x → size ≤ x.length
  | _, .viewNextBack size view, r => view.length < 2 ^ 63 → ∀ x, r.1 = some x → size ≤ x.length
  | _, .itemAdd _ size data, r => data.length < 2 ^ 63 → size < 2 ^ 63 → r.2 + size ≤ r.1.length
  | _, .read _ _ _, r => ∀ s, r = .ok s → k.held w s
  | _, .handleNew _ _ _ _, r => ∀ h, r = .ok h → HandleFine w h
  | _, .handleWrite _ _, r => ∀ h, r = .ok h → HandleFine w h
  | _, .handleClose _, r => HandleFine w r.2 ∧ ∀ s, r.1 = .ok s → k.held w s
  | _, .createVector _ _ _, r => ∀ v, r = .ok v → HandleFine w v.handle ∧ v.data.length < 2 ^ 63
  | _, .vectorGrow size v, r => ∀ x, r = .ok x → HandleFine w x.1.handle ∧ x.1.data.length < 2 ^ 63 ∧
      (v.data.length < 2 ^ 63 → size < 2 ^ 63 → x.2 + size ≤ x.1.data.length)
  | _, .vectorClose _, r => ∀ s, r = .ok s → k.held w s
  | _, .createMulti _ _ _, r => ∀ v, r = .ok v → MultiFine w v ∧ v.index.data.length < 2 ^ 63
  | _, .multiGrow _ _, r => MultiFine w r.2 ∧ r.2.index.data.length < 2 ^ 63
  | _, .multiClose _ _, r => ∀ x, r = .ok x → k.held w x.1 ∧ k.held w x.2
  | _, .openArchive _ D, r => ∀ a, r = .ok a → ArchiveFine w D a
  | _, .builderNew _ _, r => ∀ o, r = .ok o → k.alive w o
  | _, .builderSub _ _ _, r => ∀ o, r = .ok o → k.alive w o
  | _, .startVector _ _, r => ∀ v, r = .ok v → HandleFine w v.handle ∧ v.data.length < 2 ^ 63
  | _, .startMulti _ _, r => ∀ v, r = .ok v → MultiFine w v ∧ v.index.data.length < 2 ^ 63
  | _, _, _ => True

/-- A client program that respects the guards whenever it calls a function, from a state on. -/
def Client.Guarded [DiffLib] (k : Kind) (p : Profile) (e : Endian) {α : Type} : Client k.backend α → k.backend.W → Prop
  | .ret _, _ => True
  | .call c next, w => c.Guard k w ∧ ∀ b w', c.run p e w = (.ok b, w') → (next b).Guarded k p e w'

end Flatdata.Spec
