import Verif.Model.Archive
import Verif.Spec.World
/-!
# Specification of archives: when a stored archive is complete, and what an opened one shows
-/
namespace Flatdata.Spec

/-- What is stored below a directory, by path of subdirectories and name. -/
abbrev Dir := List String → String → Option Bytes

/-- The content of a subdirectory. -/
def Dir.sub (dir : Dir) (name : String) : Dir := fun ds n => dir (name :: ds) n

/-- What is stored in the directory of a storage object and its subdirectories. The memory storage has no subdirectories: a
subdirectory of it is a new storage. -/
def Kind.dir : (k : Kind) → k.backend.W → k.backend.Obj → Dir
  | .memory, w, o, [], n => Kind.stored .memory w o n
  | .memory, _, _, _ :: _, _ => none
  | .disk, w, o, ds, n => (w : FileW).fs.files (key (join (ds.foldl join (o : Obj).path) n))

/-- The storage object sees what is stored under a name: either it has not read the name yet, or what it has read is still
what is stored. -/
def Kind.current : (k : Kind) → k.backend.W → k.backend.Obj → String → Prop
  | .memory, w, o, n => ∀ d, (w : MemW).resources ((o : Obj).id, key (join (o : Obj).path n)) = some d →
      Kind.stored .memory w o n = some d
  | .disk, w, o, n => ∀ x, (w : FileW).maps (o : Obj).id (join (o : Obj).path n) = some x →
      ∃ d, Kind.stored .disk w o n = some d ∧ d ≠ [] ∧ x = (key (join (o : Obj).path n), d.length)

/-- A complete resource with the right schema is stored under a name (readable by the storage: on disk a schema file must
not be empty). -/
structure Valid (k : Kind) (dir : String → Option Bytes) (name schema : String) (x : Bytes) : Prop where
  data : ∃ d, dir name = some d ∧ Holds d x ∧ d.length < 2 ^ 64
  text : dir (name ++ ".schema") = some (strBytes schema)
  mappable : k.mappable (strBytes schema)

/-- The named resources (with schema) that a resource of an archive consists of: a multivector has an index and data. -/
def parts (r : ResDecl) : List (String × String) :=
  match r.type with
  | .multi _ index => [(index, "index(" ++ r.schema ++ ")"), (r.name, r.schema)]
  | _ => [(r.name, r.schema)]

mutual
/-- The archive is stored completely: signature, all parts of non-optional resources, and non-optional subarchives. -/
def Complete (k : Kind) : ArchiveDef → Dir → Prop
  | .mk name schema resources subs, dir =>
    (∃ x, Valid k (dir []) (name ++ ".archive") schema x) ∧
    (∀ r ∈ resources, r.optional = false → ∀ q ∈ parts r, ∃ x, Valid k (dir []) q.1 q.2 x) ∧
    SubsComplete k subs dir

/-- ... for the subarchives. -/
def SubsComplete (k : Kind) : SubDefs → Dir → Prop
  | .nil, _ => True
  | .cons name optional archive rest, dir => (optional = false → Complete k archive (dir.sub name)) ∧ SubsComplete k rest dir
end

section
variable {Base : Type} (k : Kind) (clean : Prop) (shows : Slice Base → Bytes → Prop)

/-- One descriptor of an opened archive: it shows the payload of the stored resource; it may be absent only for optional
resources and, if nothing fails (`clean`), only if there is no such resource. -/
def SlotShows (optional : Bool) (dir : String → Option Bytes) (name schema : String) : Option (Slice Base) → Prop
  | some s => ∃ x, Valid k dir name schema x ∧ shows s x
  | none => optional = true ∧ (clean → ¬ ∃ x, Valid k dir name schema x)

/-- The descriptors of one resource. -/
def ResShows (dir : String → Option Bytes) (r : ResDecl) (x : Opened Base) : Prop :=
  match r.type, x with
  | .multi _ index, .two i d =>
    SlotShows k clean shows r.optional dir index ("index(" ++ r.schema ++ ")") i ∧
    SlotShows k clean shows r.optional dir r.name r.schema d
  | .multi _ _, .one _ => False
  | _, .one d => SlotShows k clean shows r.optional dir r.name r.schema d
  | _, .two _ _ => False

/-- All resources, in order. -/
def AllShow (dir : String → Option Bytes) : List ResDecl → List (Opened Base) → Prop
  | [], [] => True
  | r :: rs, x :: xs => ResShows k clean shows dir r x ∧ AllShow dir rs xs
  | _, _ => False

mutual
/-- An opened archive shows what is stored. -/
def ArchiveShows : ArchiveDef → Dir → Archive Base → Prop
  | .mk name schema resources subs, dir, .mk xs ss =>
    (∃ x, Valid k (dir []) (name ++ ".archive") schema x) ∧ AllShow k clean shows (dir []) resources xs ∧ SubsShow subs dir ss

/-- ... and its subarchives. -/
def SubsShow : SubDefs → Dir → SubArchives Base → Prop
  | .nil, _, .nil => True
  | .cons name optional archive rest, dir, .cons a ss =>
    (match a with
      | some a => ArchiveShows archive (dir.sub name) a
      | none => optional = true ∧ (clean → ¬ Complete k archive (dir.sub name))) ∧ SubsShow rest dir ss
  | _, _, _ => False
end
end

/-- The size field of a stored resource is so large that adding header and padding overflows. -/
def Huge (dir : String → Option Bytes) (name : String) : Prop :=
  ∃ d, dir name = some d ∧ 16 ≤ d.length ∧ 2 ^ 64 ≤ leNat (d.take 8) + 16

mutual
/-- Some resource belonging to the archive has such a size field. -/
def SomeHuge : ArchiveDef → Dir → Prop
  | .mk name _ resources subs, dir =>
    Huge (dir []) (name ++ ".archive") ∨ (∃ r ∈ resources, ∃ q ∈ parts r, Huge (dir []) q.1) ∨ SubsHuge subs dir

/-- ... or to a subarchive. -/
def SubsHuge : SubDefs → Dir → Prop
  | .nil, _ => False
  | .cons name _ archive rest, dir => SomeHuge archive (dir.sub name) ∨ SubsHuge rest dir
end

/-- The storage object sees what is stored under the names of the archive (not those of its subarchives, for which new
storage objects are created). -/
def Kind.Current (k : Kind) (w : k.backend.W) (o : k.backend.Obj) (D : ArchiveDef) : Prop :=
  ∀ n, (n = D.name ++ ".archive" ∨ ∃ r ∈ D.resources, ∃ q ∈ parts r, q.1 = n) → k.current w o n ∧ k.current w o (n ++ ".schema")

end Flatdata.Spec
