import Verif.Model.Archive
/-!
# Who owns the memory: `Rc` counts, maps and drops

The other files of the model let storages and the bytes they hand out live for ever. Here storages are counted (`Rc`), are dropped
with their maps when the last `Rc` is gone, and a slice is a pointer into a region of memory that can be freed.

Both storages are covered by one model: they differ only in how they get hold of the bytes of a resource (a copy of a stream, a
mapping of a file), which is left to the environment here. So are all answers of the file system. Streams are not modelled: they are
owned by `Rc`s without any `unsafe` code.
-/
namespace Flatdata
namespace Owner

/-- A storage behind its `Rc`: `MemoryResourceStorage` (src/memstorage.rs:34-37) or `FileResourceStorage` (src/filestorage.rs:38-41)
with the strong count of the `Rc`. `maps` is the `BTreeMap` `resources` (src/memstorage.rs:19, `Rc<Vec<u8>>` that nobody else holds) or
`maps` (src/filestorage.rs:16, `Mmap`), whose values own a region each. -/
structure Store where
  path : Path
  strong : Nat
  maps : List (Key × Nat)

/-- The heap. Identities are never reused (an address can be, but then a pointer to what was there before is as bad as before). -/
structure Heap where
  /-- storages; `none`: not yet there, or dropped -/
  stores : Nat → Option Store
  /-- regions of memory (`Vec<u8>` or `Mmap`); `none`: not yet there, or freed -/
  regions : Nat → Option Bytes
  nextStore : Nat
  nextRegion : Nat
  /-- what the environment answers to the requests in turn: `none` is failure, or no such resource -/
  env : Nat → Option Bytes
  time : Nat

variable {E : Type}

/-- `drop` of a `Vec<u8>` or `Mmap`; freeing twice is undefined. -/
def free (r : Nat) : Act Heap E Unit := fun h =>
  match h.regions r with
  | some _ => (.ok (), { h with regions := upd h.regions r none })
  | none => (.ub, h)

/-- `drop` of the values of a map. -/
def freeAll : List (Key × Nat) → Act Heap E Unit
  | [] => pure ()
  | x :: l => do
    free x.2
    freeAll l

/-- `drop` of an `Rc<ResourceStorage>` (std): the last one drops the storage and with it its maps. -/
def dropRc (o : Nat) : Act Heap E Unit := fun h =>
  match h.stores o with
  | none => (.ub, h)
  | some st =>
    if st.strong = 1 then freeAll st.maps { h with stores := upd h.stores o none }
    else (.ok (), { h with stores := upd h.stores o (some { st with strong := st.strong - 1 }) })

/-- `clone` of an `Rc<ResourceStorage>` (std). -/
def cloneRc (o : Nat) : Act Heap E Unit := fun h =>
  match h.stores o with
  | none => (.ub, h)
  | some st => (.ok (), { h with stores := upd h.stores o (some { st with strong := st.strong + 1 }) })

/-- `new`, src/memstorage.rs:46-51, src/filestorage.rs:46-51: an `Rc` of a new storage. -/
def newStore (path : Path) : Act Heap E Nat := fun h =>
  (.ok h.nextStore, { h with stores := upd h.stores h.nextStore (some ⟨path, 1, []⟩), nextStore := h.nextStore + 1 })

/-- `subdir`, src/memstorage.rs:57-59, src/filestorage.rs:55-57. -/
def subdir (o : Nat) (dir : String) : Act Heap E Nat := fun h =>
  match h.stores o with
  | none => (.ub, h)
  | some st => newStore (join st.path dir) h

/-- A request to the environment without data: `exists`, `create_output_stream`, `write_all`, `seek`. -/
def ask : Act Heap E Bool := fun h => (.ok (h.env h.time).isSome, { h with time := h.time + 1 })

/-- `exists`, src/memstorage.rs:61-65, src/filestorage.rs:59-61. -/
def existsRes (o : Nat) (_ : String) : Act Heap E Bool := fun h =>
  match h.stores o with
  | none => (.ub, h)
  | some _ => ask h

/-- `create_output_stream`, src/memstorage.rs:97-107, src/filestorage.rs:85-92. -/
def createOutputStream (o : Nat) (_ : String) : Act Heap IoErr Unit := fun h =>
  match h.stores o with
  | none => (.ub, h)
  | some _ => (do if (← ask) then pure () else Act.fail IoErr.other : Act Heap IoErr Unit) h

/-- The pointer to the bytes owned by a value of a map: `data.as_ptr()` and `data.len()`, src/memstorage.rs:90-94,
src/filestorage.rs:27-31. -/
def pointer (r : Nat) : Act Heap E (Slice Nat) := fun h =>
  match h.regions r with
  | none => (.ub, h)
  | some d => (.ok ⟨r, 0, d.length⟩, h)

/-- `BTreeMap::insert` of bytes that were just copied or mapped: they are in a new region, and a value that was there before under
the same key is dropped. -/
def insert (o : Nat) (st : Store) (k : Key) (d : Bytes) : Act Heap E (Slice Nat) := fun h =>
  let r := h.nextRegion
  let h := { h with
    regions := upd h.regions r (some d)
    nextRegion := r + 1
    stores := upd h.stores o (some { st with maps := (k, r) :: st.maps.filter fun x => x.1 ≠ k }) }
  (freeAll (st.maps.filter fun x => x.1 = k) >>= fun _ => pointer r) h

/-- `read_resource`, src/memstorage.rs:67-95, src/filestorage.rs:20-32, 63-83: what is in the map already is returned; otherwise the
environment is asked. (The file storage looks first whether the file exists in both cases.) -/
def readResource (o : Nat) (name : String) : Act Heap IoErr (Slice Nat) := fun h =>
  match h.stores o with
  | none => (.ub, h)
  | some st =>
    match h.env h.time with
    | none => (.err .notFound, { h with time := h.time + 1 })
    | some d =>
      match st.maps.lookup (key (join st.path name)) with
      | some r => pointer r { h with time := h.time + 1 }
      | none => insert o st (key (join st.path name)) d { h with time := h.time + 1 }

end Owner

/-- The storages with their heap as a backend. -/
abbrev owning : Backend where
  W := Owner.Heap
  Obj := Nat
  Strm := Unit
  Base := Nat
  subdir := Owner.subdir
  existsRes := Owner.existsRes
  readResource := Owner.readResource
  createOutputStream := Owner.createOutputStream
  writeAll := fun _ _ => do if (← Owner.ask) then pure () else Act.fail IoErr.other
  seekStart := fun _ => do if (← Owner.ask) then pure () else Act.fail IoErr.other
  content h r := (h.regions r).getD []

namespace Owner

mutual
/-- An opened archive with its field `_storage`, src/archive.rs:475-484. -/
inductive Arch where
  | mk (storage : Nat) (resources : List (Opened Nat)) (subs : Subs)

/-- Its subarchives. -/
inductive Subs where
  | nil
  | cons (archive : Option Arch) (rest : Subs)
end

mutual
/-- Drop glue of an archive: its fields in the order of their declaration (src/archive.rs:475-484). -/
def dropArch {E : Type} : Arch → Act Heap E Unit
  | .mk o _ ss => do
    dropRc o
    dropSubs ss

def dropSubs {E : Type} : Subs → Act Heap E Unit
  | .nil => pure ()
  | .cons none rest => dropSubs rest
  | .cons (some a) rest => do
    dropArch a
    dropSubs rest
end

mutual
/-- The derived `Clone`, src/archive.rs:475: descriptors are copied, the `Rc`s are cloned. -/
def cloneArch {E : Type} : Arch → Act Heap E Unit
  | .mk o _ ss => do
    cloneRc o
    cloneSubs ss

def cloneSubs {E : Type} : Subs → Act Heap E Unit
  | .nil => pure ()
  | .cons none rest => cloneSubs rest
  | .cons (some a) rest => do
    cloneArch a
    cloneSubs rest
end

/-- What a function owns is dropped when it returns early or panics. -/
def orDrop {E α : Type} (d : Act Heap Empty Unit) (x : Act Heap E α) : Act Heap E α := fun h =>
  match x h with
  | (.ok a, h) => (.ok a, h)
  | (.err e, h) => (d.mapErr Empty.elim >>= fun _ => Act.fail e) h
  | (.panic, h) => (d.mapErr Empty.elim >>= fun _ => Act.lift .panic) h
  | (.ub, h) => (.ub, h)

/-- Drop of a subarchive, if there is one. -/
def dropOpt {E : Type} : Option Arch → Act Heap E Unit
  | none => pure ()
  | some a => dropArch a

section
variable [DiffLib] (p : Profile) (e : Endian)

mutual
/-- `Archive::open`, src/archive.rs:589-650, with ownership: it owns the `Rc` and the subarchives opened so far, and moves them into
the archive at the end. -/
def openOwned (o : Nat) : ArchiveDef → Act Heap RErr Arch
  | .mk name schema resources subs => orDrop (dropRc o) (do
    let _ ← Storage.read owning p e o (name ++ ".archive") schema
    let xs ← openResources owning p e o resources
    let ss ← openSubsOwned o subs
    pure (.mk o xs ss))

/-- The subarchives in order, src/archive.rs:636-641. -/
def openSubsOwned (o : Nat) : SubDefs → Act Heap RErr Subs
  | .nil => pure .nil
  | .cons name optional archive rest => do
    let o' ← subdir o name
    let a ← checkRes owning optional (openOwned o' archive)
    orDrop (dropOpt a) (do
      let ss ← openSubsOwned o rest
      pure (.cons a ss))
end

/-- `ArchiveBuilder::new`, src/archive.rs:723-728: `create_archive` borrows the `Rc`, which is then moved into the builder, or dropped
on failure. -/
def buildOwned (o : Nat) (D : ArchiveDef) : Act Heap RErr Unit :=
  orDrop (dropRc o) (Storage.createArchive owning p e o D.signature D.schema)

/-- The method of a builder for a subarchive, src/archive.rs:710-716. -/
def buildSubOwned (o : Nat) (name : String) (D : ArchiveDef) : Act Heap RErr Nat := do
  let o' ← subdir o name
  buildOwned p e o' D
  pure o'

end
end Owner
end Flatdata
