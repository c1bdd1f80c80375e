import Verif.Model.MultiVector
import Verif.Model.Archive
/-!
# Files that are open at the same time

The other files of the model say nothing about when a `File` is closed, and let a process open any number of them. Here the functions
that open files or own some are given once more, over a world with the number of files the process may still open. Opening one more
is an error (EMFILE, std: of no particular kind), before anything happens to the file. Not in /repo, from the Rust reference: a `File`
is closed when its last owner is dropped, that is a local variable at the end of its scope and a field with its value, also on `?`,
on `return` and while unwinding. Simplification: no handle has been cloned (src/storage.rs:264).
-/
namespace Flatdata

/-- The disk, and how many files the process may still open. -/
abbrev LimW := FileW × Nat

namespace Limited
variable {E α : Type}

/-- Code that neither opens nor closes files. -/
def inner (x : Act FileW E α) : Act LimW E α := fun w => ((x w.1).1, ((x w.1).2, w.2))

/-- A call that opens a file if it succeeds. -/
def opening (x : Act FileW IoErr α) : Act LimW IoErr α := fun w =>
  if w.2 = 0 then (.err .other, w)
  else match x w.1 with
    | (.ok a, v) => (.ok a, (v, w.2 - 1))
    | (r, v) => (r, (v, w.2))

/-- `n` files are closed. -/
def release (n : Nat) : Act LimW E Unit := fun w => (.ok (), (w.1, w.2 + n))

/-- Code in the scope of a local variable that owns a file. -/
def scope (x : Act LimW E α) : Act LimW E α := fun w => ((x w).1, ((x w).2.1, (x w).2.2 + 1))

/-- Code to which a value with `n` files has been moved, and which passes it on if it succeeds. -/
def passing (n : Nat) (x : Act LimW E α) : Act LimW E α := fun w =>
  match x w with
  | (.ok a, v) => (.ok a, v)
  | (r, v) => (r, (v.1, v.2 + n))

/-! ## The storage: src/filestorage.rs -/

/-- `create_output_stream`, src/filestorage.rs:81-88: the caller gets the file. -/
def createOutputStream (o : Obj) (name : String) : Act LimW IoErr Nat := do
  let x ← inner ((FileSt.pathExists o.path).mapErr Empty.elim)
  if !x then do
    inner (FileSt.createDirAll o.path)
    opening (FileSt.fileCreate (join o.path name))
  else opening (FileSt.fileCreate (join o.path name))

/-- `MemoryMappedFileStorage::read`, src/filestorage.rs:20-31: `file` lives until the end of the block; a mapping does not keep the
file open. -/
def mapRead (o : Obj) (p : Path) : Act LimW IoErr (Slice Key) := fun w =>
  match w.1.maps o.id p with
  | some (k, n) => (.ok ⟨k, 0, n⟩, w)
  | none => (do
    let k ← opening (FileSt.fileOpen p)
    scope (inner (do
      let n ← FileSt.mmapLen k
      FileSt.insertMap o p k n)) : Act LimW IoErr (Slice Key)) w

/-- `read_resource`, src/filestorage.rs:63-79. -/
def readResource (o : Obj) (name : String) : Act LimW IoErr (Slice Key) := do
  let x ← inner ((FileSt.pathExists (join o.path name)).mapErr Empty.elim)
  if !x then Act.fail .notFound
  else mapRead o (join o.path name)

/-- `FileResourceStorage` with a limit. -/
abbrev limited : Backend where
  W := LimW
  Obj := Obj
  Strm := Nat
  Base := Key
  subdir o n := inner (FileSt.subdir o n)
  existsRes o n := inner (FileSt.existsRes o n)
  readResource := readResource
  createOutputStream := createOutputStream
  writeAll s b := inner (FileSt.writeAll s b)
  seekStart s := inner (FileSt.seekStart s)
  content w := file.content w.1

/-! ## Functions that own files: src/storage.rs, src/vector.rs, src/multivector.rs -/

section
variable (p : Profile) (e : Endian)

/-- `ResourceStorage::write`, src/storage.rs:43-53: both streams live until the end. -/
def write (o : Obj) (name schema : String) (data : Bytes) : Act LimW IoErr Unit := do
  let s ← createOutputStream o name
  scope (do
    inner (Storage.writeToStream file p e data s)
    let s ← createOutputStream o (Storage.schemaName name)
    scope (inner (Storage.writeSchema file schema s)))

/-- `create_archive`, src/storage.rs:200-220. -/
def createArchive (o : Obj) (signature schema : String) : Act LimW RErr Unit := do
  let x ← inner ((FileSt.existsRes o signature).mapErr Empty.elim)
  if x then Act.fail (.io .alreadyExists signature)
  else (write p e o signature schema []).mapErr (RErr.io · signature)

/-- The second part of `create_external_vector` and `create_multi_vector`, src/storage.rs:147-153, 178-184: the stream of the schema
lives until the end, the other one is moved to the handle. -/
def createHandle (o : Obj) (name schema : String) : Act LimW IoErr (Handle file) := do
  let s ← createOutputStream o (Storage.schemaName name)
  scope (do
    inner (FileSt.writeAll s (strBytes schema))
    let s ← createOutputStream o name
    passing 1 (inner (Handle.tryNew (B := file) p e o name schema s)))

/-- `create_external_vector`, src/storage.rs:138-156. -/
def createExternalVector (o : Obj) (name schema : String) : Act LimW IoErr (ExtVec file) := do
  let h ← createHandle p e o name schema
  pure (ExtVec.new h)

/-- The number of files of a handle. -/
def _root_.Flatdata.Handle.held (h : Handle file) : Nat := if h.isOpen then 1 else 0

/-- The number of files of an `ExternalVector`. -/
def _root_.Flatdata.ExtVec.held (v : ExtVec file) : Nat := v.handle.held

/-- The number of files of a `MultiVector`. -/
def _root_.Flatdata.MultiVec.held (v : MultiVec file) : Nat := v.index.held + v.handle.held

/-- `create_multi_vector`, src/storage.rs:163-187: the function owns the index while the data resource is created. -/
def createMultiVector (o : Obj) (name schema : String) : Act LimW IoErr (MultiVec file) := do
  let index ← createExternalVector p e o (Storage.indexName name) (Storage.indexSchema schema)
  let r ← passing index.held (Act.attempt (createHandle p e o name schema))
  match r with
  | .error x => do
    release index.held
    inner index.drop
    Act.fail x
  | .ok h => pure (MultiVec.new index h)

/-- Dropping a handle: `drop`, src/storage.rs:353-360, then the fields, also if `drop` panics. (`drop` opens no files, the order does
not matter.) -/
def dropHandle (h : Handle file) : Act LimW E Unit := do
  release h.held
  inner h.drop

/-- `ResourceHandle::close`, src/storage.rs:321-346: the stream is closed before the resource is read. The handle belongs to the
caller; if this panics the caller drops it. -/
def closeStream [DiffLib] (h : Handle file) : Act LimW Empty (Except RErr (Slice Key) × Handle file) :=
  match h.stream with
  | none => pure (.error (.io .unexpectedEof h.name), h)
  | some s => do
    let r ← passing 1 (inner (Act.attempt (h.finish p e s)))
    match r with
    | .error x => pure (.error (.io x h.name), h)
    | .ok () => do
      release 1
      let r ← Act.attempt (Storage.read limited p e h.obj h.name h.schema)
      pure (r, { h with stream := none })

/-- Second half of `ExternalVector::close`, src/vector.rs:340-343. -/
def closeHandle [DiffLib] (v : ExtVec file) : Act LimW RErr (Slice Key) := do
  let r ← (closeStream p e v.handle).mapErr Empty.elim
  dropHandle r.2
  Act.ofExcept r.1

/-- `ExternalVector::close`, src/vector.rs:336-343. -/
def close [DiffLib] (v : ExtVec file) : Act LimW RErr (Slice Key) := do
  let r ← passing v.held (inner (Act.attempt (v.flush p)))
  match r with
  | .error x => do
    dropHandle v.handle
    Act.fail (.io x v.handle.name)
  | .ok v => closeHandle p e v

/-- Dropping a `MultiVector`, src/multivector.rs:131-137. -/
def dropMulti (v : MultiVec file) : Act LimW E Unit := do
  release v.held
  inner v.drop

/-- Last part of `MultiVector::close`, src/multivector.rs:205-206. -/
def closeData [DiffLib] (v : MultiVec file) (index : Slice Key) : Act LimW RErr (Slice Key × Slice Key) := do
  let r ← (closeStream p e v.handle).mapErr Empty.elim
  dropHandle r.2
  let d ← Act.ofExcept r.1
  pure (index, d)

/-- Third part of `MultiVector::close`, src/multivector.rs:204: the index is moved to its `close`. -/
def closeIndex [DiffLib] (v : MultiVec file) : Act LimW RErr (Slice Key × Slice Key) := do
  let r ← passing v.handle.held (Act.attempt (close p e v.index))
  match r with
  | .error x => do
    dropHandle v.handle
    Act.fail x
  | .ok i => closeData p e v i

/-- Second part of `MultiVector::close`, src/multivector.rs:203. -/
def closeFlush [DiffLib] (v : MultiVec file) : Act LimW RErr (Slice Key × Slice Key) := do
  let r ← passing v.held (inner (Act.attempt (v.flush p)))
  match r with
  | .error x => do
    dropMulti v
    Act.fail (.io x v.handle.name)
  | .ok v => closeIndex p e v

/-- `MultiVector::close`, src/multivector.rs:199-207. -/
def closeMulti [DiffLib] (V : Variadic) (v : MultiVec file) : Act LimW RErr (Slice Key × Slice Key) := do
  let r ← passing v.held (inner (Act.attempt (v.addToIndex p e V)))
  match r with
  | .error x => do
    dropMulti v
    Act.fail (.io x v.handle.name)
  | .ok v => closeFlush p e v

/-- `ArchiveBuilder::new`, src/archive.rs:723-728. -/
def builderNew (o : Obj) (D : ArchiveDef) : Act LimW RErr Obj := do
  createArchive p e o D.signature D.schema
  pure o

/-- The method of a subarchive, src/archive.rs:710-716. -/
def builderSub (o : Obj) (name : String) (D : ArchiveDef) : Act LimW RErr Obj := do
  let o' ← inner ((FileSt.subdir o name).mapErr Empty.elim)
  builderNew p e o' D

/-- The setter of a struct resource, src/archive.rs:660-670. -/
def setStruct (o : Obj) (r : ResDecl) (S : StructDef) (item : Bytes) : Act LimW IoErr Unit :=
  if item.length < S.size then Act.lift .ub
  else write p e o r.name r.schema (item.take S.size)

end
end Limited
end Flatdata
