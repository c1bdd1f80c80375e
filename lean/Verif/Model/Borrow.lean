import Verif.Model.Archive
import Verif.Model.FileStorage
/-!
# `RefCell`s and their dynamic borrow checks

The other files of the model leave out that streams and the maps of the storages are behind `RefCell`s, which panic
(`BorrowError`, `BorrowMutError`) if they are borrowed in conflict. Here the methods of the two storages are given once more,
with every `borrow()` and `borrow_mut()` and its scope, over a world that holds the borrow flag of every cell. A guard is
released at the end of its scope, also on an error or a panic.
-/
namespace Flatdata

/-- The flag of a `RefCell` (std): the number of shared borrows, or one mutable borrow. -/
inductive Flag where
  | shared (n : Nat)
  | exclusive
  deriving DecidableEq, Repr

/-- Not borrowed. -/
abbrev Flag.free : Flag := .shared 0

namespace Borrow
variable {W C E α : Type} [DecidableEq C]

/-- Code in the scope of a `c.borrow_mut()`. -/
def withMut (c : C) (x : Act (W × (C → Flag)) E α) : Act (W × (C → Flag)) E α := fun w =>
  if w.2 c = .free then
    ((x (w.1, upd w.2 c .exclusive)).1, ((x (w.1, upd w.2 c .exclusive)).2.1, upd (x (w.1, upd w.2 c .exclusive)).2.2 c .free))
  else (.panic, w)

/-- Dropping a `Ref`. -/
def unshare : Flag → Flag
  | .shared (n + 1) => .shared n
  | f => f

/-- Code in the scope of a `c.borrow()`. -/
def withShared (c : C) (x : Act (W × (C → Flag)) E α) : Act (W × (C → Flag)) E α := fun w =>
  match w.2 c with
  | .shared n =>
    ((x (w.1, upd w.2 c (.shared (n + 1)))).1, ((x (w.1, upd w.2 c (.shared (n + 1)))).2.1,
      upd (x (w.1, upd w.2 c (.shared (n + 1)))).2.2 c (unshare ((x (w.1, upd w.2 c (.shared (n + 1)))).2.2 c))))
  | .exclusive => (.panic, w)

/-- Code that borrows nothing. -/
def inner (x : Act W E α) : Act (W × (C → Flag)) E α := fun w => ((x w.1).1, ((x w.1).2, w.2))

/-- Looking at the world. -/
def peek (f : W → α) : Act (W × (C → Flag)) E α := fun w => (.ok (f w.1), w)

end Borrow

/-- A storage whose methods borrow: the storage without borrows, its `RefCell`s, that of each stream, and the methods that borrow
one of the cells. -/
structure Borrowing where
  plain : Backend
  Cell : Type
  [dec : DecidableEq Cell]
  cell : plain.Strm → Cell
  existsRes : plain.Obj → String → Act (plain.W × (Cell → Flag)) Empty Bool
  readResource : plain.Obj → String → Act (plain.W × (Cell → Flag)) IoErr (Slice plain.Base)
  createOutputStream : plain.Obj → String → Act (plain.W × (Cell → Flag)) IoErr plain.Strm

namespace Borrowing
open Borrow
attribute [instance] dec
variable (G : Borrowing) (p : Profile) (e : Endian)

/-- The storage with borrow checks as a backend. The single writes of the library are of the form
`stream.borrow_mut().write_all(..)`, src/storage.rs:149, 180, 312; for the two places where a guard lives longer see
`write` and `finish`. `subdir` borrows nothing, src/memstorage.rs:57-59, src/filestorage.rs:55-57. -/
abbrev backend : Backend where
  W := G.plain.W × (G.Cell → Flag)
  Obj := G.plain.Obj
  Strm := G.plain.Strm
  Base := G.plain.Base
  subdir o n := inner (G.plain.subdir o n)
  existsRes := G.existsRes
  readResource := G.readResource
  createOutputStream := G.createOutputStream
  writeAll s b := withMut (G.cell s) (inner (G.plain.writeAll s b))
  seekStart s := withMut (G.cell s) (inner (G.plain.seekStart s))
  content w b := G.plain.content w.1 b

/-- `ResourceStorage::write`, src/storage.rs:43-53: the guard of the data stream lives until the end, so the stream of the schema
is created and written while the data stream is borrowed. -/
def write (o : G.plain.Obj) (name schema : String) (data : Bytes) : Act G.backend.W IoErr Unit := do
  let s ← G.createOutputStream o name
  withMut (G.cell s) (do
    inner (Storage.writeToStream G.plain p e data s)
    let s' ← G.createOutputStream o (Storage.schemaName name)
    withMut (G.cell s') (inner (Storage.writeSchema G.plain schema s')))

/-- The block in `ResourceHandle::try_new`, src/storage.rs:287-290. -/
def reserve (s : G.plain.Strm) : Act G.backend.W IoErr Unit :=
  withMut (G.cell s) (inner (Storage.writeSize G.plain p e 0 s))

/-- The block in `ResourceHandle::close`, src/storage.rs:333-341: one guard for padding, seek and size. It is released before the
resource is read. -/
def finish (size : Nat) (s : G.plain.Strm) : Act G.backend.W IoErr Unit :=
  withMut (G.cell s) (inner (do
    Storage.writePadding G.plain s
    G.plain.seekStart s
    Storage.writeSize G.plain p e size s))

end Borrowing

/-! ## The storage in memory -/

/-- The `RefCell`s: `streams` and `resources` of an object (src/memstorage.rs:17, 19), and one per stream (11). -/
inductive MemCell where
  | streams (id : Nat)
  | resources (id : Nat)
  | stream (l : MemLoc)
  deriving DecidableEq, Repr

namespace MemSt
open Borrow

/-- The world with the flags of the cells. -/
abbrev BW := MemW × (MemCell → Flag)

/-- `exists`, src/memstorage.rs:61-65: the first guard lives until the end of the expression. -/
def existsResB (o : Obj) (name : String) : Act BW Empty Bool :=
  withShared (.resources o.id) (do
    let x ← peek fun w => (w.resources (loc o name)).isSome
    if x then pure true
    else withShared (.streams o.id) (peek fun w => (w.streams (loc o name)).isSome))

/-- Inserts the copy, src/memstorage.rs:77-80. -/
def insertCopy (o : Obj) (name : String) (d : Bytes) : Act BW IoErr Unit :=
  withMut (.resources o.id) (inner fun w => (.ok (), { w with resources := upd w.resources (loc o name) (some d) }))

/-- The branches on the stream, src/memstorage.rs:72-87. -/
def copyStream (o : Obj) (name : String) : Option (Bytes × Nat) → Act BW IoErr Unit
  | some (d, _) => do
    let d ← withShared (.stream (loc o name)) (pure d)
    insertCopy o name d
  | none => Act.fail .notFound

/-- The indexing at the end, src/memstorage.rs:90-94. -/
def indexResource (o : Obj) (name : String) : Act BW IoErr (Slice MemLoc) := fun w =>
  match w.1.resources (loc o name) with
  | some d => (.ok ⟨loc o name, 0, d.length⟩, w)
  | none => (.panic, w)

/-- `read_resource`, src/memstorage.rs:67-95: the guard of `streams` lives until the end of the `if` block. -/
def readResourceB (o : Obj) (name : String) : Act BW IoErr (Slice MemLoc) := do
  let x ← withShared (.resources o.id) (peek fun w => (w.resources (loc o name)).isSome)
  let _ ← (if x then pure () else withShared (.streams o.id) (do
    let s ← peek fun w => w.streams (loc o name)
    copyStream o name s))
  withShared (.resources o.id) (indexResource o name)

/-- `create_output_stream`, src/memstorage.rs:97-107. -/
def createOutputStreamB (o : Obj) (name : String) : Act BW IoErr MemLoc :=
  withMut (.streams o.id) (inner (createOutputStream o name))

end MemSt

/-- `MemoryResourceStorage` with its borrows. -/
abbrev memB : Borrowing where
  plain := mem
  Cell := MemCell
  cell := .stream
  existsRes := MemSt.existsResB
  readResource := MemSt.readResourceB
  createOutputStream := MemSt.createOutputStreamB

/-! ## The storage on disk -/

/-- The `RefCell`s: `maps` of an object (src/filestorage.rs:16), and one per stream (87: a new one for each). -/
inductive FileCell where
  | maps (id : Nat)
  | stream (fd : Nat)
  deriving DecidableEq, Repr

namespace FileSt
open Borrow

/-- The world with the flags of the cells. -/
abbrev BW := FileW × (FileCell → Flag)

/-- The `if` block of `MemoryMappedFileStorage::read`, src/filestorage.rs:22-24. -/
def mapNew (o : Obj) (p : Path) : Act BW IoErr Unit := do
  let k ← inner (fileOpen p)
  let n ← inner (mmapLen k)
  withMut (.maps o.id) (inner fun w => (.ok (), { w with maps := upd w.maps o.id (upd (w.maps o.id) p (some (k, n))) }))

/-- The indexing at the end, src/filestorage.rs:26-30. -/
def indexMap (o : Obj) (p : Path) : Act BW IoErr (Slice Key) := fun w =>
  match w.1.maps o.id p with
  | some (k, n) => (.ok ⟨k, 0, n⟩, w)
  | none => (.panic, w)

/-- `MemoryMappedFileStorage::read`, src/filestorage.rs:20-31. -/
def mapReadB (o : Obj) (p : Path) : Act BW IoErr (Slice Key) := do
  let x ← withShared (.maps o.id) (peek fun w => (w.maps o.id p).isSome)
  let _ ← (if x then pure () else mapNew o p)
  withShared (.maps o.id) (indexMap o p)

/-- `read_resource`, src/filestorage.rs:63-79. -/
def readResourceB (o : Obj) (name : String) : Act BW IoErr (Slice Key) := do
  let x ← inner ((pathExists (join o.path name)).mapErr Empty.elim)
  if !x then Act.fail .notFound
  else mapReadB o (join o.path name)

end FileSt

/-- `FileResourceStorage` with its borrows; `exists` and `create_output_stream` have none, src/filestorage.rs:59-61, 81-88. -/
abbrev fileB : Borrowing where
  plain := file
  Cell := FileCell
  cell := .stream
  existsRes o n := Borrow.inner (FileSt.existsRes o n)
  readResource := FileSt.readResourceB
  createOutputStream o n := Borrow.inner (FileSt.createOutputStream o n)

end Flatdata
