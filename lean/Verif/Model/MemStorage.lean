import Verif.Model.Storage
/-!
# `MemoryResourceStorage`: src/memstorage.rs
-/
namespace Flatdata

/-- A storage object: its identity (the `Rc`) and its immutable field `path`. -/
structure Obj where
  id : Nat
  path : Path
  deriving DecidableEq, Repr

/-- Where a resource of an object lives in memory: per object, under the joined path. -/
abbrev MemLoc := Nat × Key

/-- The `MemoryStorage`s of all objects (src/memstorage.rs:14-20): `streams` maps to content and position of the
`Cursor<Vec<u8>>` (never removed, so a stream is identified by its place), `resources` to the cached bytes. -/
structure MemW where
  streams : MemLoc → Option (Bytes × Nat)
  resources : MemLoc → Option Bytes
  /-- next object identity -/
  next : Nat

namespace MemSt

/-- `self.path.join(resource_name)` as a map key. -/
def loc (o : Obj) (name : String) : MemLoc := (o.id, key (join o.path name))

/-- `MemoryResourceStorage::new`, src/memstorage.rs:46-51: a new object with empty maps. -/
def new (path : Path) : Act MemW Empty Obj := fun w =>
  (.ok ⟨w.next, path⟩,
    { streams := fun l => if l.1 = w.next then none else w.streams l
      resources := fun l => if l.1 = w.next then none else w.resources l
      next := w.next + 1 })

/-- `subdir`, src/memstorage.rs:57-59. -/
def subdir (o : Obj) (dir : String) : Act MemW Empty Obj := new (join o.path dir)

/-- `exists`, src/memstorage.rs:61-65. -/
def existsRes (o : Obj) (name : String) : Act MemW Empty Bool := fun w =>
  (.ok ((w.resources (loc o name)).isSome || (w.streams (loc o name)).isSome), w)

/-- `read_resource`, src/memstorage.rs:67-95. -/
def readResource (o : Obj) (name : String) : Act MemW IoErr (Slice MemLoc) := fun w =>
  match w.resources (loc o name) with
  | some d => (.ok ⟨loc o name, 0, d.length⟩, w)
  | none =>
    match w.streams (loc o name) with
    | some (d, _) => (.ok ⟨loc o name, 0, d.length⟩, { w with resources := upd w.resources (loc o name) (some d) })
    | none => (.err .notFound, w)

/-- `create_output_stream`, src/memstorage.rs:97-107. -/
def createOutputStream (o : Obj) (name : String) : Act MemW IoErr MemLoc := fun w =>
  match w.streams (loc o name) with
  | some _ => (.ok (loc o name), w)
  | none => (.ok (loc o name), { w with streams := upd w.streams (loc o name) (some ([], 0)) })

/-- `Write for Cursor<Vec<u8>>` (std): writes at the position and advances it. Never fails. -/
def writeAll (s : MemLoc) (b : Bytes) : Act MemW IoErr Unit := fun w =>
  match w.streams s with
  | some (c, pos) => (.ok (), { w with streams := upd w.streams s (some (putAt c pos b, pos + b.length)) })
  | none => (.ub, w)

/-- `Seek for Cursor` (std). -/
def seekStart (s : MemLoc) : Act MemW IoErr Unit := fun w =>
  match w.streams s with
  | some (c, _) => (.ok (), { w with streams := upd w.streams s (some (c, 0)) })
  | none => (.ub, w)

end MemSt

/-- `MemoryResourceStorage` as a backend. A slice points into the (immutable) bytes of `resources`. -/
abbrev mem : Backend where
  W := MemW
  Obj := Obj
  Strm := MemLoc
  Base := MemLoc
  subdir := MemSt.subdir
  existsRes := MemSt.existsRes
  readResource := MemSt.readResource
  createOutputStream := MemSt.createOutputStream
  writeAll := MemSt.writeAll
  seekStart := MemSt.seekStart
  content w l := (w.resources l).getD []

end Flatdata
