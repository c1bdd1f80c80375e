import Verif.Model.MemStorage
/-!
# `FileResourceStorage`: src/filestorage.rs, over a small model of a file system

The file system model is ours (not in /repo): files are byte strings, file descriptors have positions, every system
call may fail according to the oracle `fault`. A mapping shows the current content of its file.

`fault t = some k` makes call number `t` fail; for `write_all`, `k` bytes (at most all) are written before it fails;
for `create_dir_all`, the first `k` components are created; for the other calls the effect takes place iff `k > 0`.
-/
namespace Flatdata

/-- File system and descriptors of the process. -/
structure FS where
  files : Key → Option Bytes
  isDir : Key → Bool
  /-- open descriptors: file and position -/
  fds : Nat → Key × Nat
  nextFd : Nat
  fault : Nat → Option Nat
  tick : Nat

/-- All `FileResourceStorage` objects: the file system and the `maps` of each object (src/filestorage.rs:15-17), keyed by
object and path string, holding the mapped file and the mapped length. -/
structure FileW where
  fs : FS
  maps : Nat → Path → Option (Key × Nat)
  next : Nat

namespace FileSt

/-- One system call: `ok`/`err` give the effect without a fault, `faulty k` the state after a fault. -/
def syscall {α : Type} (normal : FS → Res IoErr α × FS) (faulty : Nat → FS → FS) : Act FileW IoErr α := fun w =>
  let fs := { w.fs with tick := w.fs.tick + 1 }
  match w.fs.fault w.fs.tick with
  | none => ((normal fs).1, { w with fs := (normal fs).2 })
  | some k => (.err .other, { w with fs := faulty k fs })

/-- A directory that always exists: the current one (`key ""`), or one in the table. -/
def dirOK (fs : FS) (k : Key) : Bool := k == [] || fs.isDir k

/-- `Path::exists` (std): `false` if the call fails, and for the empty path. -/
def pathExists (p : Path) : Act FileW Empty Bool := fun w =>
  match syscall (fun fs => (.ok ((fs.files (key p)).isSome || (p ≠ [] && dirOK fs (key p))), fs)) (fun _ fs => fs) w with
  | (.ok b, w) => (.ok b, w)
  | (_, w) => (.ok false, w)

/-- Some path prefix (or the path itself) is a file. -/
def blocked (fs : FS) (k : Key) : Bool := (List.range (k.length + 1)).any fun i => (fs.files (k.take i)).isSome

/-- Makes all prefixes of `k` directories. -/
def mkdirs (fs : FS) (k : Key) : FS := { fs with isDir := fun x => fs.isDir x || x.isPrefixOf k }

/-- `fs::create_dir_all` (std): an error if a component is a file. -/
def createDirAll (p : Path) : Act FileW IoErr Unit :=
  syscall
    (fun fs => if blocked fs (key p) then (.err .other, fs) else (.ok (), mkdirs fs (key p)))
    (fun k fs => if blocked fs (key p) then fs else mkdirs fs ((key p).take k))

/-- Opening for writing with truncation: state of the file. -/
def truncated (fs : FS) (k : Key) : FS := { fs with files := upd fs.files k (some []) }

/-- The directory of `k` exists and `k` is no directory. -/
def canCreate (fs : FS) (k : Key) : Bool := k ≠ [] && dirOK fs k.dropLast && !(dirOK fs k)

/-- `File::create` (std): truncates or creates the file, returns a descriptor at position 0. -/
def fileCreate (p : Path) : Act FileW IoErr Nat :=
  syscall
    (fun fs =>
      if canCreate fs (key p) then
        (.ok fs.nextFd, { truncated fs (key p) with fds := upd fs.fds fs.nextFd (key p, 0), nextFd := fs.nextFd + 1 })
      else (.err .other, fs))
    (fun k fs => if canCreate fs (key p) ∧ 0 < k then truncated fs (key p) else fs)

/-- `File::open` (std), for reading. -/
def fileOpen (p : Path) : Act FileW IoErr Key :=
  syscall
    (fun fs => if (fs.files (key p)).isSome || dirOK fs (key p) then (.ok (key p), fs) else (.err .notFound, fs))
    (fun _ fs => fs)

/-- `Mmap::map` (crate memmap 0.6) of a whole file: an error for an empty file and for a directory. Returns the length. -/
def mmapLen (k : Key) : Act FileW IoErr Nat :=
  syscall
    (fun fs => match fs.files k with
      | none => (.err .other, fs)
      | some d => if d.length = 0 then (.err .invalidInput, fs) else (.ok d.length, fs))
    (fun _ fs => fs)

/-- `write_all` on a descriptor. -/
def writeAll (s : Nat) (b : Bytes) : Act FileW IoErr Unit :=
  let put (b : Bytes) (fs : FS) : FS :=
    { fs with
      files := upd fs.files (fs.fds s).1 ((fs.files (fs.fds s).1).map (putAt · (fs.fds s).2 b))
      fds := upd fs.fds s ((fs.fds s).1, (fs.fds s).2 + b.length) }
  syscall (fun fs => (.ok (), put b fs)) (fun k fs => put (b.take k) fs)

/-- `seek(SeekFrom::Start(0))` on a descriptor. -/
def seekStart (s : Nat) : Act FileW IoErr Unit :=
  let set (fs : FS) : FS := { fs with fds := upd fs.fds s ((fs.fds s).1, 0) }
  syscall (fun fs => (.ok (), set fs)) (fun k fs => if 0 < k then set fs else fs)

/-- `FileResourceStorage::new`, src/filestorage.rs:46-51. -/
def new (path : Path) : Act FileW Empty Obj := fun w =>
  (.ok ⟨w.next, path⟩, { w with maps := upd w.maps w.next (fun _ => none), next := w.next + 1 })

/-- `subdir`, src/filestorage.rs:55-57. -/
def subdir (o : Obj) (dir : String) : Act FileW Empty Obj := new (join o.path dir)

/-- `exists`, src/filestorage.rs:59-61. -/
def existsRes (o : Obj) (name : String) : Act FileW Empty Bool := pathExists (join o.path name)

/-- `self.maps.borrow_mut().insert(path, mmap)`, src/filestorage.rs:24. -/
def insertMap (o : Obj) (p : Path) (k : Key) (n : Nat) : Act FileW IoErr (Slice Key) := fun w =>
  (.ok ⟨k, 0, n⟩, { w with maps := upd w.maps o.id (upd (w.maps o.id) p (some (k, n))) })

/-- `MemoryMappedFileStorage::read`, src/filestorage.rs:20-31. -/
def mapRead (o : Obj) (p : Path) : Act FileW IoErr (Slice Key) := fun w =>
  match w.maps o.id p with
  | some (k, n) => (.ok ⟨k, 0, n⟩, w)
  | none => (do
    let k ← fileOpen p
    let n ← mmapLen k
    insertMap o p k n : Act FileW IoErr (Slice Key)) w

/-- `read_resource`, src/filestorage.rs:63-79 (`to_str` succeeds: all paths of this model are text; for others see Model/OsPath). -/
def readResource (o : Obj) (name : String) : Act FileW IoErr (Slice Key) := do
  let x ← (pathExists (join o.path name)).mapErr Empty.elim
  if !x then Act.fail .notFound
  else mapRead o (join o.path name)

/-- `create_output_stream`, src/filestorage.rs:81-88. -/
def createOutputStream (o : Obj) (name : String) : Act FileW IoErr Nat := do
  let x ← (pathExists o.path).mapErr Empty.elim
  if !x then do
    createDirAll o.path
    fileCreate (join o.path name)
  else fileCreate (join o.path name)

end FileSt

/-- `FileResourceStorage` as a backend. A slice points into a memory mapped file: it shows the current content. (Bytes
beyond the current end of the file are inaccessible; in reality those in the last page read as zero.) -/
abbrev file : Backend where
  W := FileW
  Obj := Obj
  Strm := Nat
  Base := Key
  subdir := FileSt.subdir
  existsRes := FileSt.existsRes
  readResource := FileSt.readResource
  createOutputStream := FileSt.createOutputStream
  writeAll := FileSt.writeAll
  seekStart := FileSt.seekStart
  content w k := (w.fs.files k).getD []

end Flatdata
