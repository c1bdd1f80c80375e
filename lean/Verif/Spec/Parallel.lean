import Verif.Spec.Program
/-!
# Several processes use one disk

Each process has its own descriptors and mappings; files and directories are shared. Between two system calls of a process the
others may make any number of theirs. What the others do may depend on what they find; it is a function of the number of calls that
the process has made and of the disk.
-/
namespace Flatdata

/-- The part of the file system that the processes share. -/
structure Disk where
  files : Key → Option Bytes
  isDir : Key → Bool

/-- The shared part of the file system. -/
def FS.disk (fs : FS) : Disk := ⟨fs.files, fs.isDir⟩

/-- The process finds the disk as the others have left it. -/
def FS.on (fs : FS) (d : Disk) : FS := { fs with files := d.files, isDir := d.isDir }

namespace Spec

/-- A process among others: its state, and what its system calls have done to the disk so far (before and after). -/
structure Proc where
  w : FileW
  steps : List (Disk × Disk)

/-- The disk after the last call of the process. -/
def Proc.disk (v : Proc) : Disk := v.w.fs.disk

/-- The others have left the disk like this. -/
def Proc.on (v : Proc) (d : Disk) : Proc := { v with w := { v.w with fs := v.w.fs.on d } }

/-- What the others do to the disk before system call number `n` of the process. -/
abbrev Others := Nat → Disk → Disk

/-- The state when the process makes its next call. -/
def Others.meet (env : Others) (v : Proc) : FileW := { v.w with fs := v.w.fs.on (env v.steps.length v.disk) }

/-- A system call. -/
def Others.call {E α : Type} (env : Others) (x : Act FileW E α) : Act Proc E α := fun v =>
  ((x (env.meet v)).1, ⟨(x (env.meet v)).2, v.steps ++ [((env.meet v).fs.disk, (x (env.meet v)).2.fs.disk)]⟩)

/-- Something that is no system call. -/
def Others.inner {E α : Type} (x : Act FileW E α) : Act Proc E α := fun v => ((x v.w).1, ⟨(x v.w).2, v.steps⟩)

/-- `FileSt.mapRead` (src/filestorage.rs:20-31). -/
def Others.mapRead (env : Others) (o : Obj) (p : Path) : Act Proc IoErr (Slice Key) := fun v =>
  match v.w.maps o.id p with
  | some (k, n) => (.ok ⟨k, 0, n⟩, v)
  | none => (do
    let k ← env.call (FileSt.fileOpen p)
    let n ← env.call (FileSt.mmapLen k)
    Others.inner (FileSt.insertMap o p k n) : Act Proc IoErr (Slice Key)) v

/-- `FileSt.readResource` (src/filestorage.rs:63-79). -/
def Others.readResource (env : Others) (o : Obj) (name : String) : Act Proc IoErr (Slice Key) := do
  let x ← (env.call (FileSt.pathExists (join o.path name))).mapErr Empty.elim
  if !x then Act.fail .notFound
  else env.mapRead o (join o.path name)

/-- `FileSt.createOutputStream` (src/filestorage.rs:81-88). -/
def Others.createOutputStream (env : Others) (o : Obj) (name : String) : Act Proc IoErr Nat := do
  let x ← (env.call (FileSt.pathExists o.path)).mapErr Empty.elim
  if !x then do
    env.call (FileSt.createDirAll o.path)
    env.call (FileSt.fileCreate (join o.path name))
  else env.call (FileSt.fileCreate (join o.path name))

/-- `FileResourceStorage` in a process among others. Simplifications: `create_dir_all` and `write_all` are one call each, as in `file`
(src/filestorage.rs:81-88, 103-121); the process looks at mapped files, between two of its calls, when the others have just stopped. -/
abbrev amid (env : Others) : Backend where
  W := Proc
  Obj := Obj
  Strm := Nat
  Base := Key
  subdir o n := Others.inner (FileSt.subdir o n)
  existsRes o n := env.call (FileSt.existsRes o n)
  readResource := env.readResource
  createOutputStream := env.createOutputStream
  writeAll s b := env.call (FileSt.writeAll s b)
  seekStart s := env.call (FileSt.seekStart s)
  content v k := ((env v.steps.length v.disk).files k).getD []

/-- A process that has just been started. Its calls fail as `fault` says. -/
def started (d : Disk) (fault : Nat → Option Nat := fun _ => none) : FileW where
  fs := ⟨d.files, d.isDir, fun _ => ([], 0), 0, fault, 0⟩
  maps _ _ := none
  next := 1

/-- ... among others. -/
def Proc.started (d : Disk) (fault : Nat → Option Nat := fun _ => none) : Proc := ⟨Spec.started d fault, []⟩

/-- The storage object of the process for a directory. -/
def directory (path : Path) : Obj := ⟨0, path⟩

/-! ## The files of an archive -/

mutual
/-- The files of an archive, as paths in its directory. -/
def HasFile : ArchiveDef → Key → Prop
  | .mk name schema rs subs, x => (∃ n ∈ files (.mk name schema rs subs), x = [n.toList]) ∨ SubsHaveFile subs x

/-- ... of its subarchives. -/
def SubsHaveFile : SubDefs → Key → Prop
  | .nil, _ => False
  | .cons name _ D rest, x => (∃ t, x = name.toList :: t ∧ HasFile D t) ∨ SubsHaveFile rest x
end

/-- The files of an archive in a directory. -/
def FileOf (D : ArchiveDef) (path : Path) (x : Key) : Prop := ∃ t, x = key path ++ t ∧ HasFile D t

/-- Two archives have no file in common, and no file of one is a directory of the other. -/
def Beside (D1 : ArchiveDef) (path1 : Path) (D2 : ArchiveDef) (path2 : Path) : Prop :=
  ∀ x y, FileOf D1 path1 x → FileOf D2 path2 y → ¬ x <+: y ∧ ¬ y <+: x

/-! ## What other processes do -/

/-- One system call, successful or not, of some process building an archive beside the given one, which may go on or stop then. -/
inductive Elsewhere [DiffLib] (D : ArchiveDef) (path : Path) : Disk → Disk → Prop
  | step {p : Profile} {e : Endian} {D' : ArchiveDef} {path' : Path} {prog : Prog} {c : Content} (env : Others) (d0 : Disk)
      (fault : Nat → Option Nat) (hs : Separate D') (hc : Prepares p e D' prog c) (hb : Beside D path D' path') {d d' : Disk}
      (h : (d, d') ∈ (buildArchive (amid env) p e (directory path') D' prog (.started d0 fault)).2.steps) : Elsewhere D path d d'

/-- Any number of them. -/
inductive Meanwhile [DiffLib] (D : ArchiveDef) (path : Path) : Disk → Disk → Prop
  | refl (d : Disk) : Meanwhile D path d d
  | step {d d' d'' : Disk} (h : Meanwhile D path d d') (h' : Elsewhere D path d' d'') : Meanwhile D path d d''

/-- The others build archives beside the given one. -/
def Others.Build [DiffLib] (env : Others) (D : ArchiveDef) (path : Path) : Prop := ∀ n d, Meanwhile D path d (env n d)

end Spec
end Flatdata
