import Verif.Spec.Interrupt
/-!
# One process reads an archive while another one builds it

The file system model knows one process. For two, the run of the builder is cut into moments; what the reader sees at each of
its own system calls (and whenever it looks at mapped memory) are the files as they are at a moment of the builder, and these
moments do not go back.
-/
namespace Flatdata.Spec

/-! ## The process that builds -/

/-- A moment of a process: it is in its system call number `call`, of which the first `bytes` bytes have been written (for other
calls: it has taken effect iff `bytes > 0`; of `create_dir_all` the first `bytes` directories exist). -/
structure Moment where
  call : Nat
  bytes : Nat
  deriving DecidableEq, Repr

/-- Not later. -/
def Moment.le (i j : Moment) : Prop := i.call < j.call ∨ (i.call = j.call ∧ i.bytes ≤ j.bytes)

/-- The process gets as far as the moment `i`. (From then on its system calls do nothing.) -/
def stoppedAt (i : Moment) (w : FileW) : FileW :=
  { w with fs := { w.fs with
    fault := fun t => if t < i.call then none else if t = i.call then some i.bytes else some 0 } }

/-- The file system at a moment of running `x`. -/
def during {E α : Type} (x : Act FileW E α) (w : FileW) (i : Moment) : FS := (x (stoppedAt i w)).2.fs

/-! ## The process that reads -/

/-- What the reader finds at each of its system calls. -/
abbrev View := Nat → FS

/-- The files, when the reader makes its next call. -/
def View.now (s : View) (w : FileW) : FileW :=
  { w with fs := { w.fs with files := (s w.fs.tick).files, isDir := (s w.fs.tick).isDir } }

/-- A system call of the reader. -/
def View.call {E α : Type} (s : View) (x : Act FileW E α) : Act FileW E α := fun w => x (s.now w)

/-- `FileSt.mapRead` (src/filestorage.rs:20-31) of the reader. -/
def View.mapRead (s : View) (o : Obj) (p : Path) : Act FileW IoErr (Slice Key) := fun w =>
  match w.maps o.id p with
  | some (k, n) => (.ok ⟨k, 0, n⟩, w)
  | none => (do
    let k ← s.call (FileSt.fileOpen p)
    let n ← s.call (FileSt.mmapLen k)
    FileSt.insertMap o p k n : Act FileW IoErr (Slice Key)) w

/-- `FileSt.readResource` (src/filestorage.rs:63-79) of the reader. -/
def View.readResource (s : View) (o : Obj) (name : String) : Act FileW IoErr (Slice Key) := do
  let x ← (s.call (FileSt.pathExists (join o.path name))).mapErr Empty.elim
  if !x then Act.fail .notFound
  else s.mapRead o (join o.path name)

/-- `FileResourceStorage` in the reading process: its files are what the other process has made of them so far.
Simplification: between two system calls of the reader the files stand still. -/
abbrev watching (s : View) : Backend := { file with
  existsRes := fun o n => s.call (FileSt.existsRes o n)
  readResource := s.readResource
  content := fun w k => ((s w.fs.tick).files k).getD [] }

/-- The same process `t` system calls later. -/
def later (t : Nat) (w : FileW) : FileW := { w with fs := { w.fs with tick := w.fs.tick + t } }

/-- The reader watches the other process running `x`: each of its calls falls into a moment, and later ones into later moments. -/
def Watches {E α : Type} (s : View) (x : Act FileW E α) (w : FileW) : Prop :=
  ∃ m : Nat → Moment, (∀ t t', t ≤ t' → (m t).le (m t')) ∧ ∀ t, s t = during x w (m t)

/-! ## What it reads -/

/-- The bytes read of a resource with content `b`: all; or, if `soft` holds, those that a size field says of which only the
first `j` bytes have been written so far (nothing, for `j = 0`). -/
def Glimpse (soft : Prop) (b y : Bytes) : Prop := y = b ∨ (soft ∧ ∃ j < 8, y = b.take (b.length % 256 ^ j))

section
variable (s : View) (w : FileW) (soft : ResDecl → Prop)

/-- What the accessor of a resource yields to the reader, from `w` on and forever. -/
def Glimpsed (r : ResDecl) (x : Opened Key) : Option Payload → Prop
  | none => ∀ t, Yields (watching s) (later t w) r x none
  | some (.bytes b) => (r.optional = true ∧ ∀ t, x.bytes (watching s) (later t w) = .ok none) ∨
      ∃ y, Glimpse (soft r) b y ∧ ∀ t, x.bytes (watching s) (later t w) = .ok (some y)
  | some (.items xss) => (r.optional = true ∧ ∀ t, x.multi (watching s) (later t w) = .ok none) ∨
      ∃ V index v, r.type = .multi V index ∧ (∀ t, x.multi (watching s) (later t w) = .ok (some v)) ∧
        (Shows V v xss ∨ (soft r ∧ Glimpse True (indexBytes V.indexSize xss) v.index ∧ Glimpse True (encodeItems xss) v.data))

/-- All accessors. -/
def AllGlimpsed : List ResDecl → List (Opened Key) → List (Option Payload) → Prop
  | [], [], [] => True
  | r :: rs, x :: xs, c :: cs => Glimpsed s w soft r x c ∧ AllGlimpsed rs xs cs
  | _, _, _ => False

mutual
/-- All accessors of an archive, including those of subarchives; optional subarchives may be missing. -/
def ArchiveGlimpsed : ArchiveDef → Archive Key → Content → Prop
  | .mk _ _ rs subs, .mk xs ss, .mk cs ts => AllGlimpsed s w soft rs xs cs ∧ SubsGlimpsed subs ss ts

/-- ... of the subarchives. -/
def SubsGlimpsed : SubDefs → SubArchives Key → SubContents → Prop
  | .nil, .nil, .nil => True
  | .cons _ optional D rest, .cons a ss, .cons c ts =>
    (match a, c with
      | some a, some c => ArchiveGlimpsed D a c
      | none, some _ => optional = true
      | none, none => True
      | some _, none => False) ∧ SubsGlimpsed rest ss ts
  | _, _, _ => False
end
end

end Flatdata.Spec
