import Verif.Model.FileStorage
import Verif.Spec.Storage
/-!
# Specification of the two storages: what is stored, what has been read, which states are reachable
-/
namespace Flatdata.Spec

/-- The two implementations of `ResourceStorage`. -/
inductive Kind where
  | memory
  | disk
  deriving DecidableEq, Repr

namespace Kind

/-- The model of the implementation. -/
abbrev backend : Kind → Backend
  | memory => mem
  | disk => file

/-- Places where resources live: in memory per storage object, on disk everywhere in the file system. -/
abbrev Place : Kind → Type
  | memory => MemLoc
  | disk => Key

/-- The place of a resource. -/
def place : (k : Kind) → k.backend.Obj → String → k.Place
  | memory, o, n => ((o : Obj).id, key (join (o : Obj).path n))
  | disk, o, n => key (join (o : Obj).path n)

/-- The place an output stream writes to. -/
def target : (k : Kind) → k.backend.W → k.backend.Strm → k.Place
  | memory, _, s => s
  | disk, w, s => ((w : FileW).fs.fds s).1

/-- The output stream has been created. -/
def streamOpen : (k : Kind) → k.backend.W → k.backend.Strm → Prop
  | memory, w, s => (w : MemW).streams s ≠ none
  | disk, w, s => (s : Nat) < (w : FileW).fs.nextFd

/-- The bytes stored under a name: the content of the cursor, or of the file. -/
def stored : (k : Kind) → k.backend.W → k.backend.Obj → String → Option Bytes
  | memory, w, o, n => ((w : MemW).streams ((o : Obj).id, key (join (o : Obj).path n))).map Prod.fst
  | disk, w, o, n => (w : FileW).fs.files (key (join (o : Obj).path n))

/-- This storage object has not read the name yet. -/
def unread : (k : Kind) → k.backend.W → k.backend.Obj → String → Prop
  | memory, w, o, n => (w : MemW).resources ((o : Obj).id, key (join (o : Obj).path n)) = none
  | disk, w, o, n => (w : FileW).maps (o : Obj).id (join (o : Obj).path n) = none

/-- From now on no system call fails. -/
def noFault : (k : Kind) → k.backend.W → Prop
  | memory, _ => True
  | disk, w => ∀ t, (w : FileW).fs.tick ≤ t → (w : FileW).fs.fault t = none

/-- The storage can read files with this content at all (an empty file cannot be memory mapped). -/
def mappable : Kind → Bytes → Prop
  | memory, _ => True
  | disk, d => d ≠ []

/-- The storage object exists. -/
def alive : (k : Kind) → k.backend.W → k.backend.Obj → Prop
  | memory, w, o => (o : Obj).id < (w : MemW).next
  | disk, w, o => (o : Obj).id < (w : FileW).next

/-- Start of a process: nothing in memory, nothing mapped, no open file; any files on disk. -/
def initial : (k : Kind) → k.backend.W → Prop
  | memory, w => ∀ l, (w : MemW).streams l = none ∧ (w : MemW).resources l = none
  | disk, w => (∀ i p, (w : FileW).maps i p = none) ∧ (w : FileW).fs.nextFd = 0

/-- One call of a storage or stream method, with any outcome. -/
inductive Step (k : Kind) : k.backend.W → k.backend.W → Prop
  | subdir {o d w r w'} (h : k.backend.subdir o d w = (r, w')) : Step k w w'
  | exists_ {o n w r w'} (h : k.backend.existsRes o n w = (r, w')) : Step k w w'
  | read {o n w r w'} (ho : k.alive w o) (h : k.backend.readResource o n w = (r, w')) : Step k w w'
  | create {o n w r w'} (ho : k.alive w o) (h : k.backend.createOutputStream o n w = (r, w')) : Step k w w'
  | write {s b w r w'} (h : k.backend.writeAll s b w = (r, w')) : Step k w w'
  | seek {s w r w'} (h : k.backend.seekStart s w = (r, w')) : Step k w w'

/-- Any number of calls. -/
inductive Steps (k : Kind) : k.backend.W → k.backend.W → Prop
  | refl (w) : Steps k w w
  | step {a b c} (h : Steps k a b) (s : Step k b c) : Steps k a c

/-- The storage object itself; two storage objects for the same directory differ. -/
def ident : (k : Kind) → k.backend.Obj → Nat
  | memory, o => (o : Obj).id
  | disk, o => (o : Obj).id

/-- Storage objects that do not exist yet have no resources (true in all reachable states). -/
def unborn : (k : Kind) → k.backend.W → Prop
  | memory, w => ∀ l : MemLoc, (w : MemW).next ≤ l.1 → (w : MemW).streams l = none ∧ (w : MemW).resources l = none
  | disk, w => ∀ i p, (w : FileW).next ≤ i → (w : FileW).maps i p = none

/-- One call of a storage or stream method that concerns none of the places in `P`. -/
inductive StepAway (k : Kind) (P : k.Place → Prop) : k.backend.W → k.backend.W → Prop
  | subdir {o d w r w'} (hu : k.unborn w) (h : k.backend.subdir o d w = (r, w')) : StepAway k P w w'
  | exists_ {o n w r w'} (h : k.backend.existsRes o n w = (r, w')) : StepAway k P w w'
  | read {o n w r w'} (ho : k.alive w o) (hp : ¬ P (k.place o n)) (h : k.backend.readResource o n w = (r, w')) : StepAway k P w w'
  | create {o n w r w'} (ho : k.alive w o) (hp : ¬ P (k.place o n))
      (h : k.backend.createOutputStream o n w = (r, w')) : StepAway k P w w'
  | write {s b w r w'} (hs : k.streamOpen w s) (hp : ¬ P (k.target w s)) (h : k.backend.writeAll s b w = (r, w')) :
      StepAway k P w w'
  | seek {s w r w'} (hs : k.streamOpen w s) (hp : ¬ P (k.target w s)) (h : k.backend.seekStart s w = (r, w')) :
      StepAway k P w w'

/-- Any number of such calls. -/
inductive StepsAway (k : Kind) (P : k.Place → Prop) : k.backend.W → k.backend.W → Prop
  | refl (w) : StepsAway k P w w
  | step {a b c} (h : StepsAway k P a b) (s : StepAway k P b c) : StepsAway k P a c

/-- The state of a process at any time. -/
def Reachable (k : Kind) (w : k.backend.W) : Prop := ∃ w0, k.initial w0 ∧ Steps k w0 w

end Kind

/-- Two results of reading are the same, for the caller: the same bytes, the same error (up to the kind of an I/O error). -/
inductive SameRead (B : Backend) (name : String) : Res RErr (Slice B.Base) × B.W → Res RErr (Slice B.Base) × B.W → Prop
  | ok (s w w') (h : B.deref w s = B.deref w' s) : SameRead B name (.ok s, w) (.ok s, w')
  | io (x x' w w') : SameRead B name (.err (.io x name), w) (.err (.io x' name), w')
  | err (x w w') : SameRead B name (.err x, w) (.err x, w')
  | panic (w w') : SameRead B name (.panic, w) (.panic, w')
  | ub (w w') : SameRead B name (.ub, w) (.ub, w')

end Flatdata.Spec
