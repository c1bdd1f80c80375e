import Verif.Spec.Moved
/-!
# Only reading
-/
namespace Flatdata.Spec

/-- One call of a method of `ResourceStorage` that reads, with any outcome. -/
inductive Look (k : Kind) : k.backend.W → k.backend.W → Prop
  | subdir {o d w r w'} (h : k.backend.subdir o d w = (r, w')) : Look k w w'
  | exists_ {o n w r w'} (h : k.backend.existsRes o n w = (r, w')) : Look k w w'
  | read {o n w r w'} (ho : k.alive w o) (h : k.backend.readResource o n w = (r, w')) : Look k w w'

/-- Any number of such calls. -/
inductive Looks (k : Kind) : k.backend.W → k.backend.W → Prop
  | refl (w) : Looks k w w
  | step {a b c} (h : Looks k a b) (s : Look k b c) : Looks k a c

/-- Nothing is written: the same files and directories and the same position in all open files; in memory the same streams of all
storage objects. -/
def Untouched : (k : Kind) → k.backend.W → k.backend.W → Prop
  | .memory, w, w' => ∀ l : MemLoc, l.1 < (w : MemW).next → (w' : MemW).streams l = (w : MemW).streams l
  | .disk, w, w' => (w' : FileW).fs.files = (w : FileW).fs.files ∧ (w' : FileW).fs.isDir = (w : FileW).fs.isDir ∧
      (w' : FileW).fs.fds = (w : FileW).fs.fds ∧ (w' : FileW).fs.nextFd = (w : FileW).fs.nextFd

/-- The same state, but no system call fails from now on. -/
def calm : (k : Kind) → k.backend.W → k.backend.W
  | .memory, w => w
  | .disk, w => ({ (w : FileW) with fs := { (w : FileW).fs with fault := fun _ => none } } : FileW)

/-- The result of reading a resource, with the data instead of the descriptor. -/
def readOutcome {B : Backend} : Res RErr (Slice B.Base) × B.W → Res RErr (Out Bytes)
  | (.ok s, w) => .ok (B.deref w s)
  | (.err x, _) => .err x
  | (.panic, _) => .panic
  | (.ub, _) => .ub

end Flatdata.Spec
