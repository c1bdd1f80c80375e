import Verif.Spec.ExtVector
/-!
# Specification of disturbed writing: files are changed by others while a vector is being written
-/
namespace Flatdata.Spec

/-- What other processes can do at any time: change, truncate or add files and directories. No file disappears. -/
structure Outside (w w' : FileW) : Prop where
  maps : w'.maps = w.maps
  next : w'.next = w.next
  fds : w'.fs.fds = w.fs.fds
  nextFd : w'.fs.nextFd = w.fs.nextFd
  kept : ∀ k, w.fs.files k ≠ none → w'.fs.files k ≠ none

/-- Any call of a storage or stream method in the same process, except on the given stream: also creating the same
resource again, writing to it through another stream, and reading it through the same storage object. -/
inductive CallBeside (s : Nat) : FileW → FileW → Prop
  | subdir {o d w r w'} (h : file.subdir o d w = (r, w')) : CallBeside s w w'
  | exists_ {o n w r w'} (h : file.existsRes o n w = (r, w')) : CallBeside s w w'
  | read {o n w r w'} (h : file.readResource o n w = (r, w')) : CallBeside s w w'
  | create {o n w r w'} (ho : Kind.alive .disk w o) (h : file.createOutputStream o n w = (r, w')) : CallBeside s w w'
  | write {s' b w r w'} (hs : s' ≠ s) (h : file.writeAll s' b w = (r, w')) : CallBeside s w w'
  | seek {s' w r w'} (hs : s' ≠ s) (h : file.seekStart s' w = (r, w')) : CallBeside s w w'

/-- Everything that can happen between creation and close of a vector whose files are left alone by nobody. -/
inductive Disturbed (p : Profile) (e : Endian) (S : StructDef) (w : FileW) (v : ExtVec file) :
    List (List HandleOp) → FileW → ExtVec file → Prop
  | start : Disturbed p e S w v [] w v
  | grow {es w1 v1 v2 pos w2 ops d} (g : Disturbed p e S w v es w1 v1) (h : v1.grow p S.size w1 = (.ok (v2, pos), w2))
      (hw : Vector.writeAt p e S v2.data pos ops = .ok d) : Disturbed p e S w v (es ++ [ops]) w2 { v2 with data := d }
  | failed {es w1 v1 x w2} (g : Disturbed p e S w v es w1 v1) (h : v1.grow p S.size w1 = (.err x, w2)) :
      Disturbed p e S w v es w2 v1
  | call {es w1 v1 s w2} (g : Disturbed p e S w v es w1 v1) (hs : v1.handle.stream = some s) (h : CallBeside s w1 w2) :
      Disturbed p e S w v es w2 v1
  | outside {es w1 v1 w2} (g : Disturbed p e S w v es w1 v1) (h : Outside w1 w2) : Disturbed p e S w v es w2 v1

/-- The first `n` bytes after the size field of a file, where what is missing counts as zero. -/
def dataOnDisk (c : Bytes) (n : Nat) : Bytes := ((c ++ zeros (8 + n)).drop 8).take n

end Flatdata.Spec
