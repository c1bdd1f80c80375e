import Verif.Model.MultiVector
/-!
# Destructors and unwinding: src/storage.rs:353-360

The other files of the model end a call at a panic. Here the thread goes on: it unwinds, which runs the destructors of the values the
functions on the stack own. `Drop for ResourceHandle` is the only destructor of the crate; it asks `thread::panicking()`. The
functions of the crate that drop a handle or a vector (`close` of the vectors, `create_multi_vector`) are given once more with the state of
the thread. Not in /repo, from the Rust reference: values are dropped when they go out of scope, fields in the order of their
declaration; after a panic in a destructor the remaining fields and values are dropped while unwinding; a panic while unwinding
aborts the process. Destructors of the standard library (buffers, `Rc`, `File`) do not panic and are left out.
-/
namespace Flatdata

/-- What a thread does: it runs, it unwinds after a panic (`thread::panicking()`), or the process has been aborted. -/
inductive Thread where
  | running | unwinding | aborted
  deriving DecidableEq, Repr

namespace Thread

/-- `std::thread::panicking()`. -/
def panicking : Thread → Bool
  | .unwinding => true
  | _ => false

/-- A panic: unwinding starts, or, when it is under way, the process is aborted. -/
def panic : Thread → Thread
  | .running => .unwinding
  | _ => .aborted

end Thread

section Drop
variable {B : Backend}

/-- `Drop for ResourceHandle`, src/storage.rs:353-360. -/
def Handle.dropIn (h : Handle B) (t : Thread) : Thread :=
  if !t.panicking then (if h.isOpen then t.panic else t) else t

/-- Dropping an `ExternalVector` drops its handle, src/vector.rs:266-271. -/
def ExtVec.dropIn (v : ExtVec B) (t : Thread) : Thread := v.handle.dropIn t

/-- Dropping a `MultiVector` drops its index, then its handle, src/multivector.rs:131-137. -/
def MultiVec.dropIn (v : MultiVec B) (t : Thread) : Thread := v.handle.dropIn (v.index.dropIn t)

/-- The values of the crate with a destructor. -/
inductive Owned (B : Backend) where
  | handle (h : Handle B)
  | vector (v : ExtVec B)
  | multi (v : MultiVec B)

/-- Dropping a value. -/
def Owned.dropIn : Owned B → Thread → Thread
  | .handle h => h.dropIn
  | .vector v => v.dropIn
  | .multi v => v.dropIn

/-- The end of a scope: its values are dropped one after the other, also after a panic in one of the destructors. -/
def dropAll (vs : List (Owned B)) (t : Thread) : Thread := vs.foldl (fun t v => v.dropIn t) t

end Drop

/-- A call in a thread. The outcome `panic` means that the call did not return. -/
def TAct (W E α : Type) := Thread → W → Res E α × Thread × W

namespace TAct
variable {W E E' α β : Type}

/-- Sequencing; `Err` propagates as with `?`. -/
def bind (x : TAct W E α) (f : α → TAct W E β) : TAct W E β := fun t w =>
  match x t w with
  | (.ok a, t, w) => f a t w
  | (.err e, t, w) => (.err e, t, w)
  | (.panic, t, w) => (.panic, t, w)
  | (.ub, t, w) => (.ub, t, w)

instance : Monad (TAct W E) where
  pure a := fun t w => (.ok a, t, w)
  bind := TAct.bind

/-- Code that owns nothing with a destructor of the crate. -/
def call (x : Act W E α) : TAct W E α := fun t w =>
  match x w with
  | (.ok a, w) => (.ok a, t, w)
  | (.err e, w) => (.err e, t, w)
  | (.panic, w) => (.panic, t.panic, w)
  | (.ub, w) => (.ub, t, w)

/-- Runs code and yields its `Result` as a value. -/
def attempt (x : TAct W E α) : TAct W E' (Except E α) := fun t w =>
  match x t w with
  | (.ok a, t, w) => (.ok (.ok a), t, w)
  | (.err e, t, w) => (.ok (.error e), t, w)
  | (.panic, t, w) => (.panic, t, w)
  | (.ub, t, w) => (.ub, t, w)

/-- Code running in a function that owns `v`: if it does not return, `v` is dropped. -/
def owning {B : Backend} (v : Owned B) (x : TAct W E α) : TAct W E α := fun t w =>
  match x t w with
  | (.panic, t, w) => (.panic, v.dropIn t, w)
  | r => r

/-- A value goes out of scope. When its destructor panics, the call does not return. -/
def discard {B : Backend} (v : Owned B) : TAct W E Unit := fun t w =>
  if v.dropIn t = t then (.ok (), t, w) else (.panic, v.dropIn t, w)

end TAct

section Close
variable {B : Backend} (p : Profile) (e : Endian)
open TAct

/-- Second half of `ExternalVector::close`, src/vector.rs:340-343. -/
def ExtVec.closeHandleIn [DiffLib] (v : ExtVec B) : TAct B.W RErr (Slice B.Base) := do
  let r ← owning (Owned.vector v) (call ((v.handle.close p e).mapErr Empty.elim))
  discard (.handle r.2)
  call (Act.ofExcept r.1)

/-- `ExternalVector::close`, src/vector.rs:336-343. -/
def ExtVec.closeIn [DiffLib] (v : ExtVec B) : TAct B.W RErr (Slice B.Base) := do
  let r ← owning (Owned.vector v) (call (Act.attempt (v.flush p)))
  match r with
  | .error x => do
    discard (.vector v)
    call (Act.fail (.io x v.handle.name))
  | .ok v => v.closeHandleIn p e

namespace MultiVec

/-- Last part of `close`, src/multivector.rs:205-206; the index has been moved away. -/
def closeDataIn [DiffLib] (v : MultiVec B) (index : Slice B.Base) : TAct B.W RErr (Slice B.Base × Slice B.Base) := do
  let r ← owning (Owned.handle v.handle) (call ((v.handle.close p e).mapErr Empty.elim))
  discard (.handle r.2)
  let d ← call (Act.ofExcept r.1)
  pure (index, d)

/-- Third part of `close`, src/multivector.rs:204: the index is closed, the function owns the other fields. -/
def closeIndexIn [DiffLib] (v : MultiVec B) : TAct B.W RErr (Slice B.Base × Slice B.Base) := do
  let r ← owning (Owned.handle v.handle) (TAct.attempt (v.index.closeIn p e))
  match r with
  | .error x => do
    discard (.handle v.handle)
    call (Act.fail x)
  | .ok i => v.closeDataIn p e i

/-- Second part of `close`, src/multivector.rs:203. -/
def closeFlushIn [DiffLib] (v : MultiVec B) : TAct B.W RErr (Slice B.Base × Slice B.Base) := do
  let r ← owning (Owned.multi v) (call (Act.attempt (v.flush p)))
  match r with
  | .error x => do
    discard (.multi v)
    call (Act.fail (.io x v.handle.name))
  | .ok v => v.closeIndexIn p e

/-- `MultiVector::close`, src/multivector.rs:199-207. -/
def closeIn [DiffLib] (V : Variadic) (v : MultiVec B) : TAct B.W RErr (Slice B.Base × Slice B.Base) := do
  let r ← owning (Owned.multi v) (call (Act.attempt (v.addToIndex p e V)))
  match r with
  | .error x => do
    discard (.multi v)
    call (Act.fail (.io x v.handle.name))
  | .ok v => v.closeFlushIn p e

end MultiVec

/-- `create_multi_vector`, src/storage.rs:163-187: the index is owned by the function while the second half runs. -/
def createMultiVectorIn (o : B.Obj) (name schema : String) : TAct B.W IoErr (MultiVec B) := do
  let index ← call (createExternalVector p e o (Storage.indexName name) (Storage.indexSchema schema))
  let r ← owning (Owned.vector index) (call (Act.attempt (createDataHandle p e o name schema)))
  match r with
  | .error x => do
    discard (.vector index)
    call (Act.fail x)
  | .ok h => pure (MultiVec.new index h)

end Close
end Flatdata
