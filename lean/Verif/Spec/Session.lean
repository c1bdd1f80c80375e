import Verif.Spec.Program
/-!
# Sessions: programs that work with any storage

A session is a client program that does not look into the objects it gets from the library: it keeps them in numbered variables,
and what it does next depends only on what it sees. So the same session can be run with different storages.
-/
namespace Flatdata.Spec

/-- A call. Numbers are variables; the first ones are those for the results. -/
inductive Cmd where
  | subdir (dst o : Nat) (name : String)
  | exists_ (o : Nat) (name : String)
  /-- `read_resource` -/
  | readRaw (dst o : Nat) (name : String)
  | read (dst o : Nat) (name schema : String)
  /-- looking at all bytes of a slice -/
  | look (s : Nat)
  | write (o : Nat) (name schema : String) (data : Bytes)
  | createArchive (o : Nat) (signature schema : String)
  /-- `create_output_stream` -/
  | stream (dst o : Nat) (name : String)
  /-- `stream.borrow_mut().write_all(data)` -/
  | put (s : Nat) (data : Bytes)
  /-- `stream.borrow_mut().seek(SeekFrom::Start(0))` -/
  | rewind (s : Nat)
  /-- `ResourceHandle::try_new` -/
  | handle (dst o : Nat) (name schema : String) (s : Nat)
  | handleWrite (h : Nat) (data : Bytes)
  | handleClose (dst h : Nat)
  | handleDrop (h : Nat)
  /-- `create_external_vector` -/
  | vector (dst o : Nat) (name schema : String)
  /-- `grow` and writing through the handle it returns -/
  | vectorGrow (v : Nat) (S : StructDef) (ops : List HandleOp)
  | vectorClose (dst v : Nat)
  /-- `create_multi_vector` -/
  | multi (dst o : Nat) (name schema : String)
  /-- `grow` -/
  | multiGrow (v : Nat) (V : Variadic)
  /-- `add_…` and writing through the handle it returns -/
  | multiAdd (v : Nat) (a : Add)
  | multiClose (dstIndex dstData v : Nat) (V : Variadic)
  /-- `open` of an archive type; the slices of its resources are put into the variables from `dst` on -/
  | openArchive (dst o : Nat) (D : ArchiveDef)

/-- What is seen of a call that returns. -/
inductive Seen where
  /-- a variable is not set: no program of Rust does that -/
  | unset
  | nothing
  | bool (b : Bool)
  | bytes (b : Bytes)
  /-- the length of a slice -/
  | len (n : Nat)
  /-- which resources of an opened archive are there, with their lengths -/
  | lens (l : List (Option Nat))
  | io (x : IoErr)
  | error (x : RErr)
  deriving DecidableEq

/-- The variables. -/
structure Vars (B : Backend) where
  obj : Nat → Option B.Obj
  strm : Nat → Option B.Strm
  handle : Nat → Option (Handle B)
  vec : Nat → Option (ExtVec B)
  multi : Nat → Option (MultiVec B)
  slice : Nat → Option (Slice B.Base)

section
variable {B : Backend} [DiffLib] (p : Profile) (e : Endian)

/-- Handles the `Result` of a call with an I/O error. -/
def ioSeen {α : Type} (v : Vars B) (x : Act B.W IoErr α) (f : α → Seen × Vars B) : Act B.W Empty (Seen × Vars B) := do
  let r ← Act.attempt x
  match r with
  | .ok a => pure (f a)
  | .error x => pure (.io x, v)

/-- Handles the `Result` of a call with a storage error. -/
def errSeen {α : Type} (v : Vars B) (x : Act B.W RErr α) (f : α → Seen × Vars B) : Act B.W Empty (Seen × Vars B) := do
  let r ← Act.attempt x
  match r with
  | .ok a => pure (f a)
  | .error x => pure (.error x, v)

/-- The slices of a resource. -/
def openedSlices {β : Type} : Opened β → List (Option (Slice β))
  | .one d => [d]
  | .two i d => [i, d]

mutual
/-- The slices of an opened archive, in order. -/
def archiveSlices {β : Type} : Archive β → List (Option (Slice β))
  | .mk xs ss => xs.flatMap openedSlices ++ subSlices ss

/-- ... and of its subarchives. -/
def subSlices {β : Type} : SubArchives β → List (Option (Slice β))
  | .nil => []
  | .cons (some a) rest => archiveSlices a ++ subSlices rest
  | .cons none rest => subSlices rest
end

/-- Puts a list into variables. -/
def putAll {α : Type} (f : Nat → Option α) (dst : Nat) (l : List (Option α)) : Nat → Option α :=
  fun i => if dst ≤ i ∧ i < dst + l.length then (l.getD (i - dst) none) else f i

/-- Runs a call if the variable is set. -/
def withVar {α : Type} (v : Vars B) (x : Option α) (f : α → Act B.W Empty (Seen × Vars B)) : Act B.W Empty (Seen × Vars B) :=
  match x with
  | some a => f a
  | none => pure (.unset, v)

/-- Running a call: what is seen, and the variables afterwards. Methods that take `self` unset their variable. -/
def Cmd.run (v : Vars B) : Cmd → Act B.W Empty (Seen × Vars B)
  | .subdir dst o n => withVar v (v.obj o) fun o => do
    let a ← B.subdir o n
    pure (.nothing, { v with obj := upd v.obj dst (some a) })
  | .exists_ o n => withVar v (v.obj o) fun o => do
    let b ← B.existsRes o n
    pure (.bool b, v)
  | .readRaw dst o n => withVar v (v.obj o) fun o => ioSeen v (B.readResource o n) fun s =>
      (.len s.len, { v with slice := upd v.slice dst (some s) })
  | .read dst o n schema => withVar v (v.obj o) fun o => errSeen v (Storage.read B p e o n schema) fun s =>
      (.len s.len, { v with slice := upd v.slice dst (some s) })
  | .look s => withVar v (v.slice s) fun s => do
    let b ← B.load s
    pure (.bytes b, v)
  | .write o n schema data => withVar v (v.obj o) fun o => ioSeen v (Storage.write B p e o n schema data) fun _ => (.nothing, v)
  | .createArchive o n schema => withVar v (v.obj o) fun o => errSeen v (Storage.createArchive B p e o n schema) fun _ => (.nothing, v)
  | .stream dst o n => withVar v (v.obj o) fun o => ioSeen v (B.createOutputStream o n) fun s =>
      (.nothing, { v with strm := upd v.strm dst (some s) })
  | .put s b => withVar v (v.strm s) fun s => ioSeen v (B.writeAll s b) fun _ => (.nothing, v)
  | .rewind s => withVar v (v.strm s) fun s => ioSeen v (B.seekStart s) fun _ => (.nothing, v)
  | .handle dst o n schema s => withVar v (v.obj o) fun o => withVar v (v.strm s) fun s =>
      ioSeen v (Handle.tryNew p e o n schema s) fun h => (.nothing, { v with handle := upd v.handle dst (some h) })
  | .handleWrite h b => withVar v (v.handle h) fun x => ioSeen v (x.write p b) fun x =>
      (.nothing, { v with handle := upd v.handle h (some x) })
  | .handleClose dst h => withVar v (v.handle h) fun x => do
    let r ← x.close p e
    errSeen { v with handle := upd v.handle h (some r.2) } (Act.ofExcept r.1) fun s =>
      (.len s.len, { v with handle := upd v.handle h (some r.2), slice := upd v.slice dst (some s) })
  | .handleDrop h => withVar v (v.handle h) fun x => do
    x.drop
    pure (.nothing, { v with handle := upd v.handle h none })
  | .vector dst o n schema => withVar v (v.obj o) fun o => ioSeen v (createExternalVector p e o n schema) fun x =>
      (.nothing, { v with vec := upd v.vec dst (some x) })
  | .vectorGrow i S ops => withVar v (v.vec i) fun x => ioSeen v (growOne B p e S x ops) fun x =>
      (.nothing, { v with vec := upd v.vec i (some x) })
  | .vectorClose dst i => withVar v (v.vec i) fun x => errSeen { v with vec := upd v.vec i none } (x.close p e) fun s =>
      (.len s.len, { v with vec := upd v.vec i none, slice := upd v.slice dst (some s) })
  | .multi dst o n schema => withVar v (v.obj o) fun o => ioSeen v (createMultiVector p e o n schema) fun x =>
      (.nothing, { v with multi := upd v.multi dst (some x) })
  | .multiGrow i V => withVar v (v.multi i) fun x => do
    let r ← x.grow p e V
    ioSeen { v with multi := upd v.multi i (some r.2) } (Act.ofExcept r.1) fun _ =>
      (.nothing, { v with multi := upd v.multi i (some r.2) })
  | .multiAdd i a => withVar v (v.multi i) fun x => ioSeen v (addOne B p e x a) fun x =>
      (.nothing, { v with multi := upd v.multi i (some x) })
  | .multiClose di dd i V => withVar v (v.multi i) fun x => errSeen { v with multi := upd v.multi i none } (x.close p e V) fun s =>
      (.len s.2.len, { v with multi := upd v.multi i none, slice := upd (upd v.slice di (some s.1)) dd (some s.2) })
  | .openArchive dst o D => withVar v (v.obj o) fun o => errSeen v (Flatdata.openArchive B p e o D) fun a =>
      (.lens ((archiveSlices a).map (·.map (·.len))), { v with slice := putAll v.slice dst (archiveSlices a) })

/-- A client program. -/
inductive Session where
  | done
  | call (c : Cmd) (k : Seen → Session)

/-- One step of what is observed. -/
inductive Event where
  | seen (s : Seen)
  | panicked
  | undefined
  deriving DecidableEq

/-- What is observed while a session runs, and the state at its end. -/
def Session.run : Session → Vars B → B.W → List Event × B.W
  | .done, _, w => ([], w)
  | .call c k, v, w =>
    match c.run p e v w with
    | (.ok (s, v), w) => (.seen s :: ((k s).run v w).1, ((k s).run v w).2)
    | (.err x, _) => x.elim
    | (.panic, w) => ([.panicked], w)
    | (.ub, w) => ([.undefined], w)

/-- The variables at the beginning: storage objects only. -/
def Vars.init (objs : List B.Obj) : Vars B where
  obj i := objs[i]?
  strm _ := none
  handle _ := none
  vec _ := none
  multi _ := none
  slice _ := none

mutual
/-- The names of the subarchives are plain. -/
def PlainSubs : ArchiveDef → Prop
  | .mk _ _ _ subs => PlainSubsIn subs

def PlainSubsIn : SubDefs → Prop
  | .nil => True
  | .cons n _ D rest => PlainName n ∧ PlainSubs D ∧ PlainSubsIn rest
end

/-- In every archive type that the session opens, names of subarchives are plain (they are identifiers of Rust). -/
def Session.Plain : Session → Prop
  | .done => True
  | .call c k => (∀ dst o D, c = .openArchive dst o D → PlainSubs D) ∧ ∀ s, (k s).Plain

end
end Flatdata.Spec
