import Verif.Model.Owner
/-!
# Clients that own storages, archives and builders, and borrow from them

A client keeps owned values in variables, and borrowed ones in a list. The compiler checks one thing here: a variable that something
was borrowed from is neither dropped nor moved while the borrowed value is in use. A call that does not respect this, or that uses a
variable that is not there or of another type, does not compile; it is left out.
-/
namespace Flatdata

namespace Owner
mutual
/-- The storages of the `Rc`s of an archive. -/
def Arch.held : Arch → List Nat
  | .mk o _ ss => o :: ss.held

def Subs.held : Subs → List Nat
  | .nil => []
  | .cons none rest => rest.held
  | .cons (some a) rest => a.held ++ rest.held
end

end Owner

namespace Spec
open Owner

/-- A value that owns storages. -/
inductive Owned where
  /-- `Rc<ResourceStorage>` -/
  | storage (o : Nat)
  | archive (A : Arch)
  | builder (o : Nat)

/-- The storages it owns (once per `Rc`). -/
def Owned.held : Owned → List Nat
  | storage o => [o]
  | archive A => A.held
  | builder o => [o]

/-- A value with a lifetime. -/
inductive Loan where
  /-- `&ResourceStorage`; also in an `ExternalVector`, `MultiVector` or `ResourceHandle` -/
  | storage (o : Nat)
  /-- `&[u8]`; also in an `ArrayView`, `MultiArrayView`, item or struct -/
  | bytes (s : Slice Nat)

/-- The state of a client. -/
structure Holder where
  heap : Heap
  /-- the variables that are set -/
  vars : List (Nat × Owned)
  /-- the name of the next variable -/
  next : Nat
  /-- what is borrowed, each with the variable it is borrowed from -/
  loans : List (Nat × Loan)

/-- Nothing is owned; the environment can be anything. -/
def Holder.start (env : Nat → Option Bytes) : Holder :=
  { heap := { stores := fun _ => none, regions := fun _ => none, nextStore := 0, nextRegion := 0, env, time := 0 }, vars := [], next := 0, loans := [] }

/-- The steps of a client. `v` are variables, `k` positions in the list of borrowed values. -/
inductive Move where
  /-- `MemoryResourceStorage::new`, `FileResourceStorage::new` -/
  | new (path : Path)
  /-- `clone()` of a variable of any type -/
  | clone (v : Nat)
  /-- drop of a variable of any type -/
  | drop (v : Nat)
  /-- `Archive::open`; the storage is moved into it -/
  | openA (v : Nat) (D : ArchiveDef)
  /-- `ArchiveBuilder::new`; the storage is moved into it -/
  | build (v : Nat) (D : ArchiveDef)
  /-- the method of a builder for a subarchive -/
  | buildSub (v : Nat) (name : String) (D : ArchiveDef)
  /-- `clone()` of a subarchive (`path`: which one of which one of ...) -/
  | cloneSub (v : Nat) (path : List Nat)
  /-- `&*storage`; what builders do in `start_...` -/
  | ref (v : Nat)
  /-- the bytes behind the accessor of resource `i` of a subarchive; `j` is 1 for the data of a multivector, otherwise 0 -/
  | look (v : Nat) (path : List Nat) (i j : Nat)
  /-- `storage.subdir(dir)` through a reference -/
  | subdir (k : Nat) (dir : String)
  /-- `storage.read_resource(name)` through a reference -/
  | readRaw (k : Nat) (name : String)
  /-- `storage.read(name, schema)` through a reference; this is also what `close` returns -/
  | read (k : Nat) (name schema : String)
  /-- `storage.write(name, schema, data)` through a reference -/
  | write (k : Nat) (name schema : String) (data : Bytes)
  /-- the last use of a borrowed value has been -/
  | release (k : Nat)
  /-- bytes of a region change, because another process writes to the mapped file -/
  | other (r : Nat) (f : Bytes → Bytes)

/-- The subarchive of an archive at a path. -/
def subArch : List Nat → Arch → Option Arch
  | [], A => some A
  | i :: is, .mk _ _ ss => (nth i ss).bind (subArch is)
where
  nth : Nat → Subs → Option Arch
    | _, .nil => none
    | 0, .cons a _ => a
    | i + 1, .cons _ rest => nth i rest

/-- The descriptors of a resource. -/
def slices : Opened Nat → List (Option (Slice Nat))
  | .one d => [d]
  | .two i d => [i, d]

namespace Holder

/-- Is nothing borrowed from `v`? -/
def free (H : Holder) (v : Nat) : Bool := H.loans.all fun x => x.1 ≠ v

/-- Binding a new variable. -/
def bindVar (H : Holder) (x : Owned) : Holder := { H with vars := (H.next, x) :: H.vars, next := H.next + 1 }

/-- Moving out of a variable. -/
def unbind (H : Holder) (v : Nat) : Holder := { H with vars := H.vars.filter fun x => x.1 ≠ v }

/-- Borrowing. -/
def lend (H : Holder) (v : Nat) (l : Loan) : Holder := { H with loans := (v, l) :: H.loans }

/-- A call and what is done with its result. Errors and panics are seen by the client, who can go on. -/
def call {E α : Type} (H : Holder) (x : Act Heap E α) (ok : Holder → α → Holder) : Out Holder :=
  match x H.heap with
  | (.ok a, h) => .ok (ok { H with heap := h } a)
  | (.err _, h) => .ok { H with heap := h }
  | (.panic, h) => .ok { H with heap := h }
  | (.ub, _) => .ub

section
variable [DiffLib] (p : Profile) (e : Endian)

/-- `clone()` of an owned value. -/
def cloneOwned : Owned → Act Heap Empty Unit
  | .storage o => cloneRc o
  | .builder o => cloneRc o
  | .archive A => cloneArch A

/-- Drop of an owned value. -/
def dropOwned : Owned → Act Heap Empty Unit
  | .storage o => dropRc o
  | .builder o => dropRc o
  | .archive A => dropArch A

/-- One step. -/
def step (H : Holder) : Move → Out Holder
  | .new path => H.call (E := Empty) (newStore path) fun H o => H.bindVar (.storage o)
  | .clone v =>
    match H.vars.lookup v with
    | some x => H.call (cloneOwned x) fun H _ => H.bindVar x
    | none => .ok H
  | .drop v =>
    match H.vars.lookup v, H.free v with
    | some x, true => (H.unbind v).call (dropOwned x) fun H _ => H
    | _, _ => .ok H
  | .openA v D =>
    match H.vars.lookup v, H.free v with
    | some (.storage o), true => (H.unbind v).call (openOwned p e o D) fun H A => H.bindVar (.archive A)
    | _, _ => .ok H
  | .build v D =>
    match H.vars.lookup v, H.free v with
    | some (.storage o), true => (H.unbind v).call (buildOwned p e o D) fun H _ => H.bindVar (.builder o)
    | _, _ => .ok H
  | .buildSub v name D =>
    match H.vars.lookup v with
    | some (.builder o) => H.call (buildSubOwned p e o name D) fun H o' => H.bindVar (.builder o')
    | _ => .ok H
  | .cloneSub v path =>
    match H.vars.lookup v with
    | some (.archive A) =>
      match subArch path A with
      | some A' => H.call (E := Empty) (cloneArch A') fun H _ => H.bindVar (.archive A')
      | none => .ok H
    | _ => .ok H
  | .ref v =>
    match H.vars.lookup v with
    | some (.storage o) => .ok (H.lend v (.storage o))
    | some (.builder o) => .ok (H.lend v (.storage o))
    | _ => .ok H
  | .look v path i j =>
    match H.vars.lookup v with
    | some (.archive A) =>
      match subArch path A with
      | some (.mk _ xs _) =>
        match xs[i]?.bind fun x => (slices x)[j]? with
        | some (some s) => .ok (H.lend v (.bytes s))
        | _ => .ok H
      | none => .ok H
    | _ => .ok H
  | .subdir k dir =>
    match H.loans[k]? with
    | some (_, .storage o) => H.call (E := Empty) (Owner.subdir o dir) fun H o' => H.bindVar (.storage o')
    | _ => .ok H
  | .readRaw k name =>
    match H.loans[k]? with
    | some (v, .storage o) => H.call (Owner.readResource o name) fun H s => H.lend v (.bytes s)
    | _ => .ok H
  | .read k name schema =>
    match H.loans[k]? with
    | some (v, .storage o) => H.call (Storage.read owning p e o name schema) fun H s => H.lend v (.bytes s)
    | _ => .ok H
  | .write k name schema data =>
    match H.loans[k]? with
    | some (_, .storage o) => H.call (Storage.write owning p e o name schema data) fun H _ => H
    | _ => .ok H
  | .release k => .ok { H with loans := H.loans.eraseIdx k }
  | .other r f =>
    match H.heap.regions r with
    | some d => if (f d).length = d.length then .ok { H with heap := { H.heap with regions := upd H.heap.regions r (some (f d)) } } else .ok H
    | none => .ok H

/-- A program. -/
def run (H : Holder) : List Move → Out Holder
  | [] => .ok H
  | m :: ms => (step p e H m).bind fun H => run H ms

end

/-- The byte slices that the client can use: those borrowed, and those behind the accessors of its archives. -/
def Usable (H : Holder) (s : Slice Nat) : Prop :=
  (∃ v, (v, .bytes s) ∈ H.loans) ∨
  ∃ (v : Nat) (A : Arch) (path : List Nat) (o : Nat) (xs : List (Opened Nat)) (ss : Subs) (i j : Nat) (x : Opened Nat),
    (v, .archive A) ∈ H.vars ∧ subArch path A = some (.mk o xs ss) ∧ xs[i]? = some x ∧ (slices x)[j]? = some (some s)

end Holder
end Spec
end Flatdata
