import Verif.Model.Debug
/-!
# Client programs: arbitrary code that calls the library

A client program is a tree: it calls a function of the library, sees the result (also if it is an error), and goes on depending on
it. A panic ends the program.
-/
namespace Flatdata.Spec

/-- A call of a function of the library, with its arguments, indexed by the type of its result. Errors are results. -/
inductive Call (B : Backend) : Type → Type 1
  /-- getter of a struct field -/
  | get (f : Field) (mem : Bytes) : Call B Int
  /-- setters and `fill_from` through a handle at a position of a buffer -/
  | edit (S : StructDef) (data : Bytes) (pos : Nat) (ops : List HandleOp) : Call B Bytes
  /-- `==` of structs -/
  | structEq (S : StructDef) (a b : Bytes) : Call B Bool
  /-- `{:?}` of a struct -/
  | structDebug (S : StructDef) (mem : Bytes) : Call B String
  | bufDebug (S : StructDef) (data : Bytes) : Call B String
  | vecWithLen (size n : Nat) : Call B Bytes
  | vecLen (size : Nat) (data : Bytes) : Call B Nat
  | vecReserve (size : Nat) (data : Bytes) (n : Nat) : Call B Bytes
  | vecIsEmpty (size : Nat) (data : Bytes) : Call B Bool
  | vecAsBytes (data : Bytes) : Call B Bytes
  | vecGrow (size : Nat) (data : Bytes) : Call B (Bytes × Nat)
  | vecAt (size : Nat) (data : Bytes) (i : Nat) : Call B Bytes
  | vecAtMut (size : Nat) (data : Bytes) (i : Nat) : Call B Nat
  | vecDebug (S : StructDef) (data : Bytes) : Call B String
  | viewAt (size : Nat) (data : Bytes) (i : Nat) : Call B Bytes
  | viewSlice (size : Nat) (data : Bytes) (start stop : Bound) : Call B Bytes
  | viewNext (size : Nat) (view : Bytes) : Call B (Option Bytes × Bytes)
  | viewNextBack (size : Nat) (view : Bytes) : Call B (Option Bytes × Bytes)
  | viewDebug (S : StructDef) (name : String) (view : Bytes) : Call B String
  | elemEq (x y : Elem) : Call B Bool
  | elemDebug (x : Elem) : Call B String
  | itemDebug (V : Variadic) (data : Bytes) : Call B String
  | multiLen (V : Variadic) (v : MultiView) : Call B Nat
  | multiIsEmpty (V : Variadic) (v : MultiView) : Call B Bool
  | multiAt (V : Variadic) (v : MultiView) (i : Nat) : Call B Bytes
  | multiSlice (V : Variadic) (v : MultiView) (start stop : Bound) : Call B MultiView
  | multiNext (V : Variadic) (v : MultiView) : Call B (Option Bytes × MultiView)
  | multiNextBack (V : Variadic) (v : MultiView) : Call B (Option Bytes × MultiView)
  | multiDebug (V : Variadic) (name : String) (v : MultiView) : Call B String
  | write (o : B.Obj) (name schema : String) (data : Bytes) : Call B (Except IoErr Unit)
  | read (o : B.Obj) (name schema : String) : Call B (Except RErr (Slice B.Base))
  | createArchive (o : B.Obj) (signature schema : String) : Call B (Except RErr Unit)
  | handleNew (o : B.Obj) (name schema : String) (s : B.Strm) : Call B (Except IoErr (Handle B))
  | handleWrite (h : Handle B) (data : Bytes) : Call B (Except IoErr (Handle B))
  | handleClose (h : Handle B) : Call B (Except RErr (Slice B.Base) × Handle B)
  | createVector (o : B.Obj) (name schema : String) : Call B (Except IoErr (ExtVec B))
  | vectorGrow (size : Nat) (v : ExtVec B) : Call B (Except IoErr (ExtVec B × Nat))
  | vectorClose (v : ExtVec B) : Call B (Except RErr (Slice B.Base))
  | createMulti (o : B.Obj) (name schema : String) : Call B (Except IoErr (MultiVec B))
  | multiGrow (V : Variadic) (v : MultiVec B) : Call B (Except IoErr Unit × MultiVec B)
  | itemAdd (t : BitVec 8) (size : Nat) (data : Bytes) : Call B (Bytes × Nat)
  | multiClose (V : Variadic) (v : MultiVec B) : Call B (Except RErr (Slice B.Base × Slice B.Base))
  | openArchive (o : B.Obj) (D : ArchiveDef) : Call B (Except RErr (Archive B.Base))
  | archiveDebug (addr : Slice B.Base → String) (D : ArchiveDef) (a : Archive B.Base) : Call B String
  | builderNew (o : B.Obj) (D : ArchiveDef) : Call B (Except RErr B.Obj)
  | builderSub (o : B.Obj) (name : String) (D : ArchiveDef) : Call B (Except RErr B.Obj)
  | setStruct (o : B.Obj) (r : ResDecl) (S : StructDef) (item : Bytes) : Call B (Except IoErr Unit)
  | setVector (o : B.Obj) (r : ResDecl) (view : Bytes) : Call B (Except IoErr Unit)
  | setRaw (o : B.Obj) (r : ResDecl) (data : Bytes) : Call B (Except IoErr Unit)
  | startVector (o : B.Obj) (r : ResDecl) : Call B (Except IoErr (ExtVec B))
  | startMulti (o : B.Obj) (r : ResDecl) : Call B (Except IoErr (MultiVec B))
  /-- anything else: methods of the storage, accessors of an archive, destructors, code of the client's own that depends neither on
  the build profile nor on the byte order -/
  | other {β : Type} (x : Act B.W Empty β) : Call B β

section
variable {B : Backend} [DiffLib] (p : Profile) (e : Endian)

/-- Running a call. -/
def Call.run : {β : Type} → Call B β → Act B.W Empty β
  | _, .get f mem => Act.lift (f.get p e mem)
  | _, .edit S data pos ops => Act.lift (Vector.writeAt p e S data pos ops)
  | _, .structEq S a b => Act.lift (S.eq p e a b)
  | _, .structDebug S mem => Act.lift (S.debug p e mem)
  | _, .bufDebug S data => Act.lift (StructBuf.debug p e S data)
  | _, .vecWithLen size n => Act.lift (Vector.withLen p size n)
  | _, .vecLen size data => Act.lift (Vector.len p size data)
  | _, .vecReserve size data n => Act.lift (Vector.reserve p size data n)
  | _, .vecIsEmpty size data => Act.lift (Vector.isEmpty p size data)
  | _, .vecAsBytes data => Act.lift (Vector.asBytes p data)
  | _, .vecGrow size data => Act.lift (Vector.grow p size data)
  | _, .vecAt size data i => Act.lift (Vector.at' p size data i)
  | _, .vecAtMut size data i => Act.lift (Vector.atMut p size data i)
  | _, .vecDebug S data => Act.lift (Vector.debug p e S data)
  | _, .viewAt size data i => Act.lift (View.at' p size data i)
  | _, .viewSlice size data start stop => Act.lift (View.slice p size data start stop)
  | _, .viewNext size view => Act.lift (View.next p size view)
  | _, .viewNextBack size view => Act.lift (View.nextBack p size view)
  | _, .viewDebug S name view => Act.lift (View.debugFormat p e S name view)
  | _, .elemEq x y => Act.lift (x.eq p e y)
  | _, .elemDebug x => Act.lift (x.debug p e)
  | _, .itemDebug V data => Act.lift (MultiView.itemDebug p e V data)
  | _, .multiLen V v => Act.lift (MultiView.len p V v)
  | _, .multiIsEmpty V v => Act.lift (MultiView.isEmpty p V v)
  | _, .multiAt V v i => Act.lift (MultiView.at' p e V v i)
  | _, .multiSlice V v start stop => Act.lift (MultiView.slice p V v start stop)
  | _, .multiNext V v => Act.lift (MultiView.next p e V v)
  | _, .multiNextBack V v => Act.lift (MultiView.nextBack p e V v)
  | _, .multiDebug V name v => Act.lift (MultiView.debugFormat p e V name v)
  | _, .write o name schema data => Act.attempt (Storage.write B p e o name schema data)
  | _, .read o name schema => Act.attempt (Storage.read B p e o name schema)
  | _, .createArchive o signature schema => Act.attempt (Storage.createArchive B p e o signature schema)
  | _, .handleNew o name schema s => Act.attempt (Handle.tryNew p e o name schema s)
  | _, .handleWrite h data => Act.attempt (h.write p data)
  | _, .handleClose h => h.close p e
  | _, .createVector o name schema => Act.attempt (createExternalVector p e o name schema)
  | _, .vectorGrow size v => Act.attempt (v.grow p size)
  | _, .vectorClose v => Act.attempt (v.close p e)
  | _, .createMulti o name schema => Act.attempt (createMultiVector p e o name schema)
  | _, .multiGrow V v => v.grow p e V
  | _, .itemAdd t size data => Act.lift (MultiVec.builderAdd p t size data)
  | _, .multiClose V v => Act.attempt (v.close p e V)
  | _, .openArchive o D => Act.attempt (Flatdata.openArchive B p e o D)
  | _, .archiveDebug addr D a => fun w => Act.lift (Flatdata.archiveDebug B w p e addr D a) w
  | _, .builderNew o D => Act.attempt (Flatdata.builderNew B p e o D)
  | _, .builderSub o name D => Act.attempt (Flatdata.builderSub B p e o name D)
  | _, .setStruct o r S item => Act.attempt (Flatdata.setStruct B p e o r S item)
  | _, .setVector o r view => Act.attempt (Flatdata.setVector B p e o r view)
  | _, .setRaw o r data => Act.attempt (Flatdata.setRaw B p e o r data)
  | _, .startVector o r => Act.attempt (Flatdata.startVector B p e o r)
  | _, .startMulti o r => Act.attempt (Flatdata.startMulti B p e o r)
  | _, .other x => x

/-- A client program with result in `α`. -/
inductive Client (B : Backend) (α : Type) : Type 1
  | ret (a : α)
  | call {β : Type} (c : Call B β) (k : β → Client B α)

/-- Running the program. -/
def Client.run {α : Type} : Client B α → Act B.W Empty α
  | .ret a => pure a
  | .call c k => Act.bind (c.run p e) fun b => (k b).run

end
end Flatdata.Spec
