import Verif.Spec.Build
import Verif.Spec.Names
/-!
# Programs that build an archive: a sequence of builder calls
-/
namespace Flatdata.Spec

/-- How the user provides the content of a resource. -/
inductive Source where
  /-- the setter of a struct resource: the struct (with whatever follows it in memory) -/
  | struct (item : Bytes)
  /-- the setter of a vector or raw data resource -/
  | data (b : Bytes)
  /-- `start_…`, one `grow` per element followed by operations through the handle, `close` -/
  | elements (es : List (List HandleOp))
  /-- `start_…` of a multivector, one `grow` per item followed by `add_…` calls, `close` -/
  | items (its : List (List Add))

section
variable (B : Backend) [DiffLib] (p : Profile) (e : Endian)

/-- Growing a vector by one element. -/
def growOne (S : StructDef) (v : ExtVec B) (ops : List HandleOp) : Act B.W IoErr (ExtVec B) := do
  let r ← v.grow p S.size
  let d ← Act.lift (Vector.writeAt p e S r.1.data r.2 ops)
  pure { r.1 with data := d }

/-- Adding a struct to the last item of a multivector. -/
def addOne (v : MultiVec B) (a : Add) : Act B.W IoErr (MultiVec B) := do
  let d ← Act.lift (MultiVec.builderAdd p a.type a.struct.size v.data)
  let d' ← Act.lift (Vector.writeAt p e a.struct d.1 d.2 a.ops)
  pure { v with data := d' }

/-- Growing a multivector by one item. -/
def growItem (V : Variadic) (v : MultiVec B) (as : List Add) : Act B.W IoErr (MultiVec B) := do
  let r ← (v.grow p e V).mapErr Empty.elim
  let _ ← Act.ofExcept r.1
  as.foldlM (addOne B p e) r.2

/-- The calls that write one resource; the first error ends the program. (Combinations that the types of Rust exclude count as
undefined; destructors run because of an error are left out.) -/
def writeResource (o : B.Obj) (r : ResDecl) (s : Source) : Act B.W RErr Unit :=
  match r.type, s with
  | .struct S, .struct item => (setStruct B p e o r S item).mapErr (RErr.io · r.name)
  | .vector _, .data b => (setVector B p e o r b).mapErr (RErr.io · r.name)
  | .raw, .data b => (setRaw B p e o r b).mapErr (RErr.io · r.name)
  | .vector S, .elements es => do
    let v ← (startVector B p e o r).mapErr (RErr.io · r.name)
    let v ← (es.foldlM (growOne B p e S) v).mapErr (RErr.io · r.name)
    let _ ← v.close p e
    pure ()
  | .multi V _, .items its => do
    let v ← (startMulti B p e o r).mapErr (RErr.io · r.name)
    let v ← (its.foldlM (growItem B p e V) v).mapErr (RErr.io · r.name)
    let _ ← v.close p e V
    pure ()
  | _, _ => Act.lift .ub

/-- A program using the builder of an archive: writing resources and building subarchives, in any order. -/
inductive Prog where
  | done
  | res (r : ResDecl) (s : Source) (rest : Prog)
  | sub (name : String) (D : ArchiveDef) (inner : Prog) (rest : Prog)

/-- Running the program with the builder `o`. -/
def Prog.run : Prog → B.Obj → Act B.W RErr Unit
  | .done, _ => pure ()
  | .res r s rest, o => do
    writeResource B p e o r s
    rest.run o
  | .sub name D inner rest, o => do
    let o' ← builderSub B p e o name D
    inner.run o'
    rest.run o

/-- Creating the builder and running the program. -/
def buildArchive (o : B.Obj) (D : ArchiveDef) (prog : Prog) : Act B.W RErr Unit := do
  let o ← builderNew B p e o D
  prog.run B p e o

end

/-- The resources the program writes. -/
def Prog.writes : Prog → List (ResDecl × Source)
  | .done => []
  | .res r s rest => (r, s) :: rest.writes
  | .sub _ _ _ rest => rest.writes

/-- The subarchives the program builds. -/
def Prog.builds : Prog → List (String × ArchiveDef × Prog)
  | .done => []
  | .res _ _ rest => rest.builds
  | .sub name D inner rest => (name, D, inner) :: rest.builds

/-- The subarchives of a definition. -/
def SubDefs.entries : SubDefs → List (String × ArchiveDef)
  | .nil => []
  | .cons name _ D rest => (name, D) :: SubDefs.entries rest

/-- The files of an archive, without those of subarchives. -/
def files (D : ArchiveDef) : List String :=
  (D.name ++ ".archive") :: (D.name ++ ".archive" ++ ".schema") ::
    D.resources.flatMap fun r => (parts r).flatMap fun q => [q.1, q.1 ++ ".schema"]

mutual
/-- The names used in an archive are plain and differ from each other. -/
def Separate : ArchiveDef → Prop
  | .mk name schema rs subs =>
    (∀ n ∈ files (.mk name schema rs subs) ++ (SubDefs.entries subs).map Prod.fst, PlainName n) ∧
    (files (.mk name schema rs subs) ++ (SubDefs.entries subs).map Prod.fst).Nodup ∧ SubsSeparate subs

/-- ... in subarchives. -/
def SubsSeparate : SubDefs → Prop
  | .nil => True
  | .cons _ _ D rest => Separate D ∧ SubsSeparate rest
end

/-- What the source means for the resource: the payload; with limits of a 64 bit machine. -/
def Gives (p : Profile) (e : Endian) (r : ResDecl) : Source → Payload → Prop
  | .struct item, .bytes b => ∃ S, r.type = .struct S ∧ S.size < 2 ^ 63 ∧ S.size ≤ item.length ∧ b = item.take S.size
  | .data d, .bytes b => ((∃ S, r.type = .vector S) ∨ r.type = .raw) ∧ d.length < 2 ^ 63 ∧ b = d
  | .elements es, .bytes b => ∃ S xs, r.type = .vector S ∧ 0 < S.size ∧ Elements p e S es xs ∧ es.length * S.size + 8 < 2 ^ 63 ∧
      b = xs.flatten
  | .items its, .items xss => ∃ V, r.type = .multi V (r.name ++ "_index") ∧ VariadicOK V ∧ AllContents p e its xss ∧
      (∀ as ∈ its, ∀ a ∈ as, (a.type, a.struct) ∈ V.types) ∧ (its.length + 1) * V.indexSize + 8 < 2 ^ 63 ∧
      dataSize its + 8 < 2 ^ 63 ∧ dataSize its < 2 ^ V.indexBits
  | _, _ => False

/-- The program writes each resource of the list that has a content, and only those; a resource without content is optional. -/
def ResPrepare (p : Profile) (e : Endian) (prog : Prog) : List ResDecl → List (Option Payload) → Prop
  | [], [] => True
  | r :: rs, some x :: cs => (∃ s, (r, s) ∈ prog.writes ∧ Gives p e r s x) ∧ ResPrepare p e prog rs cs
  | r :: rs, none :: cs => (r.optional = true ∧ ∀ s, (r, s) ∉ prog.writes) ∧ ResPrepare p e prog rs cs
  | _, _ => False

mutual
/-- The program writes the content `c` of the archive `D`: every resource and every subarchive at most once, nothing else. -/
def Prepares (p : Profile) (e : Endian) : ArchiveDef → Prog → Content → Prop
  | .mk _ _ rs subs, prog, .mk cs ts =>
    (prog.writes.map fun x => x.1.name).Nodup ∧ (prog.builds.map fun x => x.1).Nodup ∧ (∀ x ∈ prog.writes, x.1 ∈ rs) ∧
    (∀ x ∈ prog.builds, (x.1, x.2.1) ∈ SubDefs.entries subs) ∧ ResPrepare p e prog rs cs ∧ SubsPrepare p e subs prog ts

/-- ... and of its subarchives. -/
def SubsPrepare (p : Profile) (e : Endian) : SubDefs → Prog → SubContents → Prop
  | .nil, _, .nil => True
  | .cons name optional D rest, prog, .cons c ts =>
    (match c with
      | some c => ∃ inner, (name, D, inner) ∈ prog.builds ∧ Prepares p e D inner c
      | none => optional = true ∧ ∀ D inner, (name, D, inner) ∉ prog.builds) ∧ SubsPrepare p e rest prog ts
  | _, _, _ => False
end

/-- The file belongs to the archive `D` in a directory: it has the name of one of its files, or is in the directory of one of its
subarchives. -/
def OwnFile (D : ArchiveDef) (ds : List String) (n : String) : Prop :=
  (ds = [] ∧ n ∈ files D) ∨ ∃ x ∈ SubDefs.entries D.subs, ∃ t, ds = x.1 :: t

/-- The places of the files of the archive `D` are free: no file has the name of one of its files, nothing is stored in the
directories of its subarchives, and the storage object has read none of its files. (Other files may be there.) -/
structure Kind.Vacant (k : Kind) (D : ArchiveDef) (w : k.backend.W) (o : k.backend.Obj) : Prop where
  noFiles : ∀ n ∈ files D, k.stored w o n = none
  noSubs : ∀ x ∈ SubDefs.entries D.subs, ∀ ds n, (∀ d ∈ ds, PlainName d) → PlainName n → k.dir w o (x.1 :: ds) n = none
  unread : ∀ n ∈ files D, k.unread w o n

/-- There is room for the archive `D` on disk: neither the directory nor one of its parents is a file, no directory has the
name of one of its files, and where its subarchives go there is no file and no directory other than an empty one. -/
def Kind.Clear : (k : Kind) → ArchiveDef → k.backend.W → k.backend.Obj → Prop
  | .memory, _, _, _ => True
  | .disk, D, w, o => (∀ i, (w : FileW).fs.files ((key (o : Obj).path).take i) = none) ∧
      (∀ n ∈ files D, (w : FileW).fs.isDir (key (o : Obj).path ++ [n.toList]) = false) ∧
      ∀ x ∈ SubDefs.entries D.subs, ∀ t, (w : FileW).fs.files (key (o : Obj).path ++ x.1.toList :: t) = none ∧
        ∀ y, (w : FileW).fs.isDir (key (o : Obj).path ++ x.1.toList :: y :: t) = false

end Flatdata.Spec
