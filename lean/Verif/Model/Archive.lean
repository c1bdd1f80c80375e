import Verif.Model.MultiVector
/-!
# Archives: `define_archive!`, src/archive.rs:451-731

An archive type is data (`ArchiveDef`); the methods that the macro generates are functions of that data.
-/
namespace Flatdata

/-- The kind of a resource of an archive: the first four sections of `define_archive!`, src/archive.rs:453-467, with the
types and, for a multivector, the name of its index resource. -/
inductive ResType where
  | struct (S : StructDef)
  | vector (S : StructDef)
  | multi (V : Variadic) (index : String)
  | raw
  deriving DecidableEq, Repr

/-- One resource of an archive, src/archive.rs:454-467: its name, schema, and whether it is optional. The names of setters
play no role. -/
structure ResDecl where
  name : String
  schema : String
  optional : Bool
  type : ResType
  deriving DecidableEq, Repr

mutual
/-- The arguments of `define_archive!`, src/archive.rs:452-472: name, schema, resources and subarchives. The macro takes the
resources ordered by kind (structs, vectors, multivectors, raw data); the model allows any order. -/
inductive ArchiveDef where
  | mk (name schema : String) (resources : List ResDecl) (subs : SubDefs)

/-- The subarchives of an archive, src/archive.rs:468-471: name, whether it is optional, and the archive type. (The schema
argument is not used by the macro.) -/
inductive SubDefs where
  | nil
  | cons (name : String) (optional : Bool) (archive : ArchiveDef) (rest : SubDefs)
end

/-- `MemoryDescriptor`s held by an opened archive for one resource, src/archive.rs:477-482: one, or for a multivector those
of index and data. `none` only for optional resources. -/
inductive Opened (Base : Type) where
  | one (data : Option (Slice Base))
  | two (index data : Option (Slice Base))
  deriving DecidableEq, Repr

mutual
/-- An opened archive, src/archive.rs:475-484: its resources in the order of the definition, and its subarchives. (It also
keeps the storage alive.) -/
inductive Archive (Base : Type) where
  | mk (resources : List (Opened Base)) (subs : SubArchives Base)

/-- The subarchives of an opened archive; `none` only for optional ones. -/
inductive SubArchives (Base : Type) where
  | nil
  | cons (archive : Option (Archive Base)) (rest : SubArchives Base)
end

namespace ArchiveDef

/-- `NAME`, src/archive.rs:586. -/
def name : ArchiveDef → String
  | mk n _ _ _ => n

/-- `SCHEMA`, src/archive.rs:587. -/
def schema : ArchiveDef → String
  | mk _ s _ _ => s

/-- The resources. -/
def resources : ArchiveDef → List ResDecl
  | mk _ _ r _ => r

/-- The subarchives. -/
def subs : ArchiveDef → SubDefs
  | mk _ _ _ s => s

/-- `signature_name(NAME)`, src/archive.rs:559-561. -/
def signature (D : ArchiveDef) : String := D.name ++ ".archive"

end ArchiveDef

section
variable (B : Backend) [DiffLib] (p : Profile) (e : Endian)

/-- `check_resource!`, src/archive.rs:439-446: `?` for a required resource, `.ok()` for an optional one. -/
def checkRes {α : Type} (optional : Bool) (x : Act B.W RErr α) : Act B.W RErr (Option α) := do
  let r ← Act.attempt x
  match r with
  | .ok a => pure (some a)
  | .error err => if optional then pure none else Act.fail err

/-- Reading one resource in `open`, src/archive.rs:600-635 (`read_resource`: 487-496). -/
def openResource (o : B.Obj) (r : ResDecl) : Act B.W RErr (Opened B.Base) :=
  match r.type with
  | .multi _ index => do
    let i ← checkRes B r.optional (Storage.read B p e o index (Storage.indexSchema r.schema))
    let d ← checkRes B r.optional (Storage.read B p e o r.name r.schema)
    pure (.two i d)
  | _ => do
    let d ← checkRes B r.optional (Storage.read B p e o r.name r.schema)
    pure (.one d)

/-- All resources in order. -/
def openResources (o : B.Obj) : List ResDecl → Act B.W RErr (List (Opened B.Base))
  | [] => pure []
  | r :: rs => do
    let x ← openResource B p e o r
    let xs ← openResources o rs
    pure (x :: xs)

mutual
/-- `Archive::open`, src/archive.rs:589-650. -/
def openArchive (o : B.Obj) : ArchiveDef → Act B.W RErr (Archive B.Base)
  | .mk name schema resources subs => do
    let _ ← Storage.read B p e o (name ++ ".archive") schema
    let xs ← openResources B p e o resources
    let ss ← openSubs o subs
    pure (.mk xs ss)

/-- The subarchives in order, src/archive.rs:636-641. -/
def openSubs (o : B.Obj) : SubDefs → Act B.W RErr (SubArchives B.Base)
  | .nil => pure .nil
  | .cons name optional archive rest => do
    let o' ← (B.subdir o name).mapErr Empty.elim
    let a ← checkRes B optional (openArchive o' archive)
    let ss ← openSubs o rest
    pure (.cons a ss)
end

end

/-! ## Accessors of an opened archive -/

/-- The fields of an opened archive that hold descriptors. -/
def Archive.resources {Base : Type} : Archive Base → List (Opened Base)
  | mk xs _ => xs

/-- The accessors of subarchives return these fields, src/archive.rs:553-557. -/
def Archive.subs {Base : Type} : Archive Base → SubArchives Base
  | mk _ ss => ss

section
variable (B : Backend) (w : B.W)

/-- The bytes behind a `MemoryDescriptor`, src/storage.rs:243-247: a struct resource is accessed through the pointer to
their beginning, a vector resource is an `ArrayView` of them, a raw data resource is these bytes;
src/archive.rs:498-519, 540-551. For an optional resource without descriptor `none`. -/
def Opened.bytes : Opened B.Base → Out (Option Bytes)
  | .one (some s) => (B.deref w s).bind fun x => .ok (some x)
  | .one none => .ok none
  | .two _ _ => .ok none

/-- The accessor of a multivector resource, src/archive.rs:521-538: a `MultiArrayView` of index and data, for an optional
one `none` unless both are there. -/
def Opened.multi : Opened B.Base → Out (Option MultiView)
  | .two (some i) (some d) => (B.deref w i).bind fun i => (B.deref w d).bind fun d => .ok (some ⟨i, d⟩)
  | .two _ _ => .ok none
  | .one _ => .ok none

end

/-! ## The builder -/

section
variable (B : Backend) (p : Profile) (e : Endian)

/-- `ArchiveBuilder::new`, src/archive.rs:723-728; the builder is the storage object. -/
def builderNew (o : B.Obj) (D : ArchiveDef) : Act B.W RErr B.Obj := do
  Storage.createArchive B p e o D.signature D.schema
  pure o

/-- The setter of a struct resource, src/archive.rs:660-670: writes the first `SIZE_IN_BYTES` bytes behind the pointer of
`item`, given by the memory from there on. -/
def setStruct (o : B.Obj) (r : ResDecl) (S : StructDef) (item : Bytes) : Act B.W IoErr Unit :=
  if item.length < S.size then Act.lift .ub
  else Storage.write B p e o r.name r.schema (item.take S.size)

/-- The setter of a vector resource, src/archive.rs:672-678; `view` is the data of the `ArrayView`. -/
def setVector (o : B.Obj) (r : ResDecl) (view : Bytes) : Act B.W IoErr Unit :=
  Storage.write B p e o r.name r.schema view

/-- The setter of a raw data resource, src/archive.rs:702-708. -/
def setRaw (o : B.Obj) (r : ResDecl) (data : Bytes) : Act B.W IoErr Unit :=
  Storage.write B p e o r.name r.schema data

/-- `start_…` of a vector resource, src/archive.rs:680-688. -/
def startVector (o : B.Obj) (r : ResDecl) : Act B.W IoErr (ExtVec B) := createExternalVector p e o r.name r.schema

/-- `start_…` of a multivector resource, src/archive.rs:690-700. -/
def startMulti (o : B.Obj) (r : ResDecl) : Act B.W IoErr (MultiVec B) := createMultiVector p e o r.name r.schema

/-- The method of a subarchive, src/archive.rs:710-716: a builder for it in the subdirectory of its name. -/
def builderSub (o : B.Obj) (name : String) (D : ArchiveDef) : Act B.W RErr B.Obj := do
  let o' ← (B.subdir o name).mapErr Empty.elim
  builderNew B p e o' D

end
end Flatdata
