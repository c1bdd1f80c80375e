import Verif.Spec.Format
import Verif.Spec.Program
/-!
# Under which schema data have been written, and under which schema they are shown
-/
namespace Flatdata.Spec

/-- Something in an archive: the path of subarchives, the name, the schema, and what it is. -/
abbrev Labelled (α : Type) := List String × String × String × α

/-- The named resources in which the content of a resource is written. -/
def resWritten (r : ResDecl) : Option Payload → List (Labelled Bytes)
  | none => []
  | some (.bytes b) => [([], r.name, r.schema, b)]
  | some (.items xss) => match r.type with
    | .multi V _ => [([], r.name ++ "_index", "index(" ++ r.schema ++ ")", indexBytes V.indexSize xss), ([], r.name, r.schema, encodeItems xss)]
    | _ => []

/-- ... of all resources. -/
def allWritten : List ResDecl → List (Option Payload) → List (Labelled Bytes)
  | r :: rs, c :: cs => resWritten r c ++ allWritten rs cs
  | _, _ => []

mutual
/-- All that is written if an archive with the content `c` is built, with name and schema: the signature, the resources, the
subarchives. -/
def archiveWritten : ArchiveDef → Content → List (Labelled Bytes)
  | .mk name schema rs subs, .mk cs ts => ([], name ++ ".archive", schema, []) :: (allWritten rs cs ++ subsWritten subs ts)

/-- ... of its subarchives. -/
def subsWritten : SubDefs → SubContents → List (Labelled Bytes)
  | .cons name _ D rest, .cons c ts =>
    (match c with
      | some c => (archiveWritten D c).map fun x => (name :: x.1, x.2)
      | none => []) ++ subsWritten rest ts
  | _, _ => []
end

/-- The data to which the accessors of a resource give access, with the name and the schema under which the archive has read them. -/
def resAccess {Base : Type} (r : ResDecl) : Opened Base → List (Labelled (Slice Base))
  | .one d => d.toList.map fun s => ([], r.name, r.schema, s)
  | .two i d => match r.type with
    | .multi _ index => (i.toList.map fun s => ([], index, "index(" ++ r.schema ++ ")", s)) ++ d.toList.map fun s => ([], r.name, r.schema, s)
    | _ => []

/-- ... of all resources. -/
def allAccess {Base : Type} : List ResDecl → List (Opened Base) → List (Labelled (Slice Base))
  | r :: rs, x :: xs => resAccess r x ++ allAccess rs xs
  | _, _ => []

mutual
/-- All data to which the accessors of an opened archive give access. -/
def archiveAccess {Base : Type} : ArchiveDef → Archive Base → List (Labelled (Slice Base))
  | .mk _ _ rs subs, .mk xs ss => allAccess rs xs ++ subsAccess subs ss

/-- ... of its subarchives. -/
def subsAccess {Base : Type} : SubDefs → SubArchives Base → List (Labelled (Slice Base))
  | .cons name _ D rest, .cons a ss =>
    (match a with
      | some a => (archiveAccess D a).map fun x => (name :: x.1, x.2)
      | none => []) ++ subsAccess rest ss
  | _, _ => []
end

mutual
/-- The archive that has been opened and the subarchives that are present: path, name and schema. -/
def archivesOpen {Base : Type} : ArchiveDef → Archive Base → List (Labelled Unit)
  | .mk name schema _ subs, .mk _ ss => ([], name, schema, ()) :: subsOpen subs ss

/-- ... of its subarchives. -/
def subsOpen {Base : Type} : SubDefs → SubArchives Base → List (Labelled Unit)
  | .cons name _ D rest, .cons a ss =>
    (match a with
      | some a => (archivesOpen D a).map fun x => (name :: x.1, x.2)
      | none => []) ++ subsOpen rest ss
  | _, _ => []
end

mutual
/-- The names of resources contain no dot (in Rust they are identifiers). -/
def Undotted : ArchiveDef → Prop
  | .mk _ _ rs subs => (∀ r ∈ rs, ∀ q ∈ parts r, '.' ∉ q.1.toList) ∧ SubsUndotted subs

/-- ... in subarchives. -/
def SubsUndotted : SubDefs → Prop
  | .nil => True
  | .cons _ _ D rest => Undotted D ∧ SubsUndotted rest
end

/-- Whatever can be read in a directory is in the list, under its name and schema. -/
def Honest (k : Kind) (dir : Dir) (L : Labelled Bytes → Prop) : Prop :=
  ∀ ds n s x, (∀ d ∈ ds, PlainName d) → PlainName n → PlainName (n ++ ".schema") → ('.' ∉ n.toList ∨ ∃ m, n = m ++ ".archive") →
    Valid k (dir ds) n s x → L (ds, n, s, x)

end Flatdata.Spec
