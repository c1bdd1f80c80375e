import Verif.Spec.Build
/-!
# The format of stored archives: the bytes of every file, as a function of what has been written
-/
namespace Flatdata.Spec

/-- A number as `size` bytes, least significant first. -/
def leBytes (size n : Nat) : Bytes := (List.range size).map fun i => BitVec.ofNat 8 (n / 256 ^ i)

/-- Where items start if the first one starts at `a`; at last where the last one ends. -/
def bounds (a : Nat) : List (List (BitVec 8 × Bytes)) → List Nat
  | [] => [a]
  | xs :: xss => a :: bounds (a + (encodeItem xs).length) xss

/-- The index of a multivector, with entries of `size` bytes. -/
def indexBytes (size : Nat) (xss : List (List (BitVec 8 × Bytes))) : Bytes := ((bounds 0 xss).map (leBytes size)).flatten

/-- The two files of a named resource. -/
structure StoredAs (dir : String → Option Bytes) (name schema : String) (x : Bytes) : Prop where
  data : dir name = some (le64 x.length ++ x ++ zeros 8)
  text : dir (name ++ ".schema") = some (strBytes schema)

/-- A file: the path of subdirectories, the name, the content. -/
abbrev File := List String × String × Bytes

/-- The two files of a named resource, as a list. -/
def filesOf (name schema : String) (x : Bytes) : List File :=
  [([], name, le64 x.length ++ x ++ zeros 8), ([], name ++ ".schema", strBytes schema)]

/-- The files of a resource of an archive; none if it is left out. -/
def resListing (r : ResDecl) : Option Payload → List File
  | none => []
  | some (.bytes b) => filesOf r.name r.schema b
  | some (.items xss) => match r.type with
    | .multi V _ => filesOf (r.name ++ "_index") ("index(" ++ r.schema ++ ")") (indexBytes V.indexSize xss) ++
        filesOf r.name r.schema (encodeItems xss)
    | _ => []

/-- The files of all resources. -/
def allListing : List ResDecl → List (Option Payload) → List File
  | r :: rs, c :: cs => resListing r c ++ allListing rs cs
  | _, _ => []

mutual
/-- The files of an archive with the content `c`: the signature, the resources and, in subdirectories, the subarchives. -/
def listing : ArchiveDef → Content → List File
  | .mk name schema rs subs, .mk cs ts => filesOf (name ++ ".archive") schema [] ++ allListing rs cs ++ subsListing subs ts

/-- ... of its subarchives. -/
def subsListing : SubDefs → SubContents → List File
  | .cons name _ D rest, .cons c ts =>
    (match c with
      | some c => (listing D c).map fun x => (name :: x.1, x.2)
      | none => []) ++ subsListing rest ts
  | _, _ => []
end

/-- What such a directory contains: the listed files and no others. -/
def fileContent (l : List File) (ds : List String) (n : String) : Option Bytes :=
  (l.find? fun x => x.1 = ds && x.2.1 = n).map fun x => x.2.2

end Flatdata.Spec
