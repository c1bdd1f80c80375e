import Verif.Spec.Archive
import Verif.Model.Error
/-!
# Specification of errors: which error belongs to which defect of the stored files
-/
namespace Flatdata.Spec

/-- Something that the storage can read is stored under a name. -/
def Present (k : Kind) (dir : String → Option Bytes) (name : String) (d : Bytes) : Prop := dir name = some d ∧ k.mappable d

/-- The defect of a stored resource that an error reports. -/
inductive Defect (k : Kind) [DiffLib] (dir : String → Option Bytes) (name expected : String) : RErr → Prop
  /-- the resource, or its schema, is missing or cannot be read -/
  | missing (kind : IoErr) (h : (∀ d, ¬ Present k dir name d) ∨ ∀ c, ¬ Present k dir (name ++ ".schema") c) :
      Defect k dir name expected (.io kind name)
  /-- both can be read, but the data are incomplete or too long -/
  | size (d c : Bytes) (hd : Present k dir name d) (hc : Present k dir (name ++ ".schema") c)
      (h : ¬ ∃ x, Holds d x ∧ d.length < 2 ^ 64) : Defect k dir name expected .unexpectedDataSize
  /-- the data are complete, but the schema is no text -/
  | text (d c x : Bytes) (hd : Present k dir name d) (hc : Present k dir (name ++ ".schema") c)
      (hx : Holds d x) (h : ∀ t : String, c ≠ strBytes t) : Defect k dir name expected .utf8
  /-- the data are complete, but the schema is another one; the error shows both -/
  | schema (d x : Bytes) (found diff : String) (hd : Present k dir name d)
      (hc : Present k dir (name ++ ".schema") (strBytes found)) (hx : Holds d x) (h : found ≠ expected)
      (hl : diffLeft diff = DiffLib.linesOf found) (hr : diffRight diff = DiffLib.linesOf expected) :
      Defect k dir name expected (.wrongSignature name diff)

/-- The error is about the first part of the list that has a defect. -/
def FirstDefect (k : Kind) [DiffLib] (dir : String → Option Bytes) : List (String × String) → RErr → Prop
  | [], _ => False
  | q :: qs, y => Defect k dir q.1 q.2 y ∨ ((∃ x, Valid k dir q.1 q.2 x) ∧ FirstDefect k dir qs y)

/-- The parts of an archive that have to be there, in the order of the definition, signature first. -/
def required (name schema : String) (resources : List ResDecl) : List (String × String) :=
  (name ++ ".archive", schema) :: (resources.filter fun r => !r.optional).flatMap parts

mutual
/-- The error is about the first defect of an archive: of its own parts, or else of its subarchives. -/
def ArchiveDefect (k : Kind) [DiffLib] : ArchiveDef → Dir → RErr → Prop
  | .mk name schema resources subs, dir, y =>
    FirstDefect k (dir []) (required name schema resources) y ∨
    ((∀ q ∈ required name schema resources, ∃ x, Valid k (dir []) q.1 q.2 x) ∧ SubsDefect k subs dir y)

/-- ... of the first required subarchive that has one. -/
def SubsDefect (k : Kind) [DiffLib] : SubDefs → Dir → RErr → Prop
  | .nil, _, _ => False
  | .cons name optional archive rest, dir, y =>
    (optional = false ∧ ArchiveDefect k archive (dir.sub name) y) ∨
    ((optional = false → Complete k archive (dir.sub name)) ∧ SubsDefect k rest dir y)
end

/-- There is a directory at the place of a resource (only possible on disk). -/
def Kind.directoryAt : (k : Kind) → k.backend.W → k.backend.Obj → String → Prop
  | .memory, _, _, _ => False
  | .disk, w, o, n => key (join (o : Obj).path n) = [] ∨ (w : FileW).fs.isDir (key (join (o : Obj).path n)) = true

mutual
/-- The names of the resources of an archive and its subarchives. -/
def NamedIn : ArchiveDef → String → Prop
  | .mk name _ resources subs, n => n = name ++ ".archive" ∨ (∃ r ∈ resources, ∃ q ∈ parts r, q.1 = n) ∨ NamedInSubs subs n

/-- ... of subarchives. -/
def NamedInSubs : SubDefs → String → Prop
  | .nil, _ => False
  | .cons _ _ archive rest, n => NamedIn archive n ∨ NamedInSubs rest n
end

/-- The resource an error names. -/
def errorName : RErr → Option String
  | .io _ n => some n
  | .missingSchema n => some n
  | .wrongSignature n _ => some n
  | .utf8 => none
  | .unexpectedDataSize => none

/-- The kinds of errors. -/
inductive ErrorKind where
  | io | missingSchema | size | text | signature
  deriving DecidableEq

/-- The kind of an error. -/
def errorKind : RErr → ErrorKind
  | .io _ _ => .io
  | .missingSchema _ => .missingSchema
  | .unexpectedDataSize => .size
  | .utf8 => .text
  | .wrongSignature _ _ => .signature

end Flatdata.Spec
