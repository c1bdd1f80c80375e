import Verif.Spec.Program
import Verif.Spec.Format
/-!
# What may be left of an archive when the program building it is interrupted
-/
namespace Flatdata.Spec

/-- The program writes the resource step by step, in the archive or in a subarchive: `start_…`, `grow`, `close`. -/
inductive Staged : Prog → ResDecl → Prop
  | elements {prog r es} (h : (r, .elements es) ∈ prog.writes) : Staged prog r
  | items {prog r its} (h : (r, .items its) ∈ prog.writes) : Staged prog r
  | sub {prog x r} (h : x ∈ prog.builds) (hs : Staged x.2.2 r) : Staged prog r

section
variable (B : Backend) (w : B.W) (soft : ResDecl → Prop)

/-- What the accessor of a resource yields that was to get a content: all of it; `None` if the resource is optional; and if
`soft` holds of it also nothing (for a multivector: an empty index or empty data). A resource for which no content was planned is `None`. -/
def Remains (r : ResDecl) (x : Opened B.Base) : Option Payload → Prop
  | none => Yields B w r x none
  | some (.bytes b) => x.bytes B w = .ok (some b) ∨ (r.optional = true ∧ x.bytes B w = .ok none) ∨ (soft r ∧ x.bytes B w = .ok (some []))
  | some (.items xss) => (r.optional = true ∧ x.multi B w = .ok none) ∨ ∃ V index v, r.type = .multi V index ∧ x.multi B w = .ok (some v) ∧
      (Shows V v xss ∨ (soft r ∧ v.index = [] ∧ (v.data = [] ∨ v.data = encodeItems xss)) ∨
        (soft r ∧ v.index = indexBytes V.indexSize xss ∧ v.data = []))

/-- All accessors. -/
def AllRemain : List ResDecl → List (Opened B.Base) → List (Option Payload) → Prop
  | [], [], [] => True
  | r :: rs, x :: xs, c :: cs => Remains B w soft r x c ∧ AllRemain rs xs cs
  | _, _, _ => False

mutual
/-- All accessors of an archive, including those of subarchives; optional subarchives may be missing. -/
def ArchiveRemains : ArchiveDef → Archive B.Base → Content → Prop
  | .mk _ _ rs subs, .mk xs ss, .mk cs ts => AllRemain B w soft rs xs cs ∧ SubsRemain subs ss ts

/-- ... of the subarchives. -/
def SubsRemain : SubDefs → SubArchives B.Base → SubContents → Prop
  | .nil, .nil, .nil => True
  | .cons _ optional D rest, .cons a ss, .cons c ts =>
    (match a, c with
      | some a, some c => ArchiveRemains D a c
      | none, some _ => optional = true
      | none, none => True
      | some _, none => False) ∧ SubsRemain rest ss ts
  | _, _, _ => False
end
end

mutual
/-- No resource and no subarchive is optional. -/
def AllRequired : ArchiveDef → Prop
  | .mk _ _ rs subs => (∀ r ∈ rs, r.optional = false) ∧ SubsRequired subs

/-- ... in subarchives. -/
def SubsRequired : SubDefs → Prop
  | .nil => True
  | .cons _ optional D rest => optional = false ∧ AllRequired D ∧ SubsRequired rest
end

end Flatdata.Spec
