import Verif.Spec.Program
/-!
# Specification for archives side by side
-/
namespace Flatdata

/-- The descriptors of an opened resource. -/
def Opened.slices {Base : Type} : Opened Base → List (Slice Base)
  | .one d => d.toList
  | .two i d => i.toList ++ d.toList

mutual
/-- All descriptors of an opened archive: the bytes that its accessors give access to. -/
def Archive.slices {Base : Type} : Archive Base → List (Slice Base)
  | .mk xs ss => xs.flatMap Opened.slices ++ SubArchives.slices ss

/-- ... of its subarchives. -/
def SubArchives.slices {Base : Type} : SubArchives Base → List (Slice Base)
  | .nil => []
  | .cons none rest => SubArchives.slices rest
  | .cons (some a) rest => Archive.slices a ++ SubArchives.slices rest
end

namespace Spec

/-- The places where the files of the archive `D` in the directory of `o` are kept. -/
def Kind.OwnPlace : (k : Kind) → ArchiveDef → k.backend.Obj → k.Place → Prop
  | .memory, D, o, l => ∃ n ∈ files D, l = Kind.place .memory o n
  | .disk, D, o, l => ∃ ds n, (∀ d ∈ ds, PlainName d) ∧ PlainName n ∧ OwnFile D ds n ∧ l = key (join (ds.foldl join (o : Obj).path) n)

/-- Two archives have no files in common, wherever each of them is. -/
def Kind.Apart (k : Kind) (D1 : ArchiveDef) (o1 : k.backend.Obj) (D2 : ArchiveDef) (o2 : k.backend.Obj) : Prop :=
  ∀ l, k.OwnPlace D1 o1 l → ¬ k.OwnPlace D2 o2 l

/-- The names that an archive uses in its directory. -/
def namesIn (D : ArchiveDef) : List String := files D ++ (SubDefs.entries D.subs).map Prod.fst

/-- Two storage objects stand for the same directory. -/
def Kind.SameDir : (k : Kind) → k.backend.Obj → k.backend.Obj → Prop
  | .memory, o1, o2 => o1 = o2
  | .disk, o1, o2 => key (o1 : Obj).path = key (o2 : Obj).path

/-- Two storage objects stand for directories neither of which contains the other (in memory: for different storages). -/
def Kind.OtherDir : (k : Kind) → k.backend.Obj → k.backend.Obj → Prop
  | .memory, o1, o2 => (o1 : Obj).id ≠ (o2 : Obj).id
  | .disk, o1, o2 => ¬ key (o1 : Obj).path <+: key (o2 : Obj).path ∧ ¬ key (o2 : Obj).path <+: key (o1 : Obj).path

end Spec
end Flatdata
