import Verif.Spec.Parallel
/-!
# An archive that has been moved or copied
-/
namespace Flatdata.Spec

/-- The files of the archive have the same contents in two directories. Nothing is said of other files. -/
def Copied (D : ArchiveDef) (d1 : Disk) (path1 : Path) (d2 : Disk) (path2 : Path) : Prop := ∀ t, HasFile D t →
  d2.files (key path2 ++ t) = d1.files (key path1 ++ t) ∧ d2.isDir (key path2 ++ t) = d1.isDir (key path1 ++ t)

/-- The data behind the descriptors of an accessor. -/
def Opened.shown (B : Backend) (w : B.W) : Opened B.Base → List (Option (Out Bytes))
  | .one d => [d.map (B.deref w)]
  | .two i d => [i.map (B.deref w), d.map (B.deref w)]

mutual
/-- The data behind all descriptors of an opened archive in order; a subarchive that is missing is `none`, one that is there begins
with an entry of its own. -/
def Archive.shown (B : Backend) (w : B.W) : Archive B.Base → List (Option (Out Bytes))
  | .mk xs ss => xs.flatMap (Opened.shown B w) ++ SubArchives.shown B w ss

/-- ... of the subarchives. -/
def SubArchives.shown (B : Backend) (w : B.W) : SubArchives B.Base → List (Option (Out Bytes))
  | .nil => []
  | .cons none rest => none :: SubArchives.shown B w rest
  | .cons (some a) rest => some (.ok []) :: (Archive.shown B w a ++ SubArchives.shown B w rest)
end

/-- The result of opening an archive, with the data that it shows instead of the descriptors. -/
def outcome {B : Backend} : Res RErr (Archive B.Base) × B.W → Res RErr (List (Option (Out Bytes)))
  | (.ok a, w) => .ok (Archive.shown B w a)
  | (.err x, _) => .err x
  | (.panic, _) => .panic
  | (.ub, _) => .ub

end Flatdata.Spec
