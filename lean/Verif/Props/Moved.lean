import Verif.Proofs.Moved
import Verif.Props.Parallel
/-!
# Property C55: an archive can be moved and copied
-/
namespace Flatdata
open Spec StorageExample MvExample BuildExample

/-- C55: opening an archive depends only on its own files. Whether its directory has been renamed, copied to another place or another
disk, or other files have been added or removed: a new process that opens it gets the same error, or an archive whose accessors show
the same data; also if system calls fail (in the same places). -/
theorem C55_moved [DiffLib] (p : Profile) (e : Endian) (D : ArchiveDef) (d1 d2 : Disk) (path1 path2 : Path) (fault : Nat → Option Nat) (hs : Separate D)
    (h : Copied D d1 path1 d2 path2) :
    outcome (B := file) (openArchive file p e (directory path1) D (started d1 fault)) =
      outcome (B := file) (openArchive file p e (directory path2) D (started d2 fault)) :=
  outcome_alike (movedAlike D path1 path2)
    (open_alike (K := FileOf D path1) (movedAlike D path1 path2) id (fun _ _ h => h) (fun _ _ _ h => h) hs (o := directory path1)
      (o' := directory path2) ⟨rfl, [], (fun _ h => by cases h), rfl, rfl⟩ has_fileOf)
    ⟨h, rfl, rfl, rfl, fun _ _ _ _ => rfl, fun _ _ _ _ _ h => by cases h⟩

/-- What the outcome tells: the accessors of the two archives yield the same. -/
theorem C55_yields [DiffLib] (p : Profile) (e : Endian) (D : ArchiveDef) (d1 d2 : Disk) (path1 path2 : Path) (fault : Nat → Option Nat) (hs : Separate D)
    (h : Copied D d1 path1 d2 path2) (c : Content) (a : Archive Key) (w : FileW)
    (ho : openArchive file p e (directory path1) D (started d1 fault) = (.ok a, w)) (hy : ArchiveYields file w D a c) :
    ∃ a' w', openArchive file p e (directory path2) D (started d2 fault) = (.ok a', w') ∧ ArchiveYields file w' D a' c := by
  have sim := open_alike (p := p) (e := e) (K := FileOf D path1) (movedAlike D path1 path2) id (fun _ _ h => h) (fun _ _ _ h => h) hs (o := directory path1)
      (o' := directory path2) ⟨rfl, [], (fun _ h => by cases h), rfl, rfl⟩ has_fileOf (started d1 fault) (started d2 fault)
      ⟨h, rfl, rfl, rfl, fun _ _ _ _ => rfl, fun _ _ _ _ _ h => by cases h⟩
  rw [ho] at sim
  rcases hq : openArchive file p e (directory path2) D (started d2 fault) with ⟨r, w'⟩
  rw [hq] at sim
  obtain ⟨s1, s2⟩ := sim
  cases r with
  | ok b => exact ⟨b, w', rfl, ReadAlike.archiveYields s2 s1 hy⟩
  | err _ => exact False.elim s1
  | panic => exact False.elim s1
  | ub => exact False.elim s1

/-! ### Example -/
namespace MovedExample
open Coappearances NeighboursExample

/-- The disk where `Graph` has been built in directory `d`. -/
def there : Disk := afterGraph.fs.disk

/-- The directory `d` has been renamed to `e/f`, `d` is a file now, in `e` there is another one, and one more among the files of the
archive. -/
def renamed (x : Disk) : Disk where
  files
    | ['e'] :: ['f'] :: t => if t = [['n']] then some [1#8] else x.files (['d'] :: t)
    | [['d']] => some [7#8]
    | [['e'], ['g']] => some []
    | _ => none
  isDir
    | ['e'] :: ['f'] :: t => x.isDir (['d'] :: t)
    | k => k = [['e']]

theorem graph_copied (x : Disk) : Copied Graph x ['d'] (renamed x) ['e', '/', 'f'] := by
  intro t ht
  have h1 : key ['d'] = [['d']] := by decide
  have h2 : key ['e', '/', 'f'] = [['e'], ['f']] := by decide
  rw [h1, h2]
  refine ⟨?_, rfl⟩
  change (if t = [['n']] then some [1#8] else x.files (['d'] :: t)) = _
  rw [if_neg]
  · rfl
  · rintro rfl
    obtain ⟨n, hn, t, ht⟩ := hasFile_head ht
    revert hn
    have : n = "n" := String.toList_inj.mp (List.cons.inj ht).1.symm
    rw [this]
    decide

theorem there_built : ∃ w, @buildArchive file naiveDiff .debug .little (directory ['d']) Graph graphProg (started ParallelExample.empty) = (.ok (), w) ∧
    there = w.fs.disk := by
  obtain ⟨⟨⟩, w, h⟩ := VecExample.isOk_run graph_runs
  exact ⟨w, h, by unfold there afterGraph; rw [h]⟩

/-- The accessors of the copy yield what was written. -/
example : ∃ a w, @openArchive file naiveDiff .debug .little (directory ['e', '/', 'f']) Graph (started (renamed there)) = (.ok a, w) ∧
    ArchiveYields file w Graph a graphContent := by
  obtain ⟨w, hb, ht⟩ := there_built
  obtain ⟨a, w', ho, hy⟩ := @build_reopen naiveDiff .debug .debug .little .little Graph ['d'] graphProg graphContent ParallelExample.empty w
    graph_separate (graph_schemas .disk) graph_prepares (disk_vacant _) hb
  rw [← ht] at ho
  exact @C55_yields naiveDiff .debug .little Graph there (renamed there) ['d'] ['e', '/', 'f'] (fun _ => none) graph_separate (graph_copied _) graphContent a w' ho hy

/-- If the third call fails, both processes get the same error, or both do not. -/
example : outcome (B := file) (@openArchive file naiveDiff .debug .little (directory ['d']) Graph (started there fun t => if t = 2 then some 0 else none)) =
    outcome (B := file) (@openArchive file naiveDiff .debug .little (directory ['e', '/', 'f']) Graph (started (renamed there) fun t => if t = 2 then some 0 else none)) :=
  @C55_moved naiveDiff .debug .little Graph there (renamed there) ['d'] ['e', '/', 'f'] _ graph_separate (graph_copied _)

end MovedExample
end Flatdata
