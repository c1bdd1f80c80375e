import Verif.Proofs.ProgramRun
import Verif.Props.Build
/-!
# C30: `ArchiveBuilder::new` never overwrites an archive

The theorems of Props/Storage are about `create_archive` of a storage; these are about the builder of an archive and the builders
of its subarchives.
-/
namespace Flatdata
open Spec StorageExample VecExample MvExample

/-- `ArchiveBuilder::new` where the archive exists returns `AlreadyExists` and changes nothing. Missing: failing system calls
(`C30_faulty_refuted`). -/
theorem C30_builder_partial (k : Kind) (p : Profile) (e : Endian) (w : k.backend.W) (o : k.backend.Obj) (D : ArchiveDef)
    (hn : k.noFault w) (hs : k.stored w o (D.name ++ ".archive") ≠ none) :
    ∃ w', builderNew k.backend p e o D w = (.err (.io .alreadyExists (D.name ++ ".archive")), w') ∧
      (∀ o' n, k.stored w' o' n = k.stored w o' n) ∧ (∀ o' n, k.unread w' o' n ↔ k.unread w o' n) := by
  obtain ⟨w', h, h1, h2⟩ := C30_already_exists_partial k p e w o (D.name ++ ".archive") D.schema hn hs
  refine ⟨w', ?_, h1, h2⟩
  unfold builderNew ArchiveDef.signature
  rw [Act.bind_err h]

/-- What a new builder leaves behind: the empty signature with the schema of the archive, and nothing else. -/
theorem C30_builder_created (k : Kind) (p : Profile) (e : Endian) (w w1 : k.backend.W) (o o' : k.backend.Obj) (D : ArchiveDef)
    (h1 : k.stored w o (D.name ++ ".archive") = none) (h2 : k.stored w o (D.name ++ ".archive" ++ ".schema") = none)
    (h : builderNew k.backend p e o D w = (.ok o', w1)) :
    o' = o ∧ k.stored w1 o (D.name ++ ".archive") = some (image []) ∧
      k.stored w1 o (D.name ++ ".archive" ++ ".schema") = some (strBytes D.schema) ∧
      ∀ o' n, k.place o' n ≠ k.place o (D.name ++ ".archive") → k.place o' n ≠ k.place o (D.name ++ ".archive" ++ ".schema") →
        k.stored w1 o' n = k.stored w o' n := by
  refine ⟨builderNew_ok h, ?_⟩
  unfold builderNew at h
  obtain ⟨_, w', hc, h⟩ := Act.bind_eq_ok h
  cases h
  exact C30_created k p e w _ o _ _ h1 h2 hc

/-- Non-vacuity of both theorems: a fresh builder on disk, and one where the file of the archive already exists. -/
example : (∃ w', builderNew file .debug .little objD Coappearances.Statistics
      (disk0 [([['d'], "Statistics.archive".toList], [7#8])]) = (.err (.io .alreadyExists "Statistics.archive"), w')) ∧
    ∃ o' w1, builderNew file .debug .little objD Coappearances.Statistics (disk0 []) = (.ok o', w1) ∧
      Kind.stored .disk w1 objD "Statistics.archive" = some (image []) := by
  constructor
  · obtain ⟨w', h, _⟩ := C30_builder_partial .disk .debug .little (disk0 [([['d'], "Statistics.archive".toList], [7#8])]) objD
      Coappearances.Statistics (disk0_noFault _) (by decide +kernel)
    exact ⟨w', h⟩
  · have hok : (builderNew file .debug .little objD Coappearances.Statistics (disk0 [])).1.isOk = true := by decide +kernel
    obtain ⟨o', w1, h⟩ := VecExample.isOk_run hok
    exact ⟨o', w1, h, (C30_builder_created .disk .debug .little (disk0 []) w1 objD o' Coappearances.Statistics (by decide) (by decide) h).2.1⟩

/-- A second builder for an archive of the same name fails, whatever its schema and whatever was done in between. -/
theorem C30_builder_second_partial (k : Kind) (p p' : Profile) (e e' : Endian) (w w1 w2 : k.backend.W) (o o' : k.backend.Obj)
    (D D' : ArchiveDef) (hD : D'.name = D.name) (ho : k.alive w o) (hn : k.noFault w)
    (h1 : k.stored w o (D.name ++ ".archive") = none) (h2 : k.stored w o (D.name ++ ".archive" ++ ".schema") = none)
    (h : builderNew k.backend p e o D w = (.ok o', w1)) (hs : Kind.Steps k w1 w2) :
    ∃ w3, builderNew k.backend p' e' o D' w2 = (.err (.io .alreadyExists (D.name ++ ".archive")), w3) ∧
      ∀ o' n, k.stored w3 o' n = k.stored w2 o' n := by
  have st := (aside_builderNew (P := fun _ => False) h ho id id).steps
  have hne : k.stored w1 o (D.name ++ ".archive") ≠ none := by
    rw [(C30_builder_created k p e w w1 o o' D h1 h2 h).2.1]; simp
  rw [← hD] at hne
  obtain ⟨w3, h3, h4, _⟩ := C30_builder_partial k p' e' w2 o D' (hs.noFault (st.noFault hn)) (hs.stored (st.alive ho) hne)
  rw [hD] at h3
  exact ⟨w3, h3, h4⟩

/-- On disk the same holds for the builder of a subarchive: if the subarchive exists it fails and changes nothing that is
stored. (In memory every call returns a new builder on a new storage: `C33_refuted`.) -/
theorem C30_sub_disk_partial (p : Profile) (e : Endian) (w : (Kind.backend .disk).W) (o : (Kind.backend .disk).Obj) (name : String)
    (D : ArchiveDef) (hr : Kind.Reachable .disk w) (hn : Kind.noFault .disk w)
    (hs : Kind.dir .disk w o [name] (D.name ++ ".archive") ≠ none) :
    ∃ w', builderSub file p e o name D w = (.err (.io .alreadyExists (D.name ++ ".archive")), w') ∧
      ∀ o' n, Kind.stored .disk w' o' n = Kind.stored .disk w o' n := by
  obtain ⟨o1, w1, h1, g1, al, hdir, _⟩ := subdir_spec (k := .disk) (o := o) name hr.unborn
  have hs' : Kind.stored .disk w1 o1 (D.name ++ ".archive") ≠ none := by
    have h2 : Kind.dir .disk w1 o1 [] (D.name ++ ".archive") = Kind.dir .disk w o [name] (D.name ++ ".archive") := by
      rw [hdir]; rfl
    rw [← h2] at hs
    exact hs
  obtain ⟨w', h2, h3, _⟩ := C30_builder_partial .disk p e w1 o1 D (g1.steps.noFault hn) hs'
  refine ⟨w', ?_, fun o' n => ?_⟩
  · unfold builderSub
    have h1' : (file.subdir o name).mapErr (Empty.elim : Empty → RErr) w = (.ok o1, w1) := FileSt.mapErr_ok h1
    rw [Act.bind_ok h1']
    exact h2
  · rw [h3]
    cases h1; rfl

/-- On disk it depends on one system call only, the `stat` behind `Path::exists` with which the builder begins: if that does not
fail, the existing archive is left alone, whatever other calls fail; if it fails, a builder that is created has replaced the
archive by an empty one. -/
theorem C30_disk_exact (p : Profile) (e : Endian) (w : FileW) (o : Obj) (D : ArchiveDef)
    (hs : Kind.stored .disk w o (D.name ++ ".archive") ≠ none) :
    (w.fs.fault w.fs.tick = none → ∃ w', builderNew file p e o D w = (.err (.io .alreadyExists (D.name ++ ".archive")), w') ∧
      (∀ o' n, Kind.stored .disk w' o' n = Kind.stored .disk w o' n)) ∧
    (∀ o' w', builderNew file p e o D w = (.ok o', w') → w.fs.fault w.fs.tick ≠ none ∧
      Kind.stored .disk w' o (D.name ++ ".archive") = some (image []) ∧
      Kind.stored .disk w' o (D.name ++ ".archive" ++ ".schema") = some (strBytes D.schema)) := by
  have first : w.fs.fault w.fs.tick = none → ∃ w', builderNew file p e o D w = (.err (.io .alreadyExists (D.name ++ ".archive")), w') ∧
      (∀ o' n, Kind.stored .disk w' o' n = Kind.stored .disk w o' n) := by
    intro hf
    refine ⟨{ w with fs := { w.fs with tick := w.fs.tick + 1 } }, ?_, fun _ _ => rfl⟩
    have hx : file.existsRes o (D.name ++ ".archive") w = (.ok true, { w with fs := { w.fs with tick := w.fs.tick + 1 } }) := by
      change FileSt.pathExists _ w = _
      unfold FileSt.pathExists FileSt.syscall
      rw [hf]
      have h1 : (w.fs.files (key (join o.path (D.name ++ ".archive")))).isSome = true := by
        cases hc : w.fs.files (key (join o.path (D.name ++ ".archive"))) with
        | none => exact absurd hc hs
        | some _ => rfl
      simp only [h1, Bool.true_or]
    unfold builderNew ArchiveDef.signature Storage.createArchive
    rw [Act.bind_err]
    rw [Act.bind_ok (FileSt.mapErr_ok hx)]
    rfl
  refine ⟨first, fun o' w' h => ?_⟩
  refine ⟨fun hf => ?_, ?_⟩
  · obtain ⟨w1, h1, _⟩ := first hf
    rw [h1] at h
    cases h
  unfold builderNew Storage.createArchive at h
  obtain ⟨_, w2, h, h'⟩ := Act.bind_eq_ok h
  cases h'
  obtain ⟨x, w0, _, h⟩ := Act.bind_eq_ok h
  split at h
  · cases h
  · have hw : Storage.write file p e o (D.name ++ ".archive") D.schema [] w0 = (.ok (), w') := by
      unfold Act.mapErr at h; split at h <;> cases h; assumption
    obtain ⟨s1, s2, _⟩ := write_stored (k := .disk) (by decide) trivial trivial hw
    exact ⟨s1, s2⟩

namespace BuilderExample

/-- Both cases occur: an existing archive, and a `stat` that does not fail or fails. -/
theorem stat_fails : (builderNew file .debug .little objD Coappearances.Statistics
    (disk0 [([['d'], "Statistics.archive".toList], image [7#8])] (fun t => if t = 0 then some 0 else none))).1.isOk = true := by decide +kernel

example : ∃ o' w', builderNew file .debug .little objD Coappearances.Statistics
      (disk0 [([['d'], "Statistics.archive".toList], image [7#8])] (fun t => if t = 0 then some 0 else none)) = (.ok o', w') ∧
    Kind.stored .disk w' objD "Statistics.archive" = some (image []) := by
  obtain ⟨o', w', h⟩ := VecExample.isOk_run stat_fails
  exact ⟨o', w', h, ((C30_disk_exact .debug .little _ objD Coappearances.Statistics (by decide +kernel)).2 o' w' h).2.1⟩

example : ∃ w', builderNew file .debug .little objD Coappearances.Statistics
      (disk0 [([['d'], "Statistics.archive".toList], image [7#8])] (fun t => if t = 0 then none else some 0)) =
        (.err (.io .alreadyExists "Statistics.archive"), w') := by
  obtain ⟨w', h, _⟩ := (C30_disk_exact .debug .little (disk0 [([['d'], "Statistics.archive".toList], image [7#8])]
    (fun t => if t = 0 then none else some 0)) objD Coappearances.Statistics (by decide +kernel)).1 rfl
  exact ⟨w', h⟩

/-- Two builders on one memory storage. -/
example : ∃ w1 w2, builderNew mem .debug .little obj Coappearances.Graph mem0 = (.ok obj, w1) ∧
    builderNew mem .release .big obj Coappearances.Graph w1 = (.err (.io .alreadyExists "Graph.archive"), w2) := by
  have h : builderNew mem .debug .little obj Coappearances.Graph mem0 = (.ok obj, _) := run_eq (by decide +kernel)
  obtain ⟨w3, h3, _⟩ := C30_builder_second_partial .memory .debug .release .little .big mem0 _ _ obj obj Coappearances.Graph
    Coappearances.Graph rfl Nat.zero_lt_one trivial (by decide) (by decide) h (.refl _)
  exact ⟨_, w3, h, h3⟩

/-- A directory with a subarchive already in it. -/
example : ∃ w', builderSub file .debug .little objD "sub" Coappearances.Statistics
    (disk0 [([['d'], "sub".toList, "Statistics.archive".toList], image [])]) =
      (.err (.io .alreadyExists "Statistics.archive"), w') := by
  obtain ⟨w', h, _⟩ := C30_sub_disk_partial .debug .little (disk0 [([['d'], "sub".toList, "Statistics.archive".toList], image [])]) objD "sub"
    Coappearances.Statistics (disk0_reachable _ _) (disk0_noFault _) (by decide +kernel)
  exact ⟨w', h⟩

end BuilderExample

end Flatdata
