import Verif.Proofs.Succeeds
import Verif.Props.Copy
/-!
# C32, C40: building and copying succeed

`C32_roundtrip` (Props/Build) assumes that the calls that write the archive succeed. Here: they do, if there is room for it and no
system call fails.
-/
namespace Flatdata
open Spec StorageExample VecExample MvExample

/-- Building an archive where nothing is in its way succeeds: no error, no panic, no undefined behavior, whatever the contents and the order
of the calls. -/
theorem C32_build_succeeds [DiffLib] (k : Kind) (p : Profile) (e : Endian) (D : ArchiveDef) (prog : Prog) (c : Content) (w : k.backend.W)
    (o : k.backend.Obj) (hs : Separate D) (hm : SchemasReadable k D) (hc : Prepares p e D prog c) (hr : k.Reachable w) (ho : k.alive w o)
    (hn : k.noFault w) (hv : k.Vacant D w o) (hcl : k.Clear D w o) : ∃ w', buildArchive k.backend p e o D prog w = (.ok (), w') :=
  buildArchive_succeeds hs hm hc hr ho hn hv hcl

/-- The whole round trip, from a free place to the accessors of the opened archive. -/
theorem C32_build_and_open [DiffLib] (k : Kind) (p p' : Profile) (e e' : Endian) (D : ArchiveDef) (prog : Prog) (c : Content)
    (w : k.backend.W) (o : k.backend.Obj) (hs : Separate D) (hm : SchemasReadable k D) (hc : Prepares p e D prog c) (hr : k.Reachable w)
    (ho : k.alive w o) (hn : k.noFault w) (hv : k.Vacant D w o) (hcl : k.Clear D w o) (hk : k = .disk ∨ c.subs.empty) :
    ∃ w', buildArchive k.backend p e o D prog w = (.ok (), w') ∧ Opens k p' e' D o w' c := by
  obtain ⟨w', h⟩ := C32_build_succeeds k p e D prog c w o hs hm hc hr ho hn hv hcl
  exact ⟨w', h, C32_roundtrip k p p' e e' D prog c w w' o hs hm hc hr ho hv hn h hk⟩

namespace BuildExample

theorem disk_clear (D : ArchiveDef) : Kind.Clear .disk D (disk0 []) objD := by
  have hk : key (Obj.path objD) = [['d']] := by decide
  refine ⟨fun _ => rfl, fun n _ => ?_, fun x _ t => ⟨rfl, fun y => ?_⟩⟩
  · change decide (key (Obj.path objD) ++ [n.toList] = [['d']]) = false
    rw [hk]; simp
  · change decide (key (Obj.path objD) ++ x.1.toList :: y :: t = [['d']]) = false
    rw [hk]; simp

/-- The hypotheses hold for the example archive and a directory. -/
example (D : DiffLib) (p' : Profile) (e' : Endian) : ∃ w, @buildArchive file D .debug .little objD Coappearances.Graph graphProg (disk0 []) = (.ok (), w) ∧
    @Opens D .disk p' e' Coappearances.Graph objD w graphContent :=
  @C32_build_and_open D .disk .debug p' .little e' Coappearances.Graph graphProg graphContent (disk0 []) objD graph_separate (graph_schemas .disk)
    graph_prepares (disk0_reachable _ _) Nat.zero_lt_one (disk0_noFault _) (disk_vacant _) (disk_clear _) (.inl rfl)

/-- ... and in memory. -/
example (D : DiffLib) (p' : Profile) (e' : Endian) : ∃ w, @buildArchive mem D .debug .little obj Coappearances.Statistics statProg mem0 = (.ok (), w) ∧
    @Opens D .memory p' e' Coappearances.Statistics obj w statContent :=
  @C32_build_and_open D .memory .debug p' .little e' Coappearances.Statistics statProg statContent mem0 obj graph_separate.2.2.1
    (graph_schemas .memory).2.2.1 stat_prepares mem0_reachable Nat.zero_lt_one trivial (mem_vacant _) trivial (.inr trivial)

/-- Without room it fails: a directory has the name of the signature. -/
example : (@buildArchive file naiveDiff .debug .little objD Coappearances.Graph graphProg
    { disk0 [] with fs := { (disk0 []).fs with isDir := fun k => k = [['d']] || k = [['d'], "Graph.archive".toList] } }).1.isErr = true := by
  decide +kernel

end BuildExample

/-- C40: copying an opened archive to a place where nothing is in the way succeeds, and the copy has the same content. Missing: definitions with fields
that need a ninth byte or `bool`s of more than one bit (`C40_refuted`, `C40_bool`). -/
theorem C40_copy_succeeds_partial [DiffLib] (k k' : Kind) (p p' : Profile) (e e' : Endian) (D : ArchiveDef) (c : Content) (w : k.backend.W)
    (a : Archive k.backend.Base) (w0 : k'.backend.W) (o : k'.backend.Obj) (hs : Separate D) (hm : SchemasReadable k' D)
    (hy : ArchiveYields k.backend w D a c) (hc : ContentCopyable p e D c) (hr : k'.Reachable w0) (ho : k'.alive w0 o) (hn : k'.noFault w0)
    (hv : k'.Vacant D w0 o) (hcl : k'.Clear D w0 o) (hk : k' = .disk ∨ c.subs.empty) :
    ∃ prog w', copyProg k.backend w p e D a = .ok prog ∧ buildArchive k'.backend p e o D prog w0 = (.ok (), w') ∧
      Opens k' p' e' D o w' c := by
  obtain ⟨prog, h1, h2⟩ := copyProg_spec hs hy hc
  obtain ⟨w', h3, h4⟩ := C32_build_and_open k' p p' e e' D prog c w0 o hs hm h2 hr ho hn hv hcl hk
  exact ⟨prog, w', h1, h3, h4⟩

open BuildExample CopyExample in
/-- From memory to disk. -/
example (D : DiffLib) : ∃ w1 a w2 prog w3, @buildArchive mem D .debug .little obj Coappearances.Statistics statProg mem0 = (.ok (), w1) ∧
    @openArchive mem D .release .little obj Coappearances.Statistics w1 = (.ok a, w2) ∧
    copyProg mem w2 .release .little Coappearances.Statistics a = .ok prog ∧
    @buildArchive file D .release .little objD Coappearances.Statistics prog (disk0 []) = (.ok (), w3) ∧
    @Opens D .disk .debug .big Coappearances.Statistics objD w3 statContent := by
  obtain ⟨w1, h1, a, w2, h2, h3⟩ := @C32_build_and_open D .memory .debug .release .little .little Coappearances.Statistics statProg statContent mem0 obj
    graph_separate.2.2.1 (graph_schemas .memory).2.2.1 stat_prepares mem0_reachable Nat.zero_lt_one trivial (mem_vacant _) trivial (.inr trivial)
  obtain ⟨prog, w3, h4, h5, h6⟩ := @C40_copy_succeeds_partial D .memory .disk .release .debug .little .big Coappearances.Statistics statContent w2 a
    (disk0 []) objD graph_separate.2.2.1 (graph_schemas .disk).2.2.1 h3 stat_copyable (disk0_reachable _ _) Nat.zero_lt_one (disk0_noFault _)
    (disk_vacant _) (disk_clear _) (.inl rfl)
  exact ⟨w1, a, w2, prog, w3, h1, h2, h4, h5, h6⟩

end Flatdata
