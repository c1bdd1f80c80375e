import Verif.Proofs.ProgramRun
import Verif.Props.MultiVectors
import Verif.Props.MvClose
import Verif.Props.Archives
import Verif.Model.CoappearancesArchive
/-!
# Properties C32, C33: archive round trip

Two descriptions of building an archive: `Built` (Spec/Build) allows any interleaving of the calls with each other and with
anything else that happens; `buildArchive` (Spec/Program) runs one program of builder calls. The second is a special case of
the first (`buildArchive_built`).
-/
namespace Flatdata
open Spec StorageExample MvExample

/-! ## C32: what has been written is found when the archive is opened -/

/-- Opening succeeds and every accessor yields what was written. -/
def Opens [DiffLib] (k : Kind) (p : Profile) (e : Endian) (D : ArchiveDef) (o : k.backend.Obj) (w : k.backend.W) (c : Content) : Prop :=
  ∃ a w', openArchive k.backend p e o D w = (.ok a, w') ∧ ArchiveYields k.backend w' D a c

/-- For any history in which the archive has been built: on disk always; in memory if there are no subarchives. -/
theorem C32_histories [DiffLib] (k : Kind) (p p' : Profile) (e e' : Endian) (D : ArchiveDef) (c : Content) (w : k.backend.W)
    (o : k.backend.Obj) (hm : SchemasReadable k D) (hb : Built k p e w D o c) (hn : k.noFault w) (hk : k = .disk ∨ c.subs.empty) :
    Opens k p' e' D o w c := by
  obtain ⟨h1, h2⟩ := hb.hold hm (hk.imp (fun h => by rw [h]; exact nested_disk) id)
  obtain ⟨a, w', h3, h4, _⟩ := open_holding (p := p') (e := e') h2 hn h1
  exact ⟨a, w', h3, h4⟩

theorem buildArchive_steps [DiffLib] {k : Kind} {p : Profile} {e : Endian} {D : ArchiveDef} {prog : Prog} {c : Content} {w0 w : k.backend.W}
    {o : k.backend.Obj} (hs : Separate D) (hc : Prepares p e D prog c) (hr : k.Reachable w0) (ho : k.alive w0 o)
    (h : buildArchive k.backend p e o D prog w0 = (.ok (), w)) : k.Steps w0 w := by
  unfold buildArchive at h
  obtain ⟨o1, w1, h1, h2⟩ := Act.bind_eq_ok h
  have ho1 := builderNew_ok h1
  rw [ho1] at h1 h2
  have st1 : k.Steps w0 w1 := (aside_builderNew (P := fun _ => False) h1 ho id id).steps
  exact st1.trans (run_aside (P := fun _ => False) prog (hc.level hs).1 (hr.steps st1) (st1.alive ho) h2 fun _ _ => id).steps

/-- C32: a successful run of any program that writes the content `c` of the archive `D`, resources (and on disk subarchives) in
any order. The opening may be done by another build on a machine of the other byte order, only not in the same process. -/
theorem C32_roundtrip [DiffLib] (k : Kind) (p p' : Profile) (e e' : Endian) (D : ArchiveDef) (prog : Prog) (c : Content)
    (w0 w : k.backend.W) (o : k.backend.Obj) (hs : Separate D) (hm : SchemasReadable k D) (hc : Prepares p e D prog c)
    (hr : k.Reachable w0) (ho : k.alive w0 o) (hv : k.Vacant D w0 o) (hn : k.noFault w0)
    (h : buildArchive k.backend p e o D prog w0 = (.ok (), w)) (hk : k = .disk ∨ c.subs.empty) : Opens k p' e' D o w c :=
  C32_histories k p p' e e' D c w o hm (buildArchive_built hs hc hr ho hv h)
    ((buildArchive_steps hs hc hr ho h).noFault hn) hk

/-- ... and it can be opened any number of times. -/
theorem C32_again [DiffLib] (k : Kind) (p p' : Profile) (e e' : Endian) (D : ArchiveDef) (c : Content) (w w1 : k.backend.W)
    (o : k.backend.Obj) (a : Archive k.backend.Base) (hm : SchemasReadable k D) (hb : Built k p e w D o c) (hn : k.noFault w)
    (hk : k = .disk ∨ c.subs.empty) (h : openArchive k.backend p e o D w = (.ok a, w1)) : Opens k p' e' D o w1 c := by
  obtain ⟨h1, h2⟩ := hb.hold hm (hk.imp (fun h => by rw [h]; exact nested_disk) id)
  obtain ⟨a', w', h3, h4, g⟩ := open_holding (p := p) (e := e) h2 hn h1
  rw [h] at h3; cases h3
  have hd : k.dir w1 o = k.dir w o := g.ro.dir o
  obtain ⟨a', w', h3, h4, _⟩ := open_holding (p := p') (e := e') (h2.went g) (g.steps.noFault hn) (by rw [hd]; exact h1)
  exact ⟨a', w', h3, h4⟩

/-- ... and, on disk, by a new process, with the same path. -/
theorem C32_new_process [DiffLib] (p p' : Profile) (e e' : Endian) (D : ArchiveDef) (c : Content) (w w1 : (Kind.backend .disk).W)
    (o o' : (Kind.backend .disk).Obj) (hm : SchemasReadable .disk D) (hb : Built .disk p e w D o c) (hp : NewProcess w w1)
    (hn : Kind.noFault .disk w1) (hl : Kind.alive .disk w1 o') (ho : Obj.path o' = Obj.path o) : Opens .disk p' e' D o' w1 c := by
  obtain ⟨h1, _⟩ := hb.hold hm (.inl nested_disk)
  have hd : Kind.dir .disk w1 o' = Kind.dir .disk w o := by
    funext ds n
    change (w1 : FileW).fs.files _ = (w : FileW).fs.files _
    rw [show (w1 : FileW).fs.files = (w : FileW).fs.files from hp.files, show Obj.path o' = Obj.path o from ho]
  have hcur : ∀ n, Cur fileLaws w1 o' n := fun n => cur_of_unseen (by
    change Option.map _ ((w1 : FileW).maps _ _) = none
    rw [hp.initial.1]; rfl)
  obtain ⟨a, w', h3, h4, _⟩ := open_holding (k := .disk) (p := p') (e := e')
    ⟨⟨w1, hp.initial, .refl w1⟩, hl, fun n _ => ⟨hcur n, hcur _⟩⟩ hn (by rw [hd]; exact h1)
  exact ⟨a, w', h3, h4⟩

/-! ### Example: the archive of the integration test -/
namespace BuildExample
open Coappearances

def statProg : Prog :=
  .res vertexDegrees (.elements [[.set (.plain "value" .u32 0 16) 3], []]) <| .res invariants (.struct (zeros 10)) .done

/-- A program for the resources of `Graph` in some order, with the subarchive in between. -/
def graphProg : Prog :=
  .res strings (.data [65#8, 0#8]) <| .res meta' (.struct [1#8, 0#8, 0#8, 0#8, 2#8, 0#8, 0#8, 0#8, 99#8]) <|
  .sub "statistics" Statistics statProg <|
  .res verticesData (.items [[⟨0#8, Nickname, [.set (.plain "ref_" .u32 0 32) 7]⟩], [], [⟨3#8, BinaryRelation, []⟩]]) <|
  .res chapters (.elements [[.set (.plain "major" .u8 0 4) 2]]) <| .res vertices (.data [5#8, 0#8, 0#8, 0#8]) <|
  .res edges (.data []) .done

def statContent : Content := .mk [some (.bytes (zeros Invariants.size)), some (.bytes [3#8, 0#8, 0#8, 0#8])] .nil

def graphContent : Content :=
  .mk [some (.bytes [1#8, 0#8, 0#8, 0#8, 2#8, 0#8, 0#8, 0#8]), some (.bytes [5#8, 0#8, 0#8, 0#8]), some (.bytes []), some (.bytes [2#8, 0#8]),
    some (.items [[(0#8, [7#8, 0#8, 0#8, 0#8])], [], [(3#8, zeros 8)]]), some (.bytes [65#8, 0#8])] (.cons (some statContent) .nil)

theorem graph_separate : Separate Graph := by
  refine ⟨by decide, by decide, ⟨by decide, by decide, trivial⟩, trivial⟩

theorem graph_schemas (k : Kind) : SchemasReadable k Graph := by
  have h : ∀ s ∈ [ "archive Graph", "archive Statistics", meta'.schema, vertices.schema, edges.schema, chapters.schema,
      verticesData.schema, strings.schema, invariants.schema, vertexDegrees.schema], k.mappable (strBytes s) := by
    cases k
    · exact fun _ _ => trivial
    · intro s hs
      exact (by decide : ∀ s ∈ [ "archive Graph", "archive Statistics", meta'.schema, vertices.schema, edges.schema, chapters.schema,
        verticesData.schema, strings.schema, invariants.schema, vertexDegrees.schema], strBytes s ≠ []) s hs
  refine ⟨h _ (by simp), ?_, ⟨h _ (by simp), ?_, trivial⟩, trivial⟩
  · intro r hr
    simp only [List.mem_cons, List.not_mem_nil, or_false] at hr
    rcases hr with rfl | rfl | rfl | rfl | rfl | rfl <;> exact h _ (by simp)
  · intro r hr
    simp only [List.mem_cons, List.not_mem_nil, or_false] at hr
    rcases hr with rfl | rfl <;> exact h _ (by simp)

theorem stat_prepares : Prepares .debug .little Statistics statProg statContent := by
  refine ⟨by decide, by decide, ?_, by simp [statProg, Prog.builds], ⟨⟨_, .tail _ (.head _), ?_⟩, ⟨_, .head _, ?_⟩, trivial⟩, trivial⟩
  · intro x hx
    simp only [statProg, Prog.writes, List.mem_cons, List.not_mem_nil, or_false] at hx
    rcases hx with rfl | rfl <;> simp
  · exact ⟨Invariants, rfl, by decide, by decide, by decide⟩
  · exact ⟨Degree, [[3#8, 0#8], [0#8, 0#8]], rfl, by decide, ⟨by decide, by decide, trivial⟩, by decide, rfl⟩

theorem graph_prepares : Prepares .debug .little Graph graphProg graphContent := by
  refine ⟨by decide, by decide, ?_, by simp [graphProg, Prog.builds, SubDefs.entries],
    ⟨⟨_, .tail _ (.head _), ?_⟩, ⟨_, .tail _ (.tail _ (.tail _ (.tail _ (.head _)))), ?_⟩,
      ⟨_, .tail _ (.tail _ (.tail _ (.tail _ (.tail _ (.head _))))), ?_⟩, ⟨_, .tail _ (.tail _ (.tail _ (.head _))), ?_⟩,
      ⟨_, .tail _ (.tail _ (.head _)), ?_⟩, ⟨_, .head _, ?_⟩, trivial⟩, ⟨statProg, .head _, stat_prepares⟩, trivial⟩
  · intro x hx
    simp only [graphProg, Prog.writes, List.mem_cons, List.not_mem_nil, or_false] at hx
    rcases hx with rfl | rfl | rfl | rfl | rfl | rfl <;> simp
  · exact ⟨Meta, rfl, by decide, by decide, by decide⟩
  · exact ⟨.inl ⟨Character, rfl⟩, by decide, rfl⟩
  · exact ⟨.inl ⟨Coappearance, rfl⟩, by decide, rfl⟩
  · exact ⟨Chapter, [[2#8, 0#8]], rfl, by decide, ⟨by decide, trivial⟩, by decide, rfl⟩
  · refine ⟨VerticesData, rfl, MultiExample.ok, ⟨⟨rfl, by decide, trivial⟩, trivial, ⟨rfl, by decide, trivial⟩, trivial⟩, ?_, by decide, by decide, by decide⟩
    intro as ha a h
    simp only [List.mem_cons, List.not_mem_nil, or_false] at ha
    rcases ha with rfl | rfl | rfl
    · simp only [List.mem_cons, List.not_mem_nil, or_false] at h; subst h; simp [VerticesData]
    · cases h
    · simp only [List.mem_cons, List.not_mem_nil, or_false] at h; subst h; simp [VerticesData]
  · exact ⟨.inr rfl, by decide, rfl⟩

theorem disk_vacant (D : ArchiveDef) : Kind.Vacant .disk D (disk0 []) objD := ⟨fun _ _ => rfl, fun _ _ _ _ _ _ => rfl, fun _ _ => rfl⟩

theorem graph_runs : (@buildArchive file naiveDiff .debug .little objD Graph graphProg (disk0 [])).1.isOk = true := by decide +kernel

/-- The hypotheses of `C32_roundtrip` hold for this program on disk. -/
example : ∃ w, @buildArchive file naiveDiff .debug .little objD Graph graphProg (disk0 []) = (.ok (), w) ∧
    @Opens naiveDiff .disk .release .big Graph objD w graphContent := by
  obtain ⟨_, w, h⟩ := VecExample.isOk_run graph_runs
  exact ⟨w, h, @C32_roundtrip naiveDiff .disk .debug .release .little .big Graph graphProg graphContent _ w objD graph_separate
    (graph_schemas .disk) graph_prepares (disk0_reachable _ _) Nat.zero_lt_one (disk_vacant _) (disk0_noFault _) h (.inl rfl)⟩

attribute [local instance] naiveDiff in
/-- ... and of `C32_histories`, `C32_again` and `C32_new_process`: the archive has been built, and can be opened twice and by a
process started later. -/
example : ∃ w a w1 w2, @Built naiveDiff .disk .debug .little w Graph objD graphContent ∧
    @openArchive file naiveDiff .debug .little objD Graph w = (.ok a, w1) ∧ @Opens naiveDiff .disk .debug .big Graph objD w1 graphContent ∧
    NewProcess w w2 ∧ @Opens naiveDiff .disk .debug .big Graph objD w2 graphContent := by
  obtain ⟨_, w, h⟩ := VecExample.isOk_run graph_runs
  have hb : @Built naiveDiff .disk .debug .little w Graph objD graphContent :=
    buildArchive_built graph_separate graph_prepares (disk0_reachable _ _) Nat.zero_lt_one (disk_vacant _) h
  have st : Kind.Steps .disk (disk0 []) w :=
    @buildArchive_steps naiveDiff .disk .debug .little Graph graphProg graphContent _ w objD graph_separate graph_prepares (disk0_reachable _ _)
      Nat.zero_lt_one h
  have hn : Kind.noFault .disk w := st.noFault (disk0_noFault _)
  obtain ⟨a, w1, h1, _⟩ := @C32_histories naiveDiff .disk .debug .debug .little .little _ _ w objD (graph_schemas .disk) hb hn (.inl rfl)
  refine ⟨w, a, w1, restart w, hb, h1, ?_, restart_new w, ?_⟩
  · exact @C32_again naiveDiff .disk .debug .debug .little .big _ _ w w1 objD a (graph_schemas .disk) hb hn (.inl rfl) h1
  · exact @C32_new_process naiveDiff .debug .debug .little .big _ _ w (restart w) objD objD (graph_schemas .disk) hb (restart_new w)
      (fun _ _ => rfl) Nat.zero_lt_one rfl

/-- In memory: an archive without subarchives. -/
example : ∃ w, @buildArchive mem naiveDiff .debug .little obj Statistics statProg mem0 = (.ok (), w) ∧
    @Opens naiveDiff .memory .debug .little Statistics obj w statContent := by
  have hok : (@buildArchive mem naiveDiff .debug .little obj Statistics statProg mem0).1.isOk = true := by decide +kernel
  obtain ⟨_, w, h⟩ := VecExample.isOk_run hok
  refine ⟨w, h, @C32_roundtrip naiveDiff .memory .debug .debug .little .little Statistics statProg statContent _ w obj graph_separate.2.2.1
    (graph_schemas .memory).2.2.1 stat_prepares mem0_reachable Nat.zero_lt_one
    ⟨fun _ _ => rfl, fun _ _ _ _ _ _ => rfl, fun _ _ => rfl⟩ trivial h (.inr trivial)⟩

end BuildExample

/-! ## C33: subarchives -/

/-- The accessor of the `i`-th subarchive. -/
def SubArchives.get {Base : Type} : SubArchives Base → Nat → Option (Archive Base)
  | .nil, _ => none
  | .cons a _, 0 => a
  | .cons _ rest, i + 1 => rest.get i

/-- The definition of the `i`-th subarchive. -/
def SubDefs.get : SubDefs → Nat → Option ArchiveDef
  | .nil, _ => none
  | .cons _ _ D _, 0 => some D
  | .cons _ _ _ rest, i + 1 => rest.get i

/-- What has been written into the `i`-th subarchive. -/
def Spec.SubContents.get : SubContents → Nat → Option Content
  | .nil, _ => none
  | .cons c _, 0 => c
  | .cons _ rest, i + 1 => rest.get i

/-- C33 in full: after building an archive, opening succeeds, and each subarchive that has been written is there with all that
was written into it. -/
def C33_claim : Prop :=
  ∀ (_ : DiffLib) (k : Kind) (p : Profile) (e : Endian) (name schema : String) (rs : List ResDecl) (subs : SubDefs) (prog : Prog)
    (cs : List (Option Payload)) (ts : SubContents) (w0 w : k.backend.W) (o : k.backend.Obj), Separate (.mk name schema rs subs) →
    SchemasReadable k (.mk name schema rs subs) → Prepares p e (.mk name schema rs subs) prog (.mk cs ts) → k.Reachable w0 →
    k.alive w0 o → k.Vacant (.mk name schema rs subs) w0 o → k.noFault w0 → buildArchive k.backend p e o (.mk name schema rs subs) prog w0 = (.ok (), w) →
    ∃ xs ss w', openArchive k.backend p e o (.mk name schema rs subs) w = (.ok (.mk xs ss), w') ∧
      ∀ i D c, subs.get i = some D → ts.get i = some c → ∃ a, ss.get i = some a ∧ ArchiveYields k.backend w' D a c

theorem Spec.SubsYield.get {B : Backend} {w : B.W} : {subs : SubDefs} → {ss : SubArchives B.Base} → {ts : SubContents} → SubsYield B w subs ss ts →
    ∀ {i D c}, subs.get i = some D → ts.get i = some c → ∃ a, ss.get i = some a ∧ ArchiveYields B w D a c
  | .nil, .nil, .nil, _, _, _, _, h, _ => by cases h
  | .cons _ _ D rest, .cons a ss, .cons c ts, h, i, D', c', h1, h2 => by
    cases i with
    | zero =>
      cases h1
      cases (show c = some c' from h2)
      cases a with
      | none => exact h.1.elim
      | some a => exact ⟨a, rfl, h.1⟩
    | succ i => exact Spec.SubsYield.get (subs := rest) (ss := ss) (ts := ts) h.2 h1 h2

/-- C33 on disk, also for a new process (`C32_new_process`) and for nested subarchives. -/
theorem C33_disk_partial [DiffLib] (p p' : Profile) (e e' : Endian) (name schema : String) (rs : List ResDecl) (subs : SubDefs) (prog : Prog)
    (cs : List (Option Payload)) (ts : SubContents) (w0 w : (Kind.backend .disk).W) (o : (Kind.backend .disk).Obj)
    (hs : Separate (.mk name schema rs subs)) (hm : SchemasReadable .disk (.mk name schema rs subs))
    (hc : Prepares p e (.mk name schema rs subs) prog (.mk cs ts)) (hr : Kind.Reachable .disk w0) (ho : Kind.alive .disk w0 o)
    (hv : Kind.Vacant .disk (.mk name schema rs subs) w0 o) (hn : Kind.noFault .disk w0)
    (h : buildArchive (Kind.backend .disk) p e o (.mk name schema rs subs) prog w0 = (.ok (), w)) :
    ∃ xs ss w', openArchive (Kind.backend .disk) p' e' o (.mk name schema rs subs) w = (.ok (.mk xs ss), w') ∧
      ∀ i D c, subs.get i = some D → ts.get i = some c → ∃ a, ss.get i = some a ∧ ArchiveYields (Kind.backend .disk) w' D a c := by
  obtain ⟨a, w', h1, h2⟩ := C32_roundtrip .disk p p' e e' _ prog _ w0 w o hs hm hc hr ho hv hn h (.inl rfl)
  cases a with
  | mk xs ss => exact ⟨xs, ss, w', h1, fun i D c g1 g2 => Spec.SubsYield.get h2.2 g1 g2⟩

namespace BuildExample
open Coappearances

/-- An archive with nothing but a subarchive. -/
def Inner : ArchiveDef := .mk "B" "sb" [] .nil
def Outer (optional : Bool) : ArchiveDef := .mk "A" "sa" [] (.cons "s" optional Inner .nil)
def outerProg : Prog := .sub "s" Inner .done .done

/-- Building and opening it; whether both succeed and there is a subarchive. -/
def buildOpen (optional : Bool) : Bool × Bool × Bool :=
  let x := @buildArchive mem naiveDiff .debug .little obj (Outer optional) outerProg mem0
  let y := @openArchive mem naiveDiff .debug .little obj (Outer optional) x.2
  (x.1.isOk, y.1.isOk, match y.1 with
    | .ok (.mk _ (.cons (some _) _)) => true
    | _ => false)

/-- A required subarchive makes opening fail, an optional one is missing. -/
theorem outer_required : buildOpen false = (true, false, false) := by decide +kernel
theorem outer_optional : buildOpen true = (true, true, false) := by decide +kernel

theorem outer_prepares (b : Bool) : Prepares .debug .little (Outer b) outerProg (.mk [] (.cons (some (.mk [] .nil)) .nil)) := by
  refine ⟨by decide, by decide, by simp [outerProg, Prog.writes], ?_, trivial, ⟨.done, .head _, ?_⟩, trivial⟩
  · intro x hx
    cases hx with
    | head => exact .head _
    | tail _ h => cases h
  · exact ⟨by decide, by decide, by simp [Prog.writes], by simp [Prog.builds], trivial, trivial⟩

theorem outer_separate (b : Bool) : Separate (Outer b) :=
  ⟨(by decide : ∀ n ∈ ["A.archive", "A.archive.schema", "s"], PlainName n), (by decide : ["A.archive", "A.archive.schema", "s"].Nodup),
    ⟨(by decide : ∀ n ∈ ["B.archive", "B.archive.schema"], PlainName n), (by decide : ["B.archive", "B.archive.schema"].Nodup), trivial⟩, trivial⟩

theorem mem_vacant (D : ArchiveDef) : Kind.Vacant .memory D mem0 obj := ⟨fun _ _ => rfl, fun _ _ _ _ _ _ => rfl, fun _ _ => rfl⟩

end BuildExample

/-- C33 fails in memory: `MemoryResourceStorage::subdir` (memstorage.rs:57) creates a new, empty storage each time. -/
theorem C33_refuted : ¬ C33_claim := by
  intro h
  have h1 := BuildExample.outer_optional
  unfold BuildExample.buildOpen at h1
  simp only [Prod.mk.injEq] at h1
  obtain ⟨h1, -, h2⟩ := h1
  obtain ⟨_, w, hw⟩ := VecExample.isOk_run h1
  rw [hw] at h2
  obtain ⟨xs, ss, w', h3, h4⟩ := h naiveDiff .memory .debug .little "A" "sa" [] (.cons "s" true BuildExample.Inner .nil) BuildExample.outerProg []
    (.cons (some (.mk [] .nil)) .nil) mem0 w obj (BuildExample.outer_separate true) ⟨trivial, (fun _ h => by cases h), ⟨trivial, (fun _ h => by cases h), trivial⟩, trivial⟩
    (BuildExample.outer_prepares true) mem0_reachable Nat.zero_lt_one (BuildExample.mem_vacant _) trivial hw
  obtain ⟨a, h5, _⟩ := h4 0 _ _ rfl rfl
  rw [show (@openArchive mem naiveDiff .debug .little obj (BuildExample.Outer true) w) = _ from h3] at h2
  cases ss with
  | nil => cases h5
  | cons a' _ =>
    cases (show a' = some a from h5)
    cases h2

/-- The disk case is not vacuous: the archive of the integration test with its subarchive. -/
example : ∃ w xs ss s w', @openArchive file naiveDiff .release .big objD Coappearances.Graph w = (.ok (.mk xs ss), w') ∧ ss.get 0 = some s ∧
    ArchiveYields file w' Coappearances.Statistics s BuildExample.statContent := by
  obtain ⟨_, w, h⟩ := VecExample.isOk_run BuildExample.graph_runs
  obtain ⟨xs, ss, w', h1, h2⟩ := @C33_disk_partial naiveDiff .debug .release .little .big _ _ _ _ BuildExample.graphProg _ _ _ w objD
    BuildExample.graph_separate (BuildExample.graph_schemas .disk) BuildExample.graph_prepares (disk0_reachable _ _) Nat.zero_lt_one
    (BuildExample.disk_vacant _) (disk0_noFault _) h
  obtain ⟨a, h3, h4⟩ := h2 0 _ _ rfl rfl
  exact ⟨w, xs, ss, a, w', h1, h3, h4⟩

end Flatdata
