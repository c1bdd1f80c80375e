import Verif.Props.Build
import Verif.Proofs.SafeArchive
/-!
# Property C33, exactly: subarchives in memory are never found
-/
namespace Flatdata
open Spec StorageExample MvExample

theorem Spec.Dir.memory_sub (w : MemW) (o : Obj) (name : String) (ds : List String) (n : String) :
    (Kind.dir .memory w o).sub name ds n = none := rfl

theorem Spec.not_complete_sub {k : Kind} {D : ArchiveDef} {dir : Dir} (h : ∀ ds n, dir ds n = none) : ¬ Complete k D dir := by
  cases D with
  | mk name schema rs subs =>
    intro hc
    unfold Complete at hc
    obtain ⟨⟨x, hx⟩, _⟩ := hc
    obtain ⟨d, hd, _⟩ := hx.data
    rw [h] at hd
    cases hd

/-- All subarchives are declared optional. -/
def SubDefs.allOptional : SubDefs → Prop
  | .nil => True
  | .cons _ optional _ rest => optional = true ∧ rest.allOptional

theorem SubsShow.memory {clean : Prop} {shows : Slice mem.Base → Bytes → Prop} {w : MemW} {o : Obj} :
    ∀ {subs : SubDefs} {ss : SubArchives mem.Base}, SubsShow .memory clean shows subs (Kind.dir .memory w o) ss →
      subs.allOptional ∧ ∀ i, ss.get i = none
  | .nil, .nil, _ => ⟨trivial, fun i => by cases i <;> rfl⟩
  | .cons name optional D rest, .cons a ss, h => by
    unfold SubsShow at h
    obtain ⟨h1, h2⟩ := h
    obtain ⟨g1, g2⟩ := SubsShow.memory h2
    cases a with
    | some a => exact absurd (Spec.ArchiveShows.complete h1) (not_complete_sub (Spec.Dir.memory_sub w o name))
    | none =>
      refine ⟨⟨h1.1, g1⟩, fun i => ?_⟩
      cases i with
      | zero => rfl
      | succ i => exact g2 i
  | .nil, .cons _ _, h => by unfold SubsShow at h; exact h.elim
  | .cons _ _ _ _, .nil, h => by unfold SubsShow at h; exact h.elim

/-- Whatever has been done before: an archive that can be opened in memory has no required subarchive, and all of its optional
subarchives are missing. -/
theorem C33_memory_never [DiffLib] (p : Profile) (e : Endian) (name schema : String) (rs : List ResDecl) (subs : SubDefs)
    (w w' : (Kind.backend .memory).W) (o : (Kind.backend .memory).Obj) (xs : List (Opened (Kind.backend .memory).Base))
    (ss : SubArchives (Kind.backend .memory).Base) (hr : Kind.Reachable .memory w) (ho : Kind.alive .memory w o)
    (h : openArchive (Kind.backend .memory) p e o (.mk name schema rs subs) w = (.ok (.mk xs ss), w')) :
    subs.allOptional ∧ ∀ i, ss.get i = none := by
  unfold openArchive at h
  obtain ⟨s, w1, h1, h⟩ := Act.bind_eq_ok h
  obtain ⟨xs', w2, h2, h⟩ := Act.bind_eq_ok h
  obtain ⟨ss', w3, h3, h⟩ := Act.bind_eq_ok h
  cases h
  have st1 : Kind.Steps .memory w w1 := by
    have := (Kind.safe_storageRead (k := .memory) (p := p) (e := e) (o := o) (name := name ++ ".archive") (schema := schema) Kind.stable_alive (fun _ h => h) w hr trivial ho).2.1
    rw [h1] at this; exact this
  have st2 : Kind.Steps .memory w1 w2 := by
    have := (Kind.safe_openResources (k := .memory) (p := p) (e := e) (o := o) rs Kind.stable_alive (fun _ h => h) w1 (hr.steps st1) trivial (st1.alive ho)).2.1
    rw [h2] at this; exact this
  obtain ⟨x, w4, h4, _, out⟩ := openSubs_spec (k := .memory) (p := p) (e := e) subs (hr.steps (st1.trans st2)) ((st1.trans st2).alive ho)
  rw [h3] at h4
  cases h4
  exact SubsShow.memory out

theorem Spec.SubContents.empty_of_get : ∀ {ts : SubContents}, (∀ i, ts.get i = none) → ts.empty
  | .nil, _ => trivial
  | .cons _ _, h => ⟨h 0, Spec.SubContents.empty_of_get fun i => h (i + 1)⟩

/-- Both have as many entries. -/
theorem Spec.SubsPrepare.defined {p : Profile} {e : Endian} {prog : Prog} : ∀ {subs : SubDefs} {ts : SubContents}, SubsPrepare p e subs prog ts →
    ∀ {i c}, ts.get i = some c → ∃ D, subs.get i = some D
  | .nil, .nil, _, i, c, h => by cases h
  | .cons _ _ D rest, .cons _ ts, h, i, c, hg => by
    unfold SubsPrepare at h
    cases i with
    | zero => exact ⟨D, rfl⟩
    | succ i => exact Spec.SubsPrepare.defined (subs := rest) (ts := ts) h.2 hg
  | .nil, .cons _ _, h, _, _, _ => by unfold SubsPrepare at h; exact h.elim
  | .cons _ _ _ _, .nil, h, _, _, _ => by unfold SubsPrepare at h; exact h.elim

/-- C33 holds exactly on disk, and in memory for archives into which no subarchive has been written. (Required subarchives
are always written, by `Prepares`.) -/
theorem C33_exact [DiffLib] (k : Kind) (p p' : Profile) (e e' : Endian) (name schema : String) (rs : List ResDecl) (subs : SubDefs) (prog : Prog)
    (cs : List (Option Payload)) (ts : SubContents) (w0 w : k.backend.W) (o : k.backend.Obj) (hs : Separate (.mk name schema rs subs))
    (hm : SchemasReadable k (.mk name schema rs subs)) (hc : Prepares p e (.mk name schema rs subs) prog (.mk cs ts)) (hr : k.Reachable w0)
    (ho : k.alive w0 o) (hv : k.Vacant (.mk name schema rs subs) w0 o) (hn : k.noFault w0)
    (h : buildArchive k.backend p e o (.mk name schema rs subs) prog w0 = (.ok (), w)) :
    (∃ xs ss w', openArchive k.backend p' e' o (.mk name schema rs subs) w = (.ok (.mk xs ss), w') ∧
      ∀ i D c, subs.get i = some D → ts.get i = some c → ∃ a, ss.get i = some a ∧ ArchiveYields k.backend w' D a c) ↔
    k = .disk ∨ ts.empty := by
  constructor
  · rintro ⟨xs, ss, w', h1, h2⟩
    cases k with
    | disk => exact .inl rfl
    | memory =>
      have st := buildArchive_steps hs hc hr ho h
      obtain ⟨_, g⟩ := C33_memory_never p' e' name schema rs subs w w' o xs ss (hr.steps st) (st.alive ho) h1
      refine .inr (Spec.SubContents.empty_of_get fun i => ?_)
      cases hi : ts.get i with
      | none => rfl
      | some c =>
        have hc' : SubsPrepare p e subs prog ts := by unfold Prepares at hc; exact hc.2.2.2.2.2
        obtain ⟨D, hD⟩ := hc'.defined hi
        obtain ⟨a, ha, _⟩ := h2 i D c hD hi
        rw [g i] at ha
        cases ha
  · intro hk
    obtain ⟨a, w', h1, h2⟩ := C32_roundtrip k p p' e e' _ prog _ w0 w o hs hm hc hr ho hv hn h hk
    cases a with
    | mk xs ss => exact ⟨xs, ss, w', h1, fun i D c g1 g2 => Spec.SubsYield.get h2.2 g1 g2⟩

/-- The hypotheses of `C33_exact` hold, in memory, for an archive with a subarchive, optional or not; so it is not found. -/
example (b : Bool) : ∃ w, @buildArchive mem naiveDiff .debug .little obj (BuildExample.Outer b) BuildExample.outerProg mem0 = (.ok (), w) ∧
    ¬ ∃ xs ss w', @openArchive mem naiveDiff .release .big obj (BuildExample.Outer b) w = (.ok (.mk xs ss), w') ∧ ∃ a, ss.get 0 = some a := by
  have hok : (BuildExample.buildOpen b).1 = true := by
    cases b
    · rw [BuildExample.outer_required]
    · rw [BuildExample.outer_optional]
  unfold BuildExample.buildOpen at hok
  obtain ⟨_, w, h⟩ := VecExample.isOk_run hok
  refine ⟨w, h, ?_⟩
  rintro ⟨xs, ss, w', h1, a, ha⟩
  have st : Kind.Steps .memory mem0 w := @buildArchive_steps naiveDiff .memory .debug .little _ _ _ _ w obj (BuildExample.outer_separate b)
    (BuildExample.outer_prepares b) mem0_reachable Nat.zero_lt_one h
  obtain ⟨_, g⟩ := @C33_memory_never naiveDiff .release .big "A" "sa" [] (.cons "s" b BuildExample.Inner .nil) w w' obj xs ss
    (mem0_reachable.steps st) (st.alive Nat.zero_lt_one) h1
  rw [g 0] at ha
  cases ha

/-- ... and an archive with an optional subarchive that has not been written can be opened in memory. -/
theorem BuildExample.bare_prepares : Prepares .debug .little (BuildExample.Outer true) .done (.mk [] (.cons none .nil)) :=
  ⟨by decide, by decide, by simp [Prog.writes], by simp [Prog.builds], trivial, ⟨rfl, by simp [Prog.builds]⟩, trivial⟩

theorem BuildExample.bare_runs : (@buildArchive mem naiveDiff .debug .little obj (BuildExample.Outer true) .done mem0).1.isOk = true := by decide +kernel

example : ∃ w xs ss w', @openArchive mem naiveDiff .release .big obj (BuildExample.Outer true) w = (.ok (.mk xs ss), w') := by
  obtain ⟨_, w, h⟩ := VecExample.isOk_run BuildExample.bare_runs
  obtain ⟨xs, ss, w', h1, _⟩ := (@C33_exact naiveDiff .memory .debug .release .little .big "A" "sa" [] (.cons "s" true BuildExample.Inner .nil) .done []
    (.cons none .nil) mem0 w obj (BuildExample.outer_separate true) ⟨trivial, (fun _ h => by cases h), ⟨trivial, (fun _ h => by cases h), trivial⟩, trivial⟩
    BuildExample.bare_prepares mem0_reachable Nat.zero_lt_one (BuildExample.mem_vacant _) trivial h).mpr (.inr ⟨rfl, trivial⟩)
  exact ⟨w, xs, ss, w', h1⟩

end Flatdata
