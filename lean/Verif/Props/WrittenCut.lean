import Verif.Spec.WrittenCut
import Verif.Proofs.WrittenCut
import Verif.Props.Written
import Verif.Props.Power
/-!
# C57 for programs that have been interrupted
-/
namespace Flatdata
open Spec StorageExample MvExample BuildExample

theorem honest_of_left {D : ArchiveDef} {c : Content} {prog : Prog} {dir dir0 : Dir} {L : Labelled Bytes → Prop} (hu : Undotted D)
    (hl : Left (Staged prog) D dir c)
    (hsame : ∀ ds n, (∀ d ∈ ds, PlainName d) → PlainName n → (∀ b, (ds, n, b) ∉ listing D c) → dir ds n = dir0 ds n)
    (h0 : Honest .disk dir0 L) : Honest .disk dir fun q' => (∃ q ∈ archiveWritten D c, CutShort prog q q') ∨ L q' := by
  intro ds n s x hds hn hns hdot hval
  by_cases hq : ∃ q ∈ archiveWritten D c, q.1 = ds ∧ q.2.1 = n
  · obtain ⟨q, hq, rfl, rfl⟩ := hq
    have pl := archiveWritten_left hl q hq
    obtain ⟨d, h1, h2, _⟩ := hval.data
    refine .inl ⟨q, hq, rfl, rfl, pl.text _ hval.text, ?_⟩
    exact (pl.reads d x h1 h2).imp id fun h => ⟨h.2, h.1⟩
  · obtain ⟨n1, n2⟩ := not_listed (c := c) hu hdot fun q hm h => hq ⟨q, hm, h⟩
    refine .inr (h0 ds n s x hds hn hns hdot ?_)
    obtain ⟨⟨d, h1, h2⟩, h3, h4⟩ := hval
    rw [hsame _ _ hds hn n1] at h1
    rw [hsame _ _ hds hns n2] at h3
    exact ⟨⟨d, h1, h2⟩, h3, h4⟩

/-- C57 for a program that may be interrupted anywhere: what can be read afterwards is what could be read before, and what was to be
written. Missing: that the schema under which it can be read is the one with which it was to be written; it may be a beginning of it. -/
theorem C57_interrupted_partial [DiffLib] (p : Profile) (e : Endian) (D : ArchiveDef) (prog : Prog) (c : Content) (r : Res RErr Unit)
    (w0 w : (Kind.backend .disk).W) (o : (Kind.backend .disk).Obj) (L : Labelled Bytes → Prop) (hs : Separate D) (hu : Undotted D)
    (hc : Prepares p e D prog c) (hr : Kind.Reachable .disk w0) (ho : Kind.alive .disk w0 o) (hv : Kind.Vacant .disk D w0 o)
    (h0 : Honest .disk (Kind.dir .disk w0 o) L) (h : buildArchive (Kind.backend .disk) p e o D prog w0 = (r, w)) :
    Honest .disk (Kind.dir .disk w o) fun q' => (∃ q ∈ archiveWritten D c, CutShort prog q q') ∨ L q' := by
  have hl := buildArchive_left (soft := Staged prog) (fun _ h => h) hs hc hr ho hv
  rw [h] at hl
  exact honest_of_left hu hl (C42_no_other_files .disk p e D prog c w0 w o r hs hc hr ho h) h0

/-- The same after a power failure. -/
theorem C57_outage_partial [DiffLib] (p : Profile) (e : Endian) (D : ArchiveDef) (prog : Prog) (c : Content)
    (w w1 : (Kind.backend .disk).W) (o o' : (Kind.backend .disk).Obj) (L : Labelled Bytes → Prop) (hs : Separate D) (hu : Undotted D)
    (hc : Prepares p e D prog c) (h0 : Honest .disk (Kind.dir .disk w o) L) (h : Outage p e D prog w o w1 o') :
    Honest .disk (Kind.dir .disk w1 o') fun q' => (∃ q ∈ archiveWritten D c, CutShort prog q q') ∨ L q' := by
  have hi : ∀ ds n, ∃ i, Kind.dir .disk (buildArchive (Kind.backend .disk) p e o D prog (cutAt i w)).2 o ds n = Kind.dir .disk w1 o' ds n := by
    intro ds n
    obtain ⟨i, hi⟩ := h.loss.files (key (join (ds.foldl join (Obj.path o')) n))
    refine ⟨i, ?_⟩
    rw [show Obj.path o' = Obj.path o from h.path] at hi
    change _ = (w1 : FileW).fs.files _
    rw [show Obj.path o' = Obj.path o from h.path]
    exact hi.symm
  refine honest_of_left hu (left_mix fun ds n => ?_) (fun ds n h1 h2 h3 => ?_) h0
  · obtain ⟨i, hi⟩ := hi ds n
    exact ⟨_, hi, buildArchive_left (w := cutAt i w) (fun _ h => h) hs hc ⟨cutAt i w, h.initial, .refl _⟩ h.alive
      ⟨h.vacant.noFiles, h.vacant.noSubs, h.vacant.unread⟩⟩
  · obtain ⟨i, hi⟩ := hi ds n
    rw [← hi]
    exact C42_no_other_files .disk p e D prog c (cutAt i w) _ o _ hs hc ⟨cutAt i w, h.initial, .refl _⟩ h.alive rfl ds n h1 h2 h3

/-- If no schema is a beginning of another one with which something was to be written there, then data that are shown have been written
under the schema under which they are shown, however the program has ended. -/
theorem C57_prefix_free [DiffLib] (p p' : Profile) (e e' : Endian) (D D' : ArchiveDef) (prog : Prog) (c : Content)
    (w w1 w2 : (Kind.backend .disk).W) (o o' : (Kind.backend .disk).Obj) (a : Archive (Kind.backend .disk).Base)
    (hs : Separate D) (hu : Undotted D) (hc : Prepares p e D prog c) (hs' : Separate D') (hu' : Undotted D')
    (h : After p e D prog w o w1 o') (h0 : Honest .disk (Kind.dir .disk w o) fun _ => False) (hset : ∀ r, ¬ Staged prog r)
    (hfree : ∀ q ∈ archiveWritten D c, ∀ q' ∈ archiveAccess D' a, q'.1 = q.1 → q'.2.1 = q.2.1 → strBytes q'.2.2.1 <+: strBytes q.2.2.1 →
      q'.2.2.1 = q.2.2.1)
    (ho : openArchive (Kind.backend .disk) p' e' o' D' w1 = (.ok a, w2)) :
    ∀ q ∈ archiveAccess D' a, ∃ x, (Kind.backend .disk).deref w2 q.2.2.2 = .ok x ∧ (q.1, q.2.1, q.2.2.1, x) ∈ archiveWritten D c := by
  have hp := h.left
  have hd : Kind.dir .disk w1 o' = Kind.dir .disk (buildArchive (Kind.backend .disk) p e o D prog w).2 o := by
    funext ds n
    change (w1 : FileW).fs.files _ = FS.files (FileW.fs (buildArchive (Kind.backend .disk) p e o D prog w).2) _
    rw [show (w1 : FileW).fs.files = _ from hp.files, show Obj.path o' = Obj.path o from h.path]
  have hcur : ∀ n, Cur fileLaws w1 o' n := fun n => cur_of_unseen (by
    change Option.map _ ((w1 : FileW).maps _ _) = none
    rw [hp.initial.1]; rfl)
  have hh : Honest .disk (Kind.dir .disk (buildArchive (Kind.backend .disk) p e o D prog w).2 o) fun q' =>
      (∃ q ∈ archiveWritten D c, CutShort prog q q') ∨ False :=
    C57_interrupted_partial p e D prog c _ w _ o (fun _ => False) hs hu hc h.reach h.alive h.vacant h0 rfl
  rw [← hd] at hh
  have hopen := (C57_open .disk p' e' D' w1 w2 o' a _ hs' hu' ⟨w1, hp.initial, .refl w1⟩ h.alive'
    (fun n _ => ⟨(Kind.current_iff .disk _ _ _).mpr (hcur n), (Kind.current_iff .disk _ _ _).mpr (hcur _)⟩) hh ho).1
  intro q hq
  obtain ⟨x, hx, h1⟩ := hopen q hq
  refine ⟨x, hx, ?_⟩
  rcases h1 with ⟨q', hq', e1, e2, e3, e4⟩ | h1
  · have e5 := hfree q' hq' q hq e1 e2 e3
    rcases e4 with e4 | ⟨_, r, hr, _⟩
    · obtain ⟨a1, a2, a3, a4⟩ := q'
      obtain ⟨b1, b2, b3, b4⟩ := q
      simp only at e1 e2 e4 e5 ⊢
      subst e1 e2 e4 e5
      exact hq'
    · exact absurd hr (hset r)
  · exact h1.elim

/-- The full claim for a program that uses setters only: it is to build an archive in an empty directory and may be interrupted. Whoever
opens an archive there sees only what was to be written, under the name and schema under which it was to be written. -/
def C57_interrupted_claim : Prop := ∀ (_ : DiffLib) (p : Profile) (e : Endian) (D D' : ArchiveDef) (prog : Prog) (c : Content) (d : Disk)
    (path : Path) (fault : Nat → Option Nat) (w2 w3 : FileW) (r : Res RErr Unit) (a : Archive Key),
    Separate D → Undotted D → Separate D' → Undotted D' → Prepares p e D prog c → (∀ r, ¬ Staged prog r) →
    (∀ ds n, (∀ d ∈ ds, PlainName d) → PlainName n → Kind.dir .disk (started d) (directory path) ds n = none) →
    buildArchive file p e (directory path) D prog (started d fault) = (r, w2) →
    openArchive file p e (directory path) D' (started w2.fs.disk) = (.ok a, w3) →
    ∀ q ∈ archiveAccess D' a, ∃ x, file.deref w3 q.2.2.2 = .ok x ∧ (q.1, q.2.1, q.2.2.1, x) ∈ archiveWritten D c

namespace WrittenExample

/-- Two definitions of the same archive; the schema of `x` in the first is longer. -/
def longDef : ArchiveDef := .mk "A" "a" [resX "st"] .nil
def longProg : Prog := .res (resX "st") (.data [1#8]) .done

/-- The archive is to be built; the disk is full after the first byte of `x.schema`. -/
def cut : Res RErr Unit × FileW := @buildArchive file naiveDiff .debug .little (directory ['d']) longDef longProg
  (started ParallelExample.empty fun i => if i < 16 then none else if i = 16 then some 1 else some 0)

/-- It is opened with the other definition. -/
def cutOpened : Res RErr (Archive Key) × FileW := @openArchive file naiveDiff .debug .little (directory ['d']) oldDef (started cut.2.fs.disk)

/-- It shows data under a schema with which they have not been written. -/
theorem cut_sees : sees oldDef cutOpened = [([], "x", "s", .ok [1#8])] := by decide +kernel

theorem raw_prepares (n s t : String) (b : Bytes) (hb : b.length < 2 ^ 63) :
    Prepares .debug .little (.mk n s [resX t] .nil) (.res (resX t) (.data b) .done) (.mk [some (.bytes b)] .nil) := by
  refine ⟨by simp [Prog.writes], by simp [Prog.builds], ?_, by simp [Prog.builds], ⟨⟨_, .head _, .inr rfl, hb, rfl⟩, trivial⟩, trivial⟩
  intro x hx
  simp only [Prog.writes, List.mem_cons, List.not_mem_nil, or_false] at hx
  subst hx
  simp

theorem raw_setters (t : String) (b : Bytes) : ∀ r, ¬ Staged (.res (resX t) (.data b) .done) r := by
  intro r h
  cases h with
  | elements h => simp [Prog.writes] at h
  | items h => simp [Prog.writes] at h
  | sub h => simp [Prog.builds] at h

end WrittenExample

open WrittenExample in
/-- It fails: if only the beginning of the schema has been written, the data are shown under that. -/
theorem C57_interrupted_refuted : ¬ C57_interrupted_claim := by
  intro claim
  have hse := cut_sees
  rcases h2 : cut with ⟨r2, w2⟩
  rcases h3 : cutOpened with ⟨r3, w3⟩
  rw [h3] at hse
  cases r3 with
  | ok a =>
    unfold cut at h2
    unfold cutOpened at h3
    rw [show cut.2.fs.disk = w2.fs.disk by unfold cut; rw [h2]] at h3
    have := claim naiveDiff .debug .little longDef oldDef longProg (.mk [some (.bytes [1#8])] .nil) ParallelExample.empty ['d'] _ w2 w3 r2 a
      ⟨by decide, by decide, trivial⟩ ⟨by decide, trivial⟩ ⟨by decide, by decide, trivial⟩ ⟨by decide, trivial⟩ (raw_prepares _ _ _ _ (by decide))
      (raw_setters _ _) nothing h2 h3
    replace hse : (archiveAccess oldDef a).map (fun q => (q.1, q.2.1, q.2.2.1, file.deref w3 q.2.2.2)) = [([], "x", "s", .ok [1#8])] := hse
    generalize archiveAccess oldDef a = l at this hse
    obtain ⟨q, rfl⟩ : ∃ q, l = [q] := List.length_eq_one_iff.mp (by simpa using congrArg List.length hse)
    simp only [List.map_cons, List.map_nil, List.cons.injEq, Prod.mk.injEq, and_true] at hse
    obtain ⟨x, hx, hm⟩ := this q (by simp)
    rw [hse.2.2.2] at hx
    cases hx
    rw [hse.1, hse.2.1, hse.2.2.1] at hm
    revert hm
    decide
  | err x => cases hse
  | panic => cases hse
  | ub => cases hse

namespace WrittenExample
open Coappearances

/-- The hypotheses of `C57_interrupted_partial` hold of the archive of the integration test, whichever calls fail. -/
example (fault : Nat → Option Nat) : Honest .disk
    (Kind.dir .disk (@buildArchive file naiveDiff .debug .little (directory ['d']) Graph graphProg (started ParallelExample.empty fault)).2 (directory ['d']))
    fun q' => (∃ q ∈ archiveWritten Graph graphContent, CutShort graphProg q q') ∨ False :=
  @C57_interrupted_partial naiveDiff .debug .little Graph graphProg graphContent _ (started ParallelExample.empty fault) _ (directory ['d']) (fun _ => False)
    graph_separate graph_undotted graph_prepares (started_reachable _ _) Nat.zero_lt_one
    ⟨fun _ _ => rfl, fun _ _ _ _ _ _ => rfl, fun _ _ => rfl⟩ (fun ds n s x _ _ _ _ hv => by obtain ⟨d, hd, _⟩ := hv.data; cases hd) rfl

/-- ... those of `C57_outage_partial` too. -/
example (f : Key → Moment) : Honest .disk (Kind.dir .disk (PowerExample.aged Graph graphProg f) objD)
    fun q' => (∃ q ∈ archiveWritten Graph graphContent, CutShort graphProg q q') ∨ False :=
  @C57_outage_partial naiveDiff .debug .little Graph graphProg graphContent _ _ objD objD (fun _ => False) graph_separate graph_undotted graph_prepares
    (fun ds n s x _ _ _ _ hv => by obtain ⟨d, hd, _⟩ := hv.data; cases hd) (PowerExample.outage _ _ f)

theorem old_access {Base : Type} {a : Archive Base} {q : Labelled (Slice Base)} (h : q ∈ archiveAccess oldDef a) : q.2.1 = "x" ∧ q.2.2.1 = "s" := by
  obtain ⟨xs, ss⟩ := a
  unfold oldDef archiveAccess at h
  rcases List.mem_append.mp h with h | h
  · match xs, h with
    | [], h => cases h
    | .one d :: t, h =>
      rw [allAccess, allAccess, List.append_nil] at h
      · simp only [resAccess, List.mem_map] at h
        obtain ⟨s, _, rfl⟩ := h
        exact ⟨rfl, rfl⟩
      · simp
    | .two i d :: t, h =>
      rw [allAccess, allAccess, List.append_nil] at h
      · cases h
      · simp
  · unfold subsAccess at h
    cases h

/-- `C57_prefix_free`: after the program has ended in any way, the resource `x` is shown under the schema "s" only if it has been written so. -/
example (fault : Nat → Option Nat) (w w2 : FileW) (r : Res RErr Unit) (a : Archive Key)
    (h : @buildArchive file naiveDiff .debug .little (directory ['d']) oldDef oldProg (started ParallelExample.empty fault) = (r, w))
    (ho : @openArchive file naiveDiff .debug .little (directory ['d']) oldDef (started w.fs.disk) = (.ok a, w2)) :
    ∀ q ∈ archiveAccess oldDef a, ∃ x, file.deref w2 q.2.2.2 = .ok x ∧ (q.1, q.2.1, q.2.2.1, x) ∈ archiveWritten oldDef (.mk [some (.bytes [9#8, 9#8])] .nil) := by
  refine @C57_prefix_free naiveDiff .debug .debug .little .little oldDef oldDef oldProg (.mk [some (.bytes [9#8, 9#8])] .nil)
    (started ParallelExample.empty fault) (started w.fs.disk) w2 (directory ['d']) (directory ['d']) a ⟨by decide, by decide, trivial⟩ ⟨by decide, trivial⟩
    (raw_prepares _ _ _ _ (by decide)) ⟨by decide, by decide, trivial⟩ ⟨by decide, trivial⟩
    (@After.mk naiveDiff _ _ _ _ _ _ _ _ (started_reachable _ _) Nat.zero_lt_one ⟨fun _ _ => rfl, fun _ _ _ _ _ _ => rfl, fun _ _ => rfl⟩ ?_ Nat.zero_lt_one rfl)
    (fun ds n s x _ _ _ _ hv => by obtain ⟨d, hd, _⟩ := hv.data; cases hd) (raw_setters _ _) ?_ ho
  · have h' : @buildArchive (Kind.backend .disk) naiveDiff .debug .little (directory ['d']) oldDef oldProg (started ParallelExample.empty fault) = (r, w) := h
    rw [h']
    exact ⟨rfl, fun _ _ => rfl, rfl⟩
  · intro q hq q' hq' _ hn _
    have h1 := old_access hq'
    have h2 : q = ([], "A.archive", "a", []) ∨ q = ([], "x", "s", [9#8, 9#8]) := by
      have : archiveWritten oldDef (.mk [some (.bytes [9#8, 9#8])] .nil) = [([], "A.archive", "a", []), ([], "x", "s", [9#8, 9#8])] := rfl
      rw [this] at hq
      simpa using hq
    rcases h2 with rfl | rfl
    · rw [h1.1] at hn; exact absurd hn (by decide)
    · exact h1.2

end WrittenExample

end Flatdata
