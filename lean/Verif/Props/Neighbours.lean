import Verif.Proofs.Neighbours
import Verif.Props.Copy
/-!
# Property C50: archives side by side do not affect each other
-/
namespace Flatdata
open Spec StorageExample MvExample BuildExample

variable {k : Kind} {p : Profile} {e : Endian}

/-! ## Where archives have no files in common -/

/-- Two archives of the same directory have no files in common if they use different names in it. -/
theorem C50_same_directory (k : Kind) (D1 D2 : ArchiveDef) (o1 o2 : k.backend.Obj) (h1 : Separate D1) (h2 : Separate D2)
    (hd : k.SameDir o1 o2) (hn : ∀ n ∈ namesIn D1, n ∉ namesIn D2) : k.Apart D1 o1 D2 o2 := by
  obtain ⟨name1, schema1, rs1, subs1⟩ := D1
  obtain ⟨name2, schema2, rs2, subs2⟩ := D2
  unfold Separate at h1 h2
  cases k
  · rintro l ⟨n, hm, rfl⟩ ⟨n', hm', he⟩
    change o1 = o2 at hd
    subst hd
    have p1 := h1.1 n (List.mem_append_left _ hm)
    have p2 := h2.1 n' (List.mem_append_left _ hm')
    by_cases hx : n = n'
    · subst hx
      exact hn n (List.mem_append_left _ hm) (List.mem_append_left _ hm')
    · exact Kind.place_plain_ne (k := .memory) p1 p2 hx he
  · rintro l ⟨ds, n, q1, q2, hf, rfl⟩ ⟨ds', n', q1', q2', hf', he⟩
    change key (o1 : Obj).path = key (o2 : Obj).path at hd
    rw [key_spot ds _ q1 q2, key_spot ds' _ q1' q2', hd, ← key_spot ds _ q1 q2, ← key_spot ds' _ q1' q2'] at he
    obtain ⟨rfl, rfl⟩ := key_spot_inj q1 q2 q1' q2' he
    rcases hf with ⟨rfl, hf⟩ | ⟨x, hx, t, rfl⟩
    · rcases hf' with ⟨_, hf'⟩ | ⟨_, _, _, h⟩
      · exact hn n (List.mem_append_left _ hf) (List.mem_append_left _ hf')
      · cases h
    · rcases hf' with ⟨h, _⟩ | ⟨x', hx', t', h⟩
      · cases h
      · have he : x.1 = x'.1 := (List.cons.inj h).1
        exact hn x.1 (List.mem_append_right _ (List.mem_map.mpr ⟨x, hx, rfl⟩))
          (List.mem_append_right _ (List.mem_map.mpr ⟨x', hx', he.symm⟩))

/-- Two archives in directories neither of which contains the other have no files in common; in memory, two archives in
different storages. -/
theorem C50_other_directory (k : Kind) (D1 D2 : ArchiveDef) (o1 o2 : k.backend.Obj) (hd : k.OtherDir o1 o2) : k.Apart D1 o1 D2 o2 := by
  cases k
  · rintro l ⟨n, hm, rfl⟩ ⟨n', hm', he⟩
    exact hd (congrArg Prod.fst he)
  · rintro l ⟨ds, n, q1, q2, hf, rfl⟩ ⟨ds', n', q1', q2', hf', he⟩
    rw [key_spot ds _ q1 q2, key_spot ds' _ q1' q2', List.append_assoc, List.append_assoc] at he
    rcases List.append_eq_append_iff.mp he with ⟨t, ht, _⟩ | ⟨t, ht, _⟩
    · exact hd.1 ⟨t, ht.symm⟩
    · exact hd.2 ⟨t, ht.symm⟩

/-! ## Building one does not affect the other -/

/-- C50, opening later: after any attempt to build another archive, successful or not, opening an archive has the outcome that
what was stored for it before determines (C31), and what is stored for it is unchanged. -/
theorem C50_open [DiffLib] (k : Kind) (p p' : Profile) (e e' : Endian) (D1 D2 : ArchiveDef) (prog : Prog) (c : Content) (w0 w : k.backend.W)
    (o1 o2 : k.backend.Obj) (x : Res RErr Unit) (h1 : Separate D1) (h2 : Separate D2) (hc : Prepares p e D2 prog c) (hr : k.Reachable w0)
    (ho1 : k.alive w0 o1) (ho2 : k.alive w0 o2) (hcur : k.Current w0 o1 D1) (ha : k.Apart D1 o1 D2 o2)
    (h : buildArchive k.backend p e o2 D2 prog w0 = (x, w)) :
    (∀ ds n, (∀ d ∈ ds, PlainName d) → PlainName n → OwnFile D1 ds n → k.dir w o1 ds n = k.dir w0 o1 ds n) ∧
    ∃ r w', openArchive k.backend p' e' o1 D1 w = (r, w') ∧
    ((∃ a, r = .ok a ∧ Complete k D1 (k.dir w0 o1) ∧
        ArchiveShows k (k.noFault w) (fun s x => k.backend.deref w' s = .ok x) D1 (k.dir w0 o1) a) ∨
     (∃ x, r = .err x ∧ (k.noFault w → ¬ Complete k D1 (k.dir w0 o1))) ∨
     (r = .panic ∧ p' = .debug ∧ SomeHuge D1 (k.dir w0 o1))) := by
  have st := buildArchive_away h2 hc hr ho1 ho2 ha
  rw [h] at st
  have ag := away_agree st
  refine ⟨fun ds n q1 q2 hf => ag ds n q1 q2 hf, ?_⟩
  obtain ⟨r, w', hw, _, out⟩ := C31_open k p' e' D1 w o1 (hr.steps st.steps) (st.steps.alive ho1) (away_current h1 st hcur)
  refine ⟨r, w', hw, ?_⟩
  rcases out with ⟨a, rfl, g1, g2⟩ | ⟨x, rfl, g1⟩ | ⟨rfl, g1, g2⟩
  · exact .inl ⟨a, rfl, complete_congr h1 ag g1, archiveShows_congr h1 ag g2⟩
  · exact .inr (.inl ⟨x, rfl, fun hn hx => g1 hn (complete_congr h1 ag.symm hx)⟩)
  · exact .inr (.inr ⟨rfl, g1, someHuge_congr h1 ag g2⟩)

/-- C50, opened before: everything that an opened archive gives access to stays as it is while another archive is built. -/
theorem C50_view [DiffLib] (k : Kind) (p p' : Profile) (e e' : Endian) (D1 D2 : ArchiveDef) (prog : Prog) (c : Content) (w0 w1 w : k.backend.W)
    (o1 o2 : k.backend.Obj) (a : Archive k.backend.Base) (x : Res RErr Unit) (h1 : Separate D1) (h2 : Separate D2)
    (hc : Prepares p e D2 prog c) (hr : k.Reachable w0) (ho1 : k.alive w0 o1) (ho2 : k.alive w1 o2) (ha : k.Apart D1 o1 D2 o2)
    (hopen : openArchive k.backend p' e' o1 D1 w0 = (.ok a, w1)) (h : buildArchive k.backend p e o2 D2 prog w1 = (x, w)) :
    ∀ s ∈ a.slices, k.backend.deref w s = k.backend.deref w1 s := by
  have s1 : k.Steps w0 w1 := by
    have := Kind.calls_openArchive (p := p') (e := e') D1 o1 w0 ho1
    rw [hopen] at this
    exact this
  have st := buildArchive_away h2 hc (hr.steps s1) (s1.alive ho1) ho2 ha
  rw [h] at st
  cases k
  · exact slices_memory hr ho1 hopen st.steps
  · exact slices_disk h1 hr hopen st

/-- Nothing is stored yet for the second archive after the first one has been built. -/
theorem vacant_away {D : ArchiveDef} {o : k.backend.Obj} {w w' : k.backend.W} (hs : Separate D) (h : k.StepsAway (k.OwnPlace D o) w w')
    (hv : k.Vacant D w o) : k.Vacant D w' o := by
  have hs' := hs
  obtain ⟨name, schema, rs, subs⟩ := D
  unfold Separate at hs'
  have ag := away_agree h
  refine ⟨fun n hn => ?_, fun x hx ds n hd hn => ?_, fun n hn => ?_⟩
  · have := ag [] n (fun _ h => by cases h) (hs'.1 n (List.mem_append_left _ hn)) (.inl ⟨rfl, hn⟩)
    rw [Kind.dir_nil, Kind.dir_nil] at this
    exact this.trans (hv.noFiles n hn)
  · refine (ag (x.1 :: ds) n (fun d hd' => ?_) hn (.inr ⟨x, hx, ds, rfl⟩)).trans (hv.noSubs x hx ds n hd hn)
    obtain rfl | hd' := List.mem_cons.mp hd'
    · exact hs'.1 _ (List.mem_append_right _ (List.mem_map.mpr ⟨x, hx, rfl⟩))
    · exact hd d hd'
  · have hk := (h.keeps.1 o n (ownPlace_file hs hn)).cache o n rfl
    exact (k.unread_iff _ _ _).mpr (hk.trans ((k.unread_iff _ _ _).mp (hv.unread n hn)))

/-- C50, both: two archives built one after the other; both are found as they were written. -/
theorem C50_both [DiffLib] (k : Kind) (p p' : Profile) (e e' : Endian) (D1 D2 : ArchiveDef) (prog1 prog2 : Prog) (c1 c2 : Content)
    (w0 w1 w : k.backend.W) (o1 o2 : k.backend.Obj) (h1 : Separate D1) (h2 : Separate D2) (m1 : SchemasReadable k D1) (m2 : SchemasReadable k D2)
    (hc1 : Prepares p e D1 prog1 c1) (hc2 : Prepares p e D2 prog2 c2) (hr : k.Reachable w0) (ho1 : k.alive w0 o1) (ho2 : k.alive w0 o2)
    (hv1 : k.Vacant D1 w0 o1) (hv2 : k.Vacant D2 w0 o2) (hn : k.noFault w0) (ha : k.Apart D1 o1 D2 o2)
    (hk : k = .disk ∨ (c1.subs.empty ∧ c2.subs.empty)) (b1 : buildArchive k.backend p e o1 D1 prog1 w0 = (.ok (), w1))
    (b2 : buildArchive k.backend p e o2 D2 prog2 w1 = (.ok (), w)) : Opens k p' e' D1 o1 w c1 ∧ Opens k p' e' D2 o2 w c2 := by
  have s1 := buildArchive_away h1 hc1 hr ho2 ho1 fun l q1 q2 => ha l q2 q1
  rw [b1] at s1
  have r1 := hr.steps s1.steps
  have s2 := buildArchive_away h2 hc2 r1 (s1.steps.alive ho1) (s1.steps.alive ho2) ha
  rw [b2] at s2
  have hn1 := s1.steps.noFault hn
  constructor
  · obtain ⟨g1, g2⟩ := (buildArchive_built h1 hc1 hr ho1 hv1 b1).hold m1 (hk.imp (fun h => by rw [h]; exact nested_disk) And.left)
    obtain ⟨_, r, w', q1, out⟩ := C50_open k p p' e e' D1 D2 prog2 c2 w1 w o1 o2 _ h1 h2 hc2 r1 (s1.steps.alive ho1) (s1.steps.alive ho2)
      (fun n hn => ⟨(k.current_iff _ _ _).mpr (g2.cur n hn).1, (k.current_iff _ _ _).mpr (g2.cur n hn).2⟩) ha b2
    have hn2 := s2.steps.noFault hn1
    rcases out with ⟨a, rfl, _, q2⟩ | ⟨x, rfl, q2⟩ | ⟨rfl, _, q2⟩
    · exact ⟨a, w', q1, g1.yields (ArchiveShows.mono (fun _ => hn2) (fun _ _ h => h) q2)⟩
    · exact absurd g1.complete (q2 hn2)
    · exact absurd q2 g1.notHuge
  · exact C32_roundtrip k p p' e e' D2 prog2 c2 w1 w o2 h2 m2 hc2 r1 (s1.steps.alive ho2) (vacant_away h2 s1 hv2) hn1 b2 (hk.imp id And.right)

/-! ### Example: two archives in one directory -/
namespace NeighboursExample
open Coappearances

theorem graph_stat (k : Kind) (o : k.backend.Obj) : k.Apart Graph o Statistics o :=
  C50_same_directory k Graph Statistics o o graph_separate ⟨by decide, by decide, trivial⟩ (by cases k <;> rfl) (by
    simp only [namesIn, Graph, Statistics, ArchiveDef.subs, SubDefs.entries]; decide)

/-- The directory after `Graph` has been built. -/
def afterGraph : FileW := (@buildArchive file naiveDiff .debug .little objD Graph graphProg (disk0 [])).2

/-- ... and `Statistics`. -/
def afterBoth : FileW := (@buildArchive file naiveDiff .debug .little objD Statistics statProg afterGraph).2

theorem second_runs : (@buildArchive file naiveDiff .debug .little objD Statistics statProg afterGraph).1.isOk = true := by decide +kernel

theorem stat_schemas (k : Kind) : SchemasReadable k Statistics := (graph_schemas k).2.2.1

/-- Both are there. -/
example : @Opens naiveDiff .disk .release .big Graph objD afterBoth graphContent ∧
    @Opens naiveDiff .disk .release .big Statistics objD afterBoth statContent := by
  refine @C50_both naiveDiff .disk .debug .release .little .big Graph Statistics graphProg statProg graphContent statContent (disk0 []) afterGraph
    afterBoth objD objD graph_separate ⟨by decide, by decide, trivial⟩ (graph_schemas _) (stat_schemas _) graph_prepares stat_prepares
    (disk0_reachable _ _) Nat.zero_lt_one Nat.zero_lt_one (disk_vacant _) (disk_vacant _) (disk0_noFault _) (graph_stat _ _) (.inl rfl) ?_ ?_
  · obtain ⟨_, w, h⟩ := VecExample.isOk_run graph_runs
    unfold afterGraph; rw [h]
  · obtain ⟨_, w, h⟩ := VecExample.isOk_run second_runs
    unfold afterBoth; rw [h]

/-- A directory with the archive `Small`, on a disk where the 20th call fails. -/
def failing : FileW := disk0 [([['d'], "A.archive".toList], image []), ([['d'], "A.archive.schema".toList], strBytes "sa"),
  ([['d'], ['x']], image [7#8]), ([['d'], "x.schema".toList], strBytes "sx")] fun t => if t = 20 then some 0 else none

theorem small_separate : Separate ArchiveExample.Small := ⟨by decide, by decide, trivial⟩

theorem small_stat : Kind.Apart .disk ArchiveExample.Small objD Statistics objD :=
  C50_same_directory .disk _ _ _ _ small_separate ⟨by decide, by decide, trivial⟩ rfl (by
    simp only [namesIn, ArchiveExample.Small, Statistics, ArchiveDef.subs, SubDefs.entries]; decide)

def opened : Res RErr (Archive Key) × FileW := @openArchive file naiveDiff .debug .little objD ArchiveExample.Small failing

theorem opened_ok : opened.1.isOk = true := by decide +kernel

def second : Res RErr Unit × FileW := @buildArchive file naiveDiff .debug .little objD Statistics statProg opened.2

theorem second_fails : second.1.isOk = false := by decide +kernel

/-- The only descriptor of an opened archive, and its bytes. -/
def shownBy (x : Res RErr (Archive Key) × FileW) (s : Slice Key) (b : Bytes) : Bool :=
  match x.1 with
  | .ok a => decide (a.slices = [s]) && decide (file.deref x.2 s = .ok b)
  | _ => false

theorem opened_shows : shownBy opened ⟨[['d'], ['x']], 8, 1⟩ [7#8] = true := by decide +kernel

theorem still_shows (x : Res RErr (Archive Key) × FileW) (y : Res RErr Unit × FileW) (s : Slice Key) (b : Bytes)
    (hx : @openArchive file naiveDiff .debug .little objD ArchiveExample.Small failing = x)
    (hy : @buildArchive file naiveDiff .debug .little objD Statistics statProg x.2 = y) (hs : shownBy x s b = true) :
    ∃ a, x.1 = .ok a ∧ a.slices = [s] ∧ file.deref y.2 s = .ok b := by
  obtain ⟨r, w1⟩ := x
  obtain ⟨r', w⟩ := y
  have halive := (@Kind.calls_openArchive .disk .debug .little naiveDiff ArchiveExample.Small objD failing Nat.zero_lt_one).alive
    (o := objD) Nat.zero_lt_one
  change Kind.alive .disk (@openArchive file naiveDiff .debug .little objD ArchiveExample.Small failing).2 objD at halive
  rw [hx] at halive
  cases r with
  | ok a =>
    obtain ⟨h1, h2⟩ := (Bool.and_eq_true _ _).mp hs
    have h1 := of_decide_eq_true h1
    have h2 := of_decide_eq_true h2
    refine ⟨a, rfl, h1, ?_⟩
    rw [← h2]
    exact @C50_view naiveDiff .disk .debug .debug .little .little ArchiveExample.Small Statistics statProg statContent failing w1 w objD objD a
      r' small_separate ⟨by decide, by decide, trivial⟩ stat_prepares (disk0_reachable _ _) Nat.zero_lt_one halive small_stat hx hy s
      (by rw [h1]; exact List.mem_singleton_self s)
  | err x => cases hs
  | panic => cases hs
  | ub => cases hs

/-- Writing the second one fails, as the disk does. The archive opened before shows what it did. -/
example : ∃ a, opened.1 = .ok a ∧ a.slices = [⟨[['d'], ['x']], 8, 1⟩] ∧ second.1.isOk = false ∧
    file.deref second.2 ⟨[['d'], ['x']], 8, 1⟩ = .ok [7#8] := by
  obtain ⟨a, h1, h2, h3⟩ := still_shows opened second _ _ (by unfold opened; rfl) (by unfold second; rfl) opened_shows
  exact ⟨a, h1, h2, second_fails, h3⟩

/-- After a failed attempt to build the second one in a new process, the first one has all its files. -/
def third : Res RErr Unit × FileW := @buildArchive file naiveDiff .debug .little objD Statistics statProg failing

theorem third_fails : third.1.isOk = false := by decide +kernel

theorem still_there (y : Res RErr Unit × FileW) (hy : @buildArchive file naiveDiff .debug .little objD Statistics statProg failing = y) :
    Kind.dir .disk y.2 objD [] "x" = Kind.dir .disk failing objD [] "x" ∧
    ∃ r w', @openArchive file naiveDiff .release .little objD ArchiveExample.Small y.2 = (r, w') ∧ r ≠ .panic ∧
      ∀ a, r = .ok a → Complete .disk ArchiveExample.Small (Kind.dir .disk failing objD) := by
  obtain ⟨r0, w⟩ := y
  obtain ⟨h1, r, w', h2, h3⟩ := @C50_open naiveDiff .disk .debug .release .little .little ArchiveExample.Small Statistics statProg statContent failing
    w objD objD r0 small_separate ⟨by decide, by decide, trivial⟩ stat_prepares (disk0_reachable _ _) Nat.zero_lt_one Nat.zero_lt_one
    (fun n _ => ⟨fun x hx => (by cases hx), fun x hx => (by cases hx)⟩) small_stat hy
  refine ⟨h1 [] "x" (fun _ h => by cases h) (by decide) (.inl ⟨rfl, by decide⟩), r, w', h2, ?_, ?_⟩
  · rcases h3 with ⟨_, rfl, _⟩ | ⟨_, rfl, _⟩ | ⟨_, h, _⟩
    · simp
    · simp
    · cases h
  · rintro a rfl
    rcases h3 with ⟨_, _, h, _⟩ | ⟨_, h, _⟩ | ⟨h, _⟩
    · exact h
    · cases h
    · cases h

example : third.1.isOk = false ∧ Kind.dir .disk third.2 objD [] "x" = some (image [7#8]) ∧
    ∃ r w', @openArchive file naiveDiff .release .little objD ArchiveExample.Small third.2 = (r, w') ∧ r ≠ .panic ∧
      ∀ a, r = .ok a → Complete .disk ArchiveExample.Small (Kind.dir .disk failing objD) := by
  obtain ⟨h1, h2⟩ := still_there third (by unfold third; rfl)
  exact ⟨third_fails, h1.trans (by decide +kernel), h2⟩

/-- In memory: two storages. -/
example : Kind.Apart .memory Graph ⟨0, []⟩ Graph ⟨1, []⟩ := C50_other_directory .memory _ _ _ _ (by change (0 : Nat) ≠ 1; decide)

/-- On disk: two directories. -/
example : Kind.Apart .disk Graph objD Graph ⟨0, ['e']⟩ := C50_other_directory .disk _ _ _ _ (by
  change ¬ _ <+: _ ∧ ¬ _ <+: _; decide)

end NeighboursExample

end Flatdata
