import Verif.Proofs.Power
import Verif.Props.Interrupt
/-!
# Property C64: power failures

Files written by the library are not synchronised with the disk (no `sync_all` in src/filestorage.rs, src/storage.rs, src/vector.rs,
src/multivector.rs). Spec/Power says what may be found on the disk after a power failure.
-/
namespace Flatdata
open Spec StorageExample MvExample

section
variable [DiffLib]

/-- The world `w1` of the first process after a power failure; an archive was to be built, or had been built, from `w` on. -/
structure Outage (p : Profile) (e : Endian) (D : ArchiveDef) (prog : Prog) (w : (Kind.backend .disk).W) (o : (Kind.backend .disk).Obj)
    (w1 : (Kind.backend .disk).W) (o' : (Kind.backend .disk).Obj) : Prop where
  initial : Kind.initial .disk w
  alive : Kind.alive .disk w o
  vacant : Kind.Vacant .disk D w o
  loss : PowerLoss (buildArchive file p e o D prog) w w1
  alive' : Kind.alive .disk w1 o'
  path : Obj.path o' = Obj.path o

end

/-- C64: after a power failure opening the archive fails, or every resource that is shown is complete. -/
def C64_claim : Prop :=
  ∀ (_ : DiffLib) (p p' : Profile) (e e' : Endian) (D : ArchiveDef) (prog : Prog) (c : Content) (w w1 : (Kind.backend .disk).W)
    (o o' : (Kind.backend .disk).Obj), Separate D → Prepares p e D prog c → Outage p e D prog w o w1 o' →
    OpensRest p' e' (fun _ => False) D o' w1 c

/-- ... and if building the archive had succeeded before, it can be opened. -/
def C64_durable_claim : Prop :=
  ∀ (_ : DiffLib) (p p' : Profile) (e e' : Endian) (D : ArchiveDef) (prog : Prog) (c : Content) (w w1 w2 : (Kind.backend .disk).W)
    (o o' : (Kind.backend .disk).Obj), Separate D → Prepares p e D prog c → Outage p e D prog w o w1 o' →
    buildArchive (Kind.backend .disk) p e o D prog w = (.ok (), w2) → Opens .disk p' e' D o' w1 c

/-- ... also if the bytes of one file do not reach the disk in the order in which they were written, at least for programs that use setters only. -/
def C64_torn_claim : Prop :=
  ∀ (_ : DiffLib) (p p' : Profile) (e e' : Endian) (D : ArchiveDef) (prog : Prog) (c : Content) (w w1 : (Kind.backend .disk).W)
    (o : (Kind.backend .disk).Obj), Separate D → Prepares p e D prog c → (∀ r, ¬ Staged prog r) →
    Kind.initial .disk w → Kind.alive .disk w o → Kind.Vacant .disk D w o → TornLoss (buildArchive file p e o D prog) w w1 →
    Kind.alive .disk w1 o → OpensRest p' e' (fun _ => False) D o w1 c

theorem opensLoss [DiffLib] {p p' : Profile} {e e' : Endian} {D : ArchiveDef} {prog : Prog} {c : Content} {w w1 : (Kind.backend .disk).W}
    {o o' : (Kind.backend .disk).Obj} {soft : ResDecl → Prop} (hsoft : ∀ r, Staged prog r → soft r) (hs : Separate D)
    (hc : Prepares p e D prog c) (h : Outage p e D prog w o w1 o') : OpensRest p' e' soft D o' w1 c := by
  have hl : Left soft D (Kind.dir .disk w1 o') c := left_mix fun ds n => by
    obtain ⟨i, hi⟩ := h.loss.files (key (join (ds.foldl join (Obj.path o')) n))
    have hb := buildArchive_left (soft := soft) (w := cutAt i w) hsoft hs hc ⟨cutAt i w, h.initial, .refl _⟩ h.alive
      ⟨h.vacant.noFiles, h.vacant.noSubs, h.vacant.unread⟩
    refine ⟨_, ?_, hb⟩
    rw [show Obj.path o' = Obj.path o from h.path] at hi
    change _ = (w1 : FileW).fs.files _
    rw [show Obj.path o' = Obj.path o from h.path]
    exact hi.symm
  have hcur : ∀ n, Cur fileLaws w1 o' n := fun n => cur_of_unseen (by
    change Option.map _ ((w1 : FileW).maps _ _) = none
    rw [h.loss.initial.1]; rfl)
  exact open_left (k := .disk) ⟨⟨w1, h.loss.initial, .refl w1⟩, h.alive', fun n _ => ⟨hcur n, hcur _⟩⟩ hl

/-- C64 for resources written by their setters. Missing: a resource written with `start_…`, `grow` and `close` may also be shown
empty, even though `close` had succeeded. Opening never panics. -/
theorem C64_outage_partial [DiffLib] (p p' : Profile) (e e' : Endian) (D : ArchiveDef) (prog : Prog) (c : Content)
    (w w1 : (Kind.backend .disk).W) (o o' : (Kind.backend .disk).Obj) (hs : Separate D) (hc : Prepares p e D prog c)
    (h : Outage p e D prog w o w1 o') : OpensRest p' e' (Staged prog) D o' w1 c :=
  opensLoss (fun _ h => h) hs hc h

/-- In particular the claim holds of a program that uses setters only. -/
theorem C64_setters [DiffLib] (p p' : Profile) (e e' : Endian) (D : ArchiveDef) (prog : Prog) (c : Content)
    (w w1 : (Kind.backend .disk).W) (o o' : (Kind.backend .disk).Obj) (hs : Separate D) (hc : Prepares p e D prog c)
    (h : Outage p e D prog w o w1 o') (hset : ∀ r, ¬ Staged prog r) : OpensRest p' e' (fun _ => False) D o' w1 c :=
  opensLoss (fun r h => hset r h) hs hc h

/-- ... and if nothing is optional, the archive can be opened only if all of it is there. -/
theorem C64_complete_or_error [DiffLib] (p p' : Profile) (e e' : Endian) (D : ArchiveDef) (prog : Prog) (c : Content)
    (w w1 : (Kind.backend .disk).W) (o o' : (Kind.backend .disk).Obj) (hs : Separate D) (hc : Prepares p e D prog c)
    (h : Outage p e D prog w o w1 o') (hset : ∀ r, ¬ Staged prog r) (hreq : AllRequired D) :
    Opens .disk p' e' D o' w1 c ∨ ∃ x w', openArchive (Kind.backend .disk) p' e' o' D w1 = (.err x, w') := by
  rcases C64_setters p p' e e' D prog c w w1 o o' hs hc h hset with ⟨a, w', h1, h2⟩ | h1
  · exact .inl ⟨a, w', h1, ArchiveRemains.yields h2 hreq⟩
  · exact .inr h1

namespace PowerExample
open Coappearances InterruptExample BuildExample

/-- Building an archive in an empty directory. -/
def job (D : ArchiveDef) (prog : Prog) : Act FileW RErr Unit := @buildArchive file naiveDiff .debug .little objD D prog

/-- The disk after a power failure: of the file `k` there is what was there at the moment `f k`. -/
def aged (D : ArchiveDef) (prog : Prog) (f : Key → Moment) : FileW :=
  ⟨⟨fun k => (job D prog (cutAt (f k) (disk0 []))).2.fs.files k, fun k => k = [['d']], fun _ => ([], 0), 0, fun _ => none, 0⟩, fun _ _ => none, 1⟩

theorem outage (D : ArchiveDef) (prog : Prog) (f : Key → Moment) :
    @Outage naiveDiff .debug .little D prog (disk0 []) objD (aged D prog f) objD :=
  @Outage.mk naiveDiff _ _ _ _ _ _ _ _ ⟨fun _ _ => rfl, rfl⟩ Nat.zero_lt_one ⟨fun _ _ => rfl, fun _ _ _ _ _ _ => rfl, fun _ _ => rfl⟩
    ⟨fun k => ⟨f k, rfl⟩, fun _ _ => rfl, rfl⟩ Nat.zero_lt_one rfl

/-- The file of the vector is as it was at the moment `i`; the other files are complete. -/
def old (i : Moment) (k : Key) : Moment := if k = [['d'], ['v']] then i else ⟨1000, 0⟩

/-- The vector that is shown then. -/
def shownAged (prog : Prog) (i : Moment) : Option (Out (Option Bytes)) := soleShown (aged Sole prog (old i))

theorem aged_empty : shownAged soleProg ⟨16, 0⟩ = some (.ok (some [])) := by decide +kernel

example : shownAged soleProg ⟨1000, 0⟩ = some (.ok (some [7#8, 0#8, 0#8, 0#8, 0#8, 0#8, 0#8, 0#8])) ∧ shownAged soleProg ⟨0, 0⟩ = none := by
  decide +kernel

end PowerExample

open PowerExample InterruptExample in
/-- C64 fails: although all other files are complete, the vector is shown empty, without an error. -/
theorem C64_refuted : ¬ C64_claim := by
  intro h
  have h1 := aged_empty
  have h2 := outage Sole soleProg (old ⟨16, 0⟩)
  unfold shownAged at h1
  generalize aged Sole soleProg (old ⟨16, 0⟩) = w1 at h1 h2
  exact sole_not_rest h1 (by simp) (h naiveDiff .debug .debug .little .little Sole soleProg soleContent _ _ objD objD sole_separate sole_prepares h2)

namespace PowerExample
open Coappearances InterruptExample BuildExample

theorem done_of_ok {x : Res RErr Unit × FileW} (h : x.1.isOk = true) : ∃ w, x = (.ok (), w) := by
  obtain ⟨r, w⟩ := x
  cases r with
  | ok a => exact ⟨w, rfl⟩
  | _ => cases h

theorem job_eq {D : ArchiveDef} {prog : Prog} {w : FileW} {r : Res RErr Unit × FileW} (h : job D prog w = r) :
    @buildArchive (Kind.backend .disk) naiveDiff .debug .little objD D prog w = r := h

/-- Building succeeds; after the power failure the archive cannot be opened. -/
theorem set_built : (job Sole setProg (disk0 [])).1.isOk = true := by decide +kernel
theorem set_lost : (@openArchive file naiveDiff .debug .little objD Sole (aged Sole setProg (old ⟨0, 0⟩))).1.isOk = false := by decide +kernel

end PowerExample

open PowerExample InterruptExample in
/-- A successfully built archive may be lost, even if its program uses setters only. -/
theorem C64_durable_refuted : ¬ C64_durable_claim := by
  intro h
  have h1 := set_lost
  have h2 := outage Sole setProg (old ⟨0, 0⟩)
  generalize aged Sole setProg (old ⟨0, 0⟩) = w1 at h1 h2
  obtain ⟨w2, hr⟩ := done_of_ok set_built
  replace hr := job_eq hr
  obtain ⟨a, w', h3, _⟩ := h naiveDiff .debug .debug .little .little Sole setProg soleContent _ w1 w2 objD objD sole_separate set_prepares h2 hr
  have h3' : @openArchive file naiveDiff .debug .little objD Sole w1 = (.ok a, w') := h3
  rw [h3'] at h1; cases h1

theorem torn_set (d : Bytes) (j : Nat) : Torn d (d.set j 0#8) := by
  refine ⟨List.length_set, fun i => ?_⟩
  rw [List.getElem?_set]
  by_cases h : j = i
  · by_cases h2 : j < d.length
    · rw [if_pos h, if_pos h2]; exact .inr rfl
    · rw [if_pos h, if_neg h2]; subst h
      exact .inl (List.getElem?_eq_none (by omega)).symm
  · rw [if_neg h]; exact .inl rfl

namespace PowerExample
open Coappearances InterruptExample BuildExample

/-- The disk after a power failure by which one byte of the file of the vector is lost, the first one after its size. -/
def torn : FileW :=
  ⟨⟨fun k => if k = [['d'], ['v']] then ((job Sole setProg (cutAt ⟨1000, 0⟩ (disk0 []))).2.fs.files k).map (·.set 8 0#8)
      else (job Sole setProg (cutAt ⟨1000, 0⟩ (disk0 []))).2.fs.files k,
    fun k => k = [['d']], fun _ => ([], 0), 0, fun _ => none, 0⟩, fun _ _ => none, 1⟩

theorem torn_loss : TornLoss (job Sole setProg) (disk0 []) torn := by
  refine ⟨fun k => ⟨⟨1000, 0⟩, ?_⟩, fun _ _ => rfl, rfl⟩
  unfold torn
  generalize (job Sole setProg (cutAt ⟨1000, 0⟩ (disk0 []))).2.fs.files = f
  change (if k = [['d'], ['v']] then (f k).map (·.set 8 0#8) else f k) = f k ∨ ∃ d d', f k = some d ∧
    (if k = [['d'], ['v']] then (f k).map (·.set 8 0#8) else f k) = some d' ∧ Torn d d'
  by_cases hk : k = [['d'], ['v']]
  · rw [if_pos hk]
    cases hf : f k with
    | none => exact .inl rfl
    | some d => exact .inr ⟨d, _, rfl, rfl, torn_set d 8⟩
  · rw [if_neg hk]; exact .inl rfl

theorem torn_shown : soleShown torn = some (.ok (some [0#8, 0#8, 0#8, 0#8, 0#8, 0#8, 0#8, 0#8])) := by decide +kernel

end PowerExample

open PowerExample InterruptExample in
/-- If bytes can get lost inside of a file, a vector may be shown with other elements than those written: nothing in the format would tell. -/
theorem C64_torn_refuted : ¬ C64_torn_claim := by
  intro h
  have h1 := torn_shown
  have h2 : TornLoss (@buildArchive file naiveDiff .debug .little objD Sole setProg) (disk0 []) torn := by
    have := torn_loss
    unfold job at this; exact this
  have h3 : torn.next = 1 := rfl
  generalize torn = w1 at h1 h2 h3
  exact sole_not_rest h1 (by simp) (h naiveDiff .debug .debug .little .little Sole setProg soleContent (disk0 []) w1 objD sole_separate set_prepares
    set_setters ⟨fun _ _ => rfl, rfl⟩ Nat.zero_lt_one ⟨fun _ _ => rfl, fun _ _ _ _ _ _ => rfl, fun _ _ => rfl⟩ h2
    (by change 0 < w1.next; rw [h3]; exact Nat.zero_lt_one))

namespace PowerExample
open Coappearances InterruptExample BuildExample

/-- `C64_outage_partial` applies to the archive of the integration test, whatever the age of its files. -/
example (f : Key → Moment) (p' : Profile) (e' : Endian) :
    @OpensRest naiveDiff p' e' (Staged graphProg) Graph objD (aged Graph graphProg f) graphContent :=
  @C64_outage_partial naiveDiff .debug p' .little e' Graph graphProg graphContent _ _ objD objD graph_separate graph_prepares (outage _ _ f)

/-- The hypotheses of `C64_setters` and `C64_complete_or_error` hold of a vector written with the setter. -/
example (f : Key → Moment) (p' : Profile) (e' : Endian) :
    @Opens naiveDiff .disk p' e' Sole objD (aged Sole setProg f) soleContent ∨
    ∃ x w', @openArchive file naiveDiff p' e' objD Sole (aged Sole setProg f) = (.err x, w') :=
  @C64_complete_or_error naiveDiff .debug p' .little e' Sole setProg soleContent _ _ objD objD sole_separate set_prepares (outage _ _ f) set_setters
    ⟨by simp [rV], trivial⟩

end PowerExample

end Flatdata
