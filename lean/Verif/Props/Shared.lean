import Verif.Proofs.SharedRead
import Verif.Props.Interrupt
/-!
# Property C51: an archive is opened while another process builds it

Spec/Shared describes the two processes. The building process may also stop for good at some moment, or come to its end.
-/
namespace Flatdata
open Spec StorageExample MvExample

section
variable [DiffLib]

/-- One process builds the archive from `w` on (and it would succeed); the files that another process, in the world `w1`, finds are
those that the first one has made so far. The second process has mapped no file yet. -/
structure Sharing (p : Profile) (e : Endian) (D : ArchiveDef) (prog : Prog) (w : (Kind.backend .disk).W) (o : (Kind.backend .disk).Obj)
    (s : View) (w1 : FileW) (o1 : Obj) : Prop where
  reach : Kind.Reachable .disk w
  alive : Kind.alive .disk w o
  vacant : Kind.Vacant .disk D w o
  noFault : Kind.noFault .disk w
  done : ∃ w', buildArchive (Kind.backend .disk) p e o D prog w = (.ok (), w')
  watches : Watches s (buildArchive file p e o D prog) w
  fresh : ∀ i q, w1.maps i q = none
  path : o1.path = (o : Obj).path

/-- Opening fails, or the accessors show, now and forever, what is written, or of resources with `soft` less. -/
def OpensShared (p : Profile) (e : Endian) (soft : ResDecl → Prop) (D : ArchiveDef) (s : View) (o : Obj) (w : FileW) (c : Content) : Prop :=
  (∃ a w', openArchive (watching s) p e o D w = (.ok a, w') ∧ ArchiveGlimpsed s w' soft D a c) ∨
  ∃ x w', openArchive (watching s) p e o D w = (.err x, w')

end

/-- C51: opening an archive that another process is building fails, or shows only complete resources, which stay as they are. -/
def C51_claim : Prop :=
  ∀ (_ : DiffLib) (p p' : Profile) (e e' : Endian) (D : ArchiveDef) (prog : Prog) (c : Content) (w : (Kind.backend .disk).W)
    (o : (Kind.backend .disk).Obj) (s : View) (w1 : FileW) (o1 : Obj), Separate D → Prepares p e D prog c → Sharing p e D prog w o s w1 o1 →
    OpensShared p' e' (fun _ => False) D s o1 w1 c

theorem opensShared [DiffLib] {p p' : Profile} {e e' : Endian} {D : ArchiveDef} {prog : Prog} {c : Content} {w : (Kind.backend .disk).W}
    {o : (Kind.backend .disk).Obj} {s : View} {w1 : FileW} {o1 : Obj} {soft : ResDecl → Prop} (hsoft : ∀ r, Staged prog r → soft r) (hs : Separate D)
    (hc : Prepares p e D prog c) (h : Sharing p e D prog w o s w1 o1) : OpensShared p' e' soft D s o1 w1 c := by
  obtain ⟨w', hb⟩ := h.done
  obtain ⟨_, _, h3⟩ := open_shared (p' := p') (e' := e') hs hc h.reach h.alive h.vacant h.noFault hb h.watches h.fresh h.path hsoft
  rcases h3 with ⟨a, h3, h4⟩ | ⟨x, h3⟩
  · exact .inl ⟨a, _, Prod.ext h3 rfl, h4⟩
  · exact .inr ⟨x, _, Prod.ext h3 rfl⟩

/-- C51 for resources written by their setters. Missing: of a resource written with `start_…`, `grow` and `close` less may be shown:
nothing, or as much as the size field says of which only the first bytes have been written. Opening never panics, and what has been
opened is never outside of the mapped files. -/
theorem C51_shared_partial [DiffLib] (p p' : Profile) (e e' : Endian) (D : ArchiveDef) (prog : Prog) (c : Content) (w : (Kind.backend .disk).W)
    (o : (Kind.backend .disk).Obj) (s : View) (w1 : FileW) (o1 : Obj) (hs : Separate D) (hc : Prepares p e D prog c)
    (h : Sharing p e D prog w o s w1 o1) : OpensShared p' e' (Staged prog) D s o1 w1 c :=
  opensShared (fun _ h => h) hs hc h

/-- In particular the claim holds of a program that uses setters only. -/
theorem C51_setters [DiffLib] (p p' : Profile) (e e' : Endian) (D : ArchiveDef) (prog : Prog) (c : Content) (w : (Kind.backend .disk).W)
    (o : (Kind.backend .disk).Obj) (s : View) (w1 : FileW) (o1 : Obj) (hs : Separate D) (hc : Prepares p e D prog c)
    (h : Sharing p e D prog w o s w1 o1) (hset : ∀ r, ¬ Staged prog r) : OpensShared p' e' (fun _ => False) D s o1 w1 c :=
  opensShared (fun r h => hset r h) hs hc h

section
variable {s : View} {w : FileW}

theorem Glimpse.all {b y : Bytes} (h : Glimpse False b y) : y = b := h.elim id fun h => h.1.elim

theorem Glimpsed.yields {r : ResDecl} {x : Opened Key} {c : Option Payload} (h : Glimpsed s w (fun _ => False) r x c)
    (hr : r.optional = false) (t : Nat) : Yields (watching s) (later t w) r x c := by
  have no : r.optional ≠ true := by rw [hr]; decide
  match c, h with
  | none, h => exact h t
  | some (.bytes b), h =>
    rcases h with h | ⟨y, h1, h2⟩
    · exact absurd h.1 no
    · rw [Glimpse.all h1] at h2; exact h2 t
  | some (.items xss), h =>
    rcases h with h | ⟨V, i, v, h1, h2, h | h⟩
    · exact absurd h.1 no
    · exact ⟨V, i, v, h1, h2 t, h⟩
    · exact h.1.elim

theorem AllGlimpsed.yields (t : Nat) : ∀ {rs : List ResDecl} {xs : List (Opened Key)} {cs : List (Option Payload)},
    AllGlimpsed s w (fun _ => False) rs xs cs → (∀ r ∈ rs, r.optional = false) → AllYield (watching s) (later t w) rs xs cs
  | [], [], [], _, _ => trivial
  | r :: _, _ :: _, _ :: _, h, hr =>
    ⟨Glimpsed.yields h.1 (hr r List.mem_cons_self) t, AllGlimpsed.yields t h.2 fun r h => hr r (List.mem_cons_of_mem _ h)⟩
  | [], _ :: _, _, h, _ => h.elim
  | [], [], _ :: _, h, _ => h.elim
  | _ :: _, [], _, h, _ => h.elim
  | _ :: _, _ :: _, [], h, _ => h.elim

mutual
theorem ArchiveGlimpsed.yields (t : Nat) : ∀ {D : ArchiveDef} {a : Archive Key} {c : Content}, ArchiveGlimpsed s w (fun _ => False) D a c →
    AllRequired D → ArchiveYields (watching s) (later t w) D a c
  | .mk _ _ _ _, .mk _ _, .mk _ _, h, hr => by
    unfold ArchiveGlimpsed at h
    unfold AllRequired at hr
    unfold ArchiveYields
    exact ⟨AllGlimpsed.yields t h.1 hr.1, SubsGlimpsed.yields t h.2 hr.2⟩

theorem SubsGlimpsed.yields (t : Nat) : ∀ {D : SubDefs} {a : SubArchives Key} {c : SubContents}, SubsGlimpsed s w (fun _ => False) D a c →
    SubsRequired D → SubsYield (watching s) (later t w) D a c
  | .nil, .nil, .nil, _, _ => by unfold SubsYield; trivial
  | .cons _ _ _ _, .cons a _, .cons c _, h, hr => by
    unfold SubsGlimpsed at h
    unfold SubsRequired at hr
    unfold SubsYield
    refine ⟨?_, SubsGlimpsed.yields t h.2 hr.2.2⟩
    match a, c, h.1 with
    | some a, some c, h1 => exact ArchiveGlimpsed.yields t h1 hr.2.1
    | none, some c, h1 =>
      have h1 : _ = true := h1
      rw [hr.1] at h1; cases h1
    | none, none, _ => trivial
    | some a, none, h1 => exact h1.elim
  | .nil, .cons _ _, _, h, _ => by unfold SubsGlimpsed at h; exact h.elim
  | .nil, .nil, .cons _ _, h, _ => by unfold SubsGlimpsed at h; exact h.elim
  | .cons _ _ _ _, .nil, _, h, _ => by unfold SubsGlimpsed at h; exact h.elim
  | .cons _ _ _ _, .cons _ _, .nil, h, _ => by unfold SubsGlimpsed at h; exact h.elim
end
end

/-- ... and if nothing is optional, the archive can be opened only with all of its content. -/
theorem C51_complete_or_error [DiffLib] (p p' : Profile) (e e' : Endian) (D : ArchiveDef) (prog : Prog) (c : Content)
    (w : (Kind.backend .disk).W) (o : (Kind.backend .disk).Obj) (s : View) (w1 : FileW) (o1 : Obj) (hs : Separate D) (hc : Prepares p e D prog c)
    (h : Sharing p e D prog w o s w1 o1) (hset : ∀ r, ¬ Staged prog r) (hreq : AllRequired D) :
    (∃ a w', openArchive (watching s) p' e' o1 D w1 = (.ok a, w') ∧ ∀ t, ArchiveYields (watching s) (later t w') D a c) ∨
    ∃ x w', openArchive (watching s) p' e' o1 D w1 = (.err x, w') := by
  rcases C51_setters p p' e e' D prog c w o s w1 o1 hs hc h hset with ⟨a, w', h1, h2⟩ | h1
  · exact .inl ⟨a, w', h1, fun t => ArchiveGlimpsed.yields t h2 hreq⟩
  · exact .inr h1

namespace SharedExample
open Coappearances BuildExample InterruptExample

/-- The moments of the reading process: its first `n` calls fall into the moment `i`, the others come when all is written. -/
def moments (n : Nat) (i : Moment) (t : Nat) : Moment := if t < n then i else ⟨i.call + 1000, 0⟩

theorem moments_le (n : Nat) (i : Moment) (t t' : Nat) (h : t ≤ t') : (moments n i t).le (moments n i t') := by
  unfold moments
  by_cases h1 : t' < n
  · rw [if_pos h1, if_pos (by omega)]; exact .inr ⟨rfl, Nat.le_refl _⟩
  · rw [if_neg h1]
    by_cases h2 : t < n
    · rw [if_pos h2]; exact .inl (by simp only; omega)
    · rw [if_neg h2]; exact .inr ⟨rfl, Nat.le_refl _⟩

/-- What it finds. -/
def view (D : ArchiveDef) (prog : Prog) (n : Nat) (i : Moment) : View :=
  fun t => during (@buildArchive file naiveDiff .debug .little objD D prog) (disk0 []) (moments n i t)

/-- Two processes: building `Sole` and reading it. -/
theorem sharing {prog : Prog} (h : (@buildArchive file naiveDiff .debug .little objD Sole prog (disk0 [])).1.isOk = true) (n : Nat) (i : Moment) :
    @Sharing naiveDiff .debug .little Sole prog (disk0 []) objD (view Sole prog n i) (disk0 []) objD := by
  refine @Sharing.mk naiveDiff _ _ _ _ _ _ _ _ _ (disk0_reachable _ _) (Nat.zero_lt_one) ⟨fun _ _ => rfl, fun _ _ _ _ _ _ => rfl, fun _ _ => rfl⟩ (disk0_noFault _) ?_ ?_ (fun _ _ => rfl) rfl
  · obtain ⟨r, w', hr⟩ : ∃ r w', @buildArchive file naiveDiff .debug .little objD Sole prog (disk0 []) = (r, w') := ⟨_, _, rfl⟩
    rw [hr] at h
    cases r with
    | ok a => exact ⟨w', hr⟩
    | _ => cases h
  · exact ⟨moments n i, moments_le n i, fun _ => rfl⟩

theorem sole_done : (@buildArchive file naiveDiff .debug .little objD Sole soleProg (disk0 [])).1.isOk = true := by decide +kernel
theorem set_done : (@buildArchive file naiveDiff .debug .little objD Sole setProg (disk0 [])).1.isOk = true := by decide +kernel

/-- The vector shown `t` calls after the archive has been opened. -/
def seen (prog : Prog) (n : Nat) (i : Moment) (t : Nat) : Option (Out (Option Bytes)) :=
  let y := @openArchive (watching (view Sole prog n i)) naiveDiff .debug .little objD Sole (disk0 [])
  match y.1 with
  | .ok (.mk [x] .nil) => some (x.bytes (watching (view Sole prog n i)) (later t y.2))
  | _ => none

/-- Everything falls before the size is written: an empty vector. -/
theorem seen_empty : seen soleProg 13 ⟨16, 0⟩ 0 = some (.ok (some [])) := by decide +kernel

/-- It stays empty when the other process has ended. -/
example : seen soleProg 13 ⟨16, 0⟩ 1 = some (.ok (some [])) := by decide +kernel

/-- If the size is written before it is read, an error; if all is written before the file is mapped, all of the vector. -/
example : seen soleProg 12 ⟨16, 0⟩ 0 = none ∧ seen soleProg 9 ⟨16, 0⟩ 0 = none ∧
    seen soleProg 8 ⟨16, 0⟩ 0 = some (.ok (some [7#8, 0#8, 0#8, 0#8, 0#8, 0#8, 0#8, 0#8])) := by decide +kernel

/-- Written with the setter: an error in the middle of it, and all of the vector from then on when padding and schema are there. -/
example : seen setProg 13 ⟨11, 3⟩ 0 = none ∧ seen setProg 13 ⟨16, 1⟩ 0 = none ∧
    seen setProg 13 ⟨16, 2⟩ 0 = some (.ok (some [7#8, 0#8, 0#8, 0#8, 0#8, 0#8, 0#8, 0#8])) := by decide +kernel

end SharedExample

open SharedExample InterruptExample in
/-- C51 fails: a vector of one element is shown empty, without an error. -/
theorem C51_refuted : ¬ C51_claim := by
  intro h
  have h1 := seen_empty
  unfold seen at h1
  rcases h naiveDiff .debug .debug .little .little Sole soleProg soleContent _ objD _ _ objD sole_separate sole_prepares (sharing sole_done 13 ⟨16, 0⟩) with
    ⟨a, w', h2, h3⟩ | ⟨x, w', h2⟩
  · simp only [h2] at h1
    obtain ⟨xs, ss⟩ := a
    unfold Sole soleContent ArchiveGlimpsed at h3
    match xs, h3.1 with
    | [x], h4 =>
      cases ss with
      | cons => cases h1
      | nil =>
        have h5 := Option.some.inj h1
        rcases h4.1 with h6 | ⟨y, h6, h7⟩
        · cases h6.1
        · have h8 := h5.symm.trans (h7 0)
          rw [Glimpse.all h6] at h8; cases h8
  · simp only [h2] at h1
    cases h1

namespace SharedExample
open InterruptExample

/-- `C51_shared_partial` applies to that vector, `C51_setters` and `C51_complete_or_error` to one written with the setter; the
calls of the reading process may fall into any moments that do not go back. -/
example (n : Nat) (i : Moment) (p' : Profile) (e' : Endian) :
    @OpensShared naiveDiff p' e' (Staged soleProg) Sole (view Sole soleProg n i) objD (disk0 []) soleContent :=
  @C51_shared_partial naiveDiff .debug p' .little e' Sole soleProg soleContent (disk0 []) objD _ (disk0 []) objD sole_separate sole_prepares
    (sharing sole_done n i)

example (n : Nat) (i : Moment) (p' : Profile) (e' : Endian) :
    (∃ a w', @openArchive (watching (view Sole setProg n i)) naiveDiff p' e' objD Sole (disk0 []) = (.ok a, w') ∧
      ∀ t, ArchiveYields (watching (view Sole setProg n i)) (later t w') Sole a soleContent) ∨
    ∃ x w', @openArchive (watching (view Sole setProg n i)) naiveDiff p' e' objD Sole (disk0 []) = (.err x, w') :=
  @C51_complete_or_error naiveDiff .debug p' .little e' Sole setProg soleContent (disk0 []) objD _ (disk0 []) objD sole_separate set_prepares
    (sharing set_done n i) set_setters ⟨by simp [rV], trivial⟩

end SharedExample

end Flatdata
