import Verif.Proofs.InterruptRun
import Verif.Props.Succeeds
/-!
# Property C44: interrupted building of an archive

The program building an archive stops anywhere: a system call fails (after any part of its work), or the process ends. The second
case is the first one with all calls failing from then on: `writeResource` and `Prog.run` (Spec/Program) leave the world as it is
when a call fails; destructors are left out, they write nothing (storage.rs:353-360). Then another process opens what is there.
-/
namespace Flatdata
open Spec StorageExample MvExample

section
variable [DiffLib]

/-- Opening fails, or the accessors show what was to be written as far as it is there at all. -/
def OpensRest (p : Profile) (e : Endian) (soft : ResDecl → Prop) (D : ArchiveDef) (o : (Kind.backend .disk).Obj) (w : (Kind.backend .disk).W)
    (c : Content) : Prop :=
  (∃ a w', openArchive (Kind.backend .disk) p e o D w = (.ok a, w') ∧ ArchiveRemains (Kind.backend .disk) w' soft D a c) ∨
  ∃ x w', openArchive (Kind.backend .disk) p e o D w = (.err x, w')

/-- The world `w1` in which another process opens what the program has left behind that was to build the archive from `w` on. -/
structure After (p : Profile) (e : Endian) (D : ArchiveDef) (prog : Prog) (w : (Kind.backend .disk).W) (o : (Kind.backend .disk).Obj)
    (w1 : (Kind.backend .disk).W) (o' : (Kind.backend .disk).Obj) : Prop where
  reach : Kind.Reachable .disk w
  alive : Kind.alive .disk w o
  vacant : Kind.Vacant .disk D w o
  left : NewProcess (buildArchive (Kind.backend .disk) p e o D prog w).2 w1
  alive' : Kind.alive .disk w1 o'
  path : Obj.path o' = Obj.path o

end

/-- C44: after an interrupted attempt to build an archive, opening it fails, or every resource that is shown is complete. -/
def C44_claim : Prop :=
  ∀ (_ : DiffLib) (p p' : Profile) (e e' : Endian) (D : ArchiveDef) (prog : Prog) (c : Content) (w w1 : (Kind.backend .disk).W)
    (o o' : (Kind.backend .disk).Obj), Separate D → Prepares p e D prog c → After p e D prog w o w1 o' →
    OpensRest p' e' (fun _ => False) D o' w1 c

theorem opensRest [DiffLib] {p p' : Profile} {e e' : Endian} {D : ArchiveDef} {prog : Prog} {c : Content} {w w1 : (Kind.backend .disk).W}
    {o o' : (Kind.backend .disk).Obj} {soft : ResDecl → Prop} (hsoft : ∀ r, Staged prog r → soft r) (hs : Separate D)
    (hc : Prepares p e D prog c) (h : After p e D prog w o w1 o') : OpensRest p' e' soft D o' w1 c := by
  have hl := buildArchive_left (soft := soft) hsoft hs hc h.reach h.alive h.vacant
  have hp := h.left
  have hd : Kind.dir .disk w1 o' = Kind.dir .disk (buildArchive (Kind.backend .disk) p e o D prog w).2 o := by
    funext ds n
    change (w1 : FileW).fs.files _ = FS.files (FileW.fs (buildArchive (Kind.backend .disk) p e o D prog w).2) _
    rw [show (w1 : FileW).fs.files = _ from hp.files, show Obj.path o' = Obj.path o from h.path]
  have hcur : ∀ n, Cur fileLaws w1 o' n := fun n => cur_of_unseen (by
    change Option.map _ ((w1 : FileW).maps _ _) = none
    rw [hp.initial.1]; rfl)
  exact open_left (k := .disk) ⟨⟨w1, hp.initial, .refl w1⟩, h.alive', fun n _ => ⟨hcur n, hcur _⟩⟩ (by rw [hd]; exact hl)

/-- C44 for resources written by their setters. Missing: a resource written with `start_…`, `grow` and `close` may also be shown
empty. Opening never panics. -/
theorem C44_interrupted_partial [DiffLib] (p p' : Profile) (e e' : Endian) (D : ArchiveDef) (prog : Prog) (c : Content)
    (w w1 : (Kind.backend .disk).W) (o o' : (Kind.backend .disk).Obj) (hs : Separate D) (hc : Prepares p e D prog c)
    (h : After p e D prog w o w1 o') : OpensRest p' e' (Staged prog) D o' w1 c :=
  opensRest (fun _ h => h) hs hc h

/-- In particular the claim holds of a program that uses setters only. -/
theorem C44_setters [DiffLib] (p p' : Profile) (e e' : Endian) (D : ArchiveDef) (prog : Prog) (c : Content)
    (w w1 : (Kind.backend .disk).W) (o o' : (Kind.backend .disk).Obj) (hs : Separate D) (hc : Prepares p e D prog c)
    (h : After p e D prog w o w1 o') (hset : ∀ r, ¬ Staged prog r) : OpensRest p' e' (fun _ => False) D o' w1 c :=
  opensRest (fun r h => hset r h) hs hc h

section
variable {B : Backend} {w : B.W}

theorem Remains.yields {r : ResDecl} {x : Opened B.Base} {c : Option Payload} (h : Remains B w (fun _ => False) r x c)
    (hr : r.optional = false) : Yields B w r x c := by
  have no : r.optional ≠ true := by rw [hr]; decide
  match c, h with
  | none, h => exact h
  | some (.bytes b), h =>
    rcases h with h | h | h
    · exact h
    · exact absurd h.1 no
    · exact h.1.elim
  | some (.items xss), h =>
    rcases h with h | ⟨V, i, v, h1, h2, h | h | h⟩
    · exact absurd h.1 no
    · exact ⟨V, i, v, h1, h2, h⟩
    · exact h.1.elim
    · exact h.1.elim

theorem AllRemain.yields : ∀ {rs : List ResDecl} {xs : List (Opened B.Base)} {cs : List (Option Payload)},
    AllRemain B w (fun _ => False) rs xs cs → (∀ r ∈ rs, r.optional = false) → AllYield B w rs xs cs
  | [], [], [], _, _ => trivial
  | r :: _, _ :: _, _ :: _, h, hr => ⟨Remains.yields h.1 (hr r List.mem_cons_self), AllRemain.yields h.2 fun r h => hr r (List.mem_cons_of_mem _ h)⟩
  | [], _ :: _, _, h, _ => h.elim
  | [], [], _ :: _, h, _ => h.elim
  | _ :: _, [], _, h, _ => h.elim
  | _ :: _, _ :: _, [], h, _ => h.elim

mutual
theorem ArchiveRemains.yields : ∀ {D : ArchiveDef} {a : Archive B.Base} {c : Content}, ArchiveRemains B w (fun _ => False) D a c →
    AllRequired D → ArchiveYields B w D a c
  | .mk _ _ _ _, .mk _ _, .mk _ _, h, hr => by
    unfold ArchiveRemains at h
    unfold AllRequired at hr
    unfold ArchiveYields
    exact ⟨AllRemain.yields h.1 hr.1, SubsRemain.yields h.2 hr.2⟩

theorem SubsRemain.yields : ∀ {D : SubDefs} {a : SubArchives B.Base} {c : SubContents}, SubsRemain B w (fun _ => False) D a c →
    SubsRequired D → SubsYield B w D a c
  | .nil, .nil, .nil, _, _ => by unfold SubsYield; trivial
  | .cons _ _ _ _, .cons a _, .cons c _, h, hr => by
    unfold SubsRemain at h
    unfold SubsRequired at hr
    unfold SubsYield
    refine ⟨?_, SubsRemain.yields h.2 hr.2.2⟩
    match a, c, h.1 with
    | some a, some c, h1 => exact ArchiveRemains.yields h1 hr.2.1
    | none, some c, h1 =>
      have h1 : _ = true := h1
      rw [hr.1] at h1; cases h1
    | none, none, _ => trivial
    | some a, none, h1 => exact h1.elim
  | .nil, .cons _ _, _, h, _ => by unfold SubsRemain at h; exact h.elim
  | .nil, .nil, .cons _ _, h, _ => by unfold SubsRemain at h; exact h.elim
  | .cons _ _ _ _, .nil, _, h, _ => by unfold SubsRemain at h; exact h.elim
  | .cons _ _ _ _, .cons _ _, .nil, h, _ => by unfold SubsRemain at h; exact h.elim
end
end

/-- ... and if nothing is optional, the archive can be opened only if all of it is there. -/
theorem C44_complete_or_error [DiffLib] (p p' : Profile) (e e' : Endian) (D : ArchiveDef) (prog : Prog) (c : Content)
    (w w1 : (Kind.backend .disk).W) (o o' : (Kind.backend .disk).Obj) (hs : Separate D) (hc : Prepares p e D prog c)
    (h : After p e D prog w o w1 o') (hset : ∀ r, ¬ Staged prog r) (hreq : AllRequired D) :
    Opens .disk p' e' D o' w1 c ∨ ∃ x w', openArchive (Kind.backend .disk) p' e' o' D w1 = (.err x, w') := by
  rcases C44_setters p p' e e' D prog c w w1 o o' hs hc h hset with ⟨a, w', h1, h2⟩ | h1
  · exact .inl ⟨a, w', h1, ArchiveRemains.yields h2 hreq⟩
  · exact .inr h1

namespace InterruptExample
open Coappearances BuildExample

/-- An archive with one vector, and a program that grows it by one element. -/
def rV : ResDecl := { name := "v", schema := "sv", optional := false, type := .vector BinaryRelation }
def Sole : ArchiveDef := .mk "A" "sa" [rV] .nil
def soleProg : Prog := .res rV (.elements [[.set (.plain "to_a_ref" .u32 0 32) 7]]) .done
def soleContent : Content := .mk [some (.bytes [7#8, 0#8, 0#8, 0#8, 0#8, 0#8, 0#8, 0#8])] .nil

theorem sole_separate : Separate Sole :=
  ⟨(by decide : ∀ n ∈ ["A.archive", "A.archive.schema", "v", "v.schema"], PlainName n),
    (by decide : ["A.archive", "A.archive.schema", "v", "v.schema"].Nodup), trivial⟩

theorem sole_prepares : Prepares .debug .little Sole soleProg soleContent := by
  refine ⟨by decide, by decide, ?_, by simp [soleProg, Prog.builds], ⟨⟨_, .head _, ?_⟩, trivial⟩, trivial⟩
  · intro x hx
    simp only [soleProg, Prog.writes, List.mem_cons, List.not_mem_nil, or_false] at hx
    rw [hx]; simp
  · exact ⟨BinaryRelation, [[7#8, 0#8, 0#8, 0#8, 0#8, 0#8, 0#8, 0#8]], rfl, by decide, ⟨by decide, trivial⟩, by decide, rfl⟩

/-- A disk on which all calls from the `t`th on fail: the process ends here. -/
def killed (t : Nat) : FileW := disk0 [] fun i => if t ≤ i then some 0 else none

theorem vacant (D : ArchiveDef) (t : Nat) : Kind.Vacant .disk D (killed t) objD := ⟨fun _ _ => rfl, fun _ _ _ _ _ _ => rfl, fun _ _ => rfl⟩

attribute [local instance] naiveDiff in
theorem after (D : ArchiveDef) (prog : Prog) (t : Nat) :
    After .debug .little D prog (killed t) objD (restart (buildArchive file .debug .little objD D prog (killed t)).2) objD :=
  ⟨disk0_reachable _ _, Nat.zero_lt_one, vacant _ t, restart_new _, Nat.zero_lt_one, rfl⟩

/-- The vector of `Sole` shown to a process that starts from `w`. -/
def soleShown (w : FileW) : Option (Out (Option Bytes)) :=
  let y := @openArchive file naiveDiff .debug .little objD Sole w
  match y.1 with
  | .ok (.mk [x] .nil) => some (x.bytes file y.2)
  | _ => none

/-- What is left when the process has ended at the `t`th call. -/
def leftAt (t : Nat) : FileW := restart (@buildArchive file naiveDiff .debug .little objD Sole soleProg (killed t)).2

/-- The vector shown then. -/
def shown (t : Nat) : Option (Out (Option Bytes)) := soleShown (leftAt t)

/-- Before the padding is written: an empty vector. -/
theorem shown_empty : shown 16 = some (.ok (some [])) := by decide +kernel

/-- Before the size is written: an error. After it: everything, though the program has not ended. -/
example : shown 14 = none ∧ shown 17 = none ∧ shown 19 = some (.ok (some [7#8, 0#8, 0#8, 0#8, 0#8, 0#8, 0#8, 0#8])) := by decide +kernel

end InterruptExample

namespace InterruptExample

/-- If it is shown with other bytes than those to be written, it is not shown as claimed. -/
theorem sole_not_rest {w : FileW} {b : Bytes} (hw : soleShown w = some (.ok (some b))) (hb : b ≠ [7#8, 0#8, 0#8, 0#8, 0#8, 0#8, 0#8, 0#8]) :
    ¬ @OpensRest naiveDiff .debug .little (fun _ => False) Sole objD w soleContent := by
  unfold soleShown at hw
  rintro (⟨a, w', h2, h3⟩ | ⟨x, w', h2⟩)
  · have h2' : @openArchive file naiveDiff .debug .little objD Sole _ = (.ok a, w') := h2
    simp only [h2'] at hw
    obtain ⟨xs, ss⟩ := a
    unfold Sole soleContent ArchiveRemains at h3
    match xs, h3.1 with
    | [x], h4 =>
      cases ss with
      | cons => cases hw
      | nil =>
        have h5 : x.bytes file w' = .ok (some b) := Option.some.inj hw
        rcases h4.1 with h6 | h6 | h6
        · have h6' : x.bytes file w' = _ := h6
          rw [h5] at h6'; injection h6' with h6'; injection h6' with h6'; exact hb h6'
        · cases h6.1
        · exact h6.1
  · have h2' : @openArchive file naiveDiff .debug .little objD Sole _ = (.err x, w') := h2
    simp only [h2'] at hw
    cases hw

end InterruptExample

open InterruptExample in
/-- C44 fails: a vector of one element of eight bytes is shown empty, without an error. -/
theorem C44_refuted : ¬ C44_claim := by
  intro h
  have h1 := shown_empty
  unfold shown at h1
  have h2 : @After naiveDiff .debug .little Sole soleProg (killed 16) objD (leftAt 16) objD := by
    unfold leftAt; exact after Sole soleProg 16
  generalize leftAt 16 = w1 at h1 h2
  exact sole_not_rest h1 (by simp) (h naiveDiff .debug .debug .little .little Sole soleProg soleContent _ _ objD objD sole_separate sole_prepares h2)

open InterruptExample BuildExample in
/-- `C44_interrupted_partial` applies to the archive of the integration test and a process that ends at any call. -/
example (t : Nat) (p' : Profile) (e' : Endian) : @OpensRest naiveDiff p' e' (Staged graphProg) Coappearances.Graph objD
    (restart (@buildArchive file naiveDiff .debug .little objD Coappearances.Graph graphProg (killed t)).2) graphContent :=
  @C44_interrupted_partial naiveDiff .debug p' .little e' Coappearances.Graph graphProg graphContent _ _ objD objD graph_separate graph_prepares
    (after _ _ t)

namespace InterruptExample
open Coappearances

/-- A program that uses the setter. -/
def setProg : Prog := .res rV (.data [7#8, 0#8, 0#8, 0#8, 0#8, 0#8, 0#8, 0#8]) .done

theorem set_prepares : Prepares .debug .little Sole setProg soleContent := by
  refine ⟨by decide, by decide, ?_, by simp [setProg, Prog.builds], ⟨⟨_, .head _, ?_⟩, trivial⟩, trivial⟩
  · intro x hx
    simp only [setProg, Prog.writes, List.mem_cons, List.not_mem_nil, or_false] at hx
    rw [hx]; simp
  · exact ⟨.inl ⟨BinaryRelation, rfl⟩, by decide, rfl⟩

theorem set_setters (r : ResDecl) : ¬ Staged setProg r := by
  intro h
  cases h with
  | elements h => simp [setProg, Prog.writes] at h
  | items h => simp [setProg, Prog.writes] at h
  | sub h => simp [setProg, Prog.builds] at h

/-- The hypotheses of `C44_setters` and `C44_complete_or_error` hold of it, wherever the process ends. -/
example (t : Nat) (p' : Profile) (e' : Endian) :
    @Opens naiveDiff .disk p' e' Sole objD (restart (@buildArchive file naiveDiff .debug .little objD Sole setProg (killed t)).2) soleContent ∨
    ∃ x w', @openArchive file naiveDiff p' e' objD Sole (restart (@buildArchive file naiveDiff .debug .little objD Sole setProg (killed t)).2) =
      (.err x, w') :=
  @C44_complete_or_error naiveDiff .debug p' .little e' Sole setProg soleContent _ _ objD objD sole_separate set_prepares (after _ _ t) set_setters
    ⟨by simp [rV], trivial⟩

end InterruptExample

end Flatdata
