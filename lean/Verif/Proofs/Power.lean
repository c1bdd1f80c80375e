import Verif.Spec.Power
import Verif.Proofs.InterruptRun
/-!
# What is left of an archive after a power failure
-/
namespace Flatdata
open Spec

variable {soft : ResDecl → Prop}

/-! ## directories of which each file is from another time -/

theorem PartLeft.mix {P : Prop} {d t d' t' : Option Bytes} {b : Bytes} {s : String} (h : PartLeft P d t b s) (h' : PartLeft P d' t' b s) :
    PartLeft P d t' b s := ⟨h.small, h.reads, h'.text⟩

theorem ResLeft.mix {dir : String → Option Bytes} {r : ResDecl} {c : Option Payload}
    (h : ∀ n, ∃ dir' : String → Option Bytes, dir' n = dir n ∧ ResLeft soft dir' r c) : ResLeft soft dir r c := by
  match c, h with
  | none, h =>
    intro q hq
    obtain ⟨dir', h1, h2⟩ := h q.1
    rw [← h1]; exact h2 q hq
  | some (.bytes b), h =>
    obtain ⟨dir', h1, h2⟩ := h r.name
    obtain ⟨dir'', h1', h2'⟩ := h (r.name ++ ".schema")
    refine ⟨h2.1, ?_⟩
    rw [← h1, ← h1']; exact h2.2.mix h2'.2
  | some (.items xss), h =>
    obtain ⟨dir', h1, V, t1, s1, _, d1⟩ := h r.name
    obtain ⟨dir'', h2, V', t2, s2, i2, _⟩ := h (r.name ++ "_index")
    rw [t1] at t2; cases t2
    obtain ⟨dirs, h3, V', t2, _, _, d3⟩ := h (r.name ++ ".schema")
    rw [t1] at t2; cases t2
    obtain ⟨dirs', h4, V', t2, _, i4, _⟩ := h (r.name ++ "_index" ++ ".schema")
    rw [t1] at t2; cases t2
    refine ⟨V, t1, s1, ?_, ?_⟩
    · rw [← h2, ← h4]; exact i2.mix i4
    · rw [← h1, ← h3]; exact d1.mix d3

theorem AllLeft.mix {dir : String → Option Bytes} : ∀ {rs : List ResDecl} {cs : List (Option Payload)},
    (∀ n, ∃ dir' : String → Option Bytes, dir' n = dir n ∧ AllLeft soft dir' rs cs) → AllLeft soft dir rs cs
  | [], [], _ => trivial
  | _ :: _, _ :: _, h => ⟨ResLeft.mix fun n => (h n).imp fun _ h => ⟨h.1, h.2.1⟩, AllLeft.mix fun n => (h n).imp fun _ h => ⟨h.1, h.2.2⟩⟩
  | [], _ :: _, h => (h "").choose_spec.2.elim
  | _ :: _, [], h => (h "").choose_spec.2.elim

mutual
theorem notStored_mix : ∀ {D : ArchiveDef} {dir : Dir}, (∀ ds n, ∃ dir' : Dir, dir' ds n = dir ds n ∧ NotStored D dir') → NotStored D dir
  | .mk name _ rs subs, dir, h => by
    unfold NotStored
    refine ⟨?_, fun r hr q hq => ?_, subsNotStored_mix fun ds n => ?_⟩
    · obtain ⟨dir', h1, h2⟩ := h [] (name ++ ".archive")
      unfold NotStored at h2
      rw [← h1]; exact h2.1
    · obtain ⟨dir', h1, h2⟩ := h [] q.1
      unfold NotStored at h2
      rw [← h1]; exact h2.2.1 r hr q hq
    · obtain ⟨dir', h1, h2⟩ := h ds n
      unfold NotStored at h2
      exact ⟨dir', h1, h2.2.2⟩

theorem subsNotStored_mix : ∀ {D : SubDefs} {dir : Dir}, (∀ ds n, ∃ dir' : Dir, dir' ds n = dir ds n ∧ SubsNotStored D dir') → SubsNotStored D dir
  | .nil, _, _ => by unfold SubsNotStored; trivial
  | .cons name _ D rest, dir, h => by
    unfold SubsNotStored
    refine ⟨notStored_mix fun ds n => ?_, subsNotStored_mix fun ds n => ?_⟩
    · obtain ⟨dir', h1, h2⟩ := h (name :: ds) n
      unfold SubsNotStored at h2
      exact ⟨dir'.sub name, h1, h2.1⟩
    · obtain ⟨dir', h1, h2⟩ := h ds n
      unfold SubsNotStored at h2
      exact ⟨dir', h1, h2.2⟩
end

mutual
theorem left_mix : ∀ {D : ArchiveDef} {dir : Dir} {c : Content}, (∀ ds n, ∃ dir' : Dir, dir' ds n = dir ds n ∧ Left soft D dir' c) → Left soft D dir c
  | .mk name _ rs subs, dir, .mk cs ts, h => by
    unfold Left
    refine ⟨?_, AllLeft.mix fun n => ?_, subsLeft_mix fun ds n => ?_⟩
    · obtain ⟨dir', h1, h2⟩ := h [] (name ++ ".archive")
      obtain ⟨dir'', h1', h2'⟩ := h [] (name ++ ".archive" ++ ".schema")
      unfold Left at h2 h2'
      rw [← h1, ← h1']; exact h2.1.mix h2'.1
    · obtain ⟨dir', h1, h2⟩ := h [] n
      unfold Left at h2
      exact ⟨dir' [], h1, h2.2.1⟩
    · obtain ⟨dir', h1, h2⟩ := h ds n
      unfold Left at h2
      exact ⟨dir', h1, h2.2.2⟩

theorem subsLeft_mix : ∀ {D : SubDefs} {dir : Dir} {c : SubContents}, (∀ ds n, ∃ dir' : Dir, dir' ds n = dir ds n ∧ SubsLeft soft D dir' c) →
    SubsLeft soft D dir c
  | .nil, _, .nil, _ => by unfold SubsLeft; trivial
  | .cons name _ D rest, dir, .cons c ts, h => by
    unfold SubsLeft
    refine ⟨?_, subsLeft_mix fun ds n => ?_⟩
    · match c, h with
      | some c, h =>
        refine left_mix fun ds n => ?_
        obtain ⟨dir', h1, h2⟩ := h (name :: ds) n
        unfold SubsLeft at h2
        exact ⟨dir'.sub name, h1, h2.1⟩
      | none, h =>
        refine notStored_mix fun ds n => ?_
        obtain ⟨dir', h1, h2⟩ := h (name :: ds) n
        unfold SubsLeft at h2
        exact ⟨dir'.sub name, h1, h2.1⟩
    · obtain ⟨dir', h1, h2⟩ := h ds n
      unfold SubsLeft at h2
      exact ⟨dir', h1, h2.2⟩
  | .nil, _, .cons _ _, h => by obtain ⟨_, _, h2⟩ := h [] ""; unfold SubsLeft at h2; exact h2.elim
  | .cons _ _ _ _, _, .nil, h => by obtain ⟨_, _, h2⟩ := h [] ""; unfold SubsLeft at h2; exact h2.elim
end

end Flatdata
