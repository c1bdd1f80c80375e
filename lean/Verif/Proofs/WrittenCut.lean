import Verif.Proofs.Power
import Verif.Proofs.Written
/-!
# Under which schema data are shown that have been written by an interrupted program
-/
namespace Flatdata
open Spec

section
variable {soft : ResDecl → Prop}

/-- What is left of something that was to be written. -/
def EntryLeft (soft : ResDecl → Prop) (dir : Dir) (q : Labelled Bytes) : Prop :=
  PartLeft (∃ r, soft r ∧ (q.2.1 = r.name ∨ q.2.1 = r.name ++ "_index")) (dir q.1 q.2.1) (dir q.1 (q.2.1 ++ ".schema")) q.2.2.2 q.2.2.1

theorem PartLeft.weaken {P P' : Prop} {d t : Option Bytes} {b : Bytes} {s : String} (h : PartLeft P d t b s) (hp : P → P') : PartLeft P' d t b s :=
  ⟨h.small, fun x y hx hy => (h.reads x y hx hy).imp id fun h => ⟨hp h.1, h.2⟩, h.text⟩

theorem resWritten_left {dir : Dir} {r : ResDecl} {c : Option Payload} (h : ResLeft soft (dir []) r c) : ∀ q ∈ resWritten r c, EntryLeft soft dir q := by
  match c, h with
  | none, _ => exact fun q hq => (by cases hq)
  | some (.bytes b), h =>
    intro q hq
    simp only [resWritten, List.mem_singleton] at hq
    subst hq
    exact h.2.weaken fun h => ⟨r, h, .inl rfl⟩
  | some (.items xss), ⟨V, h1, _, h3, h4⟩ =>
    intro q hq
    simp only [resWritten, h1, List.mem_cons, List.not_mem_nil, or_false] at hq
    rcases hq with rfl | rfl
    · exact h3.weaken fun h => ⟨r, h, .inr rfl⟩
    · exact h4.weaken fun h => ⟨r, h, .inl rfl⟩

theorem allWritten_left {dir : Dir} : ∀ {rs : List ResDecl} {cs : List (Option Payload)}, AllLeft soft (dir []) rs cs →
    ∀ q ∈ allWritten rs cs, EntryLeft soft dir q
  | [], [], _, q, hq => by cases hq
  | r :: _, _ :: _, h, q, hq => by
    unfold allWritten at hq
    rcases List.mem_append.mp hq with hq | hq
    · exact resWritten_left h.1 q hq
    · exact allWritten_left h.2 q hq
  | [], _ :: _, h, _, _ => h.elim
  | _ :: _, [], h, _, _ => h.elim

mutual
theorem archiveWritten_left : ∀ {D : ArchiveDef} {dir : Dir} {c : Content}, Left soft D dir c → ∀ q ∈ archiveWritten D c, EntryLeft soft dir q
  | .mk _ _ _ _, dir, .mk _ _, h, q, hq => by
    unfold Left at h
    unfold archiveWritten at hq
    rcases List.mem_cons.mp hq with rfl | hq
    · exact h.1.weaken False.elim
    rcases List.mem_append.mp hq with hq | hq
    · exact allWritten_left h.2.1 q hq
    · exact subsWritten_left h.2.2 q hq

theorem subsWritten_left : ∀ {D : SubDefs} {dir : Dir} {c : SubContents}, SubsLeft soft D dir c → ∀ q ∈ subsWritten D c, EntryLeft soft dir q
  | .nil, _, .nil, _, q, hq => by unfold subsWritten at hq; cases hq
  | .cons name _ D rest, dir, .cons c ts, h, q, hq => by
    unfold SubsLeft at h
    unfold subsWritten at hq
    rcases List.mem_append.mp hq with hq | hq
    · match c, h.1, hq with
      | some c, h1, hq =>
        obtain ⟨q', hq', rfl⟩ := List.mem_map.mp hq
        exact archiveWritten_left h1 q' hq'
      | none, _, hq => cases hq
    · exact subsWritten_left h.2 q hq
  | .nil, _, .cons _ _, h, _, _ => by unfold SubsLeft at h; exact h.elim
  | .cons _ _ _ _, _, .nil, h, _, _ => by unfold SubsLeft at h; exact h.elim
end

/-- A file that is neither that of something written nor its schema is not in the listing. -/
theorem not_listed {D : ArchiveDef} {c : Content} (hu : Undotted D) {ds : List String} {n : String}
    (hdot : '.' ∉ n.toList ∨ ∃ m, n = m ++ ".archive") (hno : ∀ q ∈ archiveWritten D c, ¬ (q.1 = ds ∧ q.2.1 = n)) :
    (∀ b, (ds, n, b) ∉ listing D c) ∧ ∀ b, (ds, n ++ ".schema", b) ∉ listing D c := by
  refine ⟨fun b hm => ?_, fun b hm => ?_⟩ <;>
  · rw [listing_eq] at hm
    obtain ⟨q, hq, hq'⟩ := List.mem_flatMap.mp hm
    simp only [entryFiles, List.mem_cons, Prod.mk.injEq, List.not_mem_nil, or_false] at hq'
    rcases hq' with ⟨h1, h2, _⟩ | ⟨h1, h2, _⟩
    · first
        | exact hno q hq ⟨h1.symm, h2.symm⟩
        | exact absurd h2.symm (archiveWritten_plainly hu q hq).ne_schema
    · first
        | exact hno q hq ⟨h1.symm, (append_right_cancel' h2).symm⟩
        | (rcases hdot with hdot | ⟨m, hm⟩
           · exact absurd (by rw [h2]; exact mem_schema_dot _) hdot
           · exact absurd (hm.symm.trans h2) (schema_ne_archive _ _))

end

end Flatdata
