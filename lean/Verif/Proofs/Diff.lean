import Verif.Model.Storage
import Verif.Spec.Storage
/-!
# Schema diffs
-/
namespace Flatdata
open Spec

theorem splitLines_ne_nil (cs : List Char) : splitLines cs ≠ [] := by
  cases cs with
  | nil => simp [splitLines]
  | cons c cs =>
    unfold splitLines
    split
    · simp
    · split <;> simp

theorem splitLines_noNewline (cs : List Char) : ∀ l ∈ splitLines cs, '\n' ∉ l := by
  induction cs with
  | nil => intro l hl; simp [splitLines] at hl; simp [hl]
  | cons c cs ih =>
    unfold splitLines
    split
    · intro l hl
      rcases List.mem_cons.mp hl with h | h
      · simp [h]
      · exact ih l h
    · rename_i hc
      split
      · intro l hl; simp at hl; rw [hl]; simp; exact fun h => hc h.symm
      · rename_i x xs hx
        intro l hl
        rcases List.mem_cons.mp hl with h | h
        · rw [h]
          have := ih x (by rw [hx]; simp)
          simp; exact ⟨fun h => hc h.symm, this⟩
        · exact ih l (by rw [hx]; simp [h])

theorem splitLines_plain (l : List Char) (h : '\n' ∉ l) : splitLines l = [l] := by
  induction l with
  | nil => rfl
  | cons c cs ih =>
    simp at h
    unfold splitLines
    rw [if_neg (fun hc => h.1 hc.symm), ih h.2]

theorem splitLines_cons (l rest : List Char) (h : '\n' ∉ l) : splitLines (l ++ '\n' :: rest) = l :: splitLines rest := by
  induction l with
  | nil => simp [splitLines]
  | cons c cs ih =>
    simp at h
    rw [List.cons_append]
    conv => lhs; unfold splitLines
    rw [if_neg (fun hc => h.1 hc.symm), ih h.2]

theorem splitLines_intercalate (ls : List (List Char)) (hne : ls ≠ []) (h : ∀ l ∈ ls, '\n' ∉ l) :
    splitLines (['\n'].intercalate ls) = ls := by
  induction ls with
  | nil => exact absurd rfl hne
  | cons a as ih =>
    cases as with
    | nil => simp [List.intercalate]; exact splitLines_plain a (h a (by simp))
    | cons b bs =>
      have : ['\n'].intercalate (a :: b :: bs) = a ++ '\n' :: ['\n'].intercalate (b :: bs) := by
        simp [List.intercalate, List.intersperse]
      rw [this, splitLines_cons _ _ (h a (by simp)), ih (by simp) (fun l hl => h l (by simp [hl]))]

theorem show_toList (d : LineDiff) : d.show.toList = (match d with
    | .left l => '-' :: l.toList
    | .both l => ' ' :: l.toList
    | .right l => '+' :: l.toList) := by
  cases d <;> (unfold LineDiff.show; simp)

/-- The text of each line of a diff. -/
theorem splitLines_computeDiff [DiffLib] (a b : String) :
    splitLines (computeDiff a b).toList = (if DiffLib.lines a b = [] then [[]] else
      (DiffLib.lines a b).map fun d => d.show.toList) := by
  unfold computeDiff
  rw [String.toList_intercalate]
  split
  · rename_i h; rw [h]; rfl
  · rename_i h
    rw [show "\n".toList = ['\n'] from rfl, splitLines_intercalate]
    · simp
    · simpa using h
    · intro l hl
      simp only [List.map_map, List.mem_map, Function.comp] at hl
      obtain ⟨d, hd, rfl⟩ := hl
      rw [show_toList]
      have hmem : ∀ l, (d = .left l ∨ d = .both l) → l ∈ DiffLib.linesOf a := by
        intro l hl
        rw [← DiffLib.left_lines a b, List.mem_filterMap]
        refine ⟨d, hd, ?_⟩
        rcases hl with rfl | rfl <;> rfl
      have hmem' : ∀ l, d = .right l → l ∈ DiffLib.linesOf b := by
        intro l hl
        rw [← DiffLib.right_lines a b, List.mem_filterMap]
        exact ⟨d, hd, by rw [hl]⟩
      cases d with
      | left l => simp; exact DiffLib.noNewline _ _ (hmem l (.inl rfl))
      | both l => simp; exact DiffLib.noNewline _ _ (hmem l (.inr rfl))
      | right l => simp; exact DiffLib.noNewline _ _ (hmem' l rfl)

theorem diffLeft_computeDiff [DiffLib] (a b : String) : diffLeft (computeDiff a b) = DiffLib.linesOf a := by
  unfold diffLeft
  rw [splitLines_computeDiff, ← DiffLib.left_lines a b]
  split
  · rename_i h; rw [h]; rfl
  · rw [List.filterMap_map]
    congr 1
    funext d
    simp only [Function.comp, show_toList]
    cases d <;> simp

theorem diffRight_computeDiff [DiffLib] (a b : String) : diffRight (computeDiff a b) = DiffLib.linesOf b := by
  unfold diffRight
  rw [splitLines_computeDiff, ← DiffLib.right_lines a b]
  split
  · rename_i h; rw [h]; rfl
  · rw [List.filterMap_map]
    congr 1
    funext d
    simp only [Function.comp, show_toList]
    cases d <;> simp

/-- A function meeting the contract of `diff::lines`: everything removed, then everything added. -/
@[reducible] def naiveDiff : DiffLib where
  lines a b := ((splitLines a.toList).map fun l => .left (String.ofList l)) ++
    (splitLines b.toList).map fun l => .right (String.ofList l)
  linesOf s := (splitLines s.toList).map String.ofList
  noNewline s l hl := by
    rw [List.mem_map] at hl
    obtain ⟨x, hx, rfl⟩ := hl
    simpa using splitLines_noNewline _ x hx
  left_lines a b := by
    rw [List.filterMap_append, List.filterMap_map, List.filterMap_map]
    simp [Function.comp_def]
  right_lines a b := by
    rw [List.filterMap_append, List.filterMap_map, List.filterMap_map]
    simp [Function.comp_def]

end Flatdata
