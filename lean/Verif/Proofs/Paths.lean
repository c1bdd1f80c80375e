import Verif.Model.IO
import Verif.Spec.Names
/-!
# Paths and UTF-8
-/
namespace Flatdata

theorem splitSlash_ne_nil (l : List Char) : splitSlash l ≠ [] := by
  cases l with
  | nil => simp [splitSlash]
  | cons c cs =>
    simp only [splitSlash]
    split
    · simp
    · split <;> simp

theorem splitSlash_noSlash {l : List Char} (h : '/' ∉ l) : splitSlash l = [l] := by
  induction l with
  | nil => rfl
  | cons c cs ih =>
    simp only [List.mem_cons, not_or] at h
    have hc : c ≠ '/' := fun he => h.1 he.symm
    simp only [splitSlash, if_neg hc, ih h.2]

theorem splitSlash_append_slash (a b : List Char) : splitSlash (a ++ '/' :: b) = splitSlash a ++ splitSlash b := by
  induction a with
  | nil => simp [splitSlash]
  | cons c cs ih =>
    simp only [List.cons_append, splitSlash, ih]
    split
    · simp
    · cases h : splitSlash cs with
      | nil => exact absurd h (splitSlash_ne_nil cs)
      | cons x xs => simp

/-- Appending text without slash changes only the last component. -/
theorem splitSlash_append_noSlash (a : List Char) : ∃ L l, splitSlash a = L ++ [l] ∧
    ∀ s, '/' ∉ s → splitSlash (a ++ s) = L ++ [l ++ s] := by
  induction a with
  | nil => exact ⟨[], [], rfl, fun s hs => by simpa using splitSlash_noSlash hs⟩
  | cons c cs ih =>
    obtain ⟨L, l, h1, h2⟩ := ih
    by_cases hc : c = '/'
    · refine ⟨[] :: L, l, ?_, ?_⟩
      · simp only [splitSlash, if_pos hc, h1]; rfl
      · intro s hs
        simp only [List.cons_append, splitSlash, if_pos hc, h2 s hs]
    · cases L with
      | nil =>
        refine ⟨[], c :: l, ?_, ?_⟩
        · simp only [splitSlash, if_neg hc, h1]; rfl
        · intro s hs
          simp only [List.cons_append, splitSlash, if_neg hc, h2 s hs]; rfl
      | cons x xs =>
        refine ⟨(c :: x) :: xs, l, ?_, ?_⟩
        · simp only [splitSlash, if_neg hc, h1]; rfl
        · intro s hs
          simp only [List.cons_append, splitSlash, if_neg hc, h2 s hs]

/-- A suffix appended to resource names by the library, or none. -/
def Suffix (s : List Char) : Prop := '/' ∉ s ∧ (s = [] ∨ 2 ≤ s.length)

/-- Appending different suffixes to a path gives different files. -/
theorem key_suffix_inj (a : List Char) {s t : List Char} (hs : Suffix s) (ht : Suffix t) (h : key (a ++ s) = key (a ++ t)) :
    s = t := by
  obtain ⟨L, l, _, h2⟩ := splitSlash_append_noSlash a
  have hd : ∀ s, Suffix s → ((a ++ s).head? = some '/' ↔ a.head? = some '/') := by
    intro s hs
    cases a with
    | nil =>
      simp only [List.nil_append, List.head?_nil]
      constructor
      · intro hh; exact absurd (List.mem_of_mem_head? hh) hs.1
      · intro hh; cases hh
    | cons c cs => simp
  simp only [key, hd s hs, hd t ht, h2 s hs.1, h2 t ht.1, List.filter_append] at h
  have h3 := List.append_cancel_left (List.append_cancel_left h)
  have aux : ∀ s, Suffix s → s ≠ [] → (l ++ s ≠ [] ∧ l ++ s ≠ ['.']) := by
    intro s hs hne
    have hl : 2 ≤ s.length := by rcases hs.2 with h | h; exact absurd h hne; exact h
    constructor
    · intro he; apply hne; simpa using (List.append_eq_nil_iff.mp he).2
    · intro he
      have := congrArg List.length he
      simp at this; omega
  have f1 : ∀ x : List Char, [x].filter (fun x => decide (x ≠ [] ∧ x ≠ ['.'])) = if x ≠ [] ∧ x ≠ ['.'] then [x] else [] := by
    intro x; rw [List.filter_cons]; simp
  rw [f1, f1] at h3
  have one : ∀ t, Suffix t → (if l ≠ [] ∧ l ≠ ['.'] then [l] else []) = (if l ++ t ≠ [] ∧ l ++ t ≠ ['.'] then [l ++ t] else []) →
      t = [] := by
    intro t ht h
    by_cases hte : t = []
    · exact hte
    · rw [if_pos (aux t ht hte)] at h
      split at h
      · have := congrArg List.length (List.cons.inj h).1
        simp at this; exact this
      · cases h
  by_cases hse : s = []
  · subst hse
    rw [List.append_nil] at h3
    exact (one t ht h3).symm
  · by_cases hte : t = []
    · subst hte
      rw [List.append_nil] at h3
      exact one s hs h3.symm
    · rw [if_pos (aux s hs hse), if_pos (aux t ht hte)] at h3
      exact List.append_cancel_left (List.cons.inj h3).1

theorem join_append (p : Path) (n s : String) (hs : '/' ∉ s.toList) : join p (n ++ s) = join p n ++ s.toList := by
  unfold join
  rw [String.toList_append]
  have hd : (n.toList ++ s.toList).head? = some '/' ↔ n.toList.head? = some '/' := by
    cases n.toList with
    | nil =>
      simp only [List.nil_append, List.head?_nil]
      constructor
      · intro hh; exact absurd (List.mem_of_mem_head? hh) hs
      · intro hh; cases hh
    | cons c cs => simp
  simp only [hd]
  split
  · rfl
  · split
    · rfl
    · split <;> simp

/-- Names made from one name by different suffixes are different files. -/
theorem key_join_suffix_inj (p : Path) (n s t : String) (hs : Suffix s.toList) (ht : Suffix t.toList)
    (h : key (join p (n ++ s)) = key (join p (n ++ t))) : s = t := by
  rw [join_append p n s hs.1, join_append p n t ht.1] at h
  exact String.toList_inj.mp (key_suffix_inj _ hs ht h)

theorem key_join_plain (p : Path) {n : String} (h : PlainName n) : key (join p n) = key p ++ [n.toList] := by
  obtain ⟨h1, h2, h3⟩ := h
  have hh : n.toList.head? ≠ some '/' := fun he => h2 (List.mem_of_mem_head? he)
  have hf : ∀ L : List (List Char), (L ++ [n.toList]).filter (fun x => decide (x ≠ [] ∧ x ≠ ['.'])) =
      L.filter (fun x => decide (x ≠ [] ∧ x ≠ ['.'])) ++ [n.toList] := by
    intro L
    rw [List.filter_append, List.filter_cons_of_pos (by simp [h1, h3])]; rfl
  unfold join
  rw [if_neg hh]
  split
  · rename_i hp
    subst hp
    unfold key
    rw [if_neg hh, splitSlash_noSlash h2, List.filter_cons_of_pos (by simp [h1, h3])]
    simp [splitSlash]
  · rename_i hp
    split
    · rename_i hl
      obtain ⟨q, rfl⟩ : ∃ q, p = q ++ ['/'] := by
        rw [List.getLast?_eq_some_iff] at hl; exact hl
      unfold key
      have e1 : q ++ ['/'] ++ n.toList = q ++ '/' :: n.toList := by simp
      rw [e1, splitSlash_append_slash, splitSlash_noSlash h2, hf]
      have e2 : splitSlash (q ++ ['/']) = splitSlash q ++ [[]] := splitSlash_append_slash q []
      rw [e2]
      cases q <;> simp [List.filter_append]
    · unfold key
      rw [splitSlash_append_slash, splitSlash_noSlash h2, hf]
      cases p with
      | nil => exact absurd rfl hp
      | cons c cs => simp

theorem key_join_plain_inj (p : Path) {n m : String} (hn : PlainName n) (hm : PlainName m)
    (h : key (join p n) = key (join p m)) : n = m := by
  rw [key_join_plain p hn, key_join_plain p hm] at h
  exact String.toList_inj.mp (by simpa using h)

theorem PlainName.append {n s : String} (h : PlainName n) (hs : Suffix s.toList) : PlainName (n ++ s) := by
  obtain ⟨h1, h2, h3⟩ := h
  refine ⟨?_, ?_, ?_⟩
  · rw [String.toList_append]; simp [h1]
  · rw [String.toList_append, List.mem_append, not_or]; exact ⟨h2, hs.1⟩
  · rw [String.toList_append]
    have hn : 0 < n.toList.length := List.length_pos_iff.mpr h1
    rcases hs.2 with hs | hs
    · rw [hs, List.append_nil]; exact h3
    · refine ⟨fun he => ?_, fun he => ?_⟩ <;> have := congrArg List.length he <;> simp at this hn <;> omega

/-! ## UTF-8 -/

theorem fromUtf8_strBytes (s : String) : fromUtf8 (strBytes s) = some s := by
  have h : (⟨((strBytes s).map UInt8.ofBitVec).toArray⟩ : ByteArray) = s.toByteArray := by
    unfold strBytes
    rw [List.map_map]
    have : (UInt8.ofBitVec ∘ UInt8.toBitVec) = id := by funext x; rfl
    rw [this, List.map_id]
  unfold fromUtf8
  rw [h]
  unfold String.fromUTF8?
  rw [dif_pos s.isValidUTF8]
  rfl

theorem strBytes_of_fromUtf8 {b : Bytes} {s : String} (h : fromUtf8 b = some s) : strBytes s = b := by
  unfold fromUtf8 String.fromUTF8? at h
  split at h
  · cases h
    unfold strBytes String.fromUTF8
    simp only [List.map_map]
    have : (UInt8.toBitVec ∘ UInt8.ofBitVec) = id := by funext x; rfl
    rw [this, List.map_id]
  · cases h

theorem strBytes_inj {s t : String} (h : strBytes s = strBytes t) : s = t := by
  have := fromUtf8_strBytes s
  rw [h, fromUtf8_strBytes] at this
  exact (Option.some.inj this).symm

theorem strBytes_eq_nil {s : String} : strBytes s = [] ↔ s = "" := by
  constructor
  · intro h; apply strBytes_inj; rw [h]; rfl
  · rintro rfl; rfl

end Flatdata
