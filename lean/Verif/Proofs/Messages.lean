import Verif.Model.Error
/-!
# Texts of errors can be read back
-/
namespace Flatdata

/-! ## hexadecimal digits -/

theorem digitChar_inj : ∀ a, a < 16 → ∀ b, b < 16 → Nat.digitChar a = Nat.digitChar b → a = b := by decide

theorem digitChar_plain : ∀ a, a < 16 → Nat.digitChar a ≠ '}' ∧ Nat.digitChar a ≠ '"' ∧ Nat.digitChar a ≠ '\n' := by decide

theorem hex_inj (a b : Nat) (h : Nat.toDigits 16 a = Nat.toDigits 16 b) : a = b := by
  induction a using Nat.strongRecOn generalizing b with
  | _ a ih =>
    by_cases ha : a < 16
    · by_cases hb : b < 16
      · rw [Nat.toDigits_of_lt_base ha, Nat.toDigits_of_lt_base hb, List.cons.injEq] at h
        exact digitChar_inj a ha b hb h.1
      · rw [Nat.toDigits_of_lt_base ha, Nat.toDigits_of_base_le (by decide) (by omega)] at h
        have h1 := congrArg List.length h
        have h2 := Nat.length_toDigits_pos (b := 16) (n := b / 16)
        simp only [List.length_append, List.length_cons, List.length_nil] at h1
        omega
    · by_cases hb : b < 16
      · rw [Nat.toDigits_of_lt_base hb, Nat.toDigits_of_base_le (by decide) (by omega)] at h
        have h1 := congrArg List.length h
        have h2 := Nat.length_toDigits_pos (b := 16) (n := a / 16)
        simp only [List.length_append, List.length_cons, List.length_nil] at h1
        omega
      · rw [Nat.toDigits_of_base_le (n := a) (by decide) (by omega), Nat.toDigits_of_base_le (n := b) (by decide) (by omega)] at h
        obtain ⟨h1, h2⟩ := List.append_inj' h rfl
        have := ih (a / 16) (by omega) (b / 16) h1
        have h3 := digitChar_inj (a % 16) (by omega) (b % 16) (by omega) (List.cons.inj h2).1
        omega

theorem hex_plain (a : Nat) : ∀ c ∈ Nat.toDigits 16 a, c ≠ '}' ∧ c ≠ '"' ∧ c ≠ '\n' := by
  induction a using Nat.strongRecOn with
  | _ a ih =>
    by_cases ha : a < 16
    · rw [Nat.toDigits_of_lt_base ha]
      intro c hc
      rw [List.mem_singleton.mp hc]
      exact digitChar_plain a ha
    · rw [Nat.toDigits_of_base_le (by decide) (by omega)]
      intro c hc
      rcases List.mem_append.mp hc with hc | hc
      · exact ih (a / 16) (by omega) c hc
      · rw [List.mem_singleton.mp hc]
        exact digitChar_plain _ (by omega)

/-- What is before the first occurrence of a character. -/
theorem split_first {α : Type} {x : α} : ∀ {a b r r' : List α}, x ∉ a → x ∉ b → a ++ x :: r = b ++ x :: r' → a = b ∧ r = r'
  | [], [], _, _, _, _, h => ⟨rfl, (List.cons.inj h).2⟩
  | [], y :: b, _, _, _, hb, h => absurd (List.mem_cons.mpr (.inl (List.cons.inj h).1)) hb
  | y :: a, [], _, _, ha, _, h => absurd (List.mem_cons.mpr (.inl (List.cons.inj h).1.symm)) ha
  | y :: a, z :: b, r, r', ha, hb, h => by
    obtain ⟨h1, h2⟩ := List.cons.inj h
    obtain ⟨h3, h4⟩ := split_first (fun h => ha (List.mem_cons_of_mem _ h)) (fun h => hb (List.mem_cons_of_mem _ h)) h2
    exact ⟨by rw [h1, h3], h4⟩

/-! ## characters -/
section
variable [EscapeDebug]
open EscapeDebug

/-- How a character is shown. -/
inductive Shape (c : Char) : List Char → Prop
  | plain (h1 : c ≠ '\n') (h2 : c ≠ '"') (h3 : c ≠ '\\') : Shape c [c]
  | unicode : Shape c (unicodeEscape c)
  | short (x : Char) (h : (c, x) ∈ [('\t', 't'), ('\r', 'r'), ('\n', 'n'), ('"', '"'), ('\\', '\\'), ('\'', '\''), ('\x00', '0')]) : Shape c ['\\', x]

theorem esc_shape (c : Char) : Shape c (esc c) := by
  by_cases h1 : c = '\t'
  · subst h1; rw [tab]; exact .short _ (by simp)
  by_cases h2 : c = '\r'
  · subst h2; rw [cr]; exact .short _ (by simp)
  by_cases h3 : c = '\n'
  · subst h3; rw [lf]; exact .short _ (by simp)
  by_cases h4 : c = '"'
  · subst h4; rw [quote]; exact .short _ (by simp)
  by_cases h5 : c = '\\'
  · subst h5; rw [backslash]; exact .short _ (by simp)
  rcases other c h1 h2 h3 h4 h5 with h | h | ⟨rfl, h⟩ | ⟨rfl, h⟩ <;> rw [h]
  · exact .plain h3 h4 h5
  · exact .unicode
  · exact .short _ (by simp)
  · exact .short _ (by simp)

omit [EscapeDebug] in
theorem Shape.unique {c c' : Char} {l l' r r' : List Char} (h : Shape c l) (h' : Shape c' l') (he : l ++ r = l' ++ r') : c = c' ∧ r = r' := by
  have short_u : ∀ c x : Char, (c, x) ∈ [('\t', 't'), ('\r', 'r'), ('\n', 'n'), ('"', '"'), ('\\', '\\'), ('\'', '\''), ('\x00', '0')] → x ≠ 'u' := by
    intro c x h
    simp only [List.mem_cons, Prod.mk.injEq, List.not_mem_nil, or_false] at h
    rcases h with h | h | h | h | h | h | h <;> (rw [h.2]; decide)
  cases h with
  | plain h1 h2 h3 =>
    cases h' with
    | plain => exact ⟨(List.cons.inj he).1, (List.cons.inj he).2⟩
    | unicode => exact absurd (List.cons.inj he).1 h3
    | short => exact absurd (List.cons.inj he).1 h3
  | unicode =>
    cases h' with
    | plain h1 h2 h3 => exact absurd (List.cons.inj he).1.symm h3
    | unicode =>
      unfold unicodeEscape at he
      simp only [List.append_assoc, List.cons_append, List.nil_append, List.cons.injEq, true_and] at he
      obtain ⟨h1, h2⟩ := split_first (fun h => (hex_plain _ _ h).1 rfl) (fun h => (hex_plain _ _ h).1 rfl) he
      exact ⟨Char.toNat_inj.mp (hex_inj _ _ h1), h2⟩
    | short x h =>
      unfold unicodeEscape at he
      simp only [List.append_assoc, List.cons_append, List.nil_append, List.cons.injEq, true_and] at he
      exact absurd he.1.symm (short_u _ x h)
  | short x h =>
    cases h' with
    | plain h1 h2 h3 => exact absurd (List.cons.inj he).1.symm h3
    | unicode =>
      unfold unicodeEscape at he
      simp only [List.append_assoc, List.cons_append, List.nil_append, List.cons.injEq, true_and] at he
      exact absurd he.1 (short_u _ x h)
    | short y h' =>
      simp only [List.cons_append, List.nil_append, List.cons.injEq, true_and] at he
      obtain ⟨rfl, he⟩ := he
      refine ⟨?_, he⟩
      simp only [List.mem_cons, Prod.mk.injEq, List.not_mem_nil, or_false] at h h'
      rcases h with h | h | h | h | h | h | h <;> rcases h' with h' | h' | h' | h' | h' | h' | h' <;>
        first
          | exact h.1.trans h'.1.symm
          | exact absurd (h.2.symm.trans h'.2) (by decide)

omit [EscapeDebug] in
theorem Shape.no_newline {c : Char} {l : List Char} (h : Shape c l) : '\n' ∉ l := by
  cases h with
  | plain h1 => intro h; exact h1 (List.mem_singleton.mp h).symm
  | unicode =>
    unfold unicodeEscape
    intro h
    rcases List.mem_append.mp h with h | h
    · rcases List.mem_append.mp h with h | h
      · revert h; decide
      · exact (hex_plain _ _ h).2.2 rfl
    · revert h; decide
  | short x hx =>
    simp only [List.mem_cons, Prod.mk.injEq, List.not_mem_nil, or_false] at hx
    rcases hx with hx | hx | hx | hx | hx | hx | hx <;> (rw [hx.2]; decide)

omit [EscapeDebug] in
/-- A quotation mark in it is preceded by a backslash. -/
theorem Shape.escaped {c : Char} {l u v : List Char} (h : Shape c l) (he : l = u ++ '"' :: v) : ∃ u', u = u' ++ ['\\'] := by
  cases h with
  | plain h1 h2 h3 =>
    have : '"' ∈ [c] := by rw [he]; simp
    exact absurd (List.mem_singleton.mp this).symm h2
  | unicode =>
    have : '"' ∈ unicodeEscape c := by rw [he]; simp
    unfold unicodeEscape at this
    rcases List.mem_append.mp this with h | h
    · rcases List.mem_append.mp h with h | h
      · exact absurd h (by decide)
      · exact absurd rfl (hex_plain _ _ h).2.1
    · exact absurd h (by decide)
  | short x hx =>
    match u, he with
    | [], he => exact absurd (List.cons.inj he).1 (by decide)
    | [y], he => exact ⟨[], by rw [← (List.cons.inj he).1]; rfl⟩
    | _ :: _ :: t, he =>
      have := congrArg List.length he
      simp at this

/-! ## quoted strings -/

theorem esc_ne_nil (c : Char) : ∃ x t, esc c = x :: t ∧ x ≠ '"' := by
  have h := esc_shape c
  generalize esc c = l at h
  cases h with
  | plain h1 h2 => exact ⟨c, [], rfl, h2⟩
  | unicode => exact ⟨'\\', _, rfl, by decide⟩
  | short x => exact ⟨'\\', [x], rfl, by decide⟩

theorem escaped_inj : ∀ {a b : List Char} {r r' : List Char}, a.flatMap esc ++ '"' :: r = b.flatMap esc ++ '"' :: r' → a = b ∧ r = r'
  | [], [], _, _, h => ⟨rfl, (List.cons.inj h).2⟩
  | [], c :: b, r, r', h => by
    obtain ⟨x, t, h1, h2⟩ := esc_ne_nil c
    rw [List.flatMap_cons, h1] at h
    exact absurd (List.cons.inj h).1.symm h2
  | c :: a, [], r, r', h => by
    obtain ⟨x, t, h1, h2⟩ := esc_ne_nil c
    rw [List.flatMap_cons, h1] at h
    exact absurd (List.cons.inj h).1 h2
  | c :: a, d :: b, r, r', h => by
    rw [List.flatMap_cons, List.flatMap_cons, List.append_assoc, List.append_assoc] at h
    obtain ⟨rfl, h2⟩ := (esc_shape c).unique (esc_shape d) h
    obtain ⟨rfl, h3⟩ := escaped_inj h2
    exact ⟨rfl, h3⟩

/-- A quoted string can be read back, whatever follows. -/
theorem quoted_inj {a b : String} {r r' : List Char} (h : quoted a ++ r = quoted b ++ r') : a = b ∧ r = r' := by
  unfold quoted at h
  simp only [List.append_assoc, List.cons_append, List.nil_append, List.cons.injEq, true_and] at h
  obtain ⟨h1, h2⟩ := escaped_inj h
  exact ⟨String.toList_inj.mp h1, h2⟩

theorem escaped_quote : ∀ {a u v : List Char}, a.flatMap esc = u ++ '"' :: v → ∃ u', u = u' ++ ['\\']
  | [], u, v, h => by
    have := congrArg List.length h
    simp at this
  | c :: a, u, v, h => by
    rw [List.flatMap_cons] at h
    rcases List.append_eq_append_iff.mp h with ⟨t, h1, h2⟩ | ⟨t, h1, h2⟩
    · obtain ⟨u', h3⟩ := escaped_quote h2
      exact ⟨esc c ++ u', by rw [h1, h3, List.append_assoc]⟩
    · match t, h1, h2 with
      | [], h1, h2 =>
        rw [List.append_nil] at h1
        obtain ⟨u', h3⟩ := escaped_quote (a := a) (u := []) (v := v) h2.symm
        exact absurd h3 (by simp)
      | y :: t, h1, h2 =>
        rw [List.cons_append, List.cons.injEq] at h2
        rw [← h2.1] at h1
        exact (esc_shape c).escaped h1

/-- The end of a text: from the last quotation mark that is not preceded by a backslash. -/
theorem quoted_end {a b : String} {A B : List Char} (h : A ++ [',', ' '] ++ quoted a = B ++ [',', ' '] ++ quoted b) : A = B ∧ a = b := by
  have key : ∀ {a b T : List Char}, a.flatMap esc = T ++ [',', ' ', '"'] ++ b.flatMap esc → False := by
    intro a b T h
    have h' : a.flatMap esc = (T ++ [',', ' ']) ++ '"' :: b.flatMap esc := by rw [h]; simp
    obtain ⟨u', hu⟩ := escaped_quote h'
    have : T ++ [','] ++ [' '] = u' ++ ['\\'] := by rw [← hu]; simp
    exact absurd (List.append_inj' this rfl).2 (by decide)
  have side : ∀ {a b t : List Char}, [',', ' ', '"'] ++ a.flatMap esc = t ++ ([',', ' ', '"'] ++ b.flatMap esc) → t = [] ∧ a = b := by
    intro a b t h
    match t, h with
    | [], h =>
      have h1 : a.flatMap esc = b.flatMap esc := List.append_cancel_left h
      exact ⟨rfl, (escaped_inj (r := []) (r' := []) (by rw [h1])).1⟩
    | [x], h => exact absurd (List.cons.inj (List.cons.inj h).2).1 (by decide)
    | [x, y], h => exact absurd (List.cons.inj (List.cons.inj (List.cons.inj h).2).2).1 (by decide)
    | x :: y :: z :: T, h =>
      have h1 := (List.cons.inj (List.cons.inj (List.cons.inj h).2).2).2
      exact (key (T := T) (b := b) (by rw [List.append_assoc]; exact h1)).elim
  unfold quoted at h
  have h1 : A ++ ([',', ' ', '"'] ++ a.toList.flatMap esc) = B ++ ([',', ' ', '"'] ++ b.toList.flatMap esc) := by
    have : (A ++ ([',', ' ', '"'] ++ a.toList.flatMap esc)) ++ ['"'] = (B ++ ([',', ' ', '"'] ++ b.toList.flatMap esc)) ++ ['"'] := by
      simpa using h
    exact List.append_cancel_right this
  rcases List.append_eq_append_iff.mp h1 with ⟨t, h2, h3⟩ | ⟨t, h2, h3⟩
  · obtain ⟨rfl, h4⟩ := side h3
    exact ⟨by rw [h2, List.append_nil], String.toList_inj.mp h4⟩
  · obtain ⟨rfl, h4⟩ := side h3
    exact ⟨by rw [h2, List.append_nil], (String.toList_inj.mp h4).symm⟩

theorem escaped_no_newline (a : List Char) : '\n' ∉ a.flatMap esc := by
  intro h
  obtain ⟨c, _, h1⟩ := List.mem_flatMap.mp h
  exact (esc_shape c).no_newline h1

theorem quoted_no_newline (s : String) : '\n' ∉ quoted s := by
  unfold quoted
  intro h
  rcases List.mem_append.mp h with h | h
  · rcases List.mem_append.mp h with h | h
    · exact absurd h (by decide)
    · exact escaped_no_newline _ h
  · exact absurd h (by decide)

/-! ## errors -/

theorem text_inj {io : IoErr → String} {u : String} (hio : ∀ e e', io e = io e' → e = e') {a b : RErr} (h : a.text io u = b.text io u) : a = b := by
  cases a <;> cases b <;> unfold RErr.text at h
  case io.io e n e' n' =>
    have h1 := List.append_cancel_right h
    obtain ⟨h2, h3⟩ := quoted_end h1
    exact congr (congrArg RErr.io (hio _ _ (String.toList_inj.mp (List.append_cancel_left h2)))) h3
  case missingSchema.missingSchema n n' =>
    simp only [List.append_assoc] at h
    exact congrArg RErr.missingSchema (quoted_inj (List.append_cancel_left h)).1
  case wrongSignature.wrongSignature n d n' d' =>
    simp only [List.append_assoc] at h
    obtain ⟨rfl, h1⟩ := quoted_inj (List.append_cancel_left h)
    obtain ⟨rfl, _⟩ := quoted_inj (List.append_cancel_left h1)
    rfl
  case utf8.utf8 => rfl
  case unexpectedDataSize.unexpectedDataSize => rfl
  all_goals
    have h1 := congrArg (fun l : List Char => l[1]?) h
    revert h1
    simp

end
end Flatdata
