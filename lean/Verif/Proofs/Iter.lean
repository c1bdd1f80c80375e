import Verif.Spec.Iter
import Verif.Proofs.MultiView
/-!
# Iterators and adapters
-/
namespace Flatdata
open Spec

theorem array_deque {p : Profile} {size : Nat} (hs : 0 < size) : Deque (arrayIter p size) (·.take size) (ArrayIs size) where
  front := by
    intro s l h
    obtain ⟨r, v, h1, h2, h3, h4⟩ := step_spec (p := p) hs .front (view := s) (by have := h.1; unfold usizeMod; omega)
    exact ⟨r, v, h1, by rw [h3, h.2], by have := h.1; omega, by rw [h4, h.2]⟩
  back := by
    intro s l h
    obtain ⟨r, v, h1, h2, h3, h4⟩ := step_spec (p := p) hs .back (view := s) (by have := h.1; unfold usizeMod; omega)
    exact ⟨r, v, h1, by rw [h3, h.2], by have := h.1; omega, by rw [h4, h.2]⟩
  len := by
    intro s l h
    have h1 : ∀ s : Bytes, elems size s = l → View.len size s = .ok l.length := by
      rintro s rfl
      rw [len_eq hs, length_elems]
    exact h1 s h.2

theorem multi_deque {p : Profile} {e : Endian} {V : Variadic} : Deque (multiIter p e V) id (MultiIs V) where
  front := by
    intro s l h
    obtain ⟨v, h1, h2, h3⟩ := multiStep_spec (p := p) (e := e) .front h.1
    exact ⟨_, v, h1, by simp [h.2], h2, by rw [h3, h.2]⟩
  back := by
    intro s l h
    obtain ⟨v, h1, h2, h3⟩ := multiStep_spec (p := p) (e := e) .back h.1
    exact ⟨_, v, h1, by simp [h.2], h2, by rw [h3, h.2]⟩
  len := by
    intro s l h
    rw [← h.2]
    exact multi_len h.1

section
variable {α β γ δ : Type} {I : Iter α} {f : α → β} {R : I.St → List β → Prop}

theorem nth_spec (hI : Forward I f R) : ∀ (n : Nat) (s : I.St) (l : List β), R s l →
    ∃ x s', I.nth n s = .ok (x, s') ∧ x.map f = l[n]? ∧ R s' (l.drop (n + 1))
  | 0, s, l, h => by
    obtain ⟨x, s', h1, h2, h3⟩ := hI s l h
    exact ⟨x, s', h1, by rw [h2, List.head?_eq_getElem?], by simpa using h3⟩
  | n + 1, s, l, h => by
    obtain ⟨x, s', h1, h2, h3⟩ := hI s l h
    cases x with
    | none =>
      cases l with
      | nil => exact ⟨none, s', by simp [Iter.nth, h1], by simp, by simpa using h3⟩
      | cons _ _ => simp at h2
    | some x =>
      cases l with
      | nil => simp at h2
      | cons y l =>
        obtain ⟨z, s'', g1, g2, g3⟩ := nth_spec hI n s' l h3
        exact ⟨z, s'', by simp [Iter.nth, h1, g1], by simpa using g2, by simpa using g3⟩

theorem nthBack_spec (hI : Backward I f R) : ∀ (n : Nat) (s : I.St) (l : List β), R s l →
    ∃ x s', I.nthBack n s = .ok (x, s') ∧ x.map f = (l.take (l.length - n)).getLast? ∧ R s' (l.take (l.length - n - 1))
  | 0, s, l, h => by
    obtain ⟨x, s', h1, h2, h3⟩ := hI s l h
    exact ⟨x, s', h1, by simpa using h2, by simpa [List.dropLast_eq_take] using h3⟩
  | n + 1, s, l, h => by
    obtain ⟨x, s', h1, h2, h3⟩ := hI s l h
    cases x with
    | none =>
      rcases List.eq_nil_or_concat l with rfl | ⟨xs, y, rfl⟩
      · exact ⟨none, s', by simp [Iter.nthBack, h1], by simp, by simpa using h3⟩
      · simp at h2
    | some x =>
      rcases List.eq_nil_or_concat l with rfl | ⟨xs, y, rfl⟩
      · simp at h2
      · rw [List.concat_eq_append, List.dropLast_concat] at h3
        obtain ⟨z, s'', g1, g2, g3⟩ := nthBack_spec hI n s' xs h3
        refine ⟨z, s'', by simp [Iter.nthBack, h1, g1], ?_, ?_⟩
        · rw [g2]; simp [List.take_append, show xs.length - n - xs.length = 0 by omega]
        · simpa [List.take_append, show xs.length - n - 1 - xs.length = 0 by omega] using g3

theorem drains_of (hI : Forward I f R) : ∀ (l : List β) (s : I.St), R s l → ∃ xs s', I.Drains s xs s' ∧ xs.map f = l ∧ R s' []
  | [], s, h => by
    obtain ⟨x, s', h1, h2, h3⟩ := hI s [] h
    cases x with
    | none => exact ⟨[], s', .done h1, rfl, h3⟩
    | some x => simp at h2
  | y :: l, s, h => by
    obtain ⟨x, s', h1, h2, h3⟩ := hI s _ h
    cases x with
    | none => simp at h2
    | some x =>
      obtain ⟨xs, s'', g1, g2, g3⟩ := drains_of hI l s' h3
      refine ⟨x :: xs, s'', .step h1 g1, ?_, g3⟩
      simp only [List.map_cons, g2]
      simpa using h2

theorem drains_unique {s s' s'' : I.St} {xs ys : List α} (h : I.Drains s xs s') : I.Drains s ys s'' → xs = ys ∧ s' = s'' := by
  induction h generalizing ys with
  | done h =>
    intro g
    cases g with
    | done g => rw [h] at g; cases g; exact ⟨rfl, rfl⟩
    | step g _ => rw [h] at g; cases g
  | step h _ ih =>
    intro g
    cases g with
    | done g => rw [h] at g; cases g
    | step g rest =>
      rw [h] at g
      cases g
      obtain ⟨rfl, rfl⟩ := ih rest
      exact ⟨rfl, rfl⟩

theorem rev_deque (hI : Deque I f R) : Deque I.rev f (fun s l => R s l.reverse) where
  front := by
    intro s l h
    obtain ⟨x, s', h1, h2, h3⟩ := hI.back s _ h
    exact ⟨x, s', h1, by simpa using h2, by simpa using h3⟩
  back := by
    intro s l h
    obtain ⟨x, s', h1, h2, h3⟩ := hI.front s _ h
    exact ⟨x, s', h1, by simpa using h2, by simpa using h3⟩
  len := by
    intro s l h
    have := hI.len s _ h
    rw [List.length_reverse] at this
    exact this

theorem map_forward {g : α → γ} {k : γ → β} (hI : Forward I (fun x => k (g x)) R) : Forward (I.map g) k R := by
  intro s l h
  obtain ⟨x, s', h1, h2, h3⟩ := hI s l h
  exact ⟨x.map g, s', by simp [Iter.map, h1], by simpa [Function.comp_def] using h2, h3⟩

theorem map_backward {g : α → γ} {k : γ → β} (hI : Backward I (fun x => k (g x)) R) : Backward (I.map g) k R := by
  intro s l h
  obtain ⟨x, s', h1, h2, h3⟩ := hI s l h
  exact ⟨x.map g, s', by simp [Iter.map, h1], by simpa [Function.comp_def] using h2, h3⟩

/-- What `take` yields. -/
def TakeIs (R : I.St → List β → Prop) (s : I.St × Nat) (l : List β) : Prop := ∃ l0, R s.1 l0 ∧ l = l0.take s.2

theorem take_forward (hI : Forward I f R) : Forward I.take f (TakeIs R) := by
  rintro ⟨s, n⟩ l ⟨l0, h, rfl⟩
  by_cases hn : n = 0
  · subst hn
    exact ⟨none, (s, 0), by simp [Iter.take], by simp, l0, h, by simp⟩
  · obtain ⟨x, s', h1, h2, h3⟩ := hI s l0 h
    obtain ⟨m, rfl⟩ := Nat.exists_eq_succ_of_ne_zero hn
    refine ⟨x, (s', m), by simp [Iter.take, h1], ?_, l0.tail, h3, ?_⟩
    · rw [h2]; cases l0 <;> simp
    · cases l0 <;> simp

theorem take_backward (hI : Deque I f R) : Backward I.take f (TakeIs R) := by
  rintro ⟨s, n⟩ l ⟨l0, h, rfl⟩
  by_cases hn : n = 0
  · subst hn
    exact ⟨none, (s, 0), by simp [Iter.take], by simp, l0, h, by simp⟩
  · obtain ⟨x, s', h1, h2, h3⟩ := nthBack_spec hI.back (l0.length - n) s l0 h
    have h4 := hI.len s l0 h
    have e : l0.take (l0.length - (l0.length - n)) = l0.take n := by
      rcases Nat.le_total l0.length n with g | g
      · rw [List.take_of_length_le g, List.take_of_length_le (by omega)]
      · rw [show l0.length - (l0.length - n) = n by omega]
    refine ⟨x, (s', n - 1), by simp [Iter.take, hn, h4, h1], by rw [h2, e], _, h3, ?_⟩
    simp only [List.dropLast_eq_take, List.take_take, List.length_take]
    congr 1
    omega

/-- What `skip` yields. -/
def SkipIs (R : I.St → List β → Prop) (s : I.St × Nat) (l : List β) : Prop := ∃ l0, R s.1 l0 ∧ l = l0.drop s.2

theorem skip_forward (hI : Forward I f R) : Forward I.skip f (SkipIs R) := by
  rintro ⟨s, n⟩ l ⟨l0, h, rfl⟩
  by_cases hn : n = 0
  · subst hn
    obtain ⟨x, s', h1, h2, h3⟩ := hI s l0 h
    exact ⟨x, (s', 0), by simp [Iter.skip, h1], by simpa using h2, l0.tail, h3, by simp⟩
  · obtain ⟨x, s', h1, h2, h3⟩ := nth_spec hI n s l0 h
    exact ⟨x, (s', 0), by simp [Iter.skip, hn, h1], by rw [h2]; simp [List.head?_drop], _, h3, by simp⟩

/-- What `enumerate` yields: the elements with their numbers. -/
def EnumIs (R : I.St → List β → Prop) (s : I.St × Nat) (l : List (Nat × β)) : Prop :=
  ∃ l0, R s.1 l0 ∧ l = (l0.zipIdx s.2).map fun x => (x.2, x.1)

theorem enumerate_forward (hI : Forward I f R) : Forward I.enumerate (fun x => (x.1, f x.2)) (EnumIs R) := by
  rintro ⟨s, n⟩ l ⟨l0, h, rfl⟩
  obtain ⟨x, s', h1, h2, h3⟩ := hI s l0 h
  cases x with
  | none =>
    cases l0 with
    | nil => exact ⟨none, (s', n), by simp [Iter.enumerate, h1], by simp, [], h3, by simp⟩
    | cons _ _ => simp at h2
  | some x =>
    cases l0 with
    | nil => simp at h2
    | cons y l0 =>
      exact ⟨some (n, x), (s', n + 1), by simp [Iter.enumerate, h1], by simpa using h2, l0, h3, by simp⟩

theorem enumerate_backward (hI : Deque I f R) : Backward I.enumerate (fun x => (x.1, f x.2)) (EnumIs R) := by
  rintro ⟨s, n⟩ l ⟨l0, h, rfl⟩
  obtain ⟨x, s', h1, h2, h3⟩ := hI.back s l0 h
  rcases List.eq_nil_or_concat l0 with rfl | ⟨xs, y, rfl⟩
  · cases x with
    | none => exact ⟨none, (s', n), by simp [Iter.enumerate, h1], by simp, [], h3, by simp⟩
    | some x => simp at h2
  · rw [List.concat_eq_append, List.dropLast_concat] at h3
    cases x with
    | none => simp at h2
    | some x =>
      have h4 := hI.len s' xs h3
      refine ⟨some (n + xs.length, x), (s', n), by simp [Iter.enumerate, h1, h4], ?_, xs, h3, ?_⟩
      · simp [List.zipIdx_append] at h2 ⊢
        exact h2
      · simp [List.zipIdx_append]

theorem enumerate_deque (hI : Deque I f R) : Deque I.enumerate (fun x => (x.1, f x.2)) (EnumIs R) where
  front := enumerate_forward hI.front
  back := enumerate_backward hI
  len := by
    rintro ⟨s, n⟩ l ⟨l0, h, rfl⟩
    have := hI.len s l0 h
    simp only [List.length_map, List.length_zipIdx]
    exact this

theorem dropBack_spec (hI : Backward I f R) : ∀ (n : Nat) (s : I.St) (l : List β), R s l →
    ∃ s', I.dropBack n s = .ok s' ∧ R s' (l.take (l.length - n))
  | 0, s, l, h => ⟨s, rfl, by simpa using h⟩
  | n + 1, s, l, h => by
    obtain ⟨x, s', h1, _, h3⟩ := hI s l h
    obtain ⟨s'', g1, g2⟩ := dropBack_spec hI n s' _ h3
    refine ⟨s'', by simp [Iter.dropBack, h1, g1], ?_⟩
    simp only [List.dropLast_eq_take, List.take_take, List.length_take] at g2
    rw [show min (min (l.length - 1) l.length - n) (l.length - 1) = l.length - (n + 1) by omega] at g2
    exact g2

variable {J : Iter γ} {k : γ → δ} {Q : J.St → List δ → Prop}

/-- What `zip` yields: pairs. -/
def ZipIs (R : I.St → List β → Prop) (Q : J.St → List δ → Prop) (s : I.St × J.St) (l : List (β × δ)) : Prop :=
  ∃ a b, R s.1 a ∧ Q s.2 b ∧ l = a.zip b

theorem zip_forward (hI : Forward I f R) (hJ : Forward J k Q) : Forward (I.zip J) (Prod.map f k) (ZipIs R Q) := by
  rintro ⟨s, t⟩ l ⟨a, b, ha, hb, rfl⟩
  obtain ⟨x, s', h1, h2, h3⟩ := hI s a ha
  cases x with
  | none =>
    cases a with
    | nil => exact ⟨none, (s', t), by simp [Iter.zip, h1], by simp, [], b, h3, hb, by simp⟩
    | cons _ _ => simp at h2
  | some x =>
    cases a with
    | nil => simp at h2
    | cons u a =>
      obtain ⟨y, t', g1, g2, g3⟩ := hJ t b hb
      refine ⟨y.map fun y => (x, y), (s', t'), by simp [Iter.zip, h1, g1], ?_, a, b.tail, h3, g3, ?_⟩
      · cases y with
        | none => cases b <;> simp at g2 ⊢
        | some y =>
          cases b with
          | nil => simp at g2
          | cons v b => simp at g2 h2 ⊢; exact ⟨h2, g2⟩
      · cases b <;> simp

theorem zip_backward (hI : Deque I f R) (hJ : Deque J k Q) : Backward (I.zip J) (Prod.map f k) (ZipIs R Q) := by
  rintro ⟨s, t⟩ l ⟨a, b, ha, hb, rfl⟩
  obtain ⟨s1, e1, r1⟩ := dropBack_spec hI.back (a.length - b.length) s a ha
  obtain ⟨t1, e2, r2⟩ := dropBack_spec hJ.back (b.length - a.length) t b hb
  have hz : a.zip b = (a.take (a.length - (a.length - b.length))).zip (b.take (b.length - (b.length - a.length))) := by
    rw [show a.length - (a.length - b.length) = min a.length b.length by omega,
      show b.length - (b.length - a.length) = min a.length b.length by omega, ← List.zip_eq_zip_take_min]
  have hl : (a.take (a.length - (a.length - b.length))).length = (b.take (b.length - (b.length - a.length))).length := by
    simp only [List.length_take]; omega
  rw [hz]
  generalize a.take (a.length - (a.length - b.length)) = a' at r1 hl ⊢
  generalize b.take (b.length - (b.length - a.length)) = b' at r2 hl ⊢
  obtain ⟨x, s2, f1, f2, f3⟩ := hI.back s1 a' r1
  obtain ⟨y, t2, g1, g2, g3⟩ := hJ.back t1 b' r2
  have hrun : (I.zip J).nextBack (s, t) = Iter.zipEnd (s2, t2) x y := by
    change (I.len s >>= fun a => J.len t >>= fun b => _) = _
    rw [hI.len s a ha, Out.ok_bind, hJ.len t b hb, Out.ok_bind, e1, Out.ok_bind, e2, Out.ok_bind, f1, Out.ok_bind, g1, Out.ok_bind]
  rw [hrun]
  rcases List.eq_nil_or_concat a' with rfl | ⟨as, u, rfl⟩
  · have : b' = [] := List.eq_nil_of_length_eq_zero (by simpa using hl.symm)
    subst this
    cases x <;> simp at f2
    cases y <;> simp at g2
    exact ⟨none, (s2, t2), rfl, by simp, [], [], f3, g3, by simp⟩
  · rcases List.eq_nil_or_concat b' with rfl | ⟨bs, v, rfl⟩
    · simp at hl
    · obtain ⟨x, rfl⟩ : ∃ z, x = some z := by cases x <;> simp at f2 ⊢
      obtain ⟨y, rfl⟩ : ∃ z, y = some z := by cases y <;> simp at g2 ⊢
      simp at f2 g2
      have hl' : as.length = bs.length := by simpa using hl
      rw [List.concat_eq_append, List.dropLast_concat] at f3 g3
      refine ⟨some (x, y), (s2, t2), rfl, ?_, as, bs, f3, g3, ?_⟩
      · simp [List.zip_append hl', f2, g2]
      · simp [List.zip_append hl']

end
end Flatdata
