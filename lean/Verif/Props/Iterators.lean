import Verif.Proofs.Iter
import Verif.Props.MultiViews
/-!
# C45: the iterators with the adapters of the standard library

`Deque I f R`: an iterator in state `s` with `R s l` yields the elements of `l` from both ends and knows their number.
-/
namespace Flatdata
open Spec

/-- C45 in full: the iterators over views yield the elements from both ends, know their number, and `size_hint` is exact, as
`ExactSizeIterator` demands. -/
def C45_claim : Prop :=
  (∀ (p : Profile) (size : Nat), 0 < size →
    Deque (arrayIter p size) (·.take size) (ArrayIs size) ∧ ExactHint (arrayIter p size) (ArrayIs size)) ∧
  (∀ (p : Profile) (e : Endian) (V : Variadic),
    Deque (multiIter p e V) id (MultiIs V) ∧ ExactHint (multiIter p e V) (MultiIs V))

/-- Everything but the exact `size_hint`, which is false (`C45_refuted`): `size_hint` only gives correct bounds. -/
theorem C45_iterators_partial :
    (∀ (p : Profile) (size : Nat), 0 < size →
      Deque (arrayIter p size) (·.take size) (ArrayIs size) ∧ HintBounds (arrayIter p size) (ArrayIs size)) ∧
    (∀ (p : Profile) (e : Endian) (V : Variadic),
      Deque (multiIter p e V) id (MultiIs V) ∧ HintBounds (multiIter p e V) (MultiIs V)) :=
  ⟨fun _ _ hs => ⟨array_deque hs, fun _ _ _ => ⟨0, none, rfl, Nat.zero_le _, nofun⟩⟩,
    fun _ _ _ => ⟨multi_deque, fun _ _ _ => ⟨0, none, rfl, Nat.zero_le _, nofun⟩⟩⟩

/-- The hypotheses are met by every view: here three elements of two bytes and a spare byte, and two items. -/
example : ArrayIs 2 [1#8, 2#8, 3#8, 4#8, 5#8, 6#8, 7#8] [[1#8, 2#8], [3#8, 4#8], [5#8, 6#8]] ∧
    MultiIs Coappearances.VerticesData MultiExample.view (MultiExample.contents.map encodeItem) :=
  ⟨⟨by decide, by decide⟩, MultiExample.view_ok, MultiExample.view_items⟩

/-- False in full: `size_hint` is `(0, None)` also if there are elements. -/
theorem C45_refuted : ¬ C45_claim := by
  intro h
  have := (h.1 .release 1 (by decide)).2 [7#8] [[7#8]] ⟨by decide, by decide⟩
  cases this

section
variable {α β γ δ : Type} {I : Iter α} {f : α → β} {R : I.St → List β → Prop} {J : Iter γ} {k : γ → δ} {Q : J.St → List δ → Prop}

/-- Loops over the iterator (`for`, `collect`, `count`, `last`, `fold`, `sum`) end and see exactly the elements in order. -/
theorem C45_loops (hI : Forward I f R) (s : I.St) (l : List β) (h : R s l) :
    (∃ xs s', I.Drains s xs s') ∧ ∀ xs s', I.Drains s xs s' → xs.map f = l ∧ R s' [] := by
  obtain ⟨xs, s', h1, h2, h3⟩ := drains_of hI l s h
  refine ⟨⟨xs, s', h1⟩, fun ys s'' g => ?_⟩
  obtain ⟨rfl, rfl⟩ := drains_unique h1 g
  exact ⟨h2, h3⟩

/-- `nth(n)` is element `n`, `nth_back(n)` element `n` from the end; the elements before (after) it are skipped. -/
theorem C45_nth (hI : Deque I f R) (n : Nat) (s : I.St) (l : List β) (h : R s l) :
    (∃ x s', I.nth n s = .ok (x, s') ∧ x.map f = l[n]? ∧ R s' (l.drop (n + 1))) ∧
    (∃ x s', I.nthBack n s = .ok (x, s') ∧ x.map f = l.reverse[n]? ∧ R s' (l.take (l.length - (n + 1)))) := by
  refine ⟨nth_spec hI.front n s l h, ?_⟩
  obtain ⟨x, s', h1, h2, h3⟩ := nth_spec (rev_deque hI).front n s l.reverse (by simpa using h)
  have key : ∀ (n : Nat) (s : I.St), I.rev.nth n s = I.nthBack n s := by
    intro n
    induction n with
    | zero => intro s; rfl
    | succ n ih =>
      intro s
      change (I.nextBack s >>= fun r => _) = (I.nextBack s >>= fun r => _)
      congr 1
      funext r
      cases r.1 with
      | none => rfl
      | some x => exact ih r.2
  refine ⟨x, s', ?_, h2, ?_⟩
  · rw [← key]; exact h1
  · rw [List.drop_reverse, List.reverse_reverse] at h3
    exact h3

/-- Non-vacuity: the third element from each end of a view with four. -/
example : (∃ x s', (arrayIter .debug 1).nth 2 [6#8, 7#8, 8#8, 9#8] = .ok (x, s') ∧ x.map (·.take 1) = some [8#8] ∧ ArrayIs 1 s' [[9#8]]) ∧
    ∃ x s', (arrayIter .debug 1).nthBack 2 [6#8, 7#8, 8#8, 9#8] = .ok (x, s') ∧ x.map (·.take 1) = some [7#8] ∧ ArrayIs 1 s' [[6#8]] :=
  C45_nth (array_deque (p := .debug) (size := 1) (by decide)) 2 [6#8, 7#8, 8#8, 9#8] [[6#8], [7#8], [8#8], [9#8]] ⟨by decide, by decide⟩

/-- `rev()` is the reversed list. -/
theorem C45_rev (hI : Deque I f R) : Deque I.rev f (fun s l => R s l.reverse) := rev_deque hI

/-- `map(g)` is the mapped list. -/
theorem C45_map {g : α → γ} {k : γ → β} (hI : Deque I (fun x => k (g x)) R) : Deque (I.map g) k R :=
  ⟨map_forward hI.front, map_backward hI.back, hI.len⟩

/-- Non-vacuity: `iter().map(…)` over a view that keeps the bytes of each element. -/
example : Deque ((arrayIter .release 2).map (·.take 2)) id (ArrayIs 2) :=
  C45_map (k := id) (array_deque (by decide))

/-- `enumerate()` numbers the elements, from both ends. -/
theorem C45_enumerate (hI : Deque I f R) :
    Deque I.enumerate (fun x => (x.1, f x.2)) fun s l => ∃ l0, R s.1 l0 ∧ l = (l0.zipIdx s.2).map fun x => (x.2, x.1) :=
  enumerate_deque hI

/-- `take(n)` is the list of the first `n` elements, from both ends. (`len` fails: `C45_take_len`.) -/
theorem C45_take_partial (hI : Deque I f R) :
    Forward I.take f (fun s l => ∃ l0, R s.1 l0 ∧ l = l0.take s.2) ∧
    Backward I.take f (fun s l => ∃ l0, R s.1 l0 ∧ l = l0.take s.2) :=
  ⟨take_forward hI.front, take_backward hI⟩

/-- Non-vacuity: `iter().take(2)` over a view with three elements. -/
example : ∃ l0, ArrayIs 1 [7#8, 8#8, 9#8] l0 ∧ [[7#8], [8#8]] = l0.take 2 :=
  ⟨[[7#8], [8#8], [9#8]], ⟨by decide, by decide⟩, by decide⟩

/-- `take(n)` of something that is only iterated forward, e.g. `skip(a).take(n)`. -/
theorem C45_take_forward (hI : Forward I f R) : Forward I.take f (fun s l => ∃ l0, R s.1 l0 ∧ l = l0.take s.2) :=
  take_forward hI

/-- `skip(n)` is the list without the first `n` elements, from the front. (From the back it panics: `C45_skip_panics`.) -/
theorem C45_skip_partial (hI : Forward I f R) : Forward I.skip f (fun s l => ∃ l0, R s.1 l0 ∧ l = l0.drop s.2) :=
  skip_forward hI

/-- `zip` pairs the elements, from both ends. (`len` fails: `C45_zip_len`.) -/
theorem C45_zip_partial (hI : Deque I f R) (hJ : Deque J k Q) :
    Forward (I.zip J) (Prod.map f k) (fun s l => ∃ a b, R s.1 a ∧ Q s.2 b ∧ l = a.zip b) ∧
    Backward (I.zip J) (Prod.map f k) (fun s l => ∃ a b, R s.1 a ∧ Q s.2 b ∧ l = a.zip b) :=
  ⟨zip_forward hI.front hJ.front, zip_backward hI hJ⟩

/-- Non-vacuity: two views of different lengths. -/
example : ∃ a b, ArrayIs 1 [7#8, 8#8, 9#8] a ∧ ArrayIs 2 [1#8, 2#8, 3#8, 4#8] b ∧ [([7#8], [1#8, 2#8]), ([8#8], [3#8, 4#8])] = a.zip b :=
  ⟨[[7#8], [8#8], [9#8]], [[1#8, 2#8], [3#8, 4#8]], ⟨by decide, by decide⟩, ⟨by decide, by decide⟩, by decide⟩

end

/-- `view.iter().skip(a).take(n).collect()`, the way the integration test selects the chapters of an edge, gives elements
`a .. a+n` of the view. -/
theorem C45_skip_take_collect (p : Profile) (size a n : Nat) (data : Bytes) (hs : 0 < size) (hd : data.length < 2 ^ 63) :
    (∃ xs s', (arrayIter p size).skip.take.Drains ((data, a), n) xs s') ∧
    ∀ xs s', (arrayIter p size).skip.take.Drains ((data, a), n) xs s' →
      xs.map (·.take size) = ((elems size data).drop a).take n := by
  obtain ⟨h1, h2⟩ := C45_loops (C45_take_forward (C45_skip_partial (array_deque (p := p) hs).front)) ((data, a), n)
    (((elems size data).drop a).take n) ⟨_, ⟨_, ⟨hd, rfl⟩, rfl⟩, rfl⟩
  exact ⟨h1, fun xs s' g => (h2 xs s' g).1⟩

/-- Non-vacuity: elements 1 and 2 of four. -/
example : ∃ xs s', (arrayIter .release 1).skip.take.Drains (([6#8, 7#8, 8#8, 9#8], 1), 2) xs s' ∧
    xs.map (·.take 1) = [[7#8], [8#8]] := by
  obtain ⟨⟨xs, s', h⟩, h2⟩ := C45_skip_take_collect .release 1 1 2 [6#8, 7#8, 8#8, 9#8] (by decide) (by decide)
  exact ⟨xs, s', h, h2 xs s' h⟩

/-- Items of a multi array view with their numbers, last one first: `iter().enumerate().rev()`. -/
example : ∃ xs s', (multiIter .debug .little Coappearances.VerticesData).enumerate.rev.Drains (MultiExample.view, 0) xs s' ∧
    xs = (((MultiExample.contents.map encodeItem).zipIdx 0).map fun x => (x.2, x.1)).reverse := by
  obtain ⟨⟨xs, s', h⟩, h2⟩ := C45_loops (C45_rev (C45_enumerate (multi_deque (p := .debug) (e := .little)))).front
    (MultiExample.view, 0) (((MultiExample.contents.map encodeItem).zipIdx 0).map fun x => (x.2, x.1)).reverse
    ⟨_, ⟨MultiExample.view_ok, MultiExample.view_items⟩, by simp⟩
  refine ⟨xs, s', h, ?_⟩
  have := (h2 xs s' h).1
  simpa using this

/-- Consequence of the inexact `size_hint`: `skip(n)` of a view iterator panics in every state when asked for its length and when
iterated from the back, hence in `skip(n).rev()`. -/
theorem C45_skip_panics (p : Profile) (e : Endian) (size : Nat) (V : Variadic) :
    (∀ s, (arrayIter p size).skip.len s = .panic ∧ (arrayIter p size).skip.rev.next s = .panic) ∧
    (∀ s, (multiIter p e V).skip.len s = .panic ∧ (multiIter p e V).skip.rev.next s = .panic) :=
  ⟨fun _ => ⟨rfl, rfl⟩, fun _ => ⟨rfl, rfl⟩⟩

example : (arrayIter .release 1).skip.len ([7#8, 8#8, 9#8], 1) = .panic := ((C45_skip_panics .release .little 1 Coappearances.VerticesData).1 _).1

/-- The same for the length of `take(n)`, unless nothing is to be taken. -/
theorem C45_take_len (p : Profile) (e : Endian) (size : Nat) (V : Variadic) (n : Nat) (hn : 0 < n) :
    (∀ s, (arrayIter p size).take.len (s, n) = .panic) ∧ (∀ s, (multiIter p e V).take.len (s, n) = .panic) := by
  obtain ⟨m, rfl⟩ : ∃ m, n = m + 1 := ⟨n - 1, by omega⟩
  constructor <;> intro s <;>
    simp [Iter.take, Iter.defaultLen, Iter.takeHint, arrayIter, multiIter, Iter.defaultSizeHint]

example : (arrayIter .release 1).take.len ([7#8, 8#8, 9#8], 2) = .panic :=
  (C45_take_len .release .little 1 Coappearances.VerticesData 2 (by decide)).1 _

/-- The same for the length of `zip` with any iterator whose `size_hint` is exact, unless that one is empty. -/
theorem C45_zip_len {γ : Type} (p : Profile) (size : Nat) (J : Iter γ) (s : Bytes) (t : J.St) (n : Nat) (hn : 0 < n)
    (h : J.sizeHint t = .ok (n, some n)) : ((arrayIter p size).zip J).len (s, t) = .panic := by
  obtain ⟨m, rfl⟩ : ∃ m, n = m + 1 := ⟨n - 1, by omega⟩
  simp [Iter.zip, Iter.defaultLen, Iter.zipHint, arrayIter, Iter.defaultSizeHint, h]

/-- Non-vacuity of `C45_zip_len`: zipping with a slice iterator over three numbers. -/
example : ((arrayIter .release 1).zip (J := ⟨List Nat, fun l => .ok (l.head?, l.tail), fun l => .ok (l.getLast?, l.dropLast),
    fun l => .ok (l.length, some l.length), fun l => .ok l.length⟩)).len ([1#8, 2#8, 3#8], [1, 2, 3]) = .panic :=
  C45_zip_len .release 1 _ _ _ 3 (by decide) rfl

end Flatdata
