import Verif.Proofs.View
import Verif.Proofs.Fill
import Verif.Model.Coappearances
/-!
# C12 - C15: `ArrayView`

`data.length < 2^63` (Rust: no slice is longer than `isize::MAX`) and `0 < size` are the only assumptions on views.
`elems size data` is the list of elements (byte strings) of the view.
-/
namespace Flatdata
open Spec View

/-! ## C12 -/

/-- C12 in full. -/
def C12_claim : Prop :=
  ∀ (p : Profile) (size : Nat) (data : Bytes) (i : Nat), 0 < size → data.length < 2 ^ 63 → i < usizeMod →
    (∀ x, (elems size data)[i]? = some x → ∃ r, View.at' p size data i = .ok r ∧ r.take size = x) ∧
    ((elems size data)[i]? = none → View.at' p size data i = .panic)

/-- `len` is the number of elements, `is_empty` whether there are none. -/
theorem C12_len (size : Nat) (data : Bytes) (hs : 0 < size) :
    View.len size data = .ok (elems size data).length ∧ View.isEmpty size data = .ok (decide (elems size data = [])) := by
  have h : View.len size data = .ok (elems size data).length := by rw [len_eq hs, length_elems]
  refine ⟨h, ?_⟩
  unfold View.isEmpty
  rw [h, Out.ok_bind]
  congr 1
  cases elems size data <;> simp

example : elems 2 [1#8, 2#8, 3#8, 4#8, 5#8] = [[1#8, 2#8], [3#8, 4#8]] ∧ View.len 2 [1#8, 2#8, 3#8, 4#8, 5#8] = .ok 2 :=
  ⟨by decide, (C12_len 2 _ (by decide)).1⟩

theorem C12_in_range (p : Profile) (size : Nat) (data : Bytes) (i : Nat) (hs : 0 < size) (hd : data.length < 2 ^ 63)
    (x : Bytes) (hx : (elems size data)[i]? = some x) : ∃ r, View.at' p size data i = .ok r ∧ r.take size = x := by
  rw [getElem?_elems] at hx
  split at hx
  · rename_i h
    cases hx
    exact ⟨_, at_in_range hs (by unfold usizeMod; omega) h, rfl⟩
  · cases hx

/-- C12 for builds with overflow checks: no restriction. -/
theorem C12_at_debug (size : Nat) (data : Bytes) (i : Nat) (hs : 0 < size) (hd : data.length < 2 ^ 63) :
    (∀ x, (elems size data)[i]? = some x → ∃ r, View.at' .debug size data i = .ok r ∧ r.take size = x) ∧
    ((elems size data)[i]? = none → View.at' .debug size data i = .panic) := by
  refine ⟨C12_in_range .debug size data i hs hd, ?_⟩
  intro hx
  rw [getElem?_elems] at hx
  split at hx
  · cases hx
  · exact at_out_of_range hs (by omega) (.inl rfl)

/-- Non-vacuity, both ways: the first index without an element, and one that overflows the address. -/
example : (∃ r, View.at' .debug 2 [1#8, 2#8, 3#8, 4#8, 5#8] 0 = .ok r ∧ r.take 2 = [1#8, 2#8]) ∧
    View.at' .debug 2 [1#8, 2#8, 3#8, 4#8, 5#8] 2 = .panic ∧ View.at' .debug 2 [1#8, 2#8, 3#8, 4#8, 5#8] (2 ^ 63) = .panic :=
  ⟨(C12_at_debug 2 [1#8, 2#8, 3#8, 4#8, 5#8] 0 (by decide) (by decide)).1 _ (by decide),
    (C12_at_debug 2 [1#8, 2#8, 3#8, 4#8, 5#8] 2 (by decide) (by decide)).2 (by decide),
    (C12_at_debug 2 [1#8, 2#8, 3#8, 4#8, 5#8] (2 ^ 63) (by decide) (by decide)).2
      (List.getElem?_eq_none (Nat.le_of_lt (by rw [length_elems]; decide)))⟩

/-- C12 for all builds if the byte offset does not overflow. Missing w.r.t. `C12_claim`: release builds with
`(i + 1) * size >= 2^64`, where the panic is missed (`C12_refuted`). -/
theorem C12_at_partial (p : Profile) (size : Nat) (data : Bytes) (i : Nat) (hs : 0 < size) (hd : data.length < 2 ^ 63)
    (hov : (i + 1) * size < usizeMod) :
    (∀ x, (elems size data)[i]? = some x → ∃ r, View.at' p size data i = .ok r ∧ r.take size = x) ∧
    ((elems size data)[i]? = none → View.at' p size data i = .panic) := by
  refine ⟨C12_in_range p size data i hs hd, ?_⟩
  intro hx
  rw [getElem?_elems] at hx
  split at hx
  · cases hx
  · exact at_out_of_range hs (by omega) (.inr hov)

/-- Even when the index wraps around, a returned reference lies completely inside the view. -/
theorem C12_memory_safe (p : Profile) (size : Nat) (data : Bytes) (i : Nat) (r : Bytes) (hs : size < 2 ^ 63)
    (hd : data.length < 2 ^ 63) (h : View.at' p size data i = .ok r) :
    ∃ off, off + size ≤ data.length ∧ r = data.drop off := by
  unfold View.at' dataIndex at h
  simp only [Out.bind_eq_ok] at h
  obtain ⟨a, h1, b, h2, _, h3, h4⟩ := h
  have hb : b ≤ data.length := by
    unfold assert at h3; split at h3
    · assumption
    · cases h3
  have hr : a ≤ data.length ∧ r = data.drop a := by
    unfold sliceFrom at h4
    split at h4
    · cases h4; exact ⟨by assumption, rfl⟩
    · cases h4
  refine ⟨a, ?_, hr.2⟩
  unfold uadd usizeMod at h2
  split at h2
  · cases h2; exact hb
  · omega

/-- Non-vacuity: the access that goes wrong, `2 ^ 63` elements of two bytes further. -/
example : ∃ r, View.at' .release 2 [1#8, 2#8, 3#8, 4#8] (2 ^ 63 + 1) = .ok r ∧ ∃ off, off + 2 ≤ 4 ∧ r = [1#8, 2#8, 3#8, 4#8].drop off :=
  ⟨[3#8, 4#8], by decide, C12_memory_safe .release 2 [1#8, 2#8, 3#8, 4#8] (2 ^ 63 + 1) [3#8, 4#8] (by decide) (by decide) (by decide)⟩

/-- False in full: without overflow checks `at(2^62)` on a view of one 4-byte element returns element 0. -/
theorem C12_refuted : ¬ C12_claim := by
  intro h
  have := (h .release 4 [1#8, 2#8, 3#8, 4#8] (2 ^ 62) (by decide) (by decide) (by decide)).2 (by
    rw [getElem?_elems]; decide)
  revert this; decide

/-- Non-vacuity: element 1 of a two-element view of 2-byte structs, one spare byte at the end. -/
example : ∃ r, View.at' .release 2 [1#8, 2#8, 3#8, 4#8, 5#8] 1 = .ok r ∧ r.take 2 = [3#8, 4#8] :=
  (C12_at_partial .release 2 [1#8, 2#8, 3#8, 4#8, 5#8] 1 (by decide) (by decide) (by decide)).1 _ (by decide)

/-! ## C13 -/

/-- C13 in full: `slice(lo..hi)` gives the elements `lo .. hi` if that is a range of the list, and panics otherwise. -/
def C13_claim : Prop :=
  ∀ (p : Profile) (size : Nat) (data : Bytes) (lo hi : Bound), 0 < size → data.length < 2 ^ 63 →
    lower lo ≤ usizeMod → upper 0 hi ≤ usizeMod →
    let n := (elems size data).length
    (lower lo ≤ upper n hi ∧ upper n hi ≤ n →
      ∃ d', View.slice p size data lo hi = .ok d' ∧
        elems size d' = ((elems size data).take (upper n hi)).drop (lower lo)) ∧
    (¬ (lower lo ≤ upper n hi ∧ upper n hi ≤ n) → View.slice p size data lo hi = .panic)

theorem C13_slice_in_range (p : Profile) (size : Nat) (data : Bytes) (lo hi : Bound) (hs : 0 < size)
    (hd : data.length < 2 ^ 63)
    (h : lower lo ≤ upper (elems size data).length hi ∧ upper (elems size data).length hi ≤ (elems size data).length) :
    ∃ d', View.slice p size data lo hi = .ok d' ∧
      elems size d' = ((elems size data).take (upper (elems size data).length hi)).drop (lower lo) := by
  rw [length_elems] at h ⊢
  obtain ⟨d', h1, _, h3⟩ := slice_in_range (p := p) hs (show data.length < usizeMod by unfold usizeMod; omega) h.1 h.2
  exact ⟨d', h1, h3⟩

/-- C13 for builds with overflow checks: no restriction. -/
theorem C13_slice_debug (size : Nat) (data : Bytes) (lo hi : Bound) (hs : 0 < size) (hd : data.length < 2 ^ 63) :
    let n := (elems size data).length
    (lower lo ≤ upper n hi ∧ upper n hi ≤ n →
      ∃ d', View.slice .debug size data lo hi = .ok d' ∧
        elems size d' = ((elems size data).take (upper n hi)).drop (lower lo)) ∧
    (¬ (lower lo ≤ upper n hi ∧ upper n hi ≤ n) → View.slice .debug size data lo hi = .panic) := by
  refine ⟨C13_slice_in_range .debug size data lo hi hs hd, ?_⟩
  intro h
  rw [length_elems] at h
  exact slice_out_of_range hs (.inl rfl) h

/-- Non-vacuity, both ways. -/
example : (∃ d', View.slice .debug 2 [1#8, 2#8, 3#8, 4#8, 5#8] (.excluded 0) .unbounded = .ok d' ∧ elems 2 d' = [[3#8, 4#8]]) ∧
    View.slice .debug 2 [1#8, 2#8, 3#8, 4#8, 5#8] (.included 1) (.excluded 0) = .panic :=
  ⟨(C13_slice_debug 2 [1#8, 2#8, 3#8, 4#8, 5#8] (.excluded 0) .unbounded (by decide) (by decide)).1 (by decide),
    (C13_slice_debug 2 [1#8, 2#8, 3#8, 4#8, 5#8] (.included 1) (.excluded 0) (by decide) (by decide)).2 (by decide)⟩

/-- C13 for all builds if the byte offsets do not overflow (missing: wrapping builds with overflowing offsets, false). -/
theorem C13_slice_partial (p : Profile) (size : Nat) (data : Bytes) (lo hi : Bound) (hs : 0 < size)
    (hd : data.length < 2 ^ 63) (hlo : lower lo * size < usizeMod) (hhi : upper 0 hi * size < usizeMod) :
    let n := (elems size data).length
    (lower lo ≤ upper n hi ∧ upper n hi ≤ n →
      ∃ d', View.slice p size data lo hi = .ok d' ∧
        elems size d' = ((elems size data).take (upper n hi)).drop (lower lo)) ∧
    (¬ (lower lo ≤ upper n hi ∧ upper n hi ≤ n) → View.slice p size data lo hi = .panic) := by
  refine ⟨C13_slice_in_range p size data lo hi hs hd, ?_⟩
  intro h
  rw [length_elems] at h
  refine slice_out_of_range hs (.inr ⟨hlo, ?_⟩) h
  cases hi with
  | included i => exact hhi
  | excluded i => exact hhi
  | unbounded =>
    simp only [upper]
    have := Nat.div_mul_le_self data.length size
    unfold usizeMod; omega

/-- A slice is always a part of the view (no memory outside is exposed), whatever wraps. -/
theorem C13_memory_safe (p : Profile) (size : Nat) (data : Bytes) (lo hi : Bound) (d' : Bytes)
    (h : View.slice p size data lo hi = .ok d') : ∃ a b, a ≤ b ∧ b ≤ data.length ∧ d' = (data.take b).drop a := by
  unfold View.slice at h
  simp only [Out.bind_eq_ok] at h
  obtain ⟨a, _, b, _, h3⟩ := h
  unfold sliceRange at h3
  split at h3
  · rename_i hab; cases h3; exact ⟨a, b, hab.1, hab.2, rfl⟩
  · cases h3

/-- Non-vacuity: a range that goes wrong. -/
example : ∃ d', View.slice .release 2 [1#8, 2#8, 3#8, 4#8] (.included 0) (.excluded (2 ^ 63 + 1)) = .ok d' ∧
    ∃ a b, a ≤ b ∧ b ≤ 4 ∧ d' = ([1#8, 2#8, 3#8, 4#8].take b).drop a :=
  ⟨[1#8, 2#8], by decide, C13_memory_safe .release 2 [1#8, 2#8, 3#8, 4#8] (.included 0) (.excluded (2 ^ 63 + 1)) [1#8, 2#8] (by decide)⟩

/-- False in full: `slice(..=usize::MAX)` without overflow checks returns an empty view instead of panicking. -/
theorem C13_refuted : ¬ C13_claim := by
  intro h
  have := (h .release 4 [1#8, 2#8, 3#8, 4#8] .unbounded (.included (2 ^ 64 - 1)) (by decide) (by decide) (by decide)
    (by decide)).2 (by rw [length_elems]; decide)
  revert this; decide

/-- Non-vacuity: `slice(1..=2)` of three elements. -/
example : ∃ d', View.slice .debug 1 [7#8, 8#8, 9#8] (.included 1) (.included 2) = .ok d' ∧ elems 1 d' = [[8#8], [9#8]] :=
  (C13_slice_partial .debug 1 [7#8, 8#8, 9#8] (.included 1) (.included 2) (by decide) (by decide) (by decide)
    (by decide)).1 (by decide)

/-! ## C14 -/

/-- C14: any interleaving of `next` and `next_back` behaves like popping the list of elements from its two ends; the
iterator's `len()` is then the number of elements that remain. Both profiles; no panic, no stray access. -/
theorem C14_iteration (p : Profile) (size : Nat) (data : Bytes) (ops : List End) (hs : 0 < size)
    (hd : data.length < 2 ^ 63) :
    ∃ rs view', run p size ops data = .ok (rs, view') ∧
      rs.map (Option.map (·.take size)) = (deque ops (elems size data)).1 ∧
      elems size view' = (deque ops (elems size data)).2 ∧
      View.iterLen size view' = .ok (deque ops (elems size data)).2.length := by
  obtain ⟨rs, v, h1, _, h3, h4⟩ := run_spec (p := p) hs ops data (by unfold usizeMod; omega)
  refine ⟨rs, v, h1, h3, h4, ?_⟩
  rw [← h4, length_elems]
  exact len_eq hs v

/-- What popping from both ends means: results taken from the front (in order), the rest, and the results taken from the
back (latest first) together are exactly the original list: every element is yielded once, none twice, none is lost. -/
theorem C14_deque_partition {α : Type} : ∀ (ops : List End) (l : List α),
    (((ops.zip (deque ops l).1).filterMap fun x => if x.1 = .front then x.2 else none) ++ (deque ops l).2 ++
      ((ops.zip (deque ops l).1).filterMap fun x => if x.1 = .back then x.2 else none).reverse) = l := by
  intro ops
  induction ops with
  | nil => intro l; simp [deque]
  | cons d ops ih =>
    intro l
    cases d with
    | front =>
      simp only [deque, List.zip_cons_cons]
      have := ih l.tail
      cases l with
      | nil => simpa using this
      | cons x xs =>
        simp only [List.tail_cons] at this
        simp [this]
    | back =>
      simp only [deque, List.zip_cons_cons]
      have := ih l.dropLast
      rcases List.eq_nil_or_concat l with rfl | ⟨xs, x, rfl⟩
      · simpa using this
      · rw [List.concat_eq_append, List.dropLast_concat] at this
        rw [List.concat_eq_append, List.dropLast_concat, List.getLast?_concat]
        simp only [List.filterMap_cons, reduceCtorEq, if_false, if_true, List.reverse_cons, ← List.append_assoc]
        rw [this]

example : deque [.front, .back, .front] [7, 8, 9, 10] = ([some 7, some 10, some 8], [9]) := by decide

/-- After as many calls as there are elements, nothing remains; from then on both ends give `None` (fused). -/
theorem C14_exhausted {α : Type} (ops : List End) (l : List α) :
    (deque ops l).2.length = l.length - ops.length ∧
    (∀ r ∈ (deque ops ([] : List α)).1, r = none) := by
  constructor
  · induction ops generalizing l with
    | nil => simp [deque]
    | cons d ops ih => cases d <;> simp [deque, ih] <;> omega
  · induction ops with
    | nil => simp [deque]
    | cons d ops ih => cases d <;> simpa [deque] using ih

/-- Non-vacuity: three elements, popped front, back, front, back. -/
example : ∃ rs view', run .release 1 [.front, .back, .front, .back] [7#8, 8#8, 9#8] = .ok (rs, view') ∧
    rs.map (Option.map (·.take 1)) = [some [7#8], some [9#8], some [8#8], none] := by
  obtain ⟨rs, v, h1, h2, _⟩ := C14_iteration .release 1 [7#8, 8#8, 9#8] [.front, .back, .front, .back] (by decide) (by decide)
  exact ⟨rs, v, h1, h2⟩

/-! ## C15 (array views) -/

theorem getAll_congr {p : Profile} {e : Endian} {m m' : Bytes} :
    ∀ fs : List Field, (∀ f ∈ fs, f.get p e m = f.get p e m') → getAll p e fs m = getAll p e fs m' := by
  intro fs
  induction fs with
  | nil => intro _; rfl
  | cons f fs ih =>
    intro h
    simp only [getAll, h f (by simp), ih (fun g hg => h g (by simp [hg]))]

theorem debug_take {p : Profile} {e : Endian} {S : StructDef} (wf : WF S)
    (hns : ∀ f ∈ S.fields, NoStraddle f.off f.bits) (mem : Bytes) (hm : S.size ≤ mem.length) :
    S.debug p e mem = S.debug p e (mem.take S.size) := by
  unfold StructDef.debug
  rw [getAll_congr S.fields]
  intro f hf
  have ok := wf.field f hf
  have hin := ok.inside
  refine get_congr ok.pos ok.le (by omega) (by simp; omega) (hns f hf) ?_
  intro k _ hk
  rw [bitAt_take]
  simp [show k < 8 * S.size by omega]

theorem showAll_map {f g : Bytes → Out String} {h : Bytes → Bytes} : ∀ l : List Bytes, (∀ x ∈ l, f x = g (h x)) →
    View.showAll f l = View.showAll g (l.map h) := by
  intro l
  induction l with
  | nil => intro _; rfl
  | cons x xs ih =>
    intro hl
    simp only [View.showAll, List.map_cons, hl x (by simp), ih (fun y hy => hl y (by simp [hy]))]

/-- C15 for array views and their iterators (any iterator state is a view): exact length, `Debug` of the first
`min(len,10)` elements in order, and an ellipsis exactly if there are more than ten. -/
theorem C15_debug_view_partial (p : Profile) (e : Endian) (S : StructDef) (wf : WF S)
    (hns : ∀ f ∈ S.fields, NoStraddle f.off f.bits) (name : String) (data : Bytes) (hs : 0 < S.size)
    (hd : data.length < 2 ^ 63) :
    View.debugFormat p e S name data = (do
      let strs ← View.showAll (S.debug p e) ((elems S.size data).take 10)
      .ok (name ++ " { len: " ++ toString (elems S.size data).length ++ ", data: [" ++ ", ".intercalate strs ++ "]" ++
        (if 10 < (elems S.size data).length then "..." else "") ++ " }")) := by
  have hd' : data.length < usizeMod := by unfold usizeMod; omega
  unfold View.debugFormat
  simp only [View.iterLen, len_eq hs, Out.ok_bind, takeCollect_spec hs _ _ hd', length_elems]
  have hmap : (elems S.size data).take 10 =
      (((List.range (min debugPreviewLen (data.length / S.size))).map fun i => data.drop (i * S.size)).map
        (·.take S.size)) := by
    unfold elems
    rw [← List.map_take, List.take_range, List.map_map]
    rfl
  have hall : View.showAll (S.debug p e)
      ((List.range (min debugPreviewLen (data.length / S.size))).map fun i => data.drop (i * S.size)) =
      View.showAll (S.debug p e) ((elems S.size data).take 10) := by
    rw [hmap]
    apply showAll_map
    intro x hx
    simp only [List.mem_map, List.mem_range] at hx
    obtain ⟨i, hi, rfl⟩ := hx
    apply debug_take wf hns
    have := (div_lt_iff (n := data.length) (i := i) hs).mp (by omega)
    rw [Nat.add_mul, Nat.one_mul] at this
    simp; omega
  rw [hall]
  have hif : (if data.length / S.size ≤ debugPreviewLen then "" else "...") =
      (if 10 < data.length / S.size then "..." else "") := by
    unfold debugPreviewLen
    by_cases h : data.length / S.size ≤ 10
    · rw [if_pos h, if_neg (by omega)]
    · rw [if_neg h, if_pos (by omega)]
  rw [hif]

/-- Non-vacuity: a view of two chapters. -/
example : View.debugFormat .debug .little Coappearances.Chapter "ArrayView" [0x21#8, 0#8, 0x32#8, 0#8] =
    .ok "ArrayView { len: 2, data: [Chapter { major: 1, minor: 2 }, Chapter { major: 2, minor: 3 }] }" := by
  rw [C15_debug_view_partial .debug .little Coappearances.Chapter (wf_of_plain (by decide) (by decide)) (by decide) _ _
    (by decide) (by decide)]
  decide

end Flatdata
