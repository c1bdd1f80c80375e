import Verif.Props.Views
import Verif.Props.MultiViews
/-!
# C12, C13, C28 exactly: when out-of-range access panics

With overflow checks it always does (except for `slice(i+1..i)` of a multi array view). Without them byte offsets are computed
modulo 2^64; the theorems say what comes out in every case.
-/
namespace Flatdata
open Spec View

theorem uadd_release (a b : Nat) : uadd .release a b = .ok ((a + b) % 2 ^ 64) := by
  unfold uadd usizeMod
  split
  · rw [Nat.mod_eq_of_lt (by assumption)]
  · rfl

theorem umul_release (a b : Nat) : umul .release a b = .ok ((a * b) % 2 ^ 64) := by
  unfold umul usizeMod
  split
  · rw [Nat.mod_eq_of_lt (by assumption)]
  · rfl

/-- `at` without overflow checks, for every index: the byte offset is taken modulo 2^64 and must lie inside. -/
theorem C12_at_release (size : Nat) (data : Bytes) (i : Nat) (hs : size < 2 ^ 63) (hd : data.length < 2 ^ 63) :
    View.at' .release size data i =
      if i * size % 2 ^ 64 + size ≤ data.length then .ok (data.drop (i * size % 2 ^ 64)) else .panic := by
  unfold View.at' dataIndex
  rw [umul_release, Out.ok_bind, uadd_release, Out.ok_bind]
  generalize hx : i * size % 2 ^ 64 = x
  have hx' : x < 2 ^ 64 := by rw [← hx]; exact Nat.mod_lt _ (by decide)
  by_cases h : x + size ≤ data.length
  · rw [if_pos h, assert_true (by rw [Nat.mod_eq_of_lt (by omega)]; exact h), Out.ok_bind]
    unfold sliceFrom
    rw [if_pos (by omega)]
  · rw [if_neg h]
    by_cases h' : (x + size) % 2 ^ 64 ≤ data.length
    · rw [assert_true h', Out.ok_bind]
      unfold sliceFrom
      rw [if_neg (by omega)]
    · rw [assert_false h']; rfl

/-- Non-vacuity: the access wraps to the second of two elements. -/
example : View.at' .release 4 [1#8, 2#8, 3#8, 4#8, 5#8, 6#8, 7#8, 8#8] (2 ^ 62 + 1) = .ok [5#8, 6#8, 7#8, 8#8] := by
  rw [C12_at_release 4 _ _ (by decide) (by decide)]
  decide

/-- C12 exactly: an index out of range is noticed if and only if overflow is checked or the byte offset modulo 2^64 does not
lie inside the view. -/
theorem C12_at_exact (p : Profile) (size : Nat) (data : Bytes) (i : Nat) (h0 : 0 < size) (hs : size < 2 ^ 63)
    (hd : data.length < 2 ^ 63) (hi : (elems size data).length ≤ i) :
    View.at' p size data i = .panic ↔ p = .debug ∨ data.length < i * size % 2 ^ 64 + size := by
  cases p with
  | debug =>
    refine ⟨fun _ => .inl rfl, fun _ => (C12_at_debug size data i h0 hd).2 ?_⟩
    rw [List.getElem?_eq_none_iff]; exact hi
  | release =>
    rw [C12_at_release size data i hs hd]
    split
    · rename_i h
      constructor
      · intro h'; cases h'
      · rintro (h' | h')
        · cases h'
        · omega
    · exact ⟨fun _ => .inr (by omega), fun _ => rfl⟩

/-- Both happen: the indices 2^62 and 1 of a view of one struct of four bytes. -/
example : View.at' .release 4 [1#8, 2#8, 3#8, 4#8] (2 ^ 62) ≠ .panic ∧ View.at' .release 4 [1#8, 2#8, 3#8, 4#8] 1 = .panic := by
  constructor
  · rw [Ne, C12_at_exact .release 4 _ _ (by decide) (by decide) (by decide) (by rw [length_elems]; decide)]
    rintro (h | h)
    · cases h
    · revert h; decide
  · rw [C12_at_exact .release 4 _ _ (by decide) (by decide) (by decide) (by rw [length_elems]; decide)]
    exact .inr (by decide)

/-! ## `slice` -/

/-- The byte offset where a range begins, modulo 2^64. -/
def Spec.wrapStart (size : Nat) (lo : Bound) : Nat := lower lo * size % 2 ^ 64

/-- The byte offset where a range of a view of `len` bytes ends, modulo 2^64. -/
def Spec.wrapEnd (size len : Nat) : Bound → Nat
  | .unbounded => len
  | hi => upper 0 hi * size % 2 ^ 64

/-- `slice` without overflow checks, for all bounds. -/
theorem C13_slice_release (size : Nat) (data : Bytes) (lo hi : Bound) :
    View.slice .release size data lo hi =
      if wrapStart size lo ≤ wrapEnd size data.length hi ∧ wrapEnd size data.length hi ≤ data.length
      then .ok ((data.take (wrapEnd size data.length hi)).drop (wrapStart size lo)) else .panic := by
  have key : ∀ i, (do let i ← uadd .release i 1; dataIndex .release size i) = .ok ((i + 1) * size % 2 ^ 64) := by
    intro i
    unfold dataIndex
    rw [uadd_release, Out.ok_bind, umul_release, Nat.mod_mul_mod]
  have h1 : startIndex .release size lo = .ok (wrapStart size lo) := by
    cases lo with
    | included i => exact umul_release i size
    | excluded i => exact key i
    | unbounded => simp [startIndex, wrapStart, lower]
  have h2 : endIndex .release size data hi = .ok (wrapEnd size data.length hi) := by
    cases hi with
    | included i => exact key i
    | excluded i => exact umul_release i size
    | unbounded => rfl
  unfold View.slice
  rw [h1, Out.ok_bind, h2, Out.ok_bind]
  rfl

/-- Non-vacuity: the end of the range wraps to the first of two elements. -/
example : View.slice .release 4 [1#8, 2#8, 3#8, 4#8, 5#8, 6#8, 7#8, 8#8] (.included 0) (.included (2 ^ 62)) = .ok [1#8, 2#8, 3#8, 4#8] := by
  rw [C13_slice_release]
  decide

/-- C13 exactly: a range that is not one of the view is noticed if and only if overflow is checked or the byte offsets modulo
2^64 are not a range of the bytes. -/
theorem C13_slice_exact (p : Profile) (size : Nat) (data : Bytes) (lo hi : Bound) (h0 : 0 < size) (hd : data.length < 2 ^ 63)
    (h : ¬ (lower lo ≤ upper (elems size data).length hi ∧ upper (elems size data).length hi ≤ (elems size data).length)) :
    View.slice p size data lo hi = .panic ↔ p = .debug ∨
      ¬ (wrapStart size lo ≤ wrapEnd size data.length hi ∧ wrapEnd size data.length hi ≤ data.length) := by
  cases p with
  | debug => exact ⟨fun _ => .inl rfl, fun _ => (C13_slice_debug size data lo hi h0 hd).2 h⟩
  | release =>
    rw [C13_slice_release]
    split
    · rename_i h1
      constructor
      · intro h'; cases h'
      · rintro (h' | h')
        · cases h'
        · exact absurd h1 h'
    · rename_i h1
      exact ⟨fun _ => .inr h1, fun _ => rfl⟩

/-- Both happen: `..=usize::MAX` and `..2` of a view of one struct of four bytes. -/
example : View.slice .release 4 [1#8, 2#8, 3#8, 4#8] .unbounded (.included (2 ^ 64 - 1)) ≠ .panic ∧
    View.slice .release 4 [1#8, 2#8, 3#8, 4#8] .unbounded (.excluded 2) = .panic := by
  constructor
  · rw [Ne, C13_slice_exact .release 4 _ _ _ (by decide) (by decide) (by rw [length_elems]; decide)]
    rintro (h | h)
    · cases h
    · revert h; decide
  · rw [C13_slice_exact .release 4 _ _ _ (by decide) (by decide) (by rw [length_elems]; decide)]
    exact .inr (by decide)

/-! ## Multi array views -/

/-- `MultiArrayView::at` without overflow checks, for all contents and indices: both offsets are taken modulo 2^64, what is
found there must be a range of the data. -/
theorem C28_at_release (e : Endian) (V : Variadic) (v : MultiView) (i : Nat) (hv : IndexOK V) (hs : V.indexSize < 2 ^ 63)
    (hd : v.index.length < 2 ^ 63) :
    let a := i * V.indexSize % 2 ^ 64
    let b := (i + 1) * V.indexSize % 2 ^ 64
    let start := fieldRaw (v.index.drop a) 0 V.indexBits
    let stop := fieldRaw (v.index.drop b) 0 V.indexBits
    MultiView.at' .release e V v i =
      if a + V.indexSize ≤ v.index.length ∧ b + V.indexSize ≤ v.index.length ∧ start ≤ stop ∧ stop ≤ v.data.length
      then .ok ((v.data.take stop).drop start) else .panic := by
  intro a b start stop
  have entry : ∀ j, (do let x ← View.at' .release V.indexSize v.index j; getIndex .release e V.indexBits x) =
      if j * V.indexSize % 2 ^ 64 + V.indexSize ≤ v.index.length then
        .ok (fieldRaw (v.index.drop (j * V.indexSize % 2 ^ 64)) 0 V.indexBits) else .panic := by
    intro j
    rw [C12_at_release _ _ _ hs hd]
    split
    · rename_i h
      have := hv.inside
      rw [Out.ok_bind, getIndex_eq hv.pos hv.le (by simp; omega)]
    · rfl
  rw [at_eq, entry i, uadd_release]
  by_cases h1 : a + V.indexSize ≤ v.index.length
  · rw [if_pos h1, Out.ok_bind, Out.ok_bind, entry, Nat.mod_mul_mod]
    by_cases h2 : b + V.indexSize ≤ v.index.length
    · rw [if_pos h2, Out.ok_bind]
      unfold sliceRange
      by_cases h3 : start ≤ stop ∧ stop ≤ v.data.length
      · rw [if_pos h3, if_pos ⟨h1, h2, h3⟩]
      · rw [if_neg h3, if_neg (fun h => h3 h.2.2)]
    · rw [if_neg h2, if_neg (fun h => h2 h.2.1)]; rfl
  · rw [if_neg h1, if_neg (fun h => h1 h.1)]; rfl

/-- Non-vacuity: the access wraps to the first item. -/
example : MultiView.at' .release .big Coappearances.VerticesData MultiExample.view (2 ^ 62) =
    .ok [0#8, 7#8, 0#8, 0#8, 0#8, 2#8, 1#8, 0#8, 0#8, 0#8, 2#8, 0#8] :=
  (C28_at_release .big Coappearances.VerticesData MultiExample.view (2 ^ 62) MultiExample.ok.index (by decide) (by decide)).trans (by decide)

/-- C28 exactly, for `at`: an index out of range is noticed if and only if overflow is checked or the offsets modulo 2^64 do not
lie inside the index or do not lead to a range of the data. -/
theorem C28_at_exact (p : Profile) (e : Endian) (V : Variadic) (v : MultiView) (ok : MultiOK V v) (hs : V.indexSize < 2 ^ 63) (i : Nat)
    (hi : (items V v).length ≤ i) :
    let a := i * V.indexSize % 2 ^ 64
    let b := (i + 1) * V.indexSize % 2 ^ 64
    MultiView.at' p e V v i = .panic ↔ p = .debug ∨ ¬ (a + V.indexSize ≤ v.index.length ∧ b + V.indexSize ≤ v.index.length ∧
      fieldRaw (v.index.drop a) 0 V.indexBits ≤ fieldRaw (v.index.drop b) 0 V.indexBits ∧
      fieldRaw (v.index.drop b) 0 V.indexBits ≤ v.data.length) := by
  intro a b
  cases p with
  | debug => exact ⟨fun _ => .inl rfl, fun _ => C28_at_out_partial .debug e V v ok i hi (.inl rfl)⟩
  | release =>
    have h := C28_at_release e V v i ok.def_ok hs ok.size
    simp only at h
    rw [h]
    split
    · rename_i h1
      constructor
      · intro h'; cases h'
      · rintro (h' | h')
        · cases h'
        · exact absurd h1 h'
    · rename_i h1
      exact ⟨fun _ => .inr h1, fun _ => rfl⟩

/-- Both happen: the indices 2^62 and 3 of the example view. -/
example : MultiView.at' .release .little Coappearances.VerticesData MultiExample.view (2 ^ 62) ≠ .panic ∧
    MultiView.at' .release .little Coappearances.VerticesData MultiExample.view 3 = .panic := by
  have ok := MultiExample.view_ok
  constructor
  · exact fun h => absurd ((C28_at_exact .release .little _ _ ok (by decide) (2 ^ 62) (by decide)).1 h) (by decide)
  · exact (C28_at_exact .release .little _ _ ok (by decide) 3 (by decide)).2 (by decide)

/-- `MultiArrayView::slice` without overflow checks, for all contents and bounds. -/
theorem C28_slice_release (V : Variadic) (v : MultiView) (lo hi : Bound) (h0 : 0 < V.indexSize) (hn : V.indexSize ≤ v.index.length)
    (hd : v.index.length < 2 ^ 63) :
    let n := v.index.length / V.indexSize - 1
    let a := lower lo * V.indexSize % 2 ^ 64
    let b := (upper n hi + 1) * V.indexSize % 2 ^ 64
    MultiView.slice .release V v lo hi =
      if a ≤ b ∧ b ≤ v.index.length then .ok ⟨(v.index.take b).drop a, v.data⟩ else .panic := by
  intro n a b
  have hpos : 0 < v.index.length / V.indexSize := Nat.div_pos hn h0
  have hle : v.index.length / V.indexSize ≤ v.index.length := Nat.div_le_self _ _
  have h1 : MultiView.startIndex .release lo = .ok (lower lo % 2 ^ 64) ∨ MultiView.startIndex .release lo = .ok (lower lo) := by
    cases lo with
    | excluded i => exact .inl (uadd_release i 1)
    | _ => exact .inr rfl
  have h2 : MultiView.endIndex .release V v hi = .ok ((upper n hi + 1) % 2 ^ 64) := by
    cases hi with
    | included i => exact uadd_release i 2
    | excluded i => exact uadd_release i 1
    | unbounded =>
      change View.len _ _ = _
      rw [len_eq h0]
      congr 1
      change _ = (n + 1) % 2 ^ 64
      rw [Nat.mod_eq_of_lt (by omega)]; omega
  have key : ∀ x, x = lower lo % 2 ^ 64 ∨ x = lower lo → View.slice .release V.indexSize v.index (.included x) (.excluded ((upper n hi + 1) % 2 ^ 64)) =
      if a ≤ b ∧ b ≤ v.index.length then .ok ((v.index.take b).drop a) else .panic := by
    intro x hx
    rw [C13_slice_release]
    have e1 : wrapStart V.indexSize (.included x) = a := by
      rcases hx with rfl | rfl
      · exact Nat.mod_mul_mod ..
      · rfl
    have e2 : wrapEnd V.indexSize v.index.length (.excluded ((upper n hi + 1) % 2 ^ 64)) = b := Nat.mod_mul_mod ..
    rw [e1, e2]
  unfold MultiView.slice
  rcases h1 with h1 | h1 <;> rw [h1, Out.ok_bind, h2, Out.ok_bind]
  · rw [key _ (.inl rfl)]
    split <;> rfl
  · rw [key _ (.inr rfl)]
    split <;> rfl

/-- Non-vacuity: the range `1..=2^62` wraps to one item. -/
example : MultiView.slice .release Coappearances.VerticesData MultiExample.view (.included 1) (.included (2 ^ 62 + 1)) =
    .ok ⟨[12#8, 0#8, 0#8, 0#8, 12#8, 0#8, 0#8, 0#8], MultiExample.view.data⟩ :=
  (C28_slice_release Coappearances.VerticesData MultiExample.view (.included 1) (.included (2 ^ 62 + 1)) (by decide) (by decide)
    (by decide)).trans (by decide)

/-- C28 exactly, for `slice`: a range that is not one of the view is noticed, with overflow checks, if and only if it is not of
the form `i+1..i`; without them, if and only if the byte offsets modulo 2^64 are not a range of the bytes of the index. -/
theorem C28_slice_exact (p : Profile) (V : Variadic) (v : MultiView) (ok : MultiOK V v) (lo hi : Bound)
    (hl : lower lo < 2 ^ 64) (hu : upper (items V v).length hi + 1 < 2 ^ 64)
    (h : ¬ (lower lo ≤ upper (items V v).length hi ∧ upper (items V v).length hi ≤ (items V v).length)) :
    MultiView.slice p V v lo hi = .panic ↔ match p with
      | .debug => ¬ (lower lo = upper (items V v).length hi + 1 ∧ upper (items V v).length hi ≤ (items V v).length)
      | .release => ¬ (lower lo * V.indexSize % 2 ^ 64 ≤ (upper (items V v).length hi + 1) * V.indexSize % 2 ^ 64 ∧
          (upper (items V v).length hi + 1) * V.indexSize % 2 ^ 64 ≤ v.index.length) := by
  have hs := ok.def_ok.size_pos
  have hsz := ok.size
  have hne := List.length_pos_iff.mpr ok.sentinel
  have hlen := length_items V v
  have hoff := length_offsets V v.index
  have hn : V.indexSize ≤ v.index.length := by
    refine Decidable.byContradiction fun hc => ?_
    rw [Nat.div_eq_of_lt (by omega)] at hoff; omega
  cases p with
  | debug =>
    constructor
    · rintro h' ⟨h1, h2⟩
      -- the slice of the index is empty but in range
      have hd : v.index.length < usizeMod := by unfold usizeMod; omega
      obtain ⟨d, g1, _⟩ := slice_in_range (p := .debug) (lo := .included (lower lo)) (hi := .excluded (lower lo)) hs hd
        (by simp [lower, upper]) (by simp only [upper]; omega)
      have e1 : MultiView.startIndex .debug lo = .ok (lower lo) := by
        cases lo with
        | excluded i => exact uadd_ok (p := .debug) (a := i) (b := 1) (by unfold usizeMod; exact hl)
        | _ => rfl
      have e2 : MultiView.endIndex .debug V v hi = .ok (lower lo) := by
        rw [h1]
        cases hi with
        | included i => exact uadd_ok (p := .debug) (a := i) (b := 2) (by unfold usizeMod; simp only [upper] at hu; omega)
        | excluded i => exact uadd_ok (p := .debug) (a := i) (b := 1) (by unfold usizeMod; simp only [upper] at hu; omega)
        | unbounded =>
          change View.len _ _ = _
          rw [len_eq hs]
          congr 1
          simp only [upper]
          omega
      have : MultiView.slice .debug V v lo hi = .ok ⟨d, v.data⟩ := by
        unfold MultiView.slice
        rw [e1, Out.ok_bind, e2, Out.ok_bind, g1]; rfl
      rw [this] at h'; cases h'
    · intro h'
      exact C28_slice_out_partial V v ok lo hi (by omega)
  | release =>
    have hr := C28_slice_release V v lo hi hs hn hsz
    simp only at hr
    rw [← hoff, ← hlen] at hr
    simp only [hr]
    split
    · rename_i h1
      exact ⟨fun h' => (by cases h'), fun h' => absurd h1 h'⟩
    · rename_i h1
      exact ⟨fun _ => h1, fun _ => rfl⟩

/-- Both happen, with overflow checks and without. -/
example : MultiView.slice .debug Coappearances.VerticesData MultiExample.view (.included 1) (.excluded 0) ≠ .panic ∧
    MultiView.slice .debug Coappearances.VerticesData MultiExample.view (.included 2) (.excluded 0) = .panic ∧
    MultiView.slice .release Coappearances.VerticesData MultiExample.view (.included (2 ^ 62)) .unbounded ≠ .panic ∧
    MultiView.slice .release Coappearances.VerticesData MultiExample.view (.included 2) (.excluded 0) = .panic := by
  have ok := MultiExample.view_ok
  refine ⟨?_, ?_, ?_, ?_⟩
  · rw [Ne, C28_slice_exact .debug _ _ ok _ _ (by decide) (by decide) (by decide)]; decide
  · rw [C28_slice_exact .debug _ _ ok _ _ (by decide) (by decide) (by decide)]; decide
  · rw [Ne, C28_slice_exact .release _ _ ok _ _ (by decide) (by decide) (by decide)]; decide
  · rw [C28_slice_exact .release _ _ ok _ _ (by decide) (by decide) (by decide)]; decide

end Flatdata
