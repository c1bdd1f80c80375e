import Verif.Model.Narrow
import Verif.Spec.Narrow
import Verif.Proofs.Blind
import Verif.Proofs.MultiView
/-!
# Hosts with another width of `usize`
-/
namespace Flatdata
open Spec

namespace Narrow
variable {m : Nat}

/-! ## With 64 bits these are the functions of the model -/

theorem uadd_wide : uadd usizeMod = Flatdata.uadd := rfl
theorem umul_wide : umul usizeMod = Flatdata.umul := rfl
theorem usub_wide : usub usizeMod = Flatdata.usub := rfl

theorem at_wide : View.at' usizeMod = Flatdata.View.at' := rfl

theorem slice_wide (p : Profile) (size : Nat) (data : Bytes) (lo hi : Bound) :
    View.slice usizeMod p size data lo hi = Flatdata.View.slice p size data lo hi := by
  cases lo <;> cases hi <;> rfl

theorem next_wide (p : Profile) (size : Nat) (data : Bytes) : View.next usizeMod p size data = Flatdata.View.next p size data := by
  unfold View.next Flatdata.View.next
  simp only [slice_wide]
  rfl

theorem nextBack_wide (p : Profile) (size : Nat) (data : Bytes) :
    View.nextBack usizeMod p size data = Flatdata.View.nextBack p size data := by
  unfold View.nextBack Flatdata.View.nextBack
  simp only [slice_wide]
  rfl

/-! ## Views -/

theorem uadd_ok {p : Profile} {a b : Nat} (h : a + b < m) : uadd m p a b = .ok (a + b) := by simp [uadd, h]
theorem umul_ok {p : Profile} {a b : Nat} (h : a * b < m) : umul m p a b = .ok (a * b) := by simp [umul, h]
theorem usub_ok {p : Profile} {a b : Nat} (h : b ≤ a) : usub m p a b = .ok (a - b) := by simp [usub, h]
theorem uadd_panic {a b : Nat} (h : ¬ a + b < m) : uadd m .debug a b = .panic := by simp [uadd, h]
theorem umul_panic {a b : Nat} (h : ¬ a * b < m) : umul m .debug a b = .panic := by simp [umul, h]

/-- `at` without overflow. -/
theorem at_eq {p : Profile} {size : Nat} {data : Bytes} {i : Nat} (h : (i + 1) * size < m) :
    View.at' m p size data i = if (i + 1) * size ≤ data.length then .ok (data.drop (i * size)) else .panic := by
  rw [Nat.add_mul, Nat.one_mul] at h ⊢
  unfold View.at' View.dataIndex
  rw [umul_ok (by omega), Out.ok_bind, uadd_ok h, Out.ok_bind]
  by_cases hl : i * size + size ≤ data.length
  · rw [assert_true hl, Out.ok_bind, if_pos hl]
    unfold sliceFrom
    rw [if_pos (by omega)]
  · rw [assert_false hl, if_neg hl]; rfl

/-- `at` in debug builds. -/
theorem at_debug {size : Nat} {data : Bytes} {i : Nat} (hd : data.length < m) :
    View.at' m .debug size data i = if (i + 1) * size ≤ data.length then .ok (data.drop (i * size)) else .panic := by
  by_cases h : (i + 1) * size < m
  · exact at_eq h
  · rw [if_neg (by omega)]
    rw [Nat.add_mul, Nat.one_mul] at h
    unfold View.at' View.dataIndex
    by_cases h1 : i * size < m
    · rw [umul_ok h1, Out.ok_bind, uadd_panic h]; rfl
    · rw [umul_panic h1]; rfl

/-- The end of a range in bytes. -/
def endByte (size : Nat) (data : Bytes) : Bound → Nat
  | .included i => (i + 1) * size
  | .excluded i => i * size
  | .unbounded => data.length

/-- The outcome of `slice` by the mathematical bounds. -/
def sliced (size : Nat) (data : Bytes) (lo hi : Bound) : Out Bytes := sliceRange data (lower lo * size) (endByte size data hi)

theorem startIndex_eq {p : Profile} {size : Nat} {lo : Bound} (h0 : lower lo < m) (h : lower lo * size < m) :
    View.startIndex m p size lo = .ok (lower lo * size) := by
  cases lo with
  | included i => exact umul_ok h
  | excluded i =>
    have h : (i + 1) * size < m := h
    change (uadd m p i 1 >>= fun j => View.dataIndex m p size j) = _
    rw [uadd_ok (show i + 1 < m from h0), Out.ok_bind]
    exact umul_ok h
  | unbounded => exact congrArg Out.ok (Nat.zero_mul size).symm

theorem endIndex_eq {p : Profile} {size : Nat} {data : Bytes} {hi : Bound} (h0 : upper 0 hi < m) (h : upper 0 hi * size < m) :
    View.endIndex m p size data hi = .ok (endByte size data hi) := by
  cases hi with
  | included i =>
    have h : (i + 1) * size < m := h
    change (uadd m p i 1 >>= fun j => View.dataIndex m p size j) = _
    rw [uadd_ok (show i + 1 < m from h0), Out.ok_bind]
    exact umul_ok h
  | excluded i => exact umul_ok h
  | unbounded => rfl

/-- `slice` without overflow. -/
theorem slice_eq {p : Profile} {size : Nat} {data : Bytes} {lo hi : Bound} (h1 : lower lo < m) (h2 : lower lo * size < m)
    (h3 : upper 0 hi < m) (h4 : upper 0 hi * size < m) : View.slice m p size data lo hi = sliced size data lo hi := by
  unfold View.slice
  rw [startIndex_eq h1 h2, Out.ok_bind, endIndex_eq h3 h4, Out.ok_bind]
  rfl

theorem startIndex_panic {size : Nat} {lo : Bound} (h : ¬ lower lo * size < m) (hm : 0 < m) :
    View.startIndex m .debug size lo = .panic := by
  cases lo with
  | included i => exact umul_panic h
  | excluded i =>
    have h : ¬ (i + 1) * size < m := h
    change (uadd m .debug i 1 >>= fun j => View.dataIndex m .debug size j) = _
    by_cases h1 : i + 1 < m
    · rw [uadd_ok h1, Out.ok_bind]; exact umul_panic h
    · rw [uadd_panic h1]; rfl
  | unbounded => rw [show lower .unbounded = 0 from rfl, Nat.zero_mul] at h; exact absurd hm h

theorem endIndex_panic {size : Nat} {data : Bytes} {hi : Bound} (h : ¬ upper 0 hi * size < m) (hm : 0 < m) :
    View.endIndex m .debug size data hi = .panic := by
  cases hi with
  | included i =>
    have h : ¬ (i + 1) * size < m := h
    change (uadd m .debug i 1 >>= fun j => View.dataIndex m .debug size j) = _
    by_cases h1 : i + 1 < m
    · rw [uadd_ok h1, Out.ok_bind]; exact umul_panic h
    · rw [uadd_panic h1]; rfl
  | excluded i => exact umul_panic h
  | unbounded => rw [show upper 0 .unbounded = 0 from rfl, Nat.zero_mul] at h; exact absurd hm h

theorem lt_of_mul {a s : Nat} (hs : 0 < s) (h : a * s < m) : a < m :=
  Nat.lt_of_le_of_lt (Nat.le_mul_of_pos_right a hs) h

/-- `slice` in debug builds. -/
theorem slice_debug {size : Nat} {data : Bytes} {lo hi : Bound} (hs : 0 < size) (hd : data.length < m) :
    View.slice m .debug size data lo hi = sliced size data lo hi := by
  by_cases h1 : lower lo * size < m
  · by_cases h2 : upper 0 hi * size < m
    · exact slice_eq (lt_of_mul hs h1) h1 (lt_of_mul hs h2) h2
    · unfold View.slice
      rw [startIndex_eq (lt_of_mul hs h1) h1, Out.ok_bind, endIndex_panic h2 (by omega)]
      unfold sliced sliceRange
      rw [if_neg]
      · rfl
      · intro hc
        have h2' : m ≤ upper 0 hi * size := by omega
        cases hi with
        | included i => have h2' : m ≤ (i + 1) * size := h2'; have : (i + 1) * size ≤ data.length := hc.2; omega
        | excluded i => have h2' : m ≤ i * size := h2'; have : i * size ≤ data.length := hc.2; omega
        | unbounded => rw [show upper 0 .unbounded = 0 from rfl, Nat.zero_mul] at h2'; omega
  · unfold View.slice
    rw [startIndex_panic h1 (by omega)]
    unfold sliced sliceRange
    rw [if_neg]
    · rfl
    · intro hc; omega

/-- `next` is the same on all hosts that can hold the data. -/
theorem next_eq {p : Profile} {size : Nat} {data : Bytes} (hd : data.length < m) :
    View.next m p size data = (do
      let e ← Flatdata.View.isEmpty size data
      if !e then do
        let element ← (if (0 + 1) * size ≤ data.length then .ok (data.drop (0 * size)) else .panic : Out Bytes)
        let view ← sliced size data (.included 1) .unbounded
        .ok (some element, view)
      else .ok (none, data)) := by
  unfold View.next
  unfold Flatdata.View.isEmpty Flatdata.View.len
  by_cases hs : size = 0
  · rw [if_pos hs]; rfl
  · rw [if_neg hs, Out.ok_bind, Out.ok_bind]
    by_cases hz : data.length / size = 0
    · rw [hz]; rfl
    · have hb : (data.length / size == 0) = false := by simpa using hz
      rw [hb]
      have h1 : 1 ≤ data.length / size := Nat.one_le_iff_ne_zero.mpr hz
      have h2 : 1 * size ≤ data.length := (Nat.le_div_iff_mul_le (by omega)).mp h1
      rw [at_eq (by omega), slice_eq (show 1 < m by omega) (show 1 * size < m by omega) (show 0 < m by omega)
        (show 0 * size < m by omega)]
      rfl

/-- ... and so is `next_back`. -/
theorem nextBack_eq {p : Profile} {size : Nat} {data : Bytes} (hd : data.length < m) :
    View.nextBack m p size data = (do
      let e ← Flatdata.View.isEmpty size data
      if !e then do
        let l ← Flatdata.View.len size data
        let element ← (if (l - 1 + 1) * size ≤ data.length then .ok (data.drop ((l - 1) * size)) else .panic : Out Bytes)
        let view ← sliced size data .unbounded (.excluded (l - 1))
        .ok (some element, view)
      else .ok (none, data)) := by
  unfold View.nextBack
  unfold Flatdata.View.isEmpty Flatdata.View.len
  by_cases hs : size = 0
  · rw [if_pos hs]; rfl
  · rw [if_neg hs, Out.ok_bind, Out.ok_bind]
    by_cases hz : data.length / size = 0
    · rw [hz]; rfl
    · have hb : (data.length / size == 0) = false := by simpa using hz
      rw [hb]
      have h1 : 1 ≤ data.length / size := Nat.one_le_iff_ne_zero.mpr hz
      have h2 : data.length / size * size ≤ data.length := Nat.div_mul_le_self _ _
      have hs' : 0 < size := by omega
      generalize data.length / size = n at h1 h2
      have h3 : (n - 1 + 1) * size ≤ data.length := by rw [Nat.sub_add_cancel h1]; exact h2
      have h4 : (n - 1) * size ≤ data.length := by rw [Nat.add_mul] at h3; omega
      simp only [Out.ok_bind, Bool.not_false, if_true]
      rw [usub_ok h1, Out.ok_bind, at_eq (by omega),
        slice_eq (show 0 < m by omega) (show 0 * size < m by omega) (show n - 1 < m from lt_of_mul hs' (by omega))
          (show (n - 1) * size < m by omega)]

theorem next_same {p : Profile} {size : Nat} {data : Bytes} (hd : data.length < m) (hm : m ≤ usizeMod) :
    View.next m p size data = Flatdata.View.next p size data := by
  rw [← next_wide, next_eq hd, next_eq (by omega)]

theorem nextBack_same {p : Profile} {size : Nat} {data : Bytes} (hd : data.length < m) (hm : m ≤ usizeMod) :
    View.nextBack m p size data = Flatdata.View.nextBack p size data := by
  rw [← nextBack_wide, nextBack_eq hd, nextBack_eq (by omega)]

theorem at_same {p : Profile} {size : Nat} {data : Bytes} {i : Nat} (hm : m ≤ usizeMod) (h : (i + 1) * size < m) :
    View.at' m p size data i = Flatdata.View.at' p size data i := by
  rw [← at_wide, at_eq h, at_eq (by omega)]

theorem at_same_debug {size : Nat} {data : Bytes} {i : Nat} (hm : m ≤ usizeMod) (hd : data.length < m) :
    View.at' m .debug size data i = Flatdata.View.at' .debug size data i := by
  rw [← at_wide, at_debug hd, at_debug (by omega)]

theorem slice_same {p : Profile} {size : Nat} {data : Bytes} {lo hi : Bound} (hm : m ≤ usizeMod) (h1 : lower lo < m)
    (h2 : lower lo * size < m) (h3 : upper 0 hi < m) (h4 : upper 0 hi * size < m) :
    View.slice m p size data lo hi = Flatdata.View.slice p size data lo hi := by
  rw [← slice_wide, slice_eq h1 h2 h3 h4, slice_eq (by omega) (by omega) (by omega) (by omega)]

theorem slice_same_debug {size : Nat} {data : Bytes} {lo hi : Bound} (hm : m ≤ usizeMod) (hs : 0 < size) (hd : data.length < m) :
    View.slice m .debug size data lo hi = Flatdata.View.slice .debug size data lo hi := by
  rw [← slice_wide, slice_debug hs hd, slice_debug hs (by omega)]

/-- Memory safety: what `at` hands out has room for the struct. -/
theorem at_safe {p : Profile} {size : Nat} {data : Bytes} {i : Nat} {r : Bytes} (hs : 2 * size ≤ m) (hd : 2 * data.length < m)
    (h : View.at' m p size data i = .ok r) : ∃ off, off + size ≤ data.length ∧ r = data.drop off := by
  unfold View.at' View.dataIndex at h
  simp only [Out.bind_eq_ok] at h
  obtain ⟨a, -, b, h2, _, h3, h4⟩ := h
  have hb : b ≤ data.length := by
    unfold assert at h3; split at h3
    · assumption
    · cases h3
  have ha : a ≤ data.length ∧ r = data.drop a := by
    unfold sliceFrom at h4; split at h4
    · rename_i h; cases h4; exact ⟨h, rfl⟩
    · cases h4
  refine ⟨a, ?_, ha.2⟩
  have hlt : a + size < m := by omega
  rw [uadd_ok hlt] at h2
  cases h2
  exact hb

/-! ## Multi views -/

theorem getIndex_wide {p : Profile} {e : Endian} {bits : Nat} {mem : Bytes} (h1 : 1 ≤ bits) (h2 : bits ≤ 64) (h3 : bits ≤ 8 * mem.length) :
    MultiView.getIndex usizeMod p e bits mem = Flatdata.getIndex p e bits mem := by
  unfold MultiView.getIndex
  rw [getIndex_eq h1 h2 h3, Out.ok_bind]
  have : fieldRaw mem 0 bits < 2 ^ bits := fieldRaw_lt ..
  have : 2 ^ bits ≤ 2 ^ 64 := Nat.pow_le_pow_right (by decide) h2
  rw [Nat.mod_eq_of_lt (by unfold usizeMod; omega)]

theorem mapBind {α β : Type} {x y : Out α} {f g : α → Out β} (h : x = y) (hf : ∀ a, y = .ok a → f a = g a) : (x >>= f) = (y >>= g) := by
  subst h
  cases x with
  | ok a => exact hf a rfl
  | panic => rfl
  | ub => rfl

/-- `at` of a multi view: what the wide host returns the narrow one returns too. -/
theorem multi_at_ok {p : Profile} {e : Endian} {V : Variadic} {v : Flatdata.MultiView} {i : Nat} {r : Bytes} (hm : m ≤ usizeMod)
    (hd : v.data.length < m) (hi : (i + 2) * V.indexSize < m) (hs : 0 < V.indexSize)
    (h : Flatdata.MultiView.at' p e V v i = .ok r) : MultiView.at' m p e V v i = .ok r := by
  have h1 : (i + 1) * V.indexSize < m := by
    rw [Nat.add_mul] at hi ⊢; omega
  have h2 : i + 1 < m := lt_of_mul hs h1
  unfold Flatdata.MultiView.at' at h
  simp only [Out.bind_eq_ok] at h
  obtain ⟨x, a1, start, a2, nx, a3, y, a4, stop, a5, a6⟩ := h
  rw [Flatdata.uadd_ok (by omega)] at a3
  cases a3
  have hr : start ≤ stop ∧ stop ≤ v.data.length := by
    unfold sliceRange at a6
    split at a6
    · assumption
    · cases a6
  unfold MultiView.at' MultiView.getIndex
  rw [at_same hm h1, a1, Out.ok_bind, a2, Out.ok_bind, Out.ok_bind, uadd_ok h2, Out.ok_bind, at_same hm hi, a4, Out.ok_bind, a5,
    Out.ok_bind, Out.ok_bind, Nat.mod_eq_of_lt (by omega), Nat.mod_eq_of_lt (by omega)]
  exact a6

/-- The first entry of a slice of the index, mathematically. -/
theorem multi_start_eq {p : Profile} {lo : Bound} (h : lower lo < m) : MultiView.startIndex m p lo = .ok (lower lo) := by
  cases lo with
  | included i => rfl
  | excluded i => exact uadd_ok h
  | unbounded => rfl

/-- One past the last entry of a slice of the index. -/
def upperEntry (n : Nat) : Bound → Nat
  | .included i => i + 2
  | .excluded i => i + 1
  | .unbounded => n

theorem multi_end_eq {p : Profile} {V : Variadic} {v : Flatdata.MultiView} {hi : Bound} (hs : 0 < V.indexSize)
    (h : upperEntry (v.index.length / V.indexSize) hi < m) :
    MultiView.endIndex m p V v hi = .ok (upperEntry (v.index.length / V.indexSize) hi) := by
  cases hi with
  | included i => exact uadd_ok h
  | excluded i => exact uadd_ok h
  | unbounded => exact len_eq hs v.index

/-- `slice` of a multi view without overflow. -/
theorem multi_slice_eq {p : Profile} {V : Variadic} {v : Flatdata.MultiView} {lo hi : Bound} (hs : 0 < V.indexSize)
    (h1 : lower lo * V.indexSize < m) (h2 : upperEntry (v.index.length / V.indexSize) hi * V.indexSize < m) :
    MultiView.slice m p V v lo hi =
      (sliced V.indexSize v.index (.included (lower lo)) (.excluded (upperEntry (v.index.length / V.indexSize) hi)) >>= fun i =>
        .ok ⟨i, v.data⟩) := by
  have a1 := lt_of_mul hs h1
  have a2 := lt_of_mul hs h2
  unfold MultiView.slice
  rw [multi_start_eq a1, Out.ok_bind, multi_end_eq hs a2, Out.ok_bind, slice_eq (lo := .included (lower lo)) (hi := .excluded (upperEntry (v.index.length / V.indexSize) hi)) a1 h1 a2 h2]

/-- `slice` of a multi view in debug builds. -/
theorem multi_slice_debug {V : Variadic} {v : Flatdata.MultiView} {lo hi : Bound} (hs : 0 < V.indexSize) (hd : v.index.length < m) :
    MultiView.slice m .debug V v lo hi =
      (sliced V.indexSize v.index (.included (lower lo)) (.excluded (upperEntry (v.index.length / V.indexSize) hi)) >>= fun i =>
        .ok ⟨i, v.data⟩) := by
  have hle : ∀ a, m ≤ a → m ≤ a * V.indexSize := fun a h => Nat.le_trans h (Nat.le_mul_of_pos_right a hs)
  by_cases h1 : lower lo < m
  · by_cases h2 : upperEntry (v.index.length / V.indexSize) hi < m
    · unfold MultiView.slice
      rw [multi_start_eq h1, Out.ok_bind, multi_end_eq hs h2, Out.ok_bind, slice_debug hs hd]
    · have h3 : MultiView.endIndex m .debug V v hi = .panic := by
        cases hi with
        | included i => exact uadd_panic h2
        | excluded i => exact uadd_panic h2
        | unbounded =>
          have : v.index.length / V.indexSize ≤ v.index.length := Nat.div_le_self _ _
          have h2 : ¬ v.index.length / V.indexSize < m := h2
          omega
      unfold MultiView.slice
      rw [multi_start_eq h1, Out.ok_bind, h3]
      unfold sliced sliceRange
      rw [if_neg]
      · rfl
      · intro hc
        have h4 := hle _ (Nat.le_of_not_lt h2)
        have h5 : upperEntry (v.index.length / V.indexSize) hi * V.indexSize ≤ v.index.length := hc.2
        omega
  · have h3 : MultiView.startIndex m .debug lo = .panic ∨ ∃ i, lo = .included i := by
      cases lo with
      | included i => exact .inr ⟨i, rfl⟩
      | excluded i => exact .inl (uadd_panic h1)
      | unbounded => have h1 : ¬ 0 < m := h1; omega
    have hp : sliced V.indexSize v.index (.included (lower lo)) (.excluded (upperEntry (v.index.length / V.indexSize) hi)) = .panic := by
      unfold sliced sliceRange
      rw [if_neg]
      intro hc
      have h4 := hle _ (Nat.le_of_not_lt h1)
      have h5 : lower lo * V.indexSize ≤ upperEntry (v.index.length / V.indexSize) hi * V.indexSize := hc.1
      have h6 : upperEntry (v.index.length / V.indexSize) hi * V.indexSize ≤ v.index.length := hc.2
      omega
    rw [hp]
    unfold MultiView.slice
    rcases h3 with h3 | ⟨i, rfl⟩
    · rw [h3]; rfl
    · change (MultiView.endIndex m .debug V v hi >>= fun b => View.slice m .debug V.indexSize v.index (.included i) (.excluded b) >>= fun x => Out.ok _) = .panic
      cases hb : MultiView.endIndex m .debug V v hi with
      | ok b =>
        rw [Out.ok_bind, slice_debug hs hd]
        have : sliced V.indexSize v.index (.included i) (.excluded b) = .panic := by
          unfold sliced sliceRange
          rw [if_neg]
          intro hc
          have h4 := hle _ (Nat.le_of_not_lt h1)
          have h5 : lower (.included i) * V.indexSize ≤ b * V.indexSize := hc.1
          have h6 : b * V.indexSize ≤ v.index.length := hc.2
          omega
        rw [this]; rfl
      | panic => rfl
      | ub => exact absurd hb (by cases hi <;> simp [MultiView.endIndex, uadd, Flatdata.View.len] <;> split <;> simp)

theorem multi_slice_wide (p : Profile) (V : Variadic) (v : Flatdata.MultiView) (lo hi : Bound) :
    MultiView.slice usizeMod p V v lo hi = Flatdata.MultiView.slice p V v lo hi := by
  unfold MultiView.slice Flatdata.MultiView.slice
  simp only [slice_wide]
  cases lo <;> cases hi <;> rfl

theorem multi_slice_same {p : Profile} {V : Variadic} {v : Flatdata.MultiView} {lo hi : Bound} (hm : m ≤ usizeMod) (hs : 0 < V.indexSize)
    (h1 : lower lo * V.indexSize < m) (h2 : upperEntry (v.index.length / V.indexSize) hi * V.indexSize < m) :
    MultiView.slice m p V v lo hi = Flatdata.MultiView.slice p V v lo hi := by
  rw [← multi_slice_wide, multi_slice_eq hs h1 h2, multi_slice_eq hs (by omega) (by omega)]

theorem multi_slice_same_debug {V : Variadic} {v : Flatdata.MultiView} {lo hi : Bound} (hm : m ≤ usizeMod) (hs : 0 < V.indexSize)
    (hd : v.index.length < m) : MultiView.slice m .debug V v lo hi = Flatdata.MultiView.slice .debug V v lo hi := by
  rw [← multi_slice_wide, multi_slice_debug hs hd, multi_slice_debug hs (by omega)]

/-- The number of items if there is at least the sentinel. -/
theorem multi_len_eq {p : Profile} {V : Variadic} {v : Flatdata.MultiView} (hs : 0 < V.indexSize) (h : V.indexSize ≤ v.index.length) :
    MultiView.len m p V v = .ok (v.index.length / V.indexSize - 1) := by
  unfold MultiView.len
  rw [len_eq hs, Out.ok_bind, usub_ok ((Nat.le_div_iff_mul_le hs).mpr (by omega))]

theorem multi_len_wide (p : Profile) (V : Variadic) (v : Flatdata.MultiView) : MultiView.len usizeMod p V v = Flatdata.MultiView.len p V v := rfl

theorem multi_len_same {p : Profile} {V : Variadic} {v : Flatdata.MultiView} (hs : 0 < V.indexSize) (h : V.indexSize ≤ v.index.length) :
    MultiView.len m p V v = Flatdata.MultiView.len p V v := by
  rw [← multi_len_wide, multi_len_eq hs h, multi_len_eq hs h]

/-- `next` of a multi view. -/
theorem multi_next_ok {p : Profile} {e : Endian} {V : Variadic} {v : Flatdata.MultiView} {r : Option Bytes × Flatdata.MultiView}
    (hm : m ≤ usizeMod) (hs : 0 < V.indexSize) (h1 : V.indexSize ≤ v.index.length) (hi : v.index.length < m) (hd : v.data.length < m)
    (h : Flatdata.MultiView.next p e V v = .ok r) : MultiView.next m p e V v = .ok r := by
  have hl := multi_len_same (m := m) (p := p) hs h1
  unfold Flatdata.MultiView.next Flatdata.MultiView.isEmpty at h
  unfold MultiView.next MultiView.isEmpty
  rw [hl]
  rw [← hl, multi_len_eq hs h1] at h ⊢
  have hn : v.index.length / V.indexSize * V.indexSize ≤ v.index.length := Nat.div_mul_le_self _ _
  generalize hg : v.index.length / V.indexSize = n at h hn ⊢
  simp only [Out.ok_bind] at h ⊢
  by_cases hz : n - 1 = 0
  · rw [hz] at h ⊢; exact h
  · have hb : (!(n - 1 == 0)) = true := by simpa using hz
    rw [if_pos hb] at h ⊢
    have h2 : 2 * V.indexSize ≤ n * V.indexSize := Nat.mul_le_mul_right _ (by omega)
    rw [Out.bind_eq_ok] at h
    obtain ⟨x, hx, h⟩ := h
    rw [multi_at_ok hm hd (by omega) hs hx, Out.ok_bind,
      multi_slice_same (v := v) (lo := .included 1) (hi := .unbounded) hm hs (show 1 * V.indexSize < m by omega) (show v.index.length / V.indexSize * V.indexSize < m by rw [hg]; omega)]
    exact h

/-- `next_back` of a multi view. -/
theorem multi_nextBack_ok {p : Profile} {e : Endian} {V : Variadic} {v : Flatdata.MultiView} {r : Option Bytes × Flatdata.MultiView}
    (hm : m ≤ usizeMod) (hs : 0 < V.indexSize) (h1 : V.indexSize ≤ v.index.length) (hi : v.index.length < m) (hd : v.data.length < m)
    (h : Flatdata.MultiView.nextBack p e V v = .ok r) : MultiView.nextBack m p e V v = .ok r := by
  have hl := multi_len_same (m := m) (p := p) hs h1
  unfold Flatdata.MultiView.nextBack Flatdata.MultiView.isEmpty at h
  unfold MultiView.nextBack MultiView.isEmpty
  rw [hl]
  rw [← hl, multi_len_eq hs h1] at h ⊢
  have hn : v.index.length / V.indexSize * V.indexSize ≤ v.index.length := Nat.div_mul_le_self _ _
  generalize hg : v.index.length / V.indexSize = n at h hn ⊢
  simp only [Out.ok_bind] at h ⊢
  by_cases hz : n - 1 = 0
  · rw [hz] at h ⊢; exact h
  · have hb : (!(n - 1 == 0)) = true := by simpa using hz
    rw [if_pos hb] at h ⊢
    rw [Flatdata.usub_ok (by omega), Out.ok_bind, Out.bind_eq_ok] at h
    rw [usub_ok (by omega), Out.ok_bind]
    obtain ⟨x, hx, h⟩ := h
    have h3 : (n - 1 - 1 + 2) * V.indexSize < m := by rw [show n - 1 - 1 + 2 = n by omega]; omega
    have h4 : (n - 1 - 1 + 1) * V.indexSize < m := by rw [Nat.add_mul] at h3 ⊢; omega
    rw [multi_at_ok hm hd h3 hs hx, Out.ok_bind,
      multi_slice_same (v := v) (lo := .unbounded) (hi := .excluded (n - 1 - 1)) hm hs (show 0 * V.indexSize < m by omega) (show (n - 1 - 1 + 1) * V.indexSize < m from h4)]
    exact h

/-! ## Reading resources -/

/-- The difference between hosts lies in the size field only. -/
theorem checkResource_same {B : Backend} [DiffLib] {p : Profile} {e : Endian} {name expected : String} {data schema : Slice B.Base} {w : B.W}
    (hm : m ≤ usizeMod) (h0 : data.off = 0) (h : FitsHost m (B.content w data.base)) :
    checkResource m B p e name expected data schema w = Storage.checkResource B p e name expected data schema w := by
  unfold checkResource Storage.checkResource
  by_cases hl : data.len < 8 + paddingSize
  · rw [if_pos hl, if_pos hl]
  · rw [if_neg hl, if_neg hl, h0]
    by_cases h8 : 8 ≤ (B.content w data.base).length
    · have hd : B.deref w ⟨data.base, 0, 8⟩ = .ok ((B.content w data.base).take 8) := by
        unfold Backend.deref
        rw [if_pos (by omega)]
        rfl
      have h8' : ((B.content w data.base).take 8).length = 8 := by simp; omega
      rw [Act.bind_ok (load_ok hd), Act.bind_ok (load_ok hd), readBytes_header p e h8']
      have hf := h.2 h8
      unfold sizeField at hf
      generalize leNat ((B.content w data.base).take 8) = n at hf
      change ((Act.lift (uadd m p ((n : Int).toNat % m) 8) >>= _ : Act B.W RErr (Slice B.Base)) w) = _
      change _ = ((Act.lift (Flatdata.uadd p (n : Int).toNat 8) >>= _ : Act B.W RErr (Slice B.Base)) w)
      rw [Int.toNat_natCast, Nat.mod_eq_of_lt (by omega), uadd_ok (by omega), Flatdata.uadd_ok (by omega)]
      change ((Act.lift (uadd m p (n + 8) paddingSize) >>= _ : Act B.W RErr (Slice B.Base)) w) =
        ((Act.lift (Flatdata.uadd p (n + 8) paddingSize) >>= _ : Act B.W RErr (Slice B.Base)) w)
      have : paddingSize = 8 := rfl
      rw [uadd_ok (by omega), Flatdata.uadd_ok (by omega)]
    · have hd : B.deref w ⟨data.base, 0, 8⟩ = .ub := by
        unfold Backend.deref
        rw [if_neg (by omega)]
      have hx : (B.load ⟨data.base, 0, 8⟩ : Act B.W RErr Bytes) w = (.ub, w) := by
        unfold Backend.load
        rw [hd]; rfl
      rw [Act.bind_def, Act.bind_def, hx]

/-! With 64 bits reading and opening are those of the model. -/

section
variable (B : Backend) [DiffLib] (p : Profile) (e : Endian)

theorem checkResource_wide (name expected : String) (data schema : Slice B.Base) :
    checkResource usizeMod B p e name expected data schema = Storage.checkResource B p e name expected data schema := by
  funext w
  unfold checkResource Storage.checkResource
  by_cases hl : data.len < 8 + paddingSize
  · rw [if_pos hl, if_pos hl]
  · rw [if_neg hl, if_neg hl]
    cases hd : B.deref w ⟨data.base, data.off, 8⟩ with
    | ok h =>
      have h8 : h.length = 8 := deref_length hd
      rw [Act.bind_ok (load_ok hd), Act.bind_ok (load_ok hd), readBytes_header p e h8]
      have hlt := leNat_lt h
      rw [h8] at hlt
      change ((Act.lift (uadd usizeMod p ((leNat h : Int).toNat % usizeMod) 8) >>= _ : Act B.W RErr (Slice B.Base)) w) = _
      change _ = ((Act.lift (Flatdata.uadd p (leNat h : Int).toNat 8) >>= _ : Act B.W RErr (Slice B.Base)) w)
      rw [Int.toNat_natCast, Nat.mod_eq_of_lt (show leNat h < usizeMod from hlt)]
      rfl
    | panic =>
      have hx : (B.load ⟨data.base, data.off, 8⟩ : Act B.W RErr Bytes) w = (.panic, w) := by unfold Backend.load; rw [hd]; rfl
      rw [Act.bind_def, Act.bind_def, hx]
    | ub =>
      have hx : (B.load ⟨data.base, data.off, 8⟩ : Act B.W RErr Bytes) w = (.ub, w) := by unfold Backend.load; rw [hd]; rfl
      rw [Act.bind_def, Act.bind_def, hx]

theorem read_wide (o : B.Obj) (name expected : String) :
    read usizeMod B p e o name expected = Storage.read B p e o name expected := by
  unfold read Storage.read
  simp only [checkResource_wide]

theorem openResource_wide (o : B.Obj) (r : ResDecl) : openResource usizeMod B p e o r = Flatdata.openResource B p e o r := by
  unfold openResource Flatdata.openResource
  simp only [read_wide]
  cases r.type <;> rfl

theorem openResources_wide (o : B.Obj) : ∀ rs, openResources usizeMod B p e o rs = Flatdata.openResources B p e o rs
  | [] => rfl
  | r :: rs => by
    unfold openResources Flatdata.openResources
    rw [openResource_wide, openResources_wide o rs]

mutual
theorem openArchive_wide (o : B.Obj) : ∀ D, openArchive usizeMod B p e o D = Flatdata.openArchive B p e o D
  | .mk _ _ _ subs => by
    unfold openArchive Flatdata.openArchive
    rw [read_wide, openResources_wide, openSubs_wide o subs]

theorem openSubs_wide (o : B.Obj) : ∀ subs, openSubs usizeMod B p e o subs = Flatdata.openSubs B p e o subs
  | .nil => by unfold openSubs Flatdata.openSubs; rfl
  | .cons _ _ D rest => by
    unfold openSubs Flatdata.openSubs
    rw [openSubs_wide o rest]
    congr 1
    funext o'
    rw [openArchive_wide o' D]
end
end

/-- What can be read with 64 bits can be read with fewer if its length can be counted. -/
theorem read_ok {B : Backend} [DiffLib] {p : Profile} {e : Endian} {o : B.Obj} {name expected : String} {w w' : B.W} {s : Slice B.Base}
    (hm : m ≤ usizeMod) (hl : s.len + 16 < m) (h : Storage.read B p e o name expected w = (.ok s, w')) :
    read m B p e o name expected w = (.ok s, w') := by
  unfold Storage.read at h
  obtain ⟨d, w1, h1, k1⟩ := Act.bind_eq_ok h
  obtain ⟨c, w2, h2, k2⟩ := Act.bind_eq_ok k1
  unfold read
  rw [Act.bind_ok h1, Act.bind_ok h2]
  unfold Storage.checkResource at k2
  unfold checkResource
  by_cases hlen : d.len < 8 + paddingSize
  · rw [if_pos hlen] at k2; cases k2
  · rw [if_neg hlen] at k2 ⊢
    obtain ⟨hd, w3, h3, k3⟩ := Act.bind_eq_ok k2
    obtain ⟨n, w4, h4, k4⟩ := Act.bind_eq_ok k3
    obtain ⟨t, w5, h5, k5⟩ := Act.bind_eq_ok k4
    obtain ⟨t', w6, h6, k6⟩ := Act.bind_eq_ok k5
    have hs : s.len = n.toNat := by
      by_cases ht : t' ≠ d.len
      · rw [if_pos ht] at k6; cases k6
      · rw [if_neg ht] at k6
        obtain ⟨st, w7, h7, k7⟩ := Act.bind_eq_ok k6
        unfold Storage.checkSchema at k7
        cases hu : fromUtf8 st with
        | none => rw [hu] at k7; cases k7
        | some t =>
          rw [hu] at k7
          dsimp only at k7
          by_cases hx : t ≠ expected
          · rw [if_pos hx] at k7; cases k7
          · rw [if_neg hx] at k7
            unfold Storage.payload at k7
            by_cases hp : 8 ≤ d.len ∧ n.toNat ≤ d.len - 8
            · rw [if_pos hp] at k7; cases k7; rfl
            · rw [if_neg hp] at k7; cases k7
    have hps : paddingSize = 8 := rfl
    rw [Flatdata.uadd_ok (by omega)] at h5
    cases h5
    rw [Flatdata.uadd_ok (by omega)] at h6
    cases h6
    rw [Act.bind_ok h3, Act.bind_ok h4, Nat.mod_eq_of_lt (by omega), uadd_ok (by omega)]
    refine (Act.bind_ok rfl).trans ?_
    rw [uadd_ok (by omega)]
    exact (Act.bind_ok rfl).trans k6

/-- What a host with `m` values of `usize` makes of the bytes of data and schema. -/
def verdict [DiffLib] (m : Nat) (p : Profile) (name expected : String) (d c : Bytes) : Res RErr Bytes :=
  if d.length < 16 then .err .unexpectedDataSize
  else if m ≤ leNat (d.take 8) % m + 16 then (if p = .debug then .panic else .err .unexpectedDataSize)
  else if leNat (d.take 8) % m + 16 ≠ d.length then .err .unexpectedDataSize
  else match fromUtf8 c with
    | none => .err .utf8
    | some s =>
      if s ≠ expected then .err (.wrongSignature name (computeDiff s expected))
      else .ok ((d.drop 8).take (leNat (d.take 8) % m))

theorem checkResource_spec {B : Backend} [DiffLib] (p : Profile) (e : Endian) (name expected : String) {w : B.W} {sd ss : Slice B.Base}
    {d c : Bytes} (hd : B.deref w sd = .ok d) (hc : B.deref w ss = .ok c) (hm : 16 ≤ m) :
    checkResource m B p e name expected sd ss w = (toSlice sd (verdict m p name expected d c), w) := by
  have hl := deref_length hd
  unfold checkResource verdict
  have hps : paddingSize = 8 := rfl
  by_cases h16 : d.length < 16
  · rw [if_pos (by rw [hps]; omega), if_pos h16]; rfl
  · rw [if_neg (by rw [hps]; omega), if_neg h16]
    have hh := deref_sub hd (a := 0) (n := 8) (by omega)
    rw [Nat.add_zero, List.drop_zero] at hh
    rw [Act.bind_ok (load_ok hh)]
    have h8 : (d.take 8).length = 8 := by simp; omega
    have e1 : (Act.lift (readBytes p e .u64 (d.take 8) 0 64) : Act B.W RErr Int) w = (.ok (leNat (d.take 8) : Int), w) := by
      rw [readBytes_header p e h8]; rfl
    rw [Act.bind_ok e1]
    simp only [Int.toNat_natCast]
    have hn64 : leNat (d.take 8) % m < m := Nat.mod_lt _ (by omega)
    generalize hn : leNat (d.take 8) % m = n at hn64
    have final : ∀ {t : Nat}, (t ≠ sd.len ↔ n + 16 ≠ d.length) →
        ((if t ≠ sd.len then Act.fail .unexpectedDataSize
          else do
            let stored ← B.load ss
            Storage.checkSchema B name expected sd n stored : Act B.W RErr (Slice B.Base)) w) =
        (toSlice sd (if n + 16 ≠ d.length then .err .unexpectedDataSize
          else match fromUtf8 c with
          | none => .err .utf8
          | some s =>
            if s ≠ expected then .err (.wrongSignature name (computeDiff s expected))
            else .ok ((d.drop 8).take n)), w) := by
      intro t ht
      by_cases hne : n + 16 ≠ d.length
      · rw [if_pos hne, if_pos (ht.mpr hne)]; rfl
      · rw [if_neg hne, if_neg (fun h => hne (ht.mp h)), Act.bind_ok (load_ok hc)]
        unfold Storage.checkSchema
        cases fromUtf8 c with
        | none => rfl
        | some s =>
          dsimp only
          split
          · rfl
          · unfold Storage.payload
            rw [if_pos (by constructor <;> omega)]
            simp only [Act.lift_ok, toSlice]
            congr 4
            simp; omega
    have hmod : ∀ a, m ≤ a → a < m + m → a % m = a - m := fun a h1 h2 => by
      rw [Nat.mod_eq_sub_mod h1, Nat.mod_eq_of_lt (by omega)]
    by_cases hbig : m ≤ n + 16
    · rw [if_pos hbig]
      by_cases h1 : m ≤ n + 8
      · cases p with
        | debug =>
          rw [if_pos rfl]
          have e2 : (Act.lift (uadd m .debug n 8) : Act B.W RErr Nat) w = (.panic, w) := by
            unfold uadd; rw [if_neg (by omega)]; rfl
          rw [Act.bind_panic e2]; rfl
        | release =>
          rw [if_neg (by simp)]
          have e2 : (Act.lift (uadd m .release n 8) : Act B.W RErr Nat) w = (.ok (n + 8 - m), w) := by
            unfold uadd; rw [if_neg (by omega)]
            simp only [Act.lift_ok]
            rw [hmod _ h1 (by omega)]
          rw [Act.bind_ok e2]
          by_cases h2 : n + 8 - m + 8 < m
          · have e3 : (Act.lift (uadd m .release (n + 8 - m) paddingSize) : Act B.W RErr Nat) w = (.ok (n + 8 - m + 8), w) := by
              unfold uadd paddingSize; rw [if_pos h2]; rfl
            rw [Act.bind_ok e3, if_pos (by omega)]
            rfl
          · omega
      · have e2 : (Act.lift (uadd m p n 8) : Act B.W RErr Nat) w = (.ok (n + 8), w) := by
          unfold uadd; rw [if_pos (by omega)]; rfl
        rw [Act.bind_ok e2]
        cases p with
        | debug =>
          rw [if_pos rfl]
          have e3 : (Act.lift (uadd m .debug (n + 8) paddingSize) : Act B.W RErr Nat) w = (.panic, w) := by
            unfold uadd paddingSize; rw [if_neg (by omega)]; rfl
          rw [Act.bind_panic e3]; rfl
        | release =>
          rw [if_neg (by simp)]
          have e3 : (Act.lift (uadd m .release (n + 8) paddingSize) : Act B.W RErr Nat) w = (.ok (n + 8 + 8 - m), w) := by
            unfold uadd paddingSize; rw [if_neg (by omega)]
            simp only [Act.lift_ok]
            rw [hmod _ (by omega) (by omega)]
          rw [Act.bind_ok e3, if_pos (by omega)]
          rfl
    · rw [if_neg hbig]
      have e2 : (Act.lift (uadd m p n 8) : Act B.W RErr Nat) w = (.ok (n + 8), w) := by
        unfold uadd; rw [if_pos (by omega)]; rfl
      have e3 : (Act.lift (uadd m p (n + 8) paddingSize) : Act B.W RErr Nat) w = (.ok (n + 16), w) := by
        unfold uadd paddingSize; rw [if_pos (by omega)]; rfl
      rw [Act.bind_ok e2, Act.bind_ok e3]
      exact final (by rw [hl])

/-- When the two verdicts are the same. -/
theorem verdict_same [DiffLib] {p : Profile} {name expected : String} {d c : Bytes} (hd : d.length < m) (hm : m ≤ 2 ^ 64) :
    verdict m p name expected d c = Flatdata.verdict p name expected d c ↔
      d.length < 16 ∨ (¬ (m ≤ leNat (d.take 8) ∧ leNat (d.take 8) % m + 16 = d.length) ∧
        (p = .debug → (m ≤ leNat (d.take 8) % m + 16 ↔ 2 ^ 64 ≤ leNat (d.take 8) + 16))) := by
  unfold verdict Flatdata.verdict
  generalize leNat (d.take 8) = f
  by_cases h16 : d.length < 16
  · rw [if_pos h16, if_pos h16]; exact ⟨fun _ => .inl h16, fun _ => rfl⟩
  · rw [if_neg h16, if_neg h16]
    have hs : ∀ n, (match fromUtf8 c with
      | none => (.err .utf8 : Res RErr Bytes)
      | some s =>
        if s ≠ expected then .err (.wrongSignature name (computeDiff s expected))
        else .ok ((d.drop 8).take n)) ≠ .err .unexpectedDataSize ∧ (match fromUtf8 c with
      | none => (.err .utf8 : Res RErr Bytes)
      | some s =>
        if s ≠ expected then .err (.wrongSignature name (computeDiff s expected))
        else .ok ((d.drop 8).take n)) ≠ .panic := by
      intro n
      cases fromUtf8 c with
      | none => exact ⟨nofun, nofun⟩
      | some s =>
        dsimp only
        split
        · exact ⟨nofun, nofun⟩
        · exact ⟨nofun, nofun⟩
    by_cases hf : f < m
    · rw [Nat.mod_eq_of_lt hf]
      by_cases h1 : m ≤ f + 16
      · rw [if_pos h1]
        by_cases h2 : 2 ^ 64 ≤ f + 16
        · rw [if_pos h2]
          exact ⟨fun _ => .inr ⟨by omega, fun _ => ⟨fun _ => h2, fun _ => h1⟩⟩, fun _ => rfl⟩
        · rw [if_neg h2, if_pos (show f + 16 ≠ d.length by omega)]
          cases p with
          | debug =>
            rw [if_pos rfl]
            exact ⟨nofun, fun h => by
              rcases h with h | ⟨_, h⟩
              · omega
              · exact absurd ((h rfl).mp h1) h2⟩
          | release =>
            rw [if_neg nofun]
            exact ⟨fun _ => .inr ⟨by omega, nofun⟩, fun _ => rfl⟩
      · rw [if_neg h1, if_neg (show ¬ 2 ^ 64 ≤ f + 16 by omega)]
        exact ⟨fun _ => .inr ⟨by omega, fun _ => ⟨fun h => absurd h h1, fun h => by omega⟩⟩, fun _ => rfl⟩
    · rw [if_pos (show f + 16 ≠ d.length by omega)]
      have hg : f % m < m := Nat.mod_lt _ (by omega)
      by_cases h1 : m ≤ f % m + 16
      · rw [if_pos h1]
        by_cases h2 : 2 ^ 64 ≤ f + 16
        · rw [if_pos h2]
          exact ⟨fun _ => .inr ⟨by omega, fun _ => ⟨fun _ => h2, fun _ => h1⟩⟩, fun _ => rfl⟩
        · rw [if_neg h2]
          cases p with
          | debug =>
            rw [if_pos rfl]
            exact ⟨nofun, fun h => by
              rcases h with h | ⟨_, h⟩
              · omega
              · exact absurd ((h rfl).mp h1) h2⟩
          | release =>
            rw [if_neg nofun]
            exact ⟨fun _ => .inr ⟨by omega, nofun⟩, fun _ => rfl⟩
      · rw [if_neg h1]
        by_cases h3 : f % m + 16 = d.length
        · rw [if_neg (show ¬ (f % m + 16 ≠ d.length) from fun h => h h3)]
          refine ⟨fun h => ?_, fun h => ?_⟩
          · by_cases h2 : 2 ^ 64 ≤ f + 16
            · rw [if_pos h2] at h
              cases p with
              | debug => rw [if_pos rfl] at h; exact absurd h (hs _).2
              | release => rw [if_neg nofun] at h; exact absurd h (hs _).1
            · rw [if_neg h2] at h; exact absurd h (hs _).1
          · rcases h with h | ⟨h, _⟩
            · omega
            · exact absurd ⟨by omega, h3⟩ h
        · rw [if_pos h3]
          by_cases h2 : 2 ^ 64 ≤ f + 16
          · rw [if_pos h2]
            cases p with
            | debug =>
              rw [if_pos rfl]
              exact ⟨nofun, fun h => by
                rcases h with h | ⟨_, h⟩
                · omega
                · exact absurd ((h rfl).mpr h2) h1⟩
            | release =>
              rw [if_neg nofun]
              exact ⟨fun _ => .inr ⟨fun h => h3 h.2, nofun⟩, fun _ => rfl⟩
          · rw [if_neg h2]
            exact ⟨fun _ => .inr ⟨fun h => h3 h.2, fun _ => ⟨fun h => absurd h h1, fun h => absurd h h2⟩⟩, fun _ => rfl⟩

/-- Both parts of a resource not read before, read one after the other. -/
theorem reads_new {B : Backend} {L : Laws B} {o : B.Obj} {name : String} {w : B.W} {d c : Bytes}
    (hne : L.loc o (Storage.schemaName name) ≠ L.loc o name) (hn : L.noFault w)
    (hd : L.medium w (L.loc o name) = some d) (hc : L.medium w (L.loc o (Storage.schemaName name)) = some c)
    (hrd : L.readable d) (hrc : L.readable c)
    (hkd : L.cache w o name = none) (hkc : L.cache w o (Storage.schemaName name) = none) :
    ∃ sd ss w1 w2, B.readResource o name w = (.ok sd, w1) ∧ B.readResource o (Storage.schemaName name) w1 = (.ok ss, w2) ∧
      B.deref w2 sd = .ok d ∧ B.deref w2 ss = .ok c := by
  obtain ⟨sd, w1, h1, d1, b1⟩ := readResource_new hn hd hkd hrd
  have k := L.read_keeps h1
  obtain ⟨ss, w2, h2, d2, b2⟩ := readResource_new (w := w1) (k.2.2.2.2 hn) ((k.1 _).trans hc)
    ((k.2.2.1 _ _ hne).trans hkc) hrc
  refine ⟨sd, ss, w1, w2, h1, h2, ?_, d2⟩
  rw [deref_keeps ((L.read_keeps h2).2.2.2.1 sd.base (.inl (by rw [b1]; exact hne.symm)))]; exact d1

theorem toSlice_inj {Base : Type} {sd : Slice Base} {r r' : Res RErr Bytes} (h : toSlice sd r = toSlice sd r')
    (hl : ∀ x y, r = .ok x → r' = .ok y → x.length = y.length → x = y) : r = r' := by
  cases r <;> cases r' <;> first | (cases h; rfl) | cases h | skip
  rename_i x y
  have : x.length = y.length := congrArg Slice.len (Res.ok.inj h)
  rw [hl x y rfl rfl this]

/-- A read of a resource not read before gives the same on both hosts if and only if the verdicts are the same. -/
theorem read_same_iff {B : Backend} {L : Laws B} [DiffLib] (p : Profile) (e : Endian) {o : B.Obj} {name expected : String} {w : B.W} {d c : Bytes}
    (hne : L.loc o (Storage.schemaName name) ≠ L.loc o name) (hn : L.noFault w)
    (hd : L.medium w (L.loc o name) = some d) (hc : L.medium w (L.loc o (Storage.schemaName name)) = some c)
    (hrd : L.readable d) (hrc : L.readable c)
    (hkd : L.cache w o name = none) (hkc : L.cache w o (Storage.schemaName name) = none) (hm : 16 ≤ m) :
    read m B p e o name expected w = Storage.read B p e o name expected w ↔
      verdict m p name expected d c = Flatdata.verdict p name expected d c := by
  obtain ⟨sd, ss, w1, w2, h1, h2, d1, d2⟩ := reads_new hne hn hd hc hrd hrc hkd hkc
  have a : read m B p e o name expected w = (toSlice sd (verdict m p name expected d c), w2) := by
    unfold read
    rw [Act.bind_ok (FileSt.mapErr_ok h1), Act.bind_ok (FileSt.mapErr_ok h2)]
    exact checkResource_spec p e name expected d1 d2 hm
  rw [a, read_from p e h1 h2 d1 d2]
  refine ⟨fun h => ?_, fun h => by rw [h]⟩
  refine toSlice_inj (congrArg Prod.fst h) fun x y hx hy hxy => ?_
  have hy' := (Flatdata.verdict_ok.mp hy).1
  unfold verdict at hx
  split at hx
  · cases hx
  · split at hx
    · split at hx <;> cases hx
    · split at hx
      · cases hx
      · split at hx
        · cases hx
        · split at hx
          · cases hx
          · rename_i _ _ h3 _ _ _ _
            cases hx
            have hl : ((d.drop 8).take (leNat (d.take 8) % m)).length = leNat (d.take 8) % m := by
              simp; omega
            rw [hl] at hxy
            rw [hxy, hy'.body]

/-- Conditions on states under which all data that are read fit. -/
structure Fitting (B : Backend) (m : Nat) (N : List String) where
  P : B.W → Prop
  data : B.Base → Prop
  subdir : ∀ o d w, P w → P (B.subdir o d w).2
  read : ∀ o n w, P w → P (B.readResource o n w).2
  slice : ∀ o n w s, P w → n ∈ N → (B.readResource o n w).1 = .ok s → s.off = 0 ∧ data s.base
  fits : ∀ w b, P w → data b → FitsHost m (B.content w b)

namespace Fitting
variable {B : Backend} {N : List String} (F : Fitting B m N) {E E' α β : Type}

/-- From states that fit: the same outcome and the same state, which fits again. -/
def Same (x y : Act B.W E α) : Prop := ∀ w, F.P w → x w = y w ∧ F.P (y w).2

variable {F}

namespace Same

theorem pure (a : α) : F.Same (Pure.pure a : Act B.W E α) (Pure.pure a) := fun _ h => ⟨rfl, h⟩

theorem fail (x : E) : F.Same (Act.fail x : Act B.W E α) (Act.fail x) := fun _ h => ⟨rfl, h⟩

theorem bind' {x y : Act B.W E α} {f g : α → Act B.W E β} (h : F.Same x y)
    (hf : ∀ w a, F.P w → (y w).1 = .ok a → F.Same (f a) (g a)) : F.Same (x >>= f) (y >>= g) := by
  intro w hw
  obtain ⟨h1, h2⟩ := h w hw
  have h3 := hf w
  rw [Act.bind_def, Act.bind_def, h1]
  cases hy : y w with
  | mk r w1 =>
    rw [hy] at h2 h3
    cases r with
    | ok a => exact h3 a hw rfl w1 h2
    | err _ => exact ⟨rfl, h2⟩
    | panic => exact ⟨rfl, h2⟩
    | ub => exact ⟨rfl, h2⟩

theorem bind {x y : Act B.W E α} {f g : α → Act B.W E β} (h : F.Same x y) (hf : ∀ a, F.Same (f a) (g a)) :
    F.Same (x >>= f) (y >>= g) := h.bind' fun _ a _ _ => hf a

theorem mapErr {x y : Act B.W E α} (f : E → E') (h : F.Same x y) : F.Same (x.mapErr f) (y.mapErr f) := by
  intro w hw
  obtain ⟨h1, h2⟩ := h w hw
  unfold Act.mapErr
  rw [h1]
  cases hy : y w with
  | mk r w1 =>
    rw [hy] at h2
    cases r <;> exact ⟨rfl, h2⟩

theorem attempt {x y : Act B.W E α} (h : F.Same x y) : F.Same (Act.attempt x : Act B.W E' (Except E α)) (Act.attempt y) := by
  intro w hw
  obtain ⟨h1, h2⟩ := h w hw
  unfold Act.attempt
  rw [h1]
  cases hy : y w with
  | mk r w1 =>
    rw [hy] at h2
    cases r <;> exact ⟨rfl, h2⟩

end Same

theorem keeps_load (s : Slice B.Base) (w : B.W) : ((B.load s : Act B.W E Bytes) w).2 = w := by
  unfold Backend.load
  cases B.deref w s <;> rfl

theorem keeps_lift (x : Out α) (w : B.W) : ((Act.lift x : Act B.W E α) w).2 = w := by
  cases x <;> rfl

theorem keeps_bind {x : Act B.W E α} {f : α → Act B.W E β} {w : B.W} (h : (x w).2 = w) (hf : ∀ a, (f a w).2 = w) :
    ((x >>= f) w).2 = w := by
  rw [Act.bind_def]
  cases hx : x w with
  | mk r w1 =>
    rw [hx] at h
    have h : w1 = w := h
    subst h
    cases r with
    | ok a => exact hf a
    | err _ => rfl
    | panic => rfl
    | ub => rfl

theorem keeps_checkSchema [DiffLib] (name expected : String) (data : Slice B.Base) (size : Nat) (stored : Bytes) (w : B.W) :
    (Storage.checkSchema B name expected data size stored w).2 = w := by
  unfold Storage.checkSchema
  cases fromUtf8 stored with
  | none => rfl
  | some s =>
    by_cases h : s ≠ expected
    · dsimp only; rw [if_pos h]; rfl
    · dsimp only; rw [if_neg h]; exact keeps_lift _ w

theorem keeps_checkResource [DiffLib] (p : Profile) (e : Endian) (name expected : String) (data schema : Slice B.Base) (w : B.W) :
    (Storage.checkResource B p e name expected data schema w).2 = w := by
  unfold Storage.checkResource
  split
  · rfl
  · refine keeps_bind (keeps_load _ w) fun _ => keeps_bind (keeps_lift _ w) fun _ => keeps_bind (keeps_lift _ w) fun _ =>
      keeps_bind (keeps_lift _ w) fun t => ?_
    by_cases h : t ≠ data.len
    · rw [if_pos h]; rfl
    · rw [if_neg h]; exact keeps_bind (keeps_load _ w) fun _ => keeps_checkSchema ..

variable [DiffLib] {p : Profile} {e : Endian}

theorem storageRead (hm : m ≤ usizeMod) (o : B.Obj) {name : String} (hN : name ∈ N) (expected : String) :
    F.Same (Narrow.read m B p e o name expected) (Storage.read B p e o name expected) := by
  have hread : ∀ n, F.Same (B.readResource o n) (B.readResource o n) := fun n w hw => ⟨rfl, F.read o n w hw⟩
  unfold Narrow.read Storage.read
  refine ((hread name).mapErr _).bind' fun w d hw hd => ?_
  obtain ⟨h0, hb⟩ := F.slice o name w d hw hN (Blind.mapErr_ok hd)
  refine ((hread _).mapErr _).bind fun s w1 hw1 => ?_
  exact ⟨checkResource_same hm h0 (F.fits w1 _ hw1 hb), by rw [keeps_checkResource]; exact hw1⟩

omit [DiffLib] in
theorem checkRes (opt : Bool) {x y : Act B.W RErr α} (h : F.Same x y) : F.Same (Flatdata.checkRes B opt x) (Flatdata.checkRes B opt y) := by
  unfold Flatdata.checkRes
  refine h.attempt.bind fun r => ?_
  cases r with
  | ok a => exact .pure _
  | error x =>
    cases opt with
    | true => exact .pure _
    | false => exact .fail _

theorem openResource (hm : m ≤ usizeMod) (o : B.Obj) (r : ResDecl) (hr : ∀ q ∈ parts r, q.1 ∈ N) :
    F.Same (Narrow.openResource m B p e o r) (Flatdata.openResource B p e o r) := by
  unfold Narrow.openResource Flatdata.openResource
  unfold parts at hr
  cases ht : r.type with
  | multi V i =>
    rw [ht] at hr
    exact (checkRes _ (storageRead hm _ (hr (i, "index(" ++ r.schema ++ ")") (by simp)) _)).bind fun _ => (checkRes _ (storageRead hm _ (hr (r.name, r.schema) (by simp)) _)).bind fun _ => .pure _
  | struct S => rw [ht] at hr; exact (checkRes _ (storageRead hm _ (hr (r.name, r.schema) (by simp)) _)).bind fun _ => .pure _
  | vector S => rw [ht] at hr; exact (checkRes _ (storageRead hm _ (hr (r.name, r.schema) (by simp)) _)).bind fun _ => .pure _
  | raw => rw [ht] at hr; exact (checkRes _ (storageRead hm _ (hr (r.name, r.schema) (by simp)) _)).bind fun _ => .pure _

theorem openResources (hm : m ≤ usizeMod) (o : B.Obj) : ∀ rs : List ResDecl, (∀ r ∈ rs, ∀ q ∈ parts r, q.1 ∈ N) →
    F.Same (Narrow.openResources m B p e o rs) (Flatdata.openResources B p e o rs)
  | [], _ => .pure _
  | r :: rs, h => (openResource hm o r (h r (by simp))).bind fun _ =>
      (openResources hm o rs fun r' hr' => h r' (by simp [hr'])).bind fun _ => .pure _

mutual
theorem openArchive (hm : m ≤ usizeMod) (o : B.Obj) : ∀ D : ArchiveDef, (∀ n ∈ resourceNames D, n ∈ N) →
    F.Same (Narrow.openArchive m B p e o D) (Flatdata.openArchive B p e o D)
  | .mk name _ rs subs, h => by
    unfold resourceNames at h
    unfold Narrow.openArchive Flatdata.openArchive
    refine (storageRead hm _ (h _ (by simp)) _).bind fun _ => (openResources hm o rs fun r hr q hq => h _ ?_).bind fun _ =>
      (openSubs hm o subs fun n hn => h n (by simp [hn])).bind fun _ => .pure _
    refine List.mem_append_left _ (List.mem_cons_of_mem _ (List.mem_flatMap.mpr ⟨r, hr, List.mem_map.mpr ⟨q, hq, rfl⟩⟩))

theorem openSubs (hm : m ≤ usizeMod) (o : B.Obj) : ∀ subs : SubDefs, (∀ n ∈ subsNames subs, n ∈ N) →
    F.Same (Narrow.openSubs m B p e o subs) (Flatdata.openSubs B p e o subs)
  | .nil, _ => by
    unfold Narrow.openSubs Flatdata.openSubs
    exact .pure _
  | .cons _ _ D rest, h => by
    unfold subsNames at h
    unfold Narrow.openSubs Flatdata.openSubs
    have hsub : ∀ d, F.Same (B.subdir o d) (B.subdir o d) := fun d w hw => ⟨rfl, F.subdir o d w hw⟩
    exact ((hsub _).mapErr _).bind fun o' => (checkRes _ (openArchive hm o' D fun n hn => h n (by simp [hn]))).bind fun _ =>
      (openSubs hm o rest fun n hn => h n (by simp [hn])).bind fun _ => .pure _
end

end Fitting

theorem fitsHost_nil {m : Nat} (h : 0 < m) : FitsHost m [] := ⟨h, fun h => by cases h⟩

/-- In memory. -/
def memFitting (m : Nat) (hm : 0 < m) (N : List String) : Fitting mem m N where
  P w := Kind.AllFit m N .memory w
  data l := ∃ path n, n ∈ N ∧ l.2 = key (join path n)
  subdir := by
    intro o d w h i path n hn
    refine ⟨fun x hx => ?_, fun x hx => ?_⟩
    · change (if i = w.next then none else w.streams (i, key (join path n))) = some x at hx
      split at hx
      · cases hx
      · exact (h i path n hn).1 x hx
    · change (if i = w.next then none else w.resources (i, key (join path n))) = some x at hx
      split at hx
      · cases hx
      · exact (h i path n hn).2 x hx
  read := by
    intro o n w h
    change Kind.AllFit m N .memory (MemSt.readResource o n w).2
    unfold MemSt.readResource
    split
    · exact h
    · split
      · rename_i d q hd
        intro i path n' hn'
        refine ⟨(h i path n' hn').1, fun x hx => ?_⟩
        change upd w.resources _ (some d) (i, key (join path n')) = some x at hx
        by_cases he : (i, key (join path n')) = MemSt.loc o n
        · rw [he, upd_same] at hx
          cases hx
          exact (h i path n' hn').1 (d, q) (by rw [he]; exact hd)
        · rw [upd_other _ _ he] at hx
          exact (h i path n' hn').2 x hx
      · exact h
  slice := by
    intro o n w s _ hn h
    obtain ⟨h1, h2⟩ : s.off = 0 ∧ s.base = MemSt.loc o n := by
      change (MemSt.readResource o n w).1 = .ok s at h
      unfold MemSt.readResource at h
      cases hx : w.resources (MemSt.loc o n) with
      | some d => rw [hx] at h; cases h; exact ⟨rfl, rfl⟩
      | none =>
        rw [hx] at h
        cases hy : w.streams (MemSt.loc o n) with
        | some y => rw [hy] at h; cases h; exact ⟨rfl, rfl⟩
        | none => rw [hy] at h; cases h
    exact ⟨h1, o.path, n, hn, by rw [h2]; rfl⟩
  fits := by
    rintro w ⟨i, k⟩ h ⟨path, n, hn, hk⟩
    have hk : k = key (join path n) := hk
    subst hk
    change FitsHost m ((w.resources (i, key (join path n))).getD [])
    cases hx : w.resources (i, key (join path n)) with
    | none => exact fitsHost_nil hm
    | some d => exact (h i path n hn).2 d hx

/-- On disk. -/
def fileFitting (m : Nat) (hm : 0 < m) (N : List String) : Fitting file m N where
  P w := Kind.AllFit m N .disk w ∧ Mapped w
  data l := ∃ path n, n ∈ N ∧ l = key (join path n)
  subdir := by
    rintro o d w ⟨h, hx⟩
    refine ⟨h, fun i q x hq => ?_⟩
    change upd w.maps w.next (fun _ => none) i q = some x at hq
    by_cases hi : i = w.next
    · rw [hi, upd_same] at hq; cases hq
    · rw [upd_other _ _ hi] at hq; exact hx _ _ _ hq
  read := by
    rintro o n w ⟨h, hx⟩
    change Kind.AllFit m N .disk (FileSt.readResource o n w).2 ∧ Mapped (FileSt.readResource o n w).2
    have hself : FileSt.DataAlike w w := ⟨fun _ => rfl, fun _ _ => rfl, rfl, rfl, rfl, rfl, rfl, rfl, rfl, hx⟩
    refine ⟨?_, (FileSt.readResource_alike o n hself).2.mapped⟩
    have hf : (FileSt.readResource o n w).2.fs.files = w.fs.files := by
      rcases FileSt.read_spec o n w with ⟨k, l, w1, _, hq, _, h2⟩ | ⟨d, w1, _, _, _, hq, _, h2⟩ | ⟨x, w1, hq, _, h2, _⟩
      · rw [h2]; exact hq.1
      · rw [h2]; exact hq.1
      · rw [h2]; exact hq.1
    intro path n' hn' d hd
    rw [hf] at hd
    exact h path n' hn' d hd
  slice := by
    rintro o n w s ⟨_, hx⟩ hn h
    obtain ⟨h1, h2⟩ := FileSt.readResource_slice o n hx h
    exact ⟨h1, o.path, n, hn, h2⟩
  fits := by
    rintro w k ⟨h, -⟩ ⟨path, n, hn, rfl⟩
    change FitsHost m ((w.fs.files (key (join path n))).getD [])
    cases hx : w.fs.files (key (join path n)) with
    | none => exact fitsHost_nil hm
    | some d => exact h path n hn d hx

end Narrow
end Flatdata
