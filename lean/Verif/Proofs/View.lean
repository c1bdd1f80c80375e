import Verif.Spec.View
namespace Flatdata
open Spec View

theorem div_lt_iff {n s i : Nat} (hs : 0 < s) : i < n / s ↔ (i + 1) * s ≤ n := by
  rw [← Nat.succ_le_iff, Nat.le_div_iff_mul_le hs]

theorem length_elems (size : Nat) (data : Bytes) : (elems size data).length = data.length / size := by
  simp [elems]

theorem getElem?_elems (size : Nat) (data : Bytes) (i : Nat) :
    (elems size data)[i]? = if i < data.length / size then some ((data.drop (i * size)).take size) else none := by
  unfold elems
  split
  · rename_i h; simp [h]
  · rename_i h; rw [List.getElem?_eq_none]; simpa using h

theorem elems_drop {size : Nat} (hs : 0 < size) (data : Bytes) (a : Nat) :
    elems size (data.drop (a * size)) = (elems size data).drop a := by
  apply List.ext_getElem?
  intro i
  rw [List.getElem?_drop, getElem?_elems, getElem?_elems]
  have : (i < (data.drop (a * size)).length / size) ↔ (a + i < data.length / size) := by
    rw [div_lt_iff hs, div_lt_iff hs, List.length_drop]
    have : (a + i + 1) * size = a * size + (i + 1) * size := by rw [← Nat.add_mul]; congr 1
    have hpos : 0 < (i + 1) * size := Nat.mul_pos (by omega) hs
    omega
  by_cases h : a + i < data.length / size
  · rw [if_pos (this.mpr h), if_pos h, List.drop_drop, Nat.add_mul]
  · rw [if_neg (fun hh => h (this.mp hh)), if_neg h]

theorem elems_take {size : Nat} (hs : 0 < size) (data : Bytes) (b : Nat) (hb : b * size ≤ data.length) :
    elems size (data.take (b * size)) = (elems size data).take b := by
  apply List.ext_getElem?
  intro i
  rw [List.getElem?_take, getElem?_elems, getElem?_elems]
  have hl : (data.take (b * size)).length / size = b := by
    rw [List.length_take, Nat.min_eq_left hb, Nat.mul_div_cancel _ hs]
  rw [hl]
  by_cases h : i < b
  · have h1 : (i + 1) * size ≤ b * size := Nat.mul_le_mul_right _ h
    have h1' : (i + 1) * size = i * size + size := by rw [Nat.add_mul, Nat.one_mul]
    have h2 : i < data.length / size := by rw [div_lt_iff hs]; omega
    rw [if_pos h, if_pos h, if_pos h2]
    congr 1
    rw [List.drop_take, List.take_take]
    congr 1
    omega
  · rw [if_neg h, if_neg h]

theorem assert_true {c : Prop} [Decidable c] (h : c) : assert c = .ok () := by simp [assert, h]
theorem assert_false {c : Prop} [Decidable c] (h : ¬ c) : assert c = .panic := by simp [assert, h]

theorem umul_ok {p : Profile} {a b : Nat} (h : a * b < usizeMod) : umul p a b = .ok (a * b) := by simp [umul, h]
theorem uadd_ok {p : Profile} {a b : Nat} (h : a + b < usizeMod) : uadd p a b = .ok (a + b) := by simp [uadd, h]
theorem usub_ok {p : Profile} {a b : Nat} (h : b ≤ a) : usub p a b = .ok (a - b) := by simp [usub, h]

/-- `at` in range, both profiles. -/
theorem at_in_range {p : Profile} {size : Nat} {data : Bytes} {i : Nat} (hs : 0 < size)
    (hd : data.length < usizeMod) (hi : i < data.length / size) :
    View.at' p size data i = .ok (data.drop (i * size)) := by
  rw [div_lt_iff hs, Nat.add_mul, Nat.one_mul] at hi
  unfold View.at' dataIndex
  rw [umul_ok (by omega), Out.ok_bind, uadd_ok (by omega), Out.ok_bind, assert_true hi, Out.ok_bind]
  unfold sliceFrom
  rw [if_pos (by omega)]

/-- `at` out of range, when nothing wraps around. -/
theorem at_out_of_range {p : Profile} {size : Nat} {data : Bytes} {i : Nat} (hs : 0 < size)
    (hi : data.length / size ≤ i) (hp : p = .debug ∨ (i + 1) * size < usizeMod) :
    View.at' p size data i = .panic := by
  have hi' : data.length < i * size + size := by
    have := mt (div_lt_iff (n := data.length) (i := i) hs).mpr (by omega)
    rw [Nat.add_mul, Nat.one_mul] at this; omega
  unfold View.at' dataIndex
  by_cases h1 : i * size < usizeMod
  · rw [umul_ok h1, Out.ok_bind]
    by_cases h2 : i * size + size < usizeMod
    · rw [uadd_ok h2, Out.ok_bind, assert_false (by omega)]; rfl
    · rcases hp with rfl | hp
      · unfold uadd; rw [if_neg h2]; rfl
      · rw [Nat.add_mul, Nat.one_mul] at hp; omega
  · rcases hp with rfl | hp
    · unfold umul; rw [if_neg h1]; rfl
    · rw [Nat.add_mul, Nat.one_mul] at hp; omega

/-- The byte range computed by `slice`. -/
theorem slice_in_range {p : Profile} {size : Nat} {data : Bytes} {lo hi : Bound} (hs : 0 < size)
    (hd : data.length < usizeMod) (h1 : lower lo ≤ upper (data.length / size) hi)
    (h2 : upper (data.length / size) hi ≤ data.length / size) :
    ∃ d', View.slice p size data lo hi = .ok d' ∧ d'.length ≤ data.length ∧
      elems size d' = ((elems size data).take (upper (data.length / size) hi)).drop (lower lo) := by
  generalize hn : data.length / size = n at *
  have hnd : n * size ≤ data.length := by rw [← hn]; exact Nat.div_mul_le_self _ _
  have hmono : ∀ i, i ≤ n → i * size ≤ data.length := fun i hi =>
    Nat.le_trans (Nat.mul_le_mul_right _ hi) hnd
  have hle : ∀ i, i * size ≤ data.length → i < usizeMod := by
    intro i hi
    have := Nat.le_mul_of_pos_right i hs
    omega
  have hstart : startIndex p size lo = .ok (lower lo * size) := by
    have h3 := hmono (lower lo) (by omega)
    cases lo with
    | included i => simp only [lower, startIndex] at h3 ⊢; exact umul_ok (by omega)
    | excluded i =>
      simp only [lower, startIndex] at h3 ⊢
      rw [uadd_ok (hle _ h3)]
      exact umul_ok (by omega)
    | unbounded => simp [lower, startIndex]
  unfold View.slice
  rw [hstart, Out.ok_bind]
  have fin : ∀ b, b * size ≤ data.length → lower lo ≤ b → ∃ d', sliceRange data (lower lo * size) (b * size) = .ok d' ∧
      d'.length ≤ data.length ∧
      elems size d' = ((elems size data).take b).drop (lower lo) := by
    intro b hb hlb
    refine ⟨(data.take (b * size)).drop (lower lo * size), ?_, ?_, ?_⟩
    · unfold sliceRange
      rw [if_pos ⟨Nat.mul_le_mul_right _ hlb, hb⟩]
    · simp; omega
    · rw [elems_drop hs, elems_take hs _ _ hb]
  cases hi with
  | included i =>
    simp only [upper, endIndex] at h1 h2 ⊢
    have hb := hmono _ h2
    rw [uadd_ok (hle _ hb), Out.ok_bind]
    unfold dataIndex
    rw [umul_ok (by omega), Out.ok_bind]
    exact fin _ hb h1
  | excluded i =>
    simp only [upper, endIndex] at h1 h2 ⊢
    have hb := hmono _ h2
    unfold dataIndex
    rw [umul_ok (by omega), Out.ok_bind]
    exact fin _ hb h1
  | unbounded =>
    simp only [upper, endIndex] at h1 ⊢
    rw [Out.ok_bind]
    refine ⟨data.drop (lower lo * size), ?_, by simp, ?_⟩
    · unfold sliceRange
      rw [if_pos ⟨hmono _ h1, Nat.le_refl _⟩, List.take_length]
    · rw [elems_drop hs, List.take_of_length_le (by rw [length_elems]; omega)]

/-- `slice` out of range in builds with overflow checks, and in wrapping builds when nothing wraps. -/
theorem slice_out_of_range {p : Profile} {size : Nat} {data : Bytes} {lo hi : Bound} (hs : 0 < size)
    (hp : p = .debug ∨ (lower lo * size < usizeMod ∧ upper (data.length / size) hi * size < usizeMod))
    (h : ¬ (lower lo ≤ upper (data.length / size) hi ∧ upper (data.length / size) hi ≤ data.length / size)) :
    View.slice p size data lo hi = .panic := by
  have hle : ∀ i, i ≤ i * size := fun i => Nat.le_mul_of_pos_right i hs
  -- the index computations either panic or give the mathematical value
  have comp : ∀ i, (p = .debug ∨ i * size < usizeMod) → dataIndex p size i = .panic ∨ dataIndex p size i = .ok (i * size) := by
    intro i hi
    unfold dataIndex
    by_cases hm : i * size < usizeMod
    · right; exact umul_ok hm
    · left
      rcases hi with rfl | hi
      · simp [umul, hm]
      · omega
  have comp1 : ∀ i, (p = .debug ∨ (i + 1) * size < usizeMod) →
      (do let i ← uadd p i 1; dataIndex p size i) = .panic ∨
      (do let i ← uadd p i 1; dataIndex p size i) = .ok ((i + 1) * size) := by
    intro i hi
    by_cases hm : i + 1 < usizeMod
    · rw [uadd_ok hm, Out.ok_bind]; exact comp _ hi
    · left
      rcases hi with rfl | hi
      · simp [uadd, hm]
      · have := hle (i + 1); omega
  unfold View.slice
  have hstart : startIndex p size lo = .panic ∨ startIndex p size lo = .ok (lower lo * size) := by
    cases lo with
    | included i => exact comp i (hp.imp id And.left)
    | excluded i => exact comp1 i (hp.imp id And.left)
    | unbounded => right; simp [lower, startIndex]
  rcases hstart with hstart | hstart
  · rw [hstart]; rfl
  · rw [hstart, Out.ok_bind]
    have hlast : ∀ b, (b ≤ data.length / size ↔ b * size ≤ data.length) := fun b => Nat.le_div_iff_mul_le hs
    have fin : ∀ b, ¬ (lower lo ≤ b ∧ b ≤ data.length / size) →
        sliceRange data (lower lo * size) (b * size) = .panic := by
      intro b hb
      unfold sliceRange
      rw [if_neg]
      rintro ⟨h1, h2⟩
      exact hb ⟨Nat.le_of_mul_le_mul_right h1 hs, (hlast b).mpr h2⟩
    cases hi with
    | included i =>
      simp only [upper, endIndex] at h hp ⊢
      rcases comp1 i (hp.imp id And.right) with hc | hc
      · rw [hc]; rfl
      · rw [hc, Out.ok_bind]; exact fin _ h
    | excluded i =>
      simp only [upper, endIndex] at h hp ⊢
      rcases comp i (hp.imp id And.right) with hc | hc
      · rw [hc]; rfl
      · rw [hc, Out.ok_bind]; exact fin _ h
    | unbounded =>
      simp only [upper, endIndex] at h ⊢
      rw [Out.ok_bind]
      unfold sliceRange
      rw [if_neg]
      rintro ⟨h1, _⟩
      exact h ⟨(hlast _).mpr h1, Nat.le_refl _⟩

/-! ## iteration -/

theorem len_eq {size : Nat} (hs : 0 < size) (data : Bytes) : View.len size data = .ok (data.length / size) := by
  unfold View.len; rw [if_neg (by omega)]

theorem isEmpty_eq {size : Nat} (hs : 0 < size) (data : Bytes) :
    View.isEmpty size data = .ok (data.length / size == 0) := by
  unfold View.isEmpty; rw [len_eq hs]; rfl

/-- One step of the iterator at one end. -/
def step (p : Profile) (size : Nat) : End → Bytes → Out (Option Bytes × Bytes)
  | .front => View.next p size
  | .back => View.nextBack p size

theorem step_spec {p : Profile} {size : Nat} (hs : 0 < size) (dir : End) {view : Bytes} (hd : view.length < usizeMod) :
    ∃ r view', step p size dir view = .ok (r, view') ∧ view'.length ≤ view.length ∧
      r.map (·.take size) = (match dir with | .front => (elems size view).head? | .back => (elems size view).getLast?) ∧
      elems size view' = (match dir with | .front => (elems size view).tail | .back => (elems size view).dropLast) := by
  by_cases h0 : view.length / size = 0
  · have hnil : elems size view = [] := by
      apply List.eq_nil_of_length_eq_zero; rw [length_elems, h0]
    refine ⟨none, view, ?_, Nat.le_refl _, ?_, ?_⟩
    · cases dir <;> simp only [step, View.next, View.nextBack, isEmpty_eq hs, Out.ok_bind, h0] <;> rfl
    · cases dir <;> simp [hnil]
    · cases dir <;> simp [hnil]
  · have hpos : 0 < view.length / size := Nat.pos_of_ne_zero h0
    have hne : (view.length / size == 0) = false := by simpa using h0
    cases dir with
    | front =>
      have hat := at_in_range (p := p) hs hd (show 0 < view.length / size by omega)
      obtain ⟨d', h1, h2, h3⟩ := slice_in_range (p := p) (lo := .included 1) (hi := .unbounded) hs hd
        (by simp only [lower, upper]; omega) (by simp only [upper]; omega)
      refine ⟨some (view.drop (0 * size)), d', ?_, h2, ?_, ?_⟩
      · simp only [step, View.next, isEmpty_eq hs, Out.ok_bind, hne, hat, h1]; rfl
      · rw [List.head?_eq_getElem?, getElem?_elems, if_pos (by omega)]; simp
      · rw [h3, upper, List.take_of_length_le (by rw [length_elems]; omega)]; simp [lower]
    | back =>
      have hat := at_in_range (p := p) (i := view.length / size - 1) hs hd (by omega)
      obtain ⟨d', h1, h2, h3⟩ := slice_in_range (p := p) (lo := .unbounded) (hi := .excluded (view.length / size - 1)) hs hd
        (by simp only [lower, upper]; omega) (by simp only [upper]; omega)
      refine ⟨some (view.drop ((view.length / size - 1) * size)), d', ?_, h2, ?_, ?_⟩
      · simp only [step, View.nextBack, isEmpty_eq hs, Out.ok_bind, hne, len_eq hs,
          usub_ok (show 1 ≤ view.length / size by omega), hat, h1]; rfl
      · rw [List.getLast?_eq_getElem?, length_elems, getElem?_elems, if_pos (by omega)]; simp
      · rw [h3]; simp [upper, lower, List.dropLast_eq_take, length_elems]

/-- Running the iterator with a sequence of `next`/`next_back` calls. -/
def run (p : Profile) (size : Nat) : List End → Bytes → Out (List (Option Bytes) × Bytes)
  | [], view => .ok ([], view)
  | dir :: ops, view => do
    let (r, view) ← step p size dir view
    let (rs, view) ← run p size ops view
    .ok (r :: rs, view)

theorem run_spec {p : Profile} {size : Nat} (hs : 0 < size) :
    ∀ (ops : List End) (view : Bytes), view.length < usizeMod →
    ∃ rs view', run p size ops view = .ok (rs, view') ∧ view'.length ≤ view.length ∧
      rs.map (Option.map (·.take size)) = (deque ops (elems size view)).1 ∧
      elems size view' = (deque ops (elems size view)).2 := by
  intro ops
  induction ops with
  | nil => intro view _; exact ⟨[], view, rfl, Nat.le_refl _, rfl, rfl⟩
  | cons dir ops ih =>
    intro view hd
    obtain ⟨r, v1, h1, h2, h3, h4⟩ := step_spec (p := p) hs dir hd
    obtain ⟨rs, v2, g1, g2, g3, g4⟩ := ih v1 (by omega)
    refine ⟨r :: rs, v2, ?_, by omega, ?_, ?_⟩
    · simp only [run, h1, Out.ok_bind, g1]
    · cases dir <;> simp only [deque, List.map_cons, h3, g3, h4]
    · cases dir <;> simp only [deque, g4, h4]

/-! ## preview -/

theorem Nat.sub_self_div {n s : Nat} (hs : 0 < s) (h : s ≤ n) : (n - s) / s = n / s - 1 := by
  obtain ⟨m, rfl⟩ : ∃ m, n = m + s := ⟨n - s, by omega⟩
  rw [Nat.add_sub_cancel, Nat.add_div_right _ hs]; rfl

theorem takeCollect_spec {p : Profile} {size : Nat} (hs : 0 < size) :
    ∀ (n : Nat) (view : Bytes), view.length < usizeMod →
    View.takeCollect p size n view =
      .ok ((List.range (min n (view.length / size))).map fun i => view.drop (i * size)) := by
  intro n
  induction n with
  | zero => intro view _; simp [View.takeCollect]
  | succ n ih =>
    intro view hd
    unfold View.takeCollect
    by_cases h0 : view.length / size = 0
    · simp only [View.next, isEmpty_eq hs, Out.ok_bind, h0]
      simp
    · have hpos : 0 < view.length / size := Nat.pos_of_ne_zero h0
      have hne : (view.length / size == 0) = false := by simpa using h0
      have hat := at_in_range (p := p) hs hd (show 0 < view.length / size by omega)
      have hsize : size ≤ view.length := by
        have := (div_lt_iff (n := view.length) (i := 0) hs).mp (by omega); omega
      have hsl : View.slice p size view (.included 1) .unbounded = .ok (view.drop size) := by
        simp only [View.slice, startIndex, endIndex, dataIndex]
        rw [umul_ok (by omega)]
        simp only [Out.ok_bind]
        unfold sliceRange
        rw [if_pos (by omega)]
        simp
      have hnext : View.next p size view = .ok (some view, view.drop size) := by
        simp only [View.next, isEmpty_eq hs, Out.ok_bind, hne, hat, hsl]; simp
      rw [hnext]
      simp only [Out.ok_bind]
      rw [ih (view.drop size) (by simp; omega)]
      simp only [Out.ok_bind]
      have hlen : (view.drop size).length / size = view.length / size - 1 := by
        rw [List.length_drop, Nat.sub_self_div hs hsize]
      rw [hlen]
      have : min (n + 1) (view.length / size) = min n (view.length / size - 1) + 1 := by omega
      rw [this, List.range_succ_eq_map]
      congr 1
      simp [List.map_map, Function.comp_def, List.drop_drop, Nat.add_mul, Nat.add_comm]

end Flatdata
