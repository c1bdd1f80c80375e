import Verif.Spec.Capacity
import Verif.Proofs.Vector
import Verif.Proofs.Narrow
namespace Flatdata
open Spec

namespace Spec.IsVector
variable {m size : Nat} {l : List Bytes} {v : CapVec}

theorem rep (h : IsVector m size l v) : Rep size v.data l := ⟨h.all, h.eq⟩

theorem len_data (h : IsVector m size l v) : v.data.length = l.length * size + 8 := h.rep.length

theorem sizeInBytes (h : IsVector m size l v) (p : Profile) : CapVec.sizeInBytes m p v = .ok (l.length * size) := by
  unfold CapVec.sizeInBytes paddingSize
  rw [Narrow.usub_ok (by have := h.len_data; omega), h.len_data]; simp

theorem len (h : IsVector m size l v) (hs : 0 < size) (p : Profile) : CapVec.len m p size v = .ok l.length := by
  unfold CapVec.len
  rw [h.sizeInBytes, Out.ok_bind, if_neg (by omega), Nat.mul_div_cancel _ hs]

theorem asBytes (h : IsVector m size l v) (p : Profile) : CapVec.asBytes m p v = .ok l.flatten := by
  have h1 := h.rep.asBytes p
  unfold Vector.asBytes at h1
  rw [h.rep.sizeInBytes, Out.ok_bind] at h1
  unfold CapVec.asBytes
  rw [h.sizeInBytes, Out.ok_bind, h1]

theorem at' (h : IsVector m size l v) (p : Profile) {i : Nat} {x : Bytes} (hi : l[i]? = some x) :
    CapVec.at' m p size v i = .ok (x ++ (l.drop (i + 1)).flatten ++ zeros 8) := by
  obtain ⟨hlt, hx⟩ := List.getElem?_eq_some_iff.mp hi
  have hmul : i * size ≤ l.length * size := Nat.mul_le_mul_right _ (by omega)
  have hl := h.len_data
  have h1 := h.room
  have h2 := h.cap
  unfold CapVec.at'
  rw [Narrow.umul_ok (by omega), Out.ok_bind]
  unfold sliceFrom
  rw [if_pos (by omega), h.eq, List.drop_append_of_le_length (by rw [AllSize.length_flatten h.all]; exact hmul),
    AllSize.drop_flatten h.all, List.drop_eq_getElem_cons hlt, hx, List.flatten_cons]

theorem atMut (h : IsVector m size l v) (p : Profile) {i : Nat} (hi : i < l.length) :
    CapVec.atMut m p size v i = .ok (i * size) := by
  have hmul : i * size ≤ l.length * size := Nat.mul_le_mul_right _ (by omega)
  have hl := h.len_data
  have h1 := h.room
  have h2 := h.cap
  unfold CapVec.atMut
  rw [Narrow.umul_ok (by omega), Out.ok_bind]
  unfold sliceFrom
  rw [if_pos (by omega)]
  rfl

/-- Writing through the handle of element `i`. -/
theorem writeAt {p : Profile} {e : Endian} {S : StructDef} (h : IsVector m S.size l v) {i : Nat} {x y : Bytes}
    (hi : l[i]? = some x) {ops : List HandleOp} (hw : runHandle p e S ops x = .ok y) :
    ∃ v', CapVec.writeAt p e S v (i * S.size) ops = .ok v' ∧ IsVector m S.size (l.set i y) v' ∧ v'.cap = v.cap ∧
      v'.allocs = v.allocs := by
  obtain ⟨d, h1, h2⟩ := h.rep.writeAt hi hw
  refine ⟨{ v with data := d }, ?_, ⟨h2.all, h2.eq, ?_, h.cap⟩, rfl, rfl⟩
  · unfold CapVec.writeAt
    rw [h1, Out.ok_bind]
  · have a := h2.length
    have b := h.len_data
    have c := h.room
    simp only [List.length_set] at a
    show d.length ≤ v.cap
    omega

/-- Writing through the handle of element `i`, the other way round. -/
theorem writeAt_inv {p : Profile} {e : Endian} {S : StructDef} (h : IsVector m S.size l v) {i : Nat} {x : Bytes}
    (hi : l[i]? = some x) {ops : List HandleOp} {v' : CapVec} (hw : CapVec.writeAt p e S v (i * S.size) ops = .ok v') :
    ∃ y, runHandle p e S ops x = .ok y ∧ IsVector m S.size (l.set i y) v' ∧ v'.cap = v.cap ∧ v'.allocs = v.allocs := by
  obtain ⟨hlt, hx'⟩ := List.getElem?_eq_some_iff.mp hi
  have hx : x.length = S.size := h.all x (by rw [← hx']; exact List.getElem_mem hlt)
  have hmul : i * S.size ≤ l.length * S.size := Nat.mul_le_mul_right _ (by omega)
  have hdrop : v.data.drop (i * S.size) = x ++ ((l.drop (i + 1)).flatten ++ zeros 8) := by
    rw [h.eq, List.drop_append_of_le_length (by rw [AllSize.length_flatten h.all]; exact hmul),
      AllSize.drop_flatten h.all, List.drop_eq_getElem_cons hlt, hx']
    simp
  have hw' := hw
  unfold CapVec.writeAt Vector.writeAt at hw'
  rw [hdrop, runHandle_local _ _ hx] at hw'
  cases hr : runHandle p e S ops x with
  | panic => rw [hr] at hw'; cases hw'
  | ub => rw [hr] at hw'; cases hw'
  | ok y =>
    obtain ⟨v2, a, b⟩ := h.writeAt hi hr
    rw [a] at hw
    cases hw
    exact ⟨y, rfl, b⟩

end Spec.IsVector

theorem Spec.HostRoom.bound {m size : Nat} : ∀ (ops : List VecOp) (n : Nat), HostRoom m size ops n → 2 * (n * size + 8) < m := by
  intro ops
  induction ops with
  | nil => exact fun n h => h
  | cons op ops ih =>
    intro n h
    cases op with
    | grow _ => have := ih _ h; rw [Nat.add_mul] at this; omega
    | reserve _ => exact ih _ h.2
    | atMut _ _ => exact ih _ h

namespace CapVec
variable {m : Nat} {A : Allocator m} {p : Profile} {e : Endian}

theorem vecReserve_spec {v v' : CapVec} {extra : Nat} (h : vecReserve A v extra = .ok v') (hr : v.data.length ≤ v.cap)
    (hc : 2 * v.cap < m) :
    v'.data = v.data ∧ v.data.length + extra ≤ v'.cap ∧ 2 * v'.cap < m ∧
      (v.data.length + extra ≤ v.cap → v' = v) ∧ (v.cap < v.data.length + extra → v'.allocs = v.allocs + 1) := by
  unfold vecReserve at h
  split at h
  · next hle =>
    cases h
    exact ⟨rfl, by omega, hc, fun _ => rfl, fun _ => by omega⟩
  · next hle =>
    split at h
    · cases h
    · next c hn =>
      cases h
      obtain ⟨a, b⟩ := A.next_enough _ _ _ hn
      exact ⟨rfl, a, b, fun _ => by omega, fun _ => rfl⟩

theorem resize0_rep {size : Nat} {l : List Bytes} {data : Bytes} (h : Rep size data l) :
    Rep size (resize0 data (data.length + size)) (l ++ [zeros size]) := by
  refine ⟨h.all.append (AllSize.single (by simp [zeros])), ?_⟩
  unfold resize0
  rw [List.take_of_length_le (by omega), h.eq]
  simp only [zeros, List.length_append, List.length_replicate, List.flatten_append, List.flatten_cons, List.flatten_nil,
    List.append_nil, List.append_assoc, List.replicate_append_replicate]
  congr 2
  omega

/-- What `grow` does is to ask for `size` more bytes. -/
theorem grow_eq {size : Nat} {l : List Bytes} {v : CapVec} (hs : 0 < size) (hs' : 2 * size < m) (h : IsVector m size l v) :
    grow A p size v = (do
      let w ← vecReserve A v size
      .ok ({ w with data := resize0 v.data (v.data.length + size) }, l.length * size)) := by
  have hl := h.len_data
  have h1 := h.room
  have h2 := h.cap
  unfold grow
  rw [Narrow.uadd_ok (by omega), Out.ok_bind]
  unfold vecResize
  rw [if_neg (by omega), Nat.add_sub_cancel_left]
  cases hr : vecReserve A v size with
  | panic => rfl
  | ub => rfl
  | ok w =>
    obtain ⟨a, b, c, _, _⟩ := vecReserve_spec hr h1 h2
    have hrep := resize0_rep h.rep
    have hlen := hrep.length
    have hv : IsVector m size (l ++ [zeros size]) { w with data := resize0 v.data (v.data.length + size) } := by
      refine ⟨hrep.all, hrep.eq, ?_, c⟩
      show (resize0 v.data (v.data.length + size)).length ≤ w.cap
      rw [hlen, List.length_append, List.length_singleton, Nat.add_mul, Nat.one_mul]
      omega
    simp only [Out.ok_bind]
    rw [a, hv.len hs, Out.ok_bind, List.length_append, List.length_singleton, Narrow.usub_ok (by omega), Out.ok_bind,
      Nat.add_sub_cancel, Narrow.umul_ok (by omega), Out.ok_bind]
    unfold sliceFrom
    rw [if_pos (by show _ ≤ (resize0 v.data (v.data.length + size)).length; rw [hlen, List.length_append, Nat.add_mul]; omega)]
    rfl

/-- `grow`, whenever it returns. -/
theorem grow_spec {size : Nat} {l : List Bytes} {v w : CapVec} {pos : Nat} (hs : 0 < size) (hs' : 2 * size < m)
    (h : IsVector m size l v) (hg : grow A p size v = .ok (w, pos)) :
    pos = l.length * size ∧ IsVector m size (l ++ [zeros size]) w ∧
      (v.data.length + size ≤ v.cap → w.cap = v.cap ∧ w.allocs = v.allocs) ∧
      (v.cap < v.data.length + size → w.allocs = v.allocs + 1) := by
  have hl := h.len_data
  rw [grow_eq hs hs' h, Out.bind_eq_ok] at hg
  obtain ⟨v2, hr, hg⟩ := hg
  obtain ⟨a, b, c, d, f⟩ := vecReserve_spec hr h.room h.cap
  cases hg
  have hrep := resize0_rep h.rep
  have hlen := hrep.length
  refine ⟨rfl, ⟨hrep.all, hrep.eq, ?_, c⟩, fun hle => ?_, f⟩
  · show (resize0 v.data (v.data.length + size)).length ≤ v2.cap
    rw [hlen, List.length_append, List.length_singleton, Nat.add_mul, Nat.one_mul]
    omega
  · rw [d hle]; exact ⟨rfl, rfl⟩

/-- With room for another element `grow` returns. -/
theorem grow_room {size : Nat} {l : List Bytes} {v : CapVec} (hs : 0 < size) (hs' : 2 * size < m) (h : IsVector m size l v)
    (hr : v.data.length + size ≤ v.cap) : ∃ r, grow A p size v = .ok r := by
  rw [grow_eq hs hs' h]
  unfold vecReserve
  rw [if_pos (by omega)]
  exact ⟨_, rfl⟩

/-- `reserve` as long as nothing overflows. -/
theorem reserve_eq {size k : Nat} {l : List Bytes} {v : CapVec} (hs : 0 < size) (h : IsVector m size l v)
    (hk : (l.length + k) * size + 8 < m) : reserve A p size v k = vecReserve A v (k * size + 8) := by
  have hle : l.length + k ≤ (l.length + k) * size := Nat.le_mul_of_pos_right _ hs
  unfold reserve calcSize paddingSize
  rw [h.len hs, Out.ok_bind, Narrow.uadd_ok (by omega), Out.ok_bind, Narrow.umul_ok (by omega), Out.ok_bind,
    Narrow.uadd_ok (by omega), Out.ok_bind, h.sizeInBytes, Out.ok_bind,
    Narrow.usub_ok (by rw [Nat.add_mul]; omega), Out.ok_bind]
  congr 1
  rw [Nat.add_mul]; omega

/-- With overflow checks `reserve` returns only if nothing overflows. -/
theorem reserve_debug {size k : Nat} {l : List Bytes} {v v' : CapVec} (hs : 0 < size) (h : IsVector m size l v)
    (hr : reserve A .debug size v k = .ok v') : (l.length + k) * size + 8 < m := by
  unfold reserve calcSize paddingSize at hr
  rw [h.len hs, Out.ok_bind] at hr
  by_cases h1 : l.length + k < m
  · rw [Narrow.uadd_ok h1, Out.ok_bind] at hr
    by_cases h2 : (l.length + k) * size < m
    · rw [Narrow.umul_ok h2, Out.ok_bind] at hr
      by_cases h3 : (l.length + k) * size + 8 < m
      · exact h3
      · rw [Narrow.uadd_panic h3] at hr; cases hr
    · rw [Narrow.umul_panic h2] at hr; cases hr
  · rw [Narrow.uadd_panic h1] at hr; cases hr

/-- `reserve` never touches the elements. -/
theorem reserve_spec {size k : Nat} {l : List Bytes} {v v' : CapVec} (h : IsVector m size l v)
    (hr : reserve A p size v k = .ok v') : IsVector m size l v' := by
  simp only [reserve, Out.bind_eq_ok] at hr
  obtain ⟨_, _, _, _, _, _, _, _, x, _, hr⟩ := hr
  obtain ⟨a, b, c, _, _⟩ := vecReserve_spec hr h.room h.cap
  exact ⟨h.all, by rw [a]; exact h.eq, by rw [a]; omega, c⟩

/-- Adding elements where there is room. -/
theorem grows_room {S : StructDef} {l : List Bytes} {v : CapVec} (hs : 0 < S.size) (hs' : 2 * S.size < m)
    (h : IsVector m S.size l v) : ∀ n w, GrowsBy A p e S n v w → v.data.length + n * S.size ≤ v.cap →
    w.cap = v.cap ∧ w.allocs = v.allocs ∧ ∃ l', l'.length = l.length + n ∧ IsVector m S.size l' w := by
  intro n w hg
  induction hg with
  | zero v => exact fun _ => ⟨rfl, rfl, l, rfl, h⟩
  | succ hg h1 h2 ih =>
    rename_i n v w x y pos ops
    intro hle
    rw [Nat.add_mul, Nat.one_mul] at hle
    obtain ⟨a, b, l', hl', hv⟩ := ih h (by omega)
    have hd := hv.len_data
    have hd0 := h.len_data
    have hroom : w.data.length + S.size ≤ w.cap := by rw [hd, a, hl', Nat.add_mul]; omega
    obtain ⟨c, d, f, _⟩ := grow_spec hs hs' hv h1
    have hi : (l' ++ [zeros S.size])[l'.length]? = some (zeros S.size) := by simp
    rw [c] at h2
    obtain ⟨z, _, i1, i2, i3⟩ := d.writeAt_inv hi h2
    refine ⟨by rw [i2, (f hroom).1, a], by rw [i3, (f hroom).2, b], _, ?_, i1⟩
    simp [hl']; omega

/-- Adding elements at all. -/
theorem grows_vector {S : StructDef} {l : List Bytes} {v : CapVec} (hs : 0 < S.size) (hs' : 2 * S.size < m)
    (h : IsVector m S.size l v) : ∀ n w, GrowsBy A p e S n v w → ∃ l', l'.length = l.length + n ∧ IsVector m S.size l' w := by
  intro n w hg
  induction hg with
  | zero v => exact ⟨l, rfl, h⟩
  | succ hg h1 h2 ih =>
    rename_i n v w x y pos ops
    obtain ⟨l', hl', hv⟩ := ih h
    obtain ⟨c, d, f, _⟩ := grow_spec hs hs' hv h1
    have hi : (l' ++ [zeros S.size])[l'.length]? = some (zeros S.size) := by simp
    rw [c] at h2
    obtain ⟨z, _, i1, _, _⟩ := d.writeAt_inv hi h2
    exact ⟨_, by simp [hl']; omega, i1⟩

/-- Memory changes by allocations only. -/
theorem grows_allocs {S : StructDef} {l : List Bytes} {v : CapVec} (hs : 0 < S.size) (hs' : 2 * S.size < m)
    (h : IsVector m S.size l v) : ∀ n w, GrowsBy A p e S n v w →
    v.allocs ≤ w.allocs ∧ (w.allocs = v.allocs → w.cap = v.cap) := by
  intro n w hg
  induction hg with
  | zero v => exact ⟨Nat.le_refl _, fun _ => rfl⟩
  | succ hg h1 h2 ih =>
    rename_i n v w x y pos ops
    obtain ⟨a, b⟩ := ih h
    obtain ⟨l', hl', hv⟩ := grows_vector hs hs' h n w hg
    obtain ⟨c, d, f, g⟩ := grow_spec hs hs' hv h1
    have hi : (l' ++ [zeros S.size])[l'.length]? = some (zeros S.size) := by simp
    rw [c] at h2
    obtain ⟨z, _, _, i2, i3⟩ := d.writeAt_inv hi h2
    rcases Nat.lt_or_ge w.cap (w.data.length + S.size) with hlt | hge
    · have := g hlt
      exact ⟨by omega, fun _ => by omega⟩
    · obtain ⟨f1, f2⟩ := f hge
      exact ⟨by omega, fun hy => by rw [i2, f1, b (by omega)]⟩

/-- If there is room for `k` elements, one can add `k` of them. -/
theorem roomFor_grows {S : StructDef} {k : Nat} {v : CapVec} (h : RoomFor A p e S k v) :
    ∀ n, n ≤ k → ∃ w, GrowsBy A p e S n v w := by
  intro n
  induction n with
  | zero => exact fun _ => ⟨v, .zero v⟩
  | succ n ih =>
    intro hn
    obtain ⟨w, hw⟩ := ih (by omega)
    obtain ⟨⟨x, pos⟩, hx⟩ := (h n w hw (by omega)).2 (by omega)
    refine ⟨{ x with data := x.data.take pos ++ x.data.drop pos }, .succ (ops := []) hw hx ?_⟩
    rfl

/-- There is room for `k` elements iff the memory is that large. -/
theorem roomFor_iff {S : StructDef} {k : Nat} {l : List Bytes} {v : CapVec} (hs : 0 < S.size) (hs' : 2 * S.size < m)
    (h : IsVector m S.size l v) : RoomFor A p e S k v ↔ (l.length + k) * S.size + 8 ≤ v.cap := by
  have hd := h.len_data
  constructor
  · intro hr
    obtain ⟨w, hw⟩ := roomFor_grows hr k (Nat.le_refl _)
    obtain ⟨l', hl', hv⟩ := grows_vector hs hs' h k w hw
    have := (grows_allocs hs hs' h k w hw).2 (hr k w hw (Nat.le_refl _)).1
    have hd' := hv.len_data
    have := hv.room
    rw [hl'] at hd'
    omega
  · intro hc n w hg hn
    have hle : n * S.size ≤ k * S.size := Nat.mul_le_mul_right _ hn
    rw [Nat.add_mul] at hc
    obtain ⟨a, b, l', hl', hv⟩ := grows_room hs hs' h n w hg (by omega)
    refine ⟨b, fun hlt => grow_room hs hs' hv ?_⟩
    have hd' := hv.len_data
    have hle' : (n + 1) * S.size ≤ k * S.size := Nat.mul_le_mul_right _ hlt
    rw [hl', Nat.add_mul] at hd'
    rw [Nat.add_mul, Nat.one_mul] at hle'
    omega

/-! ## Histories -/

/-- `with_len`, as long as nothing overflows. -/
theorem withLen_spec {size n : Nat} {v : CapVec} (hn : n * size + 8 < m) (h : withLen A p size n = .ok v) :
    IsVector m size (List.replicate n (zeros size)) v := by
  unfold withLen calcSize paddingSize at h
  rw [Narrow.umul_ok (by omega), Out.ok_bind, Narrow.uadd_ok hn, Out.ok_bind] at h
  unfold zeroed at h
  split at h
  · cases h
  · next c hc =>
    cases h
    obtain ⟨a, b⟩ := A.fresh_enough _ _ hc
    refine ⟨fun x hx => ?_, ?_, by simpa using a, b⟩
    · rw [List.eq_of_mem_replicate hx]; simp [zeros]
    · show List.replicate (n * size + 8) 0#8 = _
      rw [← zeros, ← zeros_append, zeros, zeros, zeros, List.flatten_replicate_replicate]

/-- One operation does to the elements what it does to a list. -/
theorem step_spec {S : StructDef} {l : List Bytes} {v v' : CapVec} (hs : 0 < S.size) (hs' : 2 * S.size < m)
    (h : IsVector m S.size l v) (op : VecOp) (hr : InRange [op] l.length) (hop : step A p e S v op = .ok v') :
    ∃ l', listOp p e S l op = .ok l' ∧ IsVector m S.size l' v' := by
  cases op with
  | reserve k => exact ⟨l, rfl, reserve_spec h hop⟩
  | grow ops =>
    simp only [step, Out.bind_eq_ok] at hop
    obtain ⟨⟨w, pos⟩, h1, h2⟩ := hop
    obtain ⟨c, d, _, _⟩ := grow_spec hs hs' h h1
    have hi : (l ++ [zeros S.size])[l.length]? = some (zeros S.size) := by simp
    simp only at h2
    rw [c] at h2
    obtain ⟨z, hz, i1, _, _⟩ := d.writeAt_inv hi h2
    refine ⟨l ++ [z], ?_, by simpa using i1⟩
    simp only [listOp]
    rw [hz, Out.ok_bind]
  | atMut i ops =>
    simp only [step, Out.bind_eq_ok] at hop
    obtain ⟨pos, h1, h2⟩ := hop
    rw [h.atMut p hr.1] at h1
    cases h1
    have hi : l[i]? = some (l[i]'hr.1) := List.getElem?_eq_getElem hr.1
    obtain ⟨z, hz, i1, _, _⟩ := h.writeAt_inv hi h2
    refine ⟨l.set i z, ?_, i1⟩
    simp only [listOp, hi]
    rw [hz, Out.ok_bind]

/-- How many elements an operation adds. -/
def added : VecOp → Nat
  | .grow _ => 1
  | _ => 0

theorem listOp_length {S : StructDef} {l l' : List Bytes} {op : VecOp} (h : listOp p e S l op = .ok l') :
    l'.length = l.length + added op := by
  cases op with
  | reserve k => cases h; rfl
  | grow ops =>
    simp only [listOp, Out.bind_eq_ok] at h
    obtain ⟨x, _, h⟩ := h
    cases h; simp [added]
  | atMut i ops =>
    simp only [listOp] at h
    split at h
    · cases h
    · rw [Out.bind_eq_ok] at h
      obtain ⟨x, _, h⟩ := h
      cases h; simp [added]

theorem run_spec {S : StructDef} (hs : 0 < S.size) (hs' : 2 * S.size < m) : ∀ (ops : List VecOp) {l : List Bytes} {v v' : CapVec},
    IsVector m S.size l v → InRange ops l.length → run A p e S ops v = .ok v' →
    ∃ l', runList p e S ops l = .ok l' ∧ IsVector m S.size l' v' := by
  intro ops
  induction ops with
  | nil => intro l v v' h _ hr; cases hr; exact ⟨l, rfl, h⟩
  | cons op ops ih =>
    intro l v v' h hi hr
    simp only [run, Out.bind_eq_ok] at hr
    obtain ⟨w, h1, h2⟩ := hr
    have hi' : InRange [op] l.length ∧ InRange ops (l.length + added op) := by
      cases op with
      | grow _ => exact ⟨trivial, hi⟩
      | reserve _ => exact ⟨trivial, hi⟩
      | atMut _ _ => exact ⟨⟨hi.1, trivial⟩, hi.2⟩
    obtain ⟨l1, a, b⟩ := step_spec hs hs' h op hi'.1 h1
    obtain ⟨l2, c, d⟩ := ih b (by rw [listOp_length a]; exact hi'.2) h2
    exact ⟨l2, by simp only [runList]; rw [a, Out.ok_bind, c], d⟩

/-- With an obliging allocator and enough memory every history with existing indices returns. -/
theorem run_ok {S : StructDef} (hs : 0 < S.size) (hs' : 2 * S.size < m) (hA : Obliging A) :
    ∀ (ops : List VecOp) {l l' : List Bytes} {v : CapVec}, IsVector m S.size l v → HostRoom m S.size ops l.length →
    runList p e S ops l = .ok l' → ∃ v', run A p e S ops v = .ok v' := by
  intro ops
  induction ops with
  | nil => intro l l' v _ _ _; exact ⟨v, rfl⟩
  | cons op ops ih =>
    intro l l' v h hf hr
    simp only [runList, Out.bind_eq_ok] at hr
    obtain ⟨l1, h1, h2⟩ := hr
    have hl := h.len_data
    have hroom := h.room
    have hcap := h.cap
    have key : ∃ w, step A p e S v op = .ok w ∧ InRange [op] l.length ∧ HostRoom m S.size ops (l.length + added op) := by
      cases op with
      | reserve k =>
        have hk : 2 * ((l.length + k) * S.size + 16) < m := hf.1
        have hres : ∃ w, reserve A p S.size v k = .ok w := by
          rw [reserve_eq hs h (by omega)]
          unfold vecReserve
          split
          · exact ⟨_, rfl⟩
          · obtain ⟨c, hc⟩ := hA.2 v.cap (v.data.length + (k * S.size + 8)) (by rw [hl]; rw [Nat.add_mul] at hk; omega)
            rw [hc]; exact ⟨_, rfl⟩
        obtain ⟨w, hw⟩ := hres
        exact ⟨w, hw, trivial, hf.2⟩
      | grow o =>
        have hb : 2 * ((l.length + 1) * S.size + 8) < m := HostRoom.bound ops _ hf
        have hgr : ∃ r, grow A p S.size v = .ok r := by
          rw [grow_eq hs hs' h]
          unfold vecReserve
          split
          · exact ⟨_, rfl⟩
          · obtain ⟨c, hc⟩ := hA.2 v.cap (v.data.length + S.size) (by rw [hl]; rw [Nat.add_mul] at hb; omega)
            rw [hc]; exact ⟨_, rfl⟩
        obtain ⟨⟨w, pos⟩, hw⟩ := hgr
        obtain ⟨c, d, _, _⟩ := grow_spec hs hs' h hw
        simp only [listOp, Out.bind_eq_ok] at h1
        obtain ⟨y, hy, _⟩ := h1
        have hi : (l ++ [zeros S.size])[l.length]? = some (zeros S.size) := by simp
        obtain ⟨w', hw', _⟩ := d.writeAt hi hy
        refine ⟨w', ?_, trivial, hf⟩
        simp only [step]
        rw [hw, Out.ok_bind, c]
        exact hw'
      | atMut i o =>
        simp only [listOp] at h1
        split at h1
        · cases h1
        · next x hx =>
          obtain ⟨hlt, _⟩ := List.getElem?_eq_some_iff.mp hx
          rw [Out.bind_eq_ok] at h1
          obtain ⟨y, hy, _⟩ := h1
          obtain ⟨w', hw', _⟩ := h.writeAt hx hy
          refine ⟨w', ?_, ⟨hlt, trivial⟩, hf⟩
          simp only [step]
          rw [h.atMut p hlt, Out.ok_bind, hw']
    obtain ⟨w, hw, hr1, hf1⟩ := key
    obtain ⟨l2, a, b⟩ := step_spec hs hs' h op hr1 hw
    rw [h1] at a
    cases a
    obtain ⟨v', hv'⟩ := ih b (by rw [listOp_length h1]; exact hf1) h2
    exact ⟨v', by simp only [run]; rw [hw, Out.ok_bind, hv']⟩

theorem withLen_ok {size n : Nat} (hA : Obliging A) (hn : 2 * (n * size + 8) < m) : ∃ v, withLen A p size n = .ok v := by
  unfold withLen calcSize paddingSize
  rw [Narrow.umul_ok (by omega), Out.ok_bind, Narrow.uadd_ok (by omega), Out.ok_bind]
  unfold zeroed
  obtain ⟨c, hc⟩ := hA.1 (n * size + 8) hn
  rw [hc]
  exact ⟨_, rfl⟩

/-! ## Forgetting capacities -/

section
variable {A : Allocator usizeMod}

theorem alloc_of {n : Nat} {c : Nat} (h : n ≤ c) (hc : 2 * c < usizeMod) : alloc n = .ok () := by
  unfold alloc; unfold usizeMod at hc
  rw [if_pos (by omega)]

/-- On 64-bit hosts every operation that returns does to the bytes what `Model/Vector` says, for any element size and any index. -/
theorem step_erase {S : StructDef} {v v' : CapVec} (op : VecOp) (hr : v.data.length ≤ v.cap) (hc : 2 * v.cap < usizeMod)
    (h : step A p e S v op = .ok v') : op.run p e S v.data = .ok v'.data := by
  cases op with
  | reserve k =>
    simp only [step, reserve, Out.bind_eq_ok] at h
    obtain ⟨a, ha, b, hb, c, hc', d, hd, x, hx, h⟩ := h
    obtain ⟨h1, h2, h3, _, _⟩ := vecReserve_spec h hr hc
    simp only [VecOp.run, Vector.reserve, Out.bind_eq_ok]
    refine ⟨a, ha, b, hb, c, hc', d, hd, x, hx, (), alloc_of h2 h3, ?_⟩
    rw [h1]
  | grow ops =>
    simp only [step, grow, Out.bind_eq_ok] at h
    obtain ⟨⟨w, pos⟩, ⟨n, hn, w1, hw, k, hk, k1, hk1, pos', hpos, y, hy, h1⟩, h2⟩ := h
    cases h1
    simp only [VecOp.run, Vector.grow, Out.bind_eq_ok]
    have key : w.data = resize0 v.data n ∧ alloc n = .ok () := by
      unfold vecResize at hw
      split at hw
      · next hle =>
        cases hw
        exact ⟨by simp [resize0, Nat.sub_eq_zero_of_le hle], alloc_of (Nat.le_trans hle hr) hc⟩
      · next hle =>
        rw [Out.bind_eq_ok] at hw
        obtain ⟨w2, a, b⟩ := hw
        cases b
        obtain ⟨h1, h2, h3, _, _⟩ := vecReserve_spec a hr hc
        exact ⟨by simp only [h1], alloc_of (by omega) h3⟩
    obtain ⟨key, ka⟩ := key
    unfold len sizeInBytes at hk
    rw [key] at hk hy
    refine ⟨_, ⟨n, hn, (), ka, k, hk, k1, hk1, pos, hpos, y, hy, rfl⟩, ?_⟩
    simp only [writeAt, Out.bind_eq_ok] at h2
    obtain ⟨d, h3, h4⟩ := h2
    cases h4
    rw [← key]
    exact h3
  | atMut i ops =>
    simp only [step, atMut, Out.bind_eq_ok] at h
    obtain ⟨pos, ⟨pos', hpos, y, hy, h1⟩, h2⟩ := h
    cases h1
    simp only [VecOp.run, Vector.atMut, Out.bind_eq_ok]
    simp only [writeAt, Out.bind_eq_ok] at h2
    obtain ⟨d, h3, h4⟩ := h2
    cases h4
    exact ⟨pos, ⟨pos, hpos, y, hy, rfl⟩, h3⟩

end

end CapVec
end Flatdata
