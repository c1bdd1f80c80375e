import Verif.Model.Bits
import Verif.Spec.Bits
namespace Flatdata
open Spec

/-! ## bits of byte strings -/

theorem bitAt_eq (d : Bytes) (k : Nat) : bitAt d k = ((d[k / 8]?).getD 0#8).getLsbD (k % 8) := by
  unfold bitAt; cases d[k / 8]? <;> simp

@[simp] theorem bitAt_nil (k : Nat) : bitAt [] k = false := by simp [bitAt]

theorem bitAt_cons (b : Byte) (bs : Bytes) (k : Nat) :
    bitAt (b :: bs) k = if k < 8 then b.getLsbD k else bitAt bs (k - 8) := by
  simp only [bitAt_eq]
  by_cases h : k < 8
  · have h1 : k / 8 = 0 := by omega
    have h2 : k % 8 = k := by omega
    simp [h, h1, h2]
  · have h1 : k / 8 = (k - 8) / 8 + 1 := by omega
    have h2 : (k - 8) % 8 = k % 8 := by omega
    simp [h, h1, h2]

theorem bitAt_drop (d : Bytes) (a k : Nat) : bitAt (d.drop a) k = bitAt d (8 * a + k) := by
  simp only [bitAt_eq, List.getElem?_drop]
  have h1 : (8 * a + k) / 8 = a + k / 8 := by omega
  have h2 : (8 * a + k) % 8 = k % 8 := by omega
  rw [h1, h2]

theorem bitAt_take (d : Bytes) (a k : Nat) :
    bitAt (d.take a) k = (decide (k < 8 * a) && bitAt d k) := by
  simp only [bitAt_eq, List.getElem?_take]
  by_cases h : k < 8 * a
  · have h1 : k / 8 < a := by omega
    simp [h, h1]
  · have h1 : ¬ k / 8 < a := by omega
    simp [h, h1]

theorem bitAt_append (d d' : Bytes) (k : Nat) :
    bitAt (d ++ d') k = if k < 8 * d.length then bitAt d k else bitAt d' (k - 8 * d.length) := by
  simp only [bitAt_eq, List.getElem?_append]
  by_cases h : k < 8 * d.length
  · have h1 : k / 8 < d.length := by omega
    simp [h, h1]
  · have h1 : ¬ k / 8 < d.length := by omega
    have h2 : (k - 8 * d.length) / 8 = k / 8 - d.length := by omega
    have h3 : (k - 8 * d.length) % 8 = k % 8 := by omega
    simp [h, h1, h2, h3]

theorem bitAt_ge (d : Bytes) (k : Nat) (h : 8 * d.length ≤ k) : bitAt d k = false := by
  have h1 : d.length ≤ k / 8 := by omega
  simp [bitAt_eq, h1]

@[simp] theorem bitAt_replicate_zero (n k : Nat) : bitAt (List.replicate n 0#8) k = false := by
  simp only [bitAt_eq, List.getElem?_replicate]
  split <;> simp

theorem bitAt_set (d : Bytes) (i : Nat) (b : Byte) (k : Nat) (hi : i < d.length) :
    bitAt (d.set i b) k = if k / 8 = i then b.getLsbD (k % 8) else bitAt d k := by
  simp only [bitAt_eq, List.getElem?_set]
  by_cases h : k / 8 = i
  · subst h; simp [hi]
  · have : ¬ i = k / 8 := fun h' => h h'.symm
    simp [h, this]

theorem bytes_ext {d d' : Bytes} (hl : d.length = d'.length)
    (h : ∀ k, k < 8 * d.length → bitAt d k = bitAt d' k) : d = d' := by
  apply List.ext_getElem hl
  intro i h1 h2
  apply BitVec.eq_of_getLsbD_eq
  intro j hj
  have := h (8 * i + j) (by omega)
  simp only [bitAt_eq] at this
  have e1 : (8 * i + j) / 8 = i := by omega
  have e2 : (8 * i + j) % 8 = j := by omega
  rw [e1, e2] at this
  simpa [h1, h2] using this

/-! ## `fieldRaw` -/

theorem fieldRaw_lt (d : Bytes) (o n : Nat) : fieldRaw d o n < 2 ^ n := by
  induction n with
  | zero => simp [fieldRaw]
  | succ n ih => simp only [fieldRaw, Nat.pow_succ]; split <;> omega

theorem testBit_fieldRaw (d : Bytes) (o n i : Nat) :
    (fieldRaw d o n).testBit i = (decide (i < n) && bitAt d (o + i)) := by
  induction n with
  | zero => simp [fieldRaw]
  | succ n ih =>
    have hlt := fieldRaw_lt d o n
    simp only [fieldRaw]
    by_cases hb : bitAt d (o + n) = true
    · simp only [hb, if_true, Nat.add_comm _ (2 ^ n)]
      rcases Nat.lt_trichotomy i n with h | h | h
      · rw [Nat.testBit_two_pow_add_gt h, ih]; simp [h, Nat.lt_succ_of_lt h]
      · subst h; rw [Nat.testBit_two_pow_add_eq, ih]; simp [hb]
      · have : 2 ^ n + fieldRaw d o n < 2 ^ i :=
          Nat.lt_of_lt_of_le (m := 2 ^ (n + 1)) (by rw [Nat.pow_succ]; omega)
            (Nat.pow_le_pow_right (by omega) h)
        rw [Nat.testBit_lt_two_pow this]
        have : ¬ i < n + 1 := by omega
        simp [this]
    · simp only [hb]
      simp only [Bool.false_eq_true, if_false, Nat.add_zero, ih]
      by_cases h : i = n
      · subst h; simp [hb]
      · by_cases h' : i < n
        · simp [h', Nat.lt_succ_of_lt h']
        · have : ¬ i < n + 1 := by omega
          simp [h', this]

theorem fieldRaw_eq_of_testBit {d : Bytes} {o n x : Nat} (hx : x < 2 ^ n)
    (h : ∀ i, i < n → x.testBit i = bitAt d (o + i)) : fieldRaw d o n = x := by
  apply Nat.eq_of_testBit_eq
  intro i
  rw [testBit_fieldRaw]
  by_cases hi : i < n
  · simp [hi, h i hi]
  · have : x < 2 ^ i := Nat.lt_of_lt_of_le hx (Nat.pow_le_pow_right (by omega) (by omega))
    simp [hi, Nat.testBit_lt_two_pow this]

theorem fieldRaw_congr {d d' : Bytes} {o o' n : Nat}
    (h : ∀ i, i < n → bitAt d (o + i) = bitAt d' (o' + i)) : fieldRaw d o n = fieldRaw d' o' n := by
  apply fieldRaw_eq_of_testBit (fieldRaw_lt _ _ _)
  intro i hi
  rw [testBit_fieldRaw]; simp [hi, h i hi]

/-! ## u64 in memory -/

theorem getLsbD_leToU64 (m : Bytes) (i : Nat) :
    (leToU64 m).getLsbD i = (decide (i < 64) && bitAt m i) := by
  induction m generalizing i with
  | nil => simp [leToU64]
  | cons b bs ih =>
    simp only [leToU64, BitVec.getLsbD_or, BitVec.getLsbD_setWidth, BitVec.getLsbD_shiftLeft, ih,
      bitAt_cons]
    by_cases h : i < 64
    · by_cases h8 : i < 8
      · simp [h, h8]
      · have h3 : i - 8 < 64 := by omega
        have : b.getLsbD i = false := BitVec.getLsbD_of_ge b i (by omega)
        simp [h, h8, h3, this]
    · simp [h]

theorem length_u64ToMem (e : Endian) (v : BitVec 64) : (u64ToMem e v).length = 8 := by
  cases e <;> simp [u64ToMem]

theorem bitAt_u64ToMem_little (v : BitVec 64) (k : Nat) :
    bitAt (u64ToMem .little v) k = v.getLsbD k := by
  by_cases h : k < 64
  · have h1 : k / 8 < 8 := by omega
    simp only [bitAt_eq, u64ToMem, List.getElem?_map]
    rw [List.getElem?_range h1]
    have h2 : k % 8 < 8 := by omega
    have h3 : 8 * (k / 8) + k % 8 = k := by omega
    simp [h2, h3]
  · rw [bitAt_ge, BitVec.getLsbD_of_ge v k (by omega)]
    rw [length_u64ToMem]; omega

theorem u64ToMem_leToU64 {m : Bytes} (h : m.length = 8) : u64ToMem .little (leToU64 m) = m := by
  apply bytes_ext
  · rw [length_u64ToMem, h]
  · intro k hk
    rw [length_u64ToMem] at hk
    rw [bitAt_u64ToMem_little, getLsbD_leToU64]
    simp [show k < 64 by omega]

theorem leToU64_u64ToMem (v : BitVec 64) : leToU64 (u64ToMem .little v) = v := by
  apply BitVec.eq_of_getLsbD_eq
  intro i hi
  rw [getLsbD_leToU64, bitAt_u64ToMem_little]; simp [hi]

/-- Reading the memory of a `u64` and `from_le` does not depend on the host byte order. -/
theorem fromLe_memToU64 (e : Endian) {m : Bytes} (h : m.length = 8) :
    fromLe e (memToU64 e m) = leToU64 m := by
  cases e with
  | little => rfl
  | big =>
    simp only [fromLe, memToU64, swapBytes]
    rw [u64ToMem_leToU64 (by simpa using h), List.reverse_reverse]

/-- `to_le` and writing the memory of a `u64` does not depend on the host byte order. -/
theorem u64ToMem_fromLe (e : Endian) (v : BitVec 64) :
    u64ToMem e (fromLe e v) = u64ToMem .little v := by
  cases e with
  | little => rfl
  | big =>
    have : ∀ w, u64ToMem .big w = (u64ToMem .little w).reverse := fun w => rfl
    rw [this]
    simp only [fromLe, swapBytes]
    rw [u64ToMem_leToU64 (by simp [length_u64ToMem]), List.reverse_reverse]

theorem getLsbD_copyIntoZero (e : Endian) (src : Bytes) (h : src.length ≤ 8) (i : Nat) :
    (fromLe e (copyIntoZeroU64 e src)).getLsbD i = (decide (i < 64) && bitAt src i) := by
  unfold copyIntoZeroU64
  rw [fromLe_memToU64 e (by simp; omega), getLsbD_leToU64, bitAt_append]
  by_cases h2 : i < 8 * src.length
  · simp [h2]
  · simp [h2, bitAt_ge src i (by omega)]

theorem fromLe_copy_endian (e : Endian) (src : Bytes) (h : src.length ≤ 8) :
    fromLe e (copyIntoZeroU64 e src) = fromLe .little (copyIntoZeroU64 .little src) := by
  apply BitVec.eq_of_getLsbD_eq
  intro i _
  rw [getLsbD_copyIntoZero e src h, getLsbD_copyIntoZero .little src h]

/-! ## masks -/

theorem getLsbD_mask (n : Nat) (hn : n < 64) (i : Nat) :
    ((1#64 <<< n) - 1#64).getLsbD i = decide (i < n) := by
  have h2 : (2:Nat) ^ n < 2 ^ 64 := Nat.pow_lt_pow_right (by omega) hn
  have h3 : 0 < (2:Nat) ^ n := Nat.two_pow_pos n
  have : ((1#64 <<< n) - 1#64).toNat = 2 ^ n - 1 := by
    simp only [BitVec.toNat_sub, BitVec.toNat_shiftLeft, BitVec.toNat_ofNat, Nat.shiftLeft_eq]
    rw [Nat.mod_eq_of_lt (show 1 % 2 ^ 64 * 2 ^ n < 2 ^ 64 by omega)]
    omega
  rw [BitVec.getLsbD, this, Nat.testBit_two_pow_sub_one]

theorem getLsbD_masked (v : BitVec 64) (n i : Nat) :
    (masked v n).getLsbD i = (decide (i < n) && v.getLsbD i) := by
  unfold masked
  split
  · rename_i h
    rw [BitVec.getLsbD_and, getLsbD_mask n h, Bool.and_comm]
  · by_cases hi : i < n
    · simp [hi]
    · simp [hi, BitVec.getLsbD_of_ge v i (by omega)]

end Flatdata
