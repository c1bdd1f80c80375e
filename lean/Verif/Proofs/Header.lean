import Verif.Spec.Storage
import Verif.Spec.Field
import Verif.Proofs.ReadWrite
/-!
# The size header of a resource
-/
namespace Flatdata
open Spec

theorem testBit_leNat (d : Bytes) (k : Nat) : (leNat d).testBit k = bitAt d k := by
  induction d generalizing k with
  | nil => simp [leNat]
  | cons b bs ih =>
    rw [leNat, bitAt_cons, Nat.add_comm, show (256 : Nat) = 2 ^ 8 from rfl, Nat.testBit_two_pow_mul_add _ b.isLt]
    split
    · rfl
    · exact ih _

theorem leNat_lt (d : Bytes) : leNat d < 256 ^ d.length := by
  induction d with
  | nil => simp [leNat]
  | cons b bs ih =>
    have := b.isLt
    simp only [leNat, List.length_cons, Nat.pow_succ]; omega

theorem fieldRaw_leNat {d : Bytes} (h : d.length = 8) : fieldRaw d 0 64 = leNat d := by
  apply fieldRaw_eq_of_testBit
  · have := leNat_lt d; rw [h] at this; exact this
  · intro i _; rw [testBit_leNat, Nat.zero_add]

theorem length_le64 (n : Nat) : (le64 n).length = 8 := by simp [le64]

theorem leNat_append (a b : Bytes) : leNat (a ++ b) = leNat a + 256 ^ a.length * leNat b := by
  induction a with
  | nil => simp [leNat]
  | cons x a ih =>
    simp only [List.cons_append, leNat, ih, List.length_cons, Nat.pow_succ, Nat.mul_add]
    rw [Nat.mul_comm (256 ^ a.length) 256, Nat.mul_assoc]; omega

theorem leNat_digits (n k : Nat) :
    leNat ((List.range k).map fun i => BitVec.ofNat 8 (n / 256 ^ i)) = n % 256 ^ k := by
  induction k with
  | zero => simp [leNat, Nat.mod_one]
  | succ k ih =>
    rw [List.range_succ, List.map_append, leNat_append, ih]
    simp only [List.map_cons, List.map_nil, leNat, List.length_map, List.length_range, BitVec.toNat_ofNat]
    rw [Nat.mul_zero, Nat.add_zero, Nat.pow_succ 256 k, Nat.mod_mul]

theorem leNat_le64 {n : Nat} (h : n < 2 ^ 64) : leNat (le64 n) = n := by
  unfold le64; rw [leNat_digits]; exact Nat.mod_eq_of_lt h

theorem leNat_inj {a b : Bytes} (hl : a.length = b.length) (h : leNat a = leNat b) : a = b := by
  apply bytes_ext hl
  intro k _
  rw [← testBit_leNat, ← testBit_leNat, h]

theorem le64_leNat {b : Bytes} (h : b.length = 8) : le64 (leNat b) = b := by
  have hlt := leNat_lt b
  rw [h] at hlt
  exact leNat_inj (by rw [length_le64, h]) (leNat_le64 hlt)

/-- `write_size`'s buffer. -/
theorem writeBytes_header (p : Profile) (e : Endian) {n : Nat} (h : n < 2 ^ 64) :
    writeBytes p e false n (List.replicate 8 0#8) 0 64 = .ok (le64 n) := by
  obtain ⟨d, h1, h2⟩ := writeBytes_stored (p := p) (e := e) (signed := false) (v := (n : Int))
    (d := List.replicate 8 0#8) (o := 0) (n := 64) (by omega) (by omega) (by simp) (.inl (by omega))
    (.inr ⟨by omega, by exact_mod_cast h⟩)
  rw [h1]
  congr 1
  have hl : d.length = 8 := by rw [h2.length]; simp
  have hf := h2.field
  rw [fieldRaw_leNat hl] at hf
  apply leNat_inj (by rw [hl, length_le64])
  rw [leNat_le64 h]
  have : (n : Int) % 2 ^ 64 = n := Int.emod_eq_of_lt (by omega) (by exact_mod_cast h)
  rw [this] at hf
  exact_mod_cast hf

/-- Reading the header. -/
theorem readBytes_header (p : Profile) (e : Endian) {d : Bytes} (h : d.length = 8) :
    readBytes p e .u64 d 0 64 = .ok (leNat d) := by
  rw [readBytes_spec (by omega) (by simp [IntTy.bits]) (by omega) (.inl (by omega)) (by simp [IntTy.signed]), fieldRaw_leNat h]
  rfl

theorem holds_image (data : Bytes) (h : data.length < 2 ^ 64) : Holds (image data) data := by
  have h8 := length_le64 data.length
  refine ⟨?_, ?_, ?_⟩
  · unfold image
    rw [List.append_assoc, List.take_append_of_le_length (by omega), List.take_of_length_le (by omega), leNat_le64 h]
  · unfold image
    rw [List.append_assoc, List.drop_append_of_le_length (by omega), List.drop_of_length_le (by omega)]
    simp
  · simp [image, h8, zeros]; omega

theorem Holds.unique {d a b : Bytes} (ha : Holds d a) (hb : Holds d b) : a = b := by
  have : a.length = b.length := by rw [← ha.size, ← hb.size]
  rw [← ha.body, ← hb.body, this]

end Flatdata
