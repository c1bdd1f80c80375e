import Verif.Proofs.Bits
import Verif.Spec.Field
namespace Flatdata
open Spec

/-! ## `num_bytes!` -/

theorem numBytes_small {o n : Nat} (h : n + o % 8 ≤ 64) :
    numBytes o n ≤ 8 ∧ n + o % 8 ≤ 8 * numBytes o n ∧ 8 * numBytes o n < n + o % 8 + 8 := by
  unfold numBytes; split <;> omega

theorem numBytes_wide {o n : Nat} (h : 64 < n + o % 8) (hn : n ≤ 64) : numBytes o n = 8 := by
  unfold numBytes; split <;> omega

theorem numBytes_le {o n : Nat} (hn : 1 ≤ n) (hn' : n ≤ 64) : numBytes o n ≤ 8 ∧ 1 ≤ numBytes o n := by
  unfold numBytes; split <;> omega

/-! ## sign extension -/

theorem IntTy.bits_cases (T : IntTy) : T.bits = 8 ∨ T.bits = 16 ∨ T.bits = 32 ∨ T.bits = 64 := by
  cases T <;> simp [IntTy.bits]

theorem twos_shift {w n x : Nat} (hn : 1 ≤ n) (hw : n ≤ w) (hx : x < 2 ^ n) :
    ((x * 2 ^ (w - n) : Nat) : Int).bmod (2 ^ w) = twos n x * 2 ^ (w - n) := by
  obtain ⟨k, rfl⟩ : ∃ k, w = n + k := ⟨w - n, by omega⟩
  simp only [Nat.add_sub_cancel_left]
  obtain ⟨m, rfl⟩ : ∃ m, n = m + 1 := ⟨n - 1, by omega⟩
  have hk : 0 < 2 ^ k := Nat.two_pow_pos k
  have hlt : x * 2 ^ k < 2 ^ (m + 1 + k) := by
    rw [Nat.pow_add]; exact Nat.mul_lt_mul_of_pos_right hx hk
  have hpow : 2 ^ (m + 1 + k) = 2 * (2 ^ m * 2 ^ k) := by
    rw [Nat.pow_add, Nat.pow_succ]; rw [Nat.mul_comm (2^m) 2, Nat.mul_assoc]
  unfold Int.bmod twos
  have hmod : ((x * 2 ^ k : Nat) : Int) % ((2 ^ (m + 1 + k) : Nat) : Int) = ((x * 2 ^ k : Nat) : Int) := by
    rw [← Int.natCast_emod, Nat.mod_eq_of_lt hlt]
  simp only [Nat.add_sub_cancel] at *
  by_cases hge : 2 ^ m ≤ x
  · have : 2 ^ m * 2 ^ k ≤ x * 2 ^ k := Nat.mul_le_mul_right _ hge
    rw [hmod, if_neg (by rw [hpow] at *; omega), if_pos hge]
    rw [Int.sub_mul]
    push_cast
    congr 1
    rw [Int.pow_add]
  · have : x * 2 ^ k < 2 ^ m * 2 ^ k := Nat.mul_lt_mul_of_pos_right (by omega) hk
    rw [hmod, if_pos (by rw [hpow] at *; omega), if_neg hge]
    push_cast; rfl

theorem extendSign_signed {p : Profile} {T : IntTy} (hs : T.signed = true) {v : BitVec 64} {n : Nat}
    (hn : 1 ≤ n) (hT : n ≤ T.bits) (hv : v.toNat < 2 ^ n) :
    extendSign p T v n = .ok (twos n v.toNat) := by
  unfold extendSign
  rw [if_pos hs]
  have hb := T.bits_cases
  unfold usub
  rw [if_pos hT]
  simp only [Out.ok_bind]
  have hk : ((T.bits - n) % 2 ^ 32) % T.bits = T.bits - n := by
    rw [Nat.mod_eq_of_lt (show T.bits - n < 2 ^ 32 by omega), Nat.mod_eq_of_lt (by omega)]
  rw [hk]
  congr 1
  rw [BitVec.toInt_sshiftRight, BitVec.toInt_shiftLeft]
  have h2 : v.toNat < 2 ^ T.bits := Nat.lt_of_lt_of_le hv (Nat.pow_le_pow_right (by omega) hT)
  rw [BitVec.toNat_setWidth, Nat.mod_eq_of_lt h2, Nat.shiftLeft_eq, twos_shift hn hT hv,
    Int.shiftRight_eq_div_pow]
  have : (2 : Int) ^ (T.bits - n) ≠ 0 := by
    have := Int.pow_pos (n := 2) (m := T.bits - n) (by omega); omega
  push_cast
  exact Int.mul_ediv_cancel _ this

theorem extendSign_unsigned {p : Profile} {T : IntTy} (hs : T.signed = false) {v : BitVec 64} {n : Nat}
    (hT : n ≤ T.bits) (hv : v.toNat < 2 ^ n) :
    extendSign p T v n = .ok (v.toNat : Int) := by
  unfold extendSign castFromU64
  have h2 : v.toNat < 2 ^ T.bits := Nat.lt_of_lt_of_le hv (Nat.pow_le_pow_right (by omega) hT)
  simp [hs, Nat.mod_eq_of_lt h2]

/-! ## reading -/

theorem toNat_masked_eq {v : BitVec 64} {d : Bytes} {o n : Nat}
    (h : ∀ i, i < n → v.getLsbD i = bitAt d (o + i)) : (masked v n).toNat = fieldRaw d o n := by
  symm
  have hlt : (masked v n).toNat < 2 ^ n := by
    apply Nat.lt_pow_two_of_testBit
    intro i hi
    have := getLsbD_masked v n i
    rw [BitVec.getLsbD] at this
    rw [this]
    simp [show ¬ i < n by omega]
  apply fieldRaw_eq_of_testBit hlt
  intro i hi
  have := getLsbD_masked v n i
  rw [BitVec.getLsbD] at this
  rw [this]
  simp [hi, h i hi]

/-- The condition under which `read_bytes!` and `write_bytes!` address the right bytes:
the field does not need a ninth byte, or starts in the first byte. -/
def NoStraddle (o n : Nat) : Prop := n + o % 8 ≤ 64 ∨ o < 8

instance (o n : Nat) : Decidable (NoStraddle o n) := by unfold NoStraddle; infer_instance

theorem readInt_masked {p : Profile} {e : Endian} {T : IntTy} {d : Bytes} {o n : Nat}
    (hn : 2 ≤ n) (hn' : n ≤ 64) (hd : o + n ≤ 8 * d.length) (hs : NoStraddle o n) :
    ∃ v : BitVec 64, v.toNat = fieldRaw d o n ∧ readInt p e T d o n = extendSign p T v n := by
  unfold readInt
  have hne : n ≠ 1 := by omega
  simp only [hne, if_false]
  by_cases hw : n + o % 8 ≤ 64
  · obtain ⟨h1, h2, h3⟩ := numBytes_small hw
    have hlen : ¬ (8 < numBytes o n ∨ d.length < o / 8 + numBytes o n) := by omega
    have hno : ¬ (numBytes o n * 8 - o % 8 < n) := by omega
    rw [if_neg hlen, if_neg hno]
    refine ⟨_, toNat_masked_eq ?_, rfl⟩
    intro i hi
    rw [BitVec.getLsbD_ushiftRight, getLsbD_copyIntoZero _ _ (by simp; omega), bitAt_take, bitAt_drop]
    have e1 : 8 * (o / 8) + (o % 8 + i) = o + i := by omega
    rw [e1]
    simp [show o % 8 + i < 64 by omega, show o % 8 + i < 8 * numBytes o n by omega]
  · have ho : o < 8 := by rcases hs with h | h <;> omega
    have hnb : numBytes o n = 8 := numBytes_wide (by omega) hn'
    have o8 : o / 8 = 0 := by omega
    have om : o % 8 = o := by omega
    rw [hnb, o8, om]
    rw [om] at hw
    rw [if_neg (by omega), if_pos (by omega)]
    have h9 : 8 < d.length := by omega
    simp only [Nat.zero_add, List.getElem?_eq_getElem h9, List.drop_zero]
    refine ⟨_, toNat_masked_eq ?_, rfl⟩
    intro i hi
    rw [BitVec.getLsbD_or, BitVec.getLsbD_ushiftRight, getLsbD_copyIntoZero _ _ (by simp; omega), bitAt_take,
      BitVec.getLsbD_shiftLeft, BitVec.getLsbD_setWidth]
    have hm : (8 * 8 - o) % (8 * 8) = 64 - o := by omega
    rw [hm]
    by_cases hi2 : o + i < 64
    · have : i < 64 - o := by omega
      simp [hi2, this]
    · have e2 : bitAt d (o + i) = (d[8]).getLsbD (i - (64 - o)) := by
        rw [bitAt_eq]
        have : (o + i) / 8 = 8 := by omega
        have e3 : (o + i) % 8 = i - (64 - o) := by omega
        rw [this, e3]; simp [h9]
      rw [e2]
      simp [show ¬ o + i < 64 by omega, show ¬ i < 64 - o by omega, show i < 64 by omega]
      intro _; omega

/-- `read_bytes!` for a one-bit field: 0 or 1, whatever the type. -/
theorem readInt_one {p : Profile} {e : Endian} {T : IntTy} {d : Bytes} {o : Nat}
    (hd : o + 1 ≤ 8 * d.length) : readInt p e T d o 1 = .ok (fieldRaw d o 1 : Int) := by
  unfold readInt
  have h : o / 8 < d.length := by omega
  simp only [if_true, List.getElem?_eq_getElem h, fieldRaw, Nat.add_zero, Nat.zero_add]
  have hb : bitAt d o = (d[o / 8]).getLsbD (o % 8) := by rw [bitAt_eq]; simp [h]
  have : (d[o / 8] &&& 1#8 <<< (o % 8) ≠ 0#8) ↔ bitAt d o = true := by
    rw [hb]
    constructor
    · intro hne
      cases hc : (d[o/8]).getLsbD (o % 8) with
      | true => rfl
      | false =>
        exfalso; apply hne
        apply BitVec.eq_of_getLsbD_eq
        intro i hi
        rw [BitVec.getLsbD_and, BitVec.getLsbD_shiftLeft]
        by_cases hio : i = o % 8
        · subst hio; simp [hc]
        · by_cases hlt : i < o % 8
          · simp [hlt]
          · have : i - o % 8 ≠ 0 := by omega
            simp [this]
    · intro ht hz
      have := congrArg (fun b => b.getLsbD (o % 8)) hz
      simp only [BitVec.getLsbD_and, BitVec.getLsbD_shiftLeft, ht] at this
      simp [show o % 8 < 8 by omega] at this
  by_cases hc : bitAt d o = true
  · rw [if_pos (this.mpr hc)]; simp [hc]
  · rw [if_neg (fun h => hc (this.mp h))]; simp [hc]

theorem readInt_spec {p : Profile} {e : Endian} {T : IntTy} (hT : T ≠ .bool) {d : Bytes} {o n : Nat}
    (hn : 1 ≤ n) (hn' : n ≤ T.bits) (hd : o + n ≤ 8 * d.length) (hs : NoStraddle o n)
    (h1 : T.signed = true → n ≠ 1) :
    readInt p e T d o n = .ok (decode T n (fieldRaw d o n)) := by
  have hdec : decode T n (fieldRaw d o n) =
      if T.signed then twos n (fieldRaw d o n) else (fieldRaw d o n : Int) := by
    cases T <;> simp_all [decode, IntTy.signed]
  have hb := T.bits_cases
  by_cases h : n = 1
  · subst h
    rw [readInt_one hd, hdec]
    cases hc : T.signed with
    | true => exact absurd rfl (h1 hc)
    | false => simp
  · obtain ⟨v, hv, hr⟩ := readInt_masked (p := p) (e := e) (T := T) (by omega) (by omega) hd hs
    have hlt : v.toNat < 2 ^ n := by rw [hv]; exact fieldRaw_lt _ _ _
    rw [hr, hdec, ← hv]
    cases hc : T.signed with
    | true => rw [extendSign_signed hc hn hn' hlt]; simp
    | false => rw [extendSign_unsigned hc hn' hlt]; simp

theorem readBytes_spec {p : Profile} {e : Endian} {T : IntTy} {d : Bytes} {o n : Nat}
    (hn : 1 ≤ n) (hn' : n ≤ T.bits) (hd : o + n ≤ 8 * d.length) (hs : NoStraddle o n)
    (h1 : T.signed = true → n ≠ 1) :
    readBytes p e T d o n = .ok (decode T n (fieldRaw d o n)) := by
  by_cases hT : T = .bool
  · subst hT
    simp only [readBytes]
    rw [readInt_spec (by simp) hn (by simpa [IntTy.bits] using hn') hd hs (by simp [IntTy.signed])]
    simp only [Out.ok_bind, decode]
    by_cases hz : fieldRaw d o n = 0 <;> simp [hz]
  · rw [← readInt_spec (p := p) (e := e) hT hn hn' hd hs h1]
    cases T <;> simp_all [readBytes]


/-! ## writing -/

theorem toNat_castToU64 (v : Int) : ((castToU64 v).toNat : Int) = v % 2 ^ 64 := by
  unfold castToU64
  rw [BitVec.toNat_ofInt]
  rw [Int.toNat_of_nonneg (Int.emod_nonneg _ (by decide))]
  rfl

/-- The number `write_bytes!` shifts into place (`value_to_store`). -/
def storedWord (signed : Bool) (v : Int) (n : Nat) : BitVec 64 :=
  if signed then masked (castToU64 v) n else castToU64 v

theorem getLsbD_storedWord_lt (signed : Bool) (v : Int) {n i : Nat} (hi : i < n) :
    (storedWord signed v n).getLsbD i = (castToU64 v).getLsbD i := by
  unfold storedWord; cases signed <;> simp [getLsbD_masked, hi]

/-- number of bytes `write_bytes!` may modify, from byte `offset / 8` on -/
def touchedBytes (o n : Nat) : Nat := if n + o % 8 ≤ 64 then numBytes o n else 9

theorem bitAt_overwrite {d src : Bytes} {pos : Nat} (h : pos + src.length ≤ d.length) (k : Nat) :
    bitAt (overwrite d pos src) k =
      if 8 * pos ≤ k ∧ k < 8 * (pos + src.length) then bitAt src (k - 8 * pos) else bitAt d k := by
  unfold overwrite
  have hp : (List.take pos d).length = pos := by simp; omega
  rw [bitAt_append, bitAt_append, bitAt_take, bitAt_drop]
  simp only [List.length_append, hp]
  by_cases h1 : k < 8 * pos
  · simp [h1, show ¬ 8 * pos ≤ k by omega, show k < 8 * (pos + src.length) by omega]
  · by_cases h2 : k < 8 * (pos + src.length)
    · simp [h1, h2, show 8 * pos ≤ k by omega]
    · have : 8 * (pos + src.length) + (k - 8 * (pos + src.length)) = k := by omega
      simp [h2, this]

@[simp] theorem length_overwrite {d src : Bytes} {pos : Nat} (h : pos + src.length ≤ d.length) :
    (overwrite d pos src).length = d.length := by
  unfold overwrite; simp; omega

/-- Exact effect of `write_bytes!` on every bit, for fields not hitting the ninth-byte defect. -/
theorem writeBytes_bits {p : Profile} {e : Endian} {signed : Bool} {v : Int} {d : Bytes} {o n : Nat}
    (hn : 1 ≤ n) (hn' : n ≤ 64) (hd : o + n ≤ 8 * d.length) (hs : NoStraddle o n) :
    ∃ d', writeBytes p e signed v d o n = .ok d' ∧ d'.length = d.length ∧
      ∀ k, bitAt d' k =
        if o ≤ k ∧ k < o + n then (storedWord signed v n).getLsbD (k - o)
        else if o + n ≤ k ∧ k < 8 * (o / 8 + touchedBytes o n) then
          (bitAt d k || (storedWord signed v n).getLsbD (k - o))
        else bitAt d k := by
  have hob : o / 8 < d.length := by omega
  unfold writeBytes
  rw [if_neg (by omega), if_neg (by omega)]
  change ∃ d', (if 8 < numBytes o n ∨ d.length < o / 8 + numBytes o n then Out.ub else
    let v0 := fromLe e (copyIntoZeroU64 e ((d.drop (o / 8)).take (numBytes o n)))
    let v1 := v0 &&& ~~~((masked (BitVec.allOnes 64) n) <<< (o % 8))
    let v2 := v1 ||| ((storedWord signed v n) <<< (o % 8))
    let v3 := fromLe e v2
    let data := overwrite d (o / 8) ((u64ToMem e v3).take (numBytes o n))
    let batched := numBytes o n * 8 - o % 8
    if batched < n then
      match data[numBytes o n]? with
      | none => .panic
      | some b =>
        let vs := (storedWord signed v n) >>> (batched % (numBytes o n * 8))
        let vm := masked (BitVec.allOnes 64) n >>> (batched % (numBytes o n * 8))
        let byteValue := b &&& (~~~vm).setWidth 8
        .ok (data.set (numBytes o n) (byteValue ||| vs.setWidth 8))
    else .ok data) = .ok d' ∧ _
  generalize hsw : storedWord signed v n = sw
  have hnb := numBytes_le (o := o) hn hn'
  -- the word written back
  have hword : ∀ (hfit : o / 8 + numBytes o n ≤ d.length) (i : Nat), i < 64 →
      ((fromLe e (copyIntoZeroU64 e ((d.drop (o / 8)).take (numBytes o n))) &&&
        ~~~((masked (BitVec.allOnes 64) n) <<< (o % 8))) ||| (sw <<< (o % 8))).getLsbD i =
      (((decide (i < 8 * numBytes o n) && bitAt d (8 * (o / 8) + i)) &&
          !(decide (o % 8 ≤ i) && decide (i < o % 8 + n))) ||
        (decide (o % 8 ≤ i) && sw.getLsbD (i - o % 8))) := by
    intro hfit i hi
    rw [BitVec.getLsbD_or, BitVec.getLsbD_and, getLsbD_copyIntoZero _ _ (by simp; omega), bitAt_take, bitAt_drop,
      BitVec.getLsbD_not, BitVec.getLsbD_shiftLeft, BitVec.getLsbD_shiftLeft, getLsbD_masked,
      BitVec.getLsbD_allOnes]
    by_cases h1 : o % 8 ≤ i
    · have e1 : (i - o % 8 < n) ↔ (i < o % 8 + n) := by omega
      simp [hi, h1, e1, show ¬ i < o % 8 by omega, show i - o % 8 < 64 by omega]
    · simp [hi, h1, show i < o % 8 by omega]
  by_cases hw : n + o % 8 ≤ 64
  · obtain ⟨h1, h2, h3⟩ := numBytes_small hw
    have hfit : o / 8 + numBytes o n ≤ d.length := by omega
    have hno : ¬ (numBytes o n * 8 - o % 8 < n) := by omega
    rw [if_neg (by omega)]
    simp only [hno, if_false]
    have hmem : ((u64ToMem e (fromLe e (fromLe e (copyIntoZeroU64 e ((d.drop (o / 8)).take (numBytes o n))) &&&
        ~~~((masked (BitVec.allOnes 64) n) <<< (o % 8)) ||| (sw <<< (o % 8))))).take (numBytes o n)).length
        = numBytes o n := by
      rw [List.length_take, length_u64ToMem]; omega
    refine ⟨_, rfl, ?_, ?_⟩
    · rw [length_overwrite (by rw [hmem]; exact hfit)]
    · intro k
      rw [bitAt_overwrite (by rw [hmem]; exact hfit), hmem]
      have ht : touchedBytes o n = numBytes o n := by simp [touchedBytes, hw]
      rw [ht]
      by_cases hk : 8 * (o / 8) ≤ k ∧ k < 8 * (o / 8 + numBytes o n)
      · rw [if_pos hk, bitAt_take, u64ToMem_fromLe, bitAt_u64ToMem_little, hword hfit _ (by omega)]
        have e1 : 8 * (o / 8) + (k - 8 * (o / 8)) = k := by omega
        have e2 : k - 8 * (o / 8) - o % 8 = k - o := by omega
        rw [e1, e2]
        by_cases hk1 : o ≤ k
        · by_cases hk2 : k < o + n
          · have a1 : o % 8 ≤ k - 8 * (o / 8) := by omega
            have a2 : k - 8 * (o / 8) < o % 8 + n := by omega
            have a3 : k - 8 * (o / 8) < 8 * numBytes o n := by omega
            simp [hk1, hk2, a1, a2, a3]
          · have a1 : o % 8 ≤ k - 8 * (o / 8) := by omega
            have a2 : ¬ k - 8 * (o / 8) < o % 8 + n := by omega
            have a3 : k - 8 * (o / 8) < 8 * numBytes o n := by omega
            have a4 : o + n ≤ k := by omega
            simp [hk1, hk2, a1, a2, a3, a4, hk.2]
        · have a1 : ¬ o % 8 ≤ k - 8 * (o / 8) := by omega
          have a3 : k - 8 * (o / 8) < 8 * numBytes o n := by omega
          have a4 : ¬ o + n ≤ k := by omega
          simp [hk1, a1, a3, a4]
      · rw [if_neg hk]
        have a1 : ¬ (o ≤ k ∧ k < o + n) := by omega
        have a2 : ¬ (o + n ≤ k ∧ k < 8 * (o / 8 + numBytes o n)) := by omega
        rw [if_neg a1, if_neg a2]
  · have ho : o < 8 := by rcases hs with h | h <;> omega
    have hnb8 : numBytes o n = 8 := numBytes_wide (by omega) hn'
    have o8 : o / 8 = 0 := by omega
    have om : o % 8 = o := by omega
    have ht : touchedBytes o n = 9 := by simp [touchedBytes, hw]
    have h9 : 8 < d.length := by omega
    rw [ht]
    rw [hnb8, o8, om] at hword ⊢
    rw [om] at hw
    have hword := hword (by omega)
    rw [if_neg (by omega)]
    simp only [show 8 * 8 - o < n by omega, if_true]
    generalize hW : (fromLe e (copyIntoZeroU64 e ((d.drop 0).take 8)) &&&
        ~~~((masked (BitVec.allOnes 64) n) <<< o) ||| (sw <<< o)) = W at hword ⊢
    have hmem : ((u64ToMem e (fromLe e W)).take 8).length = 8 := by
      rw [List.length_take, length_u64ToMem]; omega
    have hlen : (overwrite d 0 ((u64ToMem e (fromLe e W)).take 8)).length = d.length :=
      length_overwrite (by rw [hmem]; omega)
    have hget : (overwrite d 0 ((u64ToMem e (fromLe e W)).take 8))[8]? = some d[8] := by
      unfold overwrite
      rw [hmem]
      rw [List.take_zero, List.nil_append, List.getElem?_append_right (by rw [hmem]; omega), hmem]
      simp [h9]
    rw [hget]
    refine ⟨_, rfl, by simp [hlen], ?_⟩
    intro k
    rw [bitAt_set _ _ _ _ (by rw [hlen]; exact h9)]
    have hm : (8 * 8 - o) % (8 * 8) = 64 - o := by omega
    rw [hm]
    by_cases hk8 : k / 8 = 8
    · rw [if_pos hk8]
      have hdk : bitAt d k = (d[8]).getLsbD (k % 8) := by rw [bitAt_eq, hk8]; simp [h9]
      have e1 : 64 - o + k % 8 = k - o := by omega
      rw [BitVec.getLsbD_or, BitVec.getLsbD_and, BitVec.getLsbD_setWidth, BitVec.getLsbD_setWidth,
        BitVec.getLsbD_not, BitVec.getLsbD_ushiftRight, BitVec.getLsbD_ushiftRight, e1, getLsbD_masked,
        BitVec.getLsbD_allOnes, ← hdk]
      by_cases hk2 : k < o + n
      · have a1 : o ≤ k := by omega
        have a2 : k - o < n := by omega
        have a3 : k % 8 < 64 := by omega
        simp [hk2, a1, a2, a3, show k % 8 < 8 by omega, show k - o < 64 by omega]
      · have a1 : o + n ≤ k := by omega
        have a2 : ¬ (k - o < n) := by omega
        have a3 : k < 8 * (0 + 9) := by omega
        simp [hk2, a1, a2, show k % 8 < 8 by omega, show k % 8 < 64 by omega, show k < 72 by omega]
    · rw [if_neg hk8, bitAt_overwrite (by rw [hmem]; omega), hmem]
      by_cases hk : k < 64
      · rw [if_pos (by omega), bitAt_take, u64ToMem_fromLe, bitAt_u64ToMem_little]
        have e1 : k - 8 * 0 = k := by omega
        have e3 : 8 * 0 + k = k := by omega
        rw [e1, hword k hk, e3]
        by_cases hk1 : o ≤ k
        · have a2 : k < o + n := by omega
          simp [hk1, a2, hk]
        · have a4 : ¬ o + n ≤ k := by omega
          simp [hk1, hk, a4]
      · rw [if_neg (by omega), if_neg (by omega), if_neg (by omega)]

/-- If the word that is stored fits into the field, `write_bytes!` meets the specification `Stored`. -/
theorem writeBytes_stored {p : Profile} {e : Endian} {signed : Bool} {v : Int} {d : Bytes} {o n : Nat}
    (hn : 1 ≤ n) (hn' : n ≤ 64) (hd : o + n ≤ 8 * d.length) (hs : NoStraddle o n)
    (hv : signed = true ∨ (0 ≤ v ∧ v < 2 ^ n)) :
    ∃ d', writeBytes p e signed v d o n = .ok d' ∧ Stored d d' o n v := by
  obtain ⟨d', h1, h2, h3⟩ := writeBytes_bits (p := p) (e := e) (signed := signed) (v := v) hn hn' hd hs
  refine ⟨d', h1, h2, ?_, ?_⟩
  · have hpos : (0 : Int) < 2 ^ n := Int.pow_pos (by omega)
    have hx0 : 0 ≤ v % 2 ^ n := Int.emod_nonneg _ (by omega)
    have hx1 : v % 2 ^ n < 2 ^ n := Int.emod_lt_of_pos _ hpos
    have hxlt : (v % 2 ^ n).toNat < 2 ^ n := by
      have : ((2 ^ n : Nat) : Int) = 2 ^ n := by push_cast; rfl
      omega
    rw [fieldRaw_eq_of_testBit hxlt, Int.toNat_of_nonneg hx0]
    intro i hi
    rw [h3, if_pos (by omega), show o + i - o = i by omega, getLsbD_storedWord_lt _ _ hi]
    have : (v % 2 ^ n).toNat = (castToU64 v).toNat % 2 ^ n := by
      have e1 := toNat_castToU64 v
      have : ((v % 2 ^ n).toNat : Int) = (((castToU64 v).toNat % 2 ^ n : Nat) : Int) := by
        rw [Int.toNat_of_nonneg hx0]
        push_cast
        rw [e1, Int.emod_emod_of_dvd]
        exact ⟨2 ^ (64 - n), by rw [← Int.pow_add]; congr 1; omega⟩
      exact_mod_cast this
    rw [this, Nat.testBit_mod_two_pow]
    simp [hi, BitVec.getLsbD]
  · intro k hk
    rw [h3, if_neg (by omega)]
    split
    · rename_i hk2
      have : (storedWord signed v n).getLsbD (k - o) = false := by
        rcases hv with hv | ⟨hv0, hv1⟩
        · subst hv
          simp [storedWord, getLsbD_masked, show ¬ (k - o < n) by omega]
        · by_cases hsg : signed = true
          · subst hsg
            simp [storedWord, getLsbD_masked, show ¬ (k - o < n) by omega]
          · have : (castToU64 v).toNat < 2 ^ n := by
              have e1 := toNat_castToU64 v
              have h64 : (2:Int) ^ n ≤ 2 ^ 64 := by
                have := Nat.pow_le_pow_right (n := 2) (by omega) hn'
                exact_mod_cast this
              rw [Int.emod_eq_of_lt hv0 (by omega)] at e1
              have : ((2 ^ n : Nat) : Int) = 2 ^ n := by push_cast; rfl
              omega
            simp only [storedWord, hsg]
            apply Nat.testBit_lt_two_pow
            exact Nat.lt_of_lt_of_le this (Nat.pow_le_pow_right (by omega) (by omega))
      rw [this, Bool.or_false]
    · rfl

end Flatdata
