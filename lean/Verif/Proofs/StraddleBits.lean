import Verif.Proofs.Straddle
/-!
Exact effect of `write_bytes!` on every bit for the fields hitting the ninth-byte defect.
-/
namespace Flatdata
open Spec

/-- The first eight bytes are written in place; the rest of the value goes to byte 8 of the struct (instead of the
eighth byte after the first one of the field). -/
theorem writeBytes_straddle_bits {p : Profile} {e : Endian} {signed : Bool} {v : Int} {d : Bytes} {o n : Nat}
    (hn' : n ≤ 64) (hd : o + n ≤ 8 * d.length) (hs : ¬ NoStraddle o n) :
    ∃ d', writeBytes p e signed v d o n = .ok d' ∧ d'.length = d.length ∧
      ∀ k, bitAt d' k =
        if k / 8 = 8 then
          (if 64 - o % 8 + k % 8 < n then (storedWord signed v n).getLsbD (64 - o % 8 + k % 8)
          else (if o ≤ k ∧ k < 8 * (o / 8 + 8) then (storedWord signed v n).getLsbD (k - o) else bitAt d k) ||
            (storedWord signed v n).getLsbD (64 - o % 8 + k % 8))
        else if o ≤ k ∧ k < 8 * (o / 8 + 8) then (storedWord signed v n).getLsbD (k - o) else bitAt d k := by
  rw [straddle_iff] at hs
  obtain ⟨hw, ho⟩ := hs
  have hnb8 : numBytes o n = 8 := numBytes_wide hw hn'
  unfold writeBytes
  rw [if_neg (by omega), if_neg (by omega)]
  change ∃ d', (if 8 < numBytes o n ∨ d.length < o / 8 + numBytes o n then Out.ub else
    let v0 := fromLe e (copyIntoZeroU64 e ((d.drop (o / 8)).take (numBytes o n)))
    let v1 := v0 &&& ~~~((masked (BitVec.allOnes 64) n) <<< (o % 8))
    let v2 := v1 ||| ((storedWord signed v n) <<< (o % 8))
    let v3 := fromLe e v2
    let data := overwrite d (o / 8) ((u64ToMem e v3).take (numBytes o n))
    let batched := numBytes o n * 8 - o % 8
    if batched < n then
      match data[numBytes o n]? with
      | none => .panic
      | some b =>
        let vs := (storedWord signed v n) >>> (batched % (numBytes o n * 8))
        let vm := masked (BitVec.allOnes 64) n >>> (batched % (numBytes o n * 8))
        let byteValue := b &&& (~~~vm).setWidth 8
        .ok (data.set (numBytes o n) (byteValue ||| vs.setWidth 8))
    else .ok data) = .ok d' ∧ _
  generalize hsw : storedWord signed v n = sw
  have hword : ∀ (i : Nat), i < 64 →
      ((fromLe e (copyIntoZeroU64 e ((d.drop (o / 8)).take 8)) &&&
        ~~~((masked (BitVec.allOnes 64) n) <<< (o % 8))) ||| (sw <<< (o % 8))).getLsbD i =
      if o % 8 ≤ i then sw.getLsbD (i - o % 8) else bitAt d (8 * (o / 8) + i) := by
    intro i hi
    rw [BitVec.getLsbD_or, BitVec.getLsbD_and, getLsbD_copyIntoZero _ _ (by simp; omega), bitAt_take, bitAt_drop,
      BitVec.getLsbD_not, BitVec.getLsbD_shiftLeft, BitVec.getLsbD_shiftLeft, getLsbD_masked,
      BitVec.getLsbD_allOnes]
    by_cases h1 : o % 8 ≤ i
    · simp [hi, h1, show ¬ i < o % 8 by omega, show i - o % 8 < 64 by omega, show i - o % 8 < n by omega]
    · simp [hi, h1, show i < o % 8 by omega]
  rw [hnb8, if_neg (by omega)]
  simp only [show 8 * 8 - o % 8 < n by omega, if_true]
  generalize hW : (fromLe e (copyIntoZeroU64 e ((d.drop (o / 8)).take 8)) &&&
      ~~~((masked (BitVec.allOnes 64) n) <<< (o % 8)) ||| (sw <<< (o % 8))) = W at hword ⊢
  have hmem : ((u64ToMem e (fromLe e W)).take 8).length = 8 := by
    rw [List.length_take, length_u64ToMem]; omega
  have hfit : o / 8 + ((u64ToMem e (fromLe e W)).take 8).length ≤ d.length := by rw [hmem]; omega
  have hlen := length_overwrite hfit
  have hB : ∀ k, bitAt (overwrite d (o / 8) ((u64ToMem e (fromLe e W)).take 8)) k =
      if o ≤ k ∧ k < 8 * (o / 8 + 8) then sw.getLsbD (k - o) else bitAt d k := by
    intro k
    rw [bitAt_overwrite hfit, hmem]
    by_cases hk : 8 * (o / 8) ≤ k ∧ k < 8 * (o / 8 + 8)
    · rw [if_pos hk, bitAt_take, u64ToMem_fromLe, bitAt_u64ToMem_little, hword _ (by omega)]
      have e1 : 8 * (o / 8) + (k - 8 * (o / 8)) = k := by omega
      have e2 : k - 8 * (o / 8) - o % 8 = k - o := by omega
      rw [e1, e2]
      by_cases hk1 : o ≤ k
      · rw [if_pos (by omega), if_pos (by omega)]
        simp [show k - 8 * (o / 8) < 8 * 8 by omega]
      · rw [if_neg (by omega), if_neg (by omega)]
        simp [show k - 8 * (o / 8) < 8 * 8 by omega]
    · rw [if_neg hk, if_neg (by omega)]
  have h9 : 8 < (overwrite d (o / 8) ((u64ToMem e (fromLe e W)).take 8)).length := by rw [hlen]; omega
  generalize overwrite d (o / 8) ((u64ToMem e (fromLe e W)).take 8) = D at *
  rw [List.getElem?_eq_getElem h9]
  refine ⟨_, rfl, by simp [hlen], ?_⟩
  intro k
  rw [bitAt_set _ _ _ _ h9]
  have hm : (8 * 8 - o % 8) % (8 * 8) = if o % 8 = 0 then 0 else 64 - o % 8 := by split <;> omega
  have h0 : o % 8 ≠ 0 := by omega
  rw [hm, if_neg h0, ← hB]
  by_cases hk8 : k / 8 = 8
  · rw [if_pos hk8, if_pos hk8]
    have hdk : bitAt D k = (D[8]).getLsbD (k % 8) := by rw [bitAt_eq, hk8]; simp [h9]
    rw [BitVec.getLsbD_or, BitVec.getLsbD_and, BitVec.getLsbD_setWidth, BitVec.getLsbD_setWidth,
      BitVec.getLsbD_not, BitVec.getLsbD_ushiftRight, BitVec.getLsbD_ushiftRight, getLsbD_masked,
      BitVec.getLsbD_allOnes, ← hdk]
    by_cases hk2 : 64 - o % 8 + k % 8 < n
    · simp [hk2, show k % 8 < 8 by omega, show k % 8 < 64 by omega, show 64 - o % 8 + k % 8 < 64 by omega]
    · simp [hk2, show k % 8 < 8 by omega, show k % 8 < 64 by omega]
  · rw [if_neg hk8, if_neg hk8]

end Flatdata
