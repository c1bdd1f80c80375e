import Verif.Spec.Format
import Verif.Proofs.MvView
/-!
# The bytes of the index of a multivector
-/
namespace Flatdata
open Spec

theorem length_leBytes (size n : Nat) : (leBytes size n).length = size := by simp [leBytes]

theorem bitAt_leBytes (size n k : Nat) (hk : k < 8 * size) : bitAt (leBytes size n) k = n.testBit k := by
  unfold bitAt leBytes
  have h : k / 8 < size := by omega
  rw [List.getElem?_map, List.getElem?_range h]
  simp only [Option.map_some, BitVec.getLsbD_ofNat]
  have h8 : k % 8 < 8 := Nat.mod_lt _ (by decide)
  rw [show (256 : Nat) = 2 ^ 8 from rfl, ← Nat.pow_mul, Nat.testBit_div_two_pow]
  simp only [h8, decide_true, Bool.true_and]
  congr 1
  omega

variable {p : Profile} {e : Endian}

/-- The bytes of an index entry. -/
theorem indexEntry_bytes {V : Variadic} (ok : IndexOK V) {n : Nat} {x : Bytes}
    (h : runHandle p e V.indexStruct (indexOps V n) (zeros V.indexSize) = .ok x) (hn : n < 2 ^ V.indexBits) : x = leBytes V.indexSize n := by
  have hv := indexEntry_value ok h hn
  rw [runHandle_index] at h
  obtain ⟨x', h', st, _⟩ := set_stored (p := p) (e := e) (mem := zeros V.indexSize) (v := n) ok.fieldOK (by simp [zeros])
    (.inr (by simp [indexField, Field.plain]))
    (.inr ⟨by omega, by simp only [indexField, Field.plain]; exact_mod_cast hn⟩)
  rw [h] at h'; cases h'
  have hl : x.length = V.indexSize := by rw [st.length]; simp [zeros]
  refine bytes_ext (by rw [hl, length_leBytes]) fun k hk => ?_
  rw [bitAt_leBytes _ _ _ (by rw [← hl]; exact hk)]
  by_cases hb : k < V.indexBits
  · have := testBit_fieldRaw x 0 V.indexBits k
    rw [hv] at this
    simpa [hb] using this.symm
  · rw [st.frame k (.inr (by simp only [indexField, Field.plain]; omega)), Nat.testBit_lt_two_pow]
    · unfold bitAt zeros
      by_cases hz : k / 8 < V.indexSize
      · rw [List.getElem?_eq_getElem (by simpa using hz)]; simp
      · rw [List.getElem?_eq_none (by simp; omega)]
    · exact Nat.lt_of_lt_of_le hn (Nat.pow_le_pow_right (by decide) (by omega))

theorem entries_bytes {V : Variadic} (ok : IndexOK V) : ∀ {ns : List Nat} {xs : List Bytes},
    Elements p e V.indexStruct (ns.map (indexOps V)) xs → (∀ n ∈ ns, n < 2 ^ V.indexBits) → xs = ns.map (leBytes V.indexSize)
  | [], [], _, _ => rfl
  | n :: ns, x :: xs, h, hb => by
    rw [indexEntry_bytes ok h.1 (hb n (by simp)), entries_bytes ok h.2 fun m hm => hb m (by simp [hm])]
    rfl
  | [], _ :: _, h, _ => h.elim
  | _ :: _, [], h, _ => h.elim

theorem bounds_eq : ∀ {its : List (List Add)} {xss : List (List (BitVec 8 × Bytes))} (a : Nat), AllContents p e its xss →
    bounds a xss = starts a its ++ [a + dataSize its]
  | [], [], _, _ => by simp [bounds, starts, dataSize]
  | as :: its, xs :: xss, a, h => by
    rw [bounds, h.1.length, bounds_eq _ h.2, starts]
    simp [dataSize, Nat.add_assoc]
  | [], _ :: _, _, h => h.elim
  | _ :: _, [], _, h => h.elim

/-- The bytes of the index of a multivector. -/
theorem written_index {V : Variadic} (ok : IndexOK V) {its : List (List Add)} {xss : List (List (BitVec 8 × Bytes))} {xs : List Bytes}
    (hx : Elements p e V.indexStruct ((indexNumbers its).map (indexOps V)) xs) (hc : AllContents p e its xss)
    (hbits : dataSize its < 2 ^ V.indexBits) : xs.flatten = indexBytes V.indexSize xss := by
  rw [entries_bytes ok hx fun n hn => by have := mem_indexNumbers hn; omega, indexBytes, bounds_eq 0 hc, Nat.zero_add]
  rfl

end Flatdata
