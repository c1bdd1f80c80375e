import Verif.Proofs.ReadWrite
import Verif.Spec.Struct
namespace Flatdata
open Spec

/-! ## what `read_bytes!` returns for every supported field, including one-bit signed ones -/

/-- Value returned by `read_bytes!` when the field holds the raw number `x`. -/
def codeDecode (T : IntTy) (n x : Nat) : Int := if n = 1 then (x : Int) else decode T n x

theorem readBytes_code {p : Profile} {e : Endian} {T : IntTy} {d : Bytes} {o n : Nat}
    (hn : 1 ≤ n) (hn' : n ≤ T.bits) (hd : o + n ≤ 8 * d.length) (hs : NoStraddle o n) :
    readBytes p e T d o n = .ok (codeDecode T n (fieldRaw d o n)) := by
  unfold codeDecode
  by_cases h : n = 1
  · subst h
    rw [if_pos rfl]
    have hlt := fieldRaw_lt d o 1
    cases T <;> simp only [readBytes, readInt_one hd, Out.ok_bind]
    by_cases hz : fieldRaw d o 1 = 0
    · simp [hz]
    · have : fieldRaw d o 1 = 1 := by omega
      simp [this]
  · rw [if_neg h, readBytes_spec hn hn' hd hs (fun _ => h)]

theorem codeDecode_eq_decode {T : IntTy} {n x : Nat} (h : T.signed = true → n ≠ 1) (hx : x < 2 ^ n) :
    codeDecode T n x = decode T n x := by
  unfold codeDecode
  split
  · rename_i h1
    subst h1
    have : x = 0 ∨ x = 1 := by omega
    rcases this with rfl | rfl <;> cases T <;> simp_all [decode, IntTy.signed]
  · rfl

theorem int_two_pow_succ (n : Nat) (hn : 1 ≤ n) : (2 : Int) ^ n = 2 * 2 ^ (n - 1) := by
  obtain ⟨m, rfl⟩ : ∃ m, n = m + 1 := ⟨n - 1, by omega⟩
  rw [Int.pow_succ]; simp; omega

theorem decode_of_fits {T : IntTy} {n x : Nat} {v : Int} (hn : 1 ≤ n) (hv : Fits T n v)
    (hx : (x : Int) = v % 2 ^ n) : decode T n x = v := by
  have hp := int_two_pow_succ n hn
  have hpp : (0 : Int) < 2 ^ (n - 1) := Int.pow_pos (by omega)
  have hcast : ((2 ^ (n - 1) : Nat) : Int) = 2 ^ (n - 1) := by push_cast; rfl
  have signedCase : (-(2 ^ (n - 1) : Int) ≤ v ∧ v < 2 ^ (n - 1)) → twos n x = v := by
    intro ⟨h1, h2⟩
    unfold twos
    by_cases hneg : v < 0
    · have : v % 2 ^ n = v + 2 ^ n := by
        rw [← Int.add_emod_right]
        exact Int.emod_eq_of_lt (by omega) (by omega)
      rw [if_pos (by omega)]; omega
    · rw [Int.emod_eq_of_lt (by omega) (by omega)] at hx
      rw [if_neg (by omega)]; omega
  have unsignedCase : (0 ≤ v ∧ v < 2 ^ n) → (x : Int) = v := by
    intro ⟨h1, h2⟩
    rw [Int.emod_eq_of_lt (by omega) (by omega)] at hx
    exact hx
  cases T <;> simp only [decode, Fits] at hv ⊢
  case bool =>
    rcases hv with rfl | rfl
    · have : x = 0 := by simpa using hx
      simp [this]
    · rw [Int.emod_eq_of_lt (by omega) (by omega)] at hx
      have : x = 1 := by omega
      simp [this]
  all_goals first | exact signedCase hv | exact unsignedCase hv

/-- two's complement reading of `v mod 2^n` is the balanced remainder -/
theorem twos_emod {n x : Nat} {v : Int} (hn : 1 ≤ n) (hx : (x : Int) = v % 2 ^ n) :
    twos n x = v.bmod (2 ^ n) := by
  have hp := int_two_pow_succ n hn
  have hpp : (0 : Int) < 2 ^ (n - 1) := Int.pow_pos (by omega)
  have hcast : ((2 ^ (n - 1) : Nat) : Int) = 2 ^ (n - 1) := by push_cast; rfl
  have hcast' : ((2 ^ n : Nat) : Int) = 2 ^ n := by push_cast; rfl
  unfold twos Int.bmod
  simp only [hcast', ← hx]
  by_cases h : 2 ^ (n - 1) ≤ x
  · rw [if_pos h, if_neg (by omega)]
  · rw [if_neg h, if_pos (by omega)]

/-- Values that reach `write_bytes!` without disturbing neighbours. -/
theorem fits_unsigned {T : IntTy} {n : Nat} {v : Int} (hn : 1 ≤ n) (hs : T.signed = false) (hv : Fits T n v) :
    0 ≤ v ∧ v < 2 ^ n := by
  have hp := int_two_pow_succ n hn
  have hpp : (0 : Int) < 2 ^ (n - 1) := Int.pow_pos (by omega)
  cases T <;> simp_all [Fits, IntTy.signed]
  rcases hv with rfl | rfl <;> constructor <;> omega

/-! ## getters and setters -/

theorem Spec.Stored.append {d d' rest : Bytes} {o n : Nat} {v : Int} (h : Stored d d' o n v)
    (hd : o + n ≤ 8 * d.length) : Stored (d ++ rest) (d' ++ rest) o n v := by
  refine ⟨by simp [h.length], ?_, ?_⟩
  · rw [← h.field]
    congr 1
    apply fieldRaw_congr
    intro i hi
    rw [bitAt_append, if_pos (by rw [h.length]; omega)]
  · intro k hk
    rw [bitAt_append, bitAt_append, h.length]
    split
    · exact h.frame k hk
    · rfl

theorem get_eq {p : Profile} {e : Endian} {f : Field} {mem : Bytes} (h1 : 1 ≤ f.bits) (h2 : f.bits ≤ f.ty.bits)
    (h3 : f.off + f.bits ≤ 8 * mem.length) (hs : NoStraddle f.off f.bits) :
    f.get p e mem = f.transmute (codeDecode f.ty f.bits (fieldRaw mem f.off f.bits)) := by
  unfold Field.get
  rw [readBytes_code h1 h2 h3 hs]; rfl

theorem set_stored {p : Profile} {e : Endian} {size : Nat} {f : Field} {mem : Bytes} {v : Int}
    (hf : FieldOK size f) (hm : size ≤ mem.length) (hs : NoStraddle f.off f.bits)
    (hv : f.ty.signed = true ∨ (0 ≤ v ∧ v < 2 ^ f.bits)) :
    ∃ mem', f.set p e size mem v = .ok mem' ∧ Stored mem mem' f.off f.bits v ∧
      mem'.drop size = mem.drop size := by
  have hb := f.ty.bits_cases
  have hle := hf.le
  have hlen : (mem.take size).length = size := by simp; omega
  obtain ⟨d', h1, h2⟩ := writeBytes_stored (p := p) (e := e) (signed := f.encSigned) (v := v)
    (d := mem.take size) (o := f.off) (n := f.bits) hf.pos (by omega) (by rw [hlen]; exact hf.inside) hs
    (by rw [hf.sign]; exact hv)
  refine ⟨d' ++ mem.drop size, ?_, ?_, ?_⟩
  · unfold Field.set
    rw [if_neg (by omega), h1]; rfl
  · have := h2.append (rest := mem.drop size) (by rw [hlen]; exact hf.inside)
    rwa [List.take_append_drop] at this
  · have hd' : d'.length = size := by rw [h2.length, hlen]
    rw [List.drop_append_of_le_length (by omega), List.drop_eq_nil_of_le (by omega)]; rfl

theorem set_length {p : Profile} {e : Endian} {size : Nat} {f : Field} {mem mem' : Bytes} {v : Int}
    (h : f.set p e size mem v = .ok mem') : mem'.length = mem.length ∧ mem'.drop size = mem.drop size := by
  unfold Field.set at h
  split at h
  · cases h
  · rename_i hlt
    rw [Out.bind_eq_ok] at h
    obtain ⟨b, hb, heq⟩ := h
    cases heq
    have hlen : (mem.take size).length = size := by simp; omega
    have : b.length = size := by
      unfold writeBytes at hb
      split at hb
      · cases hb
      · split at hb
        · cases hb
        · simp only at hb
          split at hb
          · cases hb
          · rename_i hno
            have hov : (overwrite (mem.take size) (f.off / 8)
              ((u64ToMem e (fromLe e (fromLe e (copyIntoZeroU64 e
                (((mem.take size).drop (f.off / 8)).take (numBytes f.off f.bits))) &&&
                ~~~(masked (BitVec.allOnes 64) f.bits <<< (f.off % 8)) |||
                (if f.encSigned = true then masked (castToU64 v) f.bits else castToU64 v) <<< (f.off % 8)))).take
                  (numBytes f.off f.bits))).length = size := by
              rw [length_overwrite, hlen]
              rw [List.length_take, length_u64ToMem]; omega
            split at hb
            · split at hb
              · cases hb
              · cases hb; simpa using hov
            · cases hb; exact hov
    constructor
    · simp [this]; omega
    · rw [List.drop_append_of_le_length (by omega), List.drop_eq_nil_of_le (by omega)]; rfl

theorem storable_signed_or_fits {size : Nat} {f : Field} {v : Int} (hf : FieldOK size f) (hv : Storable f v) :
    Fits f.ty f.bits v := by
  unfold Storable at hv
  cases h : f.variants with
  | none => simpa [h] using hv
  | some l => rw [h] at hv; exact hf.variants l h v hv

theorem signed_or_range {size : Nat} {f : Field} {v : Int} (hf : FieldOK size f) (hv : Storable f v) :
    f.ty.signed = true ∨ (0 ≤ v ∧ v < 2 ^ f.bits) := by
  cases h : f.ty.signed with
  | true => exact .inl rfl
  | false => exact .inr (fits_unsigned hf.pos h (storable_signed_or_fits hf hv))

theorem transmute_storable {f : Field} {v : Int} (hv : Storable f v) : f.transmute v = .ok v := by
  unfold Field.transmute
  cases h : f.variants with
  | none => rfl
  | some l => simp only [Storable, h] at hv; simp only [if_pos hv]

/-- A getter depends on the bits of its field only. -/
theorem get_congr {p p' : Profile} {e e' : Endian} {f : Field} {m m' : Bytes} (h1 : 1 ≤ f.bits) (h2 : f.bits ≤ f.ty.bits)
    (h3 : f.off + f.bits ≤ 8 * m.length) (h3' : f.off + f.bits ≤ 8 * m'.length) (hs : NoStraddle f.off f.bits)
    (hb : ∀ k, f.off ≤ k → k < f.off + f.bits → bitAt m k = bitAt m' k) :
    f.get p e m = f.get p' e' m' := by
  rw [get_eq h1 h2 h3 hs, get_eq h1 h2 h3' hs]
  congr 2
  exact fieldRaw_congr fun i hi => hb _ (by omega) (by omega)

end Flatdata
