import Verif.Proofs.Struct
/-!
Behaviour of `read_bytes!` / `write_bytes!` for the fields that are *not* handled correctly
(ninth byte needed, byte offset > 0), and totality of the writer for all fields.
-/
namespace Flatdata
open Spec

theorem straddle_iff {o n : Nat} : ¬ NoStraddle o n ↔ 64 < n + o % 8 ∧ 8 ≤ o := by
  unfold NoStraddle; omega

theorem getElem?_overwrite_ge {d src : Bytes} {pos j : Nat} (h : pos + src.length ≤ d.length)
    (hj : pos + src.length ≤ j) : (overwrite d pos src)[j]? = d[j]? := by
  unfold overwrite
  have hp : (List.take pos d).length = pos := by simp; omega
  rw [List.getElem?_append_right (by simp; omega), List.getElem?_drop]
  congr 1
  simp; omega

theorem writeBytes_straddle {p : Profile} {e : Endian} {signed : Bool} {v : Int} {d : Bytes} {o n : Nat}
    (hn' : n ≤ 64) (hd : o + n ≤ 8 * d.length) (hs : ¬ NoStraddle o n) :
    ∃ d', writeBytes p e signed v d o n = .ok d' ∧ d'.length = d.length ∧
      ∀ j, o / 8 + 8 ≤ j → j ≠ 8 → d'[j]? = d[j]? := by
  rw [straddle_iff] at hs
  obtain ⟨hw, ho⟩ := hs
  have hnb8 : numBytes o n = 8 := numBytes_wide hw hn'
  unfold writeBytes
  rw [if_neg (by omega), if_neg (by omega)]
  simp only [hnb8]
  rw [if_neg (by omega)]
  generalize hW : fromLe e (_ ||| _) = W
  have hmem : ((u64ToMem e W).take 8).length = 8 := by
    rw [List.length_take, length_u64ToMem]; omega
  have hfit : o / 8 + ((u64ToMem e W).take 8).length ≤ d.length := by rw [hmem]; omega
  have hlen := length_overwrite hfit
  rw [if_pos (by omega)]
  have h9 : 8 < (overwrite d (o / 8) ((u64ToMem e W).take 8)).length := by rw [hlen]; omega
  rw [List.getElem?_eq_getElem h9]
  refine ⟨_, rfl, by simp [hlen], ?_⟩
  intro j hj hj8
  rw [List.getElem?_set_ne (by omega), getElem?_overwrite_ge hfit (by rw [hmem]; exact hj)]

/-- The writer never panics and never leaves its buffer, for any declared field and any value. -/
theorem writeBytes_total {p : Profile} {e : Endian} {signed : Bool} {v : Int} {d : Bytes} {o n : Nat}
    (hn : 1 ≤ n) (hn' : n ≤ 64) (hd : o + n ≤ 8 * d.length) :
    ∃ d', writeBytes p e signed v d o n = .ok d' ∧ d'.length = d.length := by
  by_cases hs : NoStraddle o n
  · obtain ⟨d', h1, h2, _⟩ := writeBytes_bits (p := p) (e := e) (signed := signed) (v := v) hn hn' hd hs
    exact ⟨d', h1, h2⟩
  · obtain ⟨d', h1, h2, _⟩ := writeBytes_straddle (p := p) (e := e) (signed := signed) (v := v) hn' hd hs
    exact ⟨d', h1, h2⟩

theorem readInt_straddle_ub {p : Profile} {e : Endian} {T : IntTy} {d : Bytes} {o n : Nat}
    (hn' : n ≤ 64) (hd : o + n ≤ 8 * d.length) (hs : ¬ NoStraddle o n)
    (hlen : d.length ≤ 2 * (o / 8) + 8) : readInt p e T d o n = .ub := by
  rw [straddle_iff] at hs
  obtain ⟨hw, ho⟩ := hs
  have hnb8 : numBytes o n = 8 := numBytes_wide hw hn'
  unfold readInt
  rw [if_neg (show n ≠ 1 by omega)]
  simp only [hnb8]
  rw [if_neg (by omega), if_pos (by omega)]
  rw [List.getElem?_eq_none (by omega)]

theorem readInt_straddle {p : Profile} {e : Endian} {T : IntTy} {d : Bytes} {o n : Nat}
    (hn' : n ≤ 64) (hd : o + n ≤ 8 * d.length) (hs : ¬ NoStraddle o n)
    (hlen : 2 * (o / 8) + 8 < d.length) :
    ∃ v : BitVec 64, v.toNat < 2 ^ n ∧ readInt p e T d o n = extendSign p T v n ∧
      (d[2 * (o / 8) + 8]? = some 0#8 → v.toNat < 2 ^ (n - 1)) := by
  rw [straddle_iff] at hs
  obtain ⟨hw, ho⟩ := hs
  have hnb8 : numBytes o n = 8 := numBytes_wide hw hn'
  unfold readInt
  rw [if_neg (show n ≠ 1 by omega)]
  simp only [hnb8]
  rw [if_neg (by omega), if_pos (by omega)]
  have hidx : o / 8 + (o / 8 + 8) = 2 * (o / 8) + 8 := by omega
  rw [hidx, List.getElem?_eq_getElem hlen]
  refine ⟨_, ?_, rfl, ?_⟩
  · apply Nat.lt_pow_two_of_testBit
    intro i hi
    change BitVec.getLsbD _ i = false
    rw [getLsbD_masked]; simp [show ¬ i < n by omega]
  · intro hz
    rw [Option.some.injEq] at hz
    rw [hz]
    apply Nat.lt_pow_two_of_testBit
    intro i hi
    change BitVec.getLsbD _ i = false
    rw [getLsbD_masked, BitVec.getLsbD_or, BitVec.getLsbD_ushiftRight]
    by_cases h : i < n
    · have : i = n - 1 := by omega
      rw [BitVec.getLsbD_of_ge _ _ (by omega)]
      simp
    · simp [h]

theorem straddle_ty {T : IntTy} {o n : Nat} (hn : n ≤ T.bits) (hs : ¬ NoStraddle o n) : T = .i64 ∨ T = .u64 := by
  rw [straddle_iff] at hs
  cases T <;> simp_all [IntTy.bits] <;> omega

theorem extendSign_small {p : Profile} {T : IntTy} {v : BitVec 64} {n : Nat}
    (hn : 1 ≤ n) (hT : n ≤ T.bits) (hv : v.toNat < 2 ^ (n - 1)) : extendSign p T v n = .ok (v.toNat : Int) := by
  have hlt : v.toNat < 2 ^ n := Nat.lt_of_lt_of_le hv (Nat.pow_le_pow_right (by omega) (by omega))
  cases h : T.signed with
  | true =>
    rw [extendSign_signed h hn hT hlt, twos, if_neg (by omega)]
  | false => exact extendSign_unsigned h hT hlt

/-- A straddling field does not return what was stored: the top bit of the value is lost (or memory beyond the
struct is read). -/
theorem straddle_no_roundtrip {p : Profile} {e : Endian} {size : Nat} {f : Field} (hf : FieldOK size f)
    (hvar : f.variants = none) (hs : ¬ NoStraddle f.off f.bits) :
    ∃ mem v, mem.length = size ∧ Storable f v ∧
      ¬ ∃ mem', f.set p e size mem v = .ok mem' ∧ f.get p e mem' = .ok v := by
  have hs' := hs
  rw [straddle_iff] at hs'
  have hb := f.ty.bits_cases
  have hle := hf.le
  have hin := hf.inside
  have hpos := hf.pos
  have hn64 : f.bits ≤ 64 := by omega
  have hpp : (0 : Int) < 2 ^ (f.bits - 1) := Int.pow_pos (by omega)
  have h2 := int_two_pow_succ f.bits hpos
  have hcast : ((2 ^ (f.bits - 1) : Nat) : Int) = 2 ^ (f.bits - 1) := by push_cast; rfl
  -- the value: -1 for signed, 2^(n-1) for unsigned
  obtain ⟨v, hv, hvne⟩ : ∃ v, Storable f v ∧ (v < 0 ∨ 2 ^ (f.bits - 1) ≤ v) := by
    simp only [Storable, hvar]
    rcases straddle_ty hle hs with hT | hT
    · refine ⟨-1, ?_, .inl (by omega)⟩
      rw [hT]; simp only [Fits]; omega
    · refine ⟨2 ^ (f.bits - 1), ?_, .inr (Int.le_refl _)⟩
      rw [hT]; simp only [Fits]; omega
  refine ⟨List.replicate size 0#8, v, by simp, hv, ?_⟩
  rintro ⟨mem', hset, hget⟩
  have hlen0 : (List.replicate size (0#8)).length = size := by simp
  obtain ⟨d', w1, w2, w3⟩ := writeBytes_straddle (p := p) (e := e) (signed := f.encSigned) (v := v)
    (d := List.replicate size 0#8) hn64 (by rw [hlen0]; exact hin) hs
  have hmem' : mem' = d' := by
    unfold Field.set at hset
    rw [if_neg (by simp)] at hset
    rw [List.take_of_length_le (by simp), List.drop_eq_nil_of_le (by simp), w1] at hset
    simpa using hset.symm
  subst hmem'
  have hlen : mem'.length = size := by rw [w2, hlen0]
  unfold Field.get at hget
  have hread : readBytes p e f.ty mem' f.off f.bits = readInt p e f.ty mem' f.off f.bits := by
    rcases straddle_ty hle hs with hT | hT <;> rw [hT] <;> rfl
  rw [hread] at hget
  by_cases hsz : size ≤ 2 * (f.off / 8) + 8
  · rw [readInt_straddle_ub hn64 (by rw [hlen]; exact hin) hs (by rw [hlen]; exact hsz)] at hget
    cases hget
  · obtain ⟨x, _, hr, hx⟩ := readInt_straddle (p := p) (e := e) (T := f.ty) hn64 (by rw [hlen]; exact hin) hs
      (by rw [hlen]; omega)
    have hz : mem'[2 * (f.off / 8) + 8]? = some 0#8 := by
      rw [w3 _ (by omega) (by omega)]
      simp [show 2 * (f.off / 8) + 8 < size by omega]
    have hx := hx hz
    rw [hr, extendSign_small hpos hle hx] at hget
    simp only [Out.ok_bind, Field.transmute, hvar, Out.ok.injEq] at hget
    omega

end Flatdata
