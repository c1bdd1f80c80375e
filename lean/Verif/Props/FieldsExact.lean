import Verif.Proofs.StraddleBits
import Verif.Props.Fields
/-!
# C02, C03, C04, C09: exactly which fields and values are handled right

The theorems `C02_isolation_partial`, `C03_signed_wrap_partial`, `C04_layout_partial`, `C04_read_partial` and
`C09_enum_read_partial` cover a part of the full claims. The theorems here show that the parts are as large as possible.
-/
namespace Flatdata
open Spec

/-- Setting through `write_bytes!` on the struct's bytes; what follows them stays. -/
theorem set_of_write {p : Profile} {e : Endian} {size : Nat} {f : Field} {mem d' : Bytes} {v : Int} (hm : size ≤ mem.length)
    (h : writeBytes p e f.encSigned v (mem.take size) f.off f.bits = .ok d') :
    f.set p e size mem v = .ok (d' ++ mem.drop size) := by
  unfold Field.set; rw [if_neg (by omega), h]; rfl

theorem bitAt_take_drop (mem : Bytes) (size k : Nat) (hk : 8 * size ≤ k) (d' : Bytes) (hd : d'.length = size)
    (hm : size ≤ mem.length) : bitAt (d' ++ mem.drop size) k = bitAt mem k := by
  have h1 : bitAt mem k = bitAt (mem.take size ++ mem.drop size) k := by simp
  have hlen : (mem.take size).length = size := by simp; omega
  rw [h1, bitAt_append, bitAt_append, hd, hlen, if_neg (by omega), if_neg (by omega)]

theorem bitAt_take_lt (mem : Bytes) (size k : Nat) (hk : k < 8 * size) : bitAt (mem.take size) k = bitAt mem k := by
  rw [bitAt_take]; simp [hk]

theorem getLsbD_storedWord_ge_signed (v : Int) {n i : Nat} (hi : n ≤ i) : (storedWord true v n).getLsbD i = false := by
  simp [storedWord, getLsbD_masked, show ¬ i < n by omega]

theorem toNat_castToU64_of_nonneg {v : Int} (h0 : 0 ≤ v) (h1 : v < 2 ^ 64) : (castToU64 v).toNat = v.toNat := by
  have e1 := toNat_castToU64 v
  rw [Int.emod_eq_of_lt h0 h1] at e1
  omega

theorem castToU64_testBit {v : Int} (h0 : 0 ≤ v) (h1 : v < 2 ^ 64) (i : Nat) :
    (castToU64 v).getLsbD i = v.toNat.testBit i := by
  rw [← toNat_castToU64_of_nonneg h0 h1]; rfl

/-- A value with the top bit of the field set. -/
theorem top_value {size : Nat} {f : Field} (ok : FieldOK size f) (hvar : f.variants = none) (hs : ¬ NoStraddle f.off f.bits) :
    ∃ v, Storable f v ∧ (storedWord f.encSigned v f.bits).getLsbD (f.bits - 1) = true ∧
      (v % 2 ^ f.bits).toNat.testBit (f.bits - 1) = true := by
  have hb := f.ty.bits_cases
  have hle := ok.le
  have hpos := ok.pos
  have h2 := int_two_pow_succ f.bits hpos
  have hpp : (0 : Int) < 2 ^ (f.bits - 1) := Int.pow_pos (by omega)
  have hcast : ((2 ^ (f.bits - 1) : Nat) : Int) = 2 ^ (f.bits - 1) := by push_cast; rfl
  have hbit : (2 ^ (f.bits - 1) : Nat).testBit (f.bits - 1) = true := Nat.testBit_two_pow_self
  have h64 : (2 : Int) ^ (f.bits - 1) < 2 ^ 64 := by
    have := Nat.pow_lt_pow_right (a := 2) (m := f.bits - 1) (n := 64) (by omega) (by omega)
    exact_mod_cast this
  have hmod : ∀ v : Int, v = 2 ^ (f.bits - 1) ∨ v = - 2 ^ (f.bits - 1) → (v % 2 ^ f.bits).toNat = 2 ^ (f.bits - 1) := by
    rintro v (rfl | rfl)
    · rw [Int.emod_eq_of_lt (by omega) (by omega)]; omega
    · rw [← Int.add_emod_right, Int.emod_eq_of_lt (by omega) (by omega)]; omega
  have hmod64 : ∀ v : Int, v = 2 ^ (f.bits - 1) ∨ v = - 2 ^ (f.bits - 1) →
      (castToU64 v).getLsbD (f.bits - 1) = true := by
    intro v hv
    have e1 := toNat_castToU64 v
    have e2 : (castToU64 v).toNat % 2 ^ f.bits = 2 ^ (f.bits - 1) := by
      rw [← hmod v hv]
      have : (((castToU64 v).toNat % 2 ^ f.bits : Nat) : Int) = v % 2 ^ f.bits := by
        push_cast
        rw [e1, Int.emod_emod_of_dvd]
        exact ⟨2 ^ (64 - f.bits), by rw [← Int.pow_add]; congr 1; omega⟩
      omega
    have e3 : ((castToU64 v).toNat % 2 ^ f.bits).testBit (f.bits - 1) = true := by rw [e2]; exact hbit
    rw [Nat.testBit_mod_two_pow] at e3
    simp only [Bool.and_eq_true] at e3
    exact e3.2
  rcases straddle_ty hle hs with hT | hT
  · refine ⟨- 2 ^ (f.bits - 1), ?_, ?_, ?_⟩
    · simp only [Storable, hvar, hT, Fits]; omega
    · rw [getLsbD_storedWord_lt _ _ (by omega)]; exact hmod64 _ (.inr rfl)
    · rw [hmod _ (.inr rfl)]; exact hbit
  · refine ⟨2 ^ (f.bits - 1), ?_, ?_, ?_⟩
    · simp only [Storable, hvar, hT, Fits]; omega
    · rw [getLsbD_storedWord_lt _ _ (by omega)]; exact hmod64 _ (.inl rfl)
    · rw [hmod _ (.inl rfl)]; exact hbit

/-! ## C02 -/

/-- Exactly which fields can be set to any of their values, in any buffer, without changing a bit outside of them: those
not needing a ninth byte, or beginning before byte 8 (a straddling field beginning there spoils only itself). -/
theorem C02_isolation_exact (p : Profile) (e : Endian) (size : Nat) (f : Field) (ok : FieldOK size f)
    (hvar : f.variants = none) :
    (∀ mem : Bytes, size ≤ mem.length → ∀ v, Storable f v → ∃ mem', f.set p e size mem v = .ok mem' ∧
        ∀ k, k < f.off ∨ f.off + f.bits ≤ k → bitAt mem' k = bitAt mem k) ↔
      (NoStraddle f.off f.bits ∨ f.off < 64) := by
  have hb := f.ty.bits_cases
  have hle := ok.le
  have hin := ok.inside
  have hn64 : f.bits ≤ 64 := by omega
  constructor
  · intro h
    by_cases hs : NoStraddle f.off f.bits
    · exact .inl hs
    right
    rcases Nat.lt_or_ge f.off 64 with h' | ho
    · exact h'
    exfalso
    have hw := straddle_iff.mp hs
    obtain ⟨v, hv, htop, _⟩ := top_value ok hvar hs
    obtain ⟨mem', h1, h2⟩ := h (List.replicate size 0#8) (by simp) v hv
    obtain ⟨d', w1, w2, w3⟩ := writeBytes_straddle_bits (p := p) (e := e) (signed := f.encSigned) (v := v)
      (d := (List.replicate size 0#8).take size) hn64 (by simpa using hin) hs
    rw [set_of_write (by simp) w1] at h1
    cases h1
    have hk : f.bits - 1 - (64 - f.off % 8) < 8 := by omega
    have := h2 (64 + (f.bits - 1 - (64 - f.off % 8))) (by omega)
    rw [List.drop_eq_nil_of_le (by simp), List.append_nil, w3, if_pos (by omega), if_pos (by omega),
      show 64 - f.off % 8 + (64 + (f.bits - 1 - (64 - f.off % 8))) % 8 = f.bits - 1 by omega, htop] at this
    rw [bitAt_eq] at this
    revert this
    simp only [List.getElem?_replicate]
    split <;> simp
  · intro h mem hm v hv
    by_cases hs : NoStraddle f.off f.bits
    · obtain ⟨mem', h1, h2, _⟩ := set_stored (p := p) (e := e) ok hm hs (signed_or_range ok hv)
      exact ⟨mem', h1, h2.frame⟩
    have ho : f.off < 64 := h.resolve_left hs
    have hw := straddle_iff.mp hs
    have hlen : (mem.take size).length = size := by simp; omega
    obtain ⟨d', w1, w2, w3⟩ := writeBytes_straddle_bits (p := p) (e := e) (signed := f.encSigned) (v := v)
      (d := mem.take size) hn64 (by rw [hlen]; exact hin) hs
    refine ⟨_, set_of_write hm w1, ?_⟩
    intro k hk
    by_cases hk8 : k < 8 * size
    · rw [bitAt_append, w2, hlen, if_pos hk8, w3, if_neg (by omega), if_neg (by omega), bitAt_take_lt _ _ _ hk8]
    · exact bitAt_take_drop _ _ _ (by omega) _ (by omega) hm

/-- Exactly which values of the setter's (unsigned) type leave the bits outside the field alone: those without bits between the
end of the field and the end of its last byte. -/
theorem C02_value_exact (p : Profile) (e : Endian) (size : Nat) (f : Field) (ok : FieldOK size f)
    (hs : NoStraddle f.off f.bits) (hsg : f.ty.signed = false) (v : Int) (hv : OfType f.ty v) :
    (∀ mem : Bytes, size ≤ mem.length → ∃ mem', f.set p e size mem v = .ok mem' ∧
        ∀ k, k < f.off ∨ f.off + f.bits ≤ k → bitAt mem' k = bitAt mem k) ↔
      v / 2 ^ f.bits % 2 ^ (7 - (f.off + f.bits - 1) % 8) = 0 := by
  have hb := f.ty.bits_cases
  have hle := ok.le
  have hin := ok.inside
  have hpos := ok.pos
  have hn64 : f.bits ≤ 64 := by omega
  have hv0 : 0 ≤ v ∧ v < 2 ^ 64 := by
    cases hT : f.ty <;> simp_all [OfType, Fits, IntTy.signed, IntTy.bits] <;> omega
  have hes : f.encSigned = false := by rw [ok.sign, hsg]
  have hsw : ∀ i, (storedWord f.encSigned v f.bits).getLsbD i = v.toNat.testBit i := by
    intro i; rw [hes]; exact castToU64_testBit hv0.1 hv0.2 i
  have htouch : f.off / 8 + touchedBytes f.off f.bits = (f.off + f.bits - 1) / 8 + 1 := by
    unfold touchedBytes numBytes
    split
    · split <;> omega
    · omega
  obtain ⟨x, rfl⟩ : ∃ x : Nat, v = x := ⟨v.toNat, by omega⟩
  simp only [Int.toNat_natCast] at hsw
  have hcond : ((x : Int) / 2 ^ f.bits % 2 ^ (7 - (f.off + f.bits - 1) % 8) = 0) ↔
      ∀ i, i < 7 - (f.off + f.bits - 1) % 8 → x.testBit (f.bits + i) = false := by
    have hc : ((x : Int) / 2 ^ f.bits % 2 ^ (7 - (f.off + f.bits - 1) % 8)) =
        ((x / 2 ^ f.bits % 2 ^ (7 - (f.off + f.bits - 1) % 8) : Nat) : Int) := by push_cast; rfl
    rw [hc]
    constructor
    · intro h i hi
      have h : x / 2 ^ f.bits % 2 ^ (7 - (f.off + f.bits - 1) % 8) = 0 := by omega
      have := congrArg (fun y => Nat.testBit y i) h
      simp only [Nat.testBit_mod_two_pow, Nat.testBit_div_two_pow, Nat.zero_testBit] at this
      rw [Nat.add_comm]
      simpa [hi] using this
    · intro h
      have : x / 2 ^ f.bits % 2 ^ (7 - (f.off + f.bits - 1) % 8) = 0 := by
        apply Nat.eq_of_testBit_eq
        intro i
        rw [Nat.testBit_mod_two_pow, Nat.testBit_div_two_pow, Nat.zero_testBit]
        by_cases hi : i < 7 - (f.off + f.bits - 1) % 8
        · rw [Nat.add_comm i, h i hi]; simp
        · simp [hi]
      omega
  rw [hcond]
  constructor
  · intro h i hi
    obtain ⟨mem', h1, h2⟩ := h (List.replicate size 0#8) (by simp)
    obtain ⟨d', w1, w2, w3⟩ := writeBytes_bits (p := p) (e := e) (signed := f.encSigned) (v := x)
      (d := (List.replicate size 0#8).take size) hpos hn64 (by simpa using hin) hs
    rw [set_of_write (by simp) w1] at h1
    cases h1
    have := h2 (f.off + f.bits + i) (by omega)
    rw [List.drop_eq_nil_of_le (by simp), List.append_nil, w3, if_neg (by omega), if_pos (by omega), hsw,
      show f.off + f.bits + i - f.off = f.bits + i by omega] at this
    have hz : ∀ (l : Bytes) k, (∀ b ∈ l, b = 0#8) → bitAt l k = false := by
      intro l k hl
      rw [bitAt_eq]
      cases hg : l[k / 8]? with
      | none => simp
      | some b => rw [hl b (List.mem_of_getElem? hg)]; simp
    rw [hz _ _ (by intro b hb; exact List.eq_of_mem_replicate (List.mem_of_mem_take hb)),
      hz _ _ (by intro b hb; exact List.eq_of_mem_replicate hb)] at this
    simpa using this
  · intro h mem hm
    have hlen : (mem.take size).length = size := by simp; omega
    obtain ⟨d', w1, w2, w3⟩ := writeBytes_bits (p := p) (e := e) (signed := f.encSigned) (v := x)
      (d := mem.take size) hpos hn64 (by rw [hlen]; exact hin) hs
    refine ⟨_, set_of_write hm w1, ?_⟩
    intro k hk
    by_cases hk8 : k < 8 * size
    · rw [bitAt_append, w2, hlen, if_pos hk8, w3, if_neg (by omega), bitAt_take_lt _ _ _ hk8, hsw]
      split
      · rename_i hk2
        have := h (k - f.off - f.bits) (by omega)
        rw [show f.bits + (k - f.off - f.bits) = k - f.off by omega] at this
        rw [this]; simp
      · rfl
    · exact bitAt_take_drop _ _ _ (by omega) _ (by omega) hm

/-- Exactly which fields keep to themselves whatever value of their type is passed (the hypothesis of C02 as it stands):
signed or `bool` ones, those as wide as their type, and those ending at a byte boundary. -/
theorem C02_accepted_exact (p : Profile) (e : Endian) (size : Nat) (f : Field) (ok : FieldOK size f)
    (hs : NoStraddle f.off f.bits) :
    (∀ v, OfType f.ty v → ∀ mem : Bytes, size ≤ mem.length → ∃ mem', f.set p e size mem v = .ok mem' ∧
        ∀ k, k < f.off ∨ f.off + f.bits ≤ k → bitAt mem' k = bitAt mem k) ↔
      (f.ty.signed = true ∨ f.ty = .bool ∨ f.bits = f.ty.bits ∨ (f.off + f.bits) % 8 = 0) := by
  have hle := ok.le
  have hpos := ok.pos
  cases hsg : f.ty.signed with
  | true =>
    simp only [true_or, iff_true]
    intro v _ mem hm
    obtain ⟨mem', h1, h2, _⟩ := set_stored (p := p) (e := e) (v := v) ok hm hs (.inl hsg)
    exact ⟨mem', h1, h2.frame⟩
  | false =>
    have hty : f.ty ≠ .bool → ∀ v, OfType f.ty v ↔ 0 ≤ v ∧ v < 2 ^ f.ty.bits := by
      intro hb v
      cases hT : f.ty <;> simp_all [OfType, Fits, IntTy.signed, IntTy.bits]
    constructor
    · intro h
      by_cases hb : f.ty = .bool
      · exact .inr (.inl hb)
      by_cases hbits : f.bits = f.ty.bits
      · exact .inr (.inr (.inl hbits))
      refine .inr (.inr (.inr ?_))
      have hof : OfType f.ty (2 ^ f.bits) := by
        rw [hty hb]
        have hpp : (0 : Int) < 2 ^ f.bits := Int.pow_pos (by omega)
        have := Nat.pow_lt_pow_right (a := 2) (m := f.bits) (n := f.ty.bits) (by omega) (by omega)
        exact ⟨by omega, by exact_mod_cast this⟩
      have := (C02_value_exact p e size f ok hs hsg _ hof).mp (h _ hof)
      rw [Int.ediv_self (Int.pow_ne_zero (by omega))] at this
      rcases Nat.eq_zero_or_pos (7 - (f.off + f.bits - 1) % 8) with h0 | h0
      · omega
      · exfalso
        rw [Int.emod_eq_of_lt (by omega)] at this
        · cases this
        · have := Nat.one_lt_two_pow (n := 7 - (f.off + f.bits - 1) % 8) (by omega)
          exact_mod_cast this
    · intro h v hv
      rw [C02_value_exact p e size f ok hs hsg v hv]
      rcases h with h | h | h | h
      · cases h
      · have hv01 : v = 0 ∨ v = 1 := by
          rw [h] at hv; simp only [OfType, Fits] at hv; omega
        have : v / 2 ^ f.bits = 0 := by
          apply Int.ediv_eq_zero_of_lt (by omega)
          have := Nat.one_lt_two_pow (n := f.bits) (by omega)
          have : (1 : Int) < 2 ^ f.bits := by exact_mod_cast this
          omega
        rw [this]; simp
      · by_cases hb : f.ty = .bool
        · have hv01 : v = 0 ∨ v = 1 := by
            rw [hb] at hv; simp only [OfType, Fits] at hv; omega
          have : v / 2 ^ f.bits = 0 := by
            apply Int.ediv_eq_zero_of_lt (by omega)
            have := Nat.one_lt_two_pow (n := f.bits) (by omega)
            have : (1 : Int) < 2 ^ f.bits := by exact_mod_cast this
            omega
          rw [this]; simp
        · rw [hty hb, ← h] at hv
          rw [Int.ediv_eq_zero_of_lt hv.1 hv.2]; simp
      · rw [show 7 - (f.off + f.bits - 1) % 8 = 0 by omega]; simp

/-- Non-vacuity: `Chapter.major` (4 bits at offset 0): 15 is fine, 16 is not, and 256 is none of its type; a 4-bit `u16`
at offset 0 takes 256 without damage (only one byte is written). -/
example : (∀ mem : Bytes, 2 ≤ mem.length → ∃ mem', (Field.plain "x" .u16 0 4).set .debug .big 2 mem 256 = .ok mem' ∧
      ∀ k, k < 0 ∨ 0 + 4 ≤ k → bitAt mem' k = bitAt mem k) ∧
    ¬ (∀ v, OfType .u8 v → ∀ mem : Bytes, 2 ≤ mem.length →
      ∃ mem', (Field.plain "major" .u8 0 4).set .debug .big 2 mem v = .ok mem' ∧
        ∀ k, k < 0 ∨ 0 + 4 ≤ k → bitAt mem' k = bitAt mem k) := by
  constructor
  · exact (C02_value_exact .debug .big 2 (.plain "x" .u16 0 4) (fieldOK_of_plainOK (by decide)) (by decide) rfl 256
      (by decide)).mpr (by decide)
  · intro h
    have := (C02_accepted_exact .debug .big 2 (.plain "major" .u8 0 4) (fieldOK_of_plainOK (by decide)) (by decide)).mp h
    revert this; decide

/-- Non-vacuity of `C02_isolation_exact`: 64 bits at bit offset 9 are written wrongly but nothing else is touched, at bit
offset 65 something else is. -/
example : (NoStraddle 9 64 ∨ 9 < 64) ∧ ¬ (NoStraddle 65 64 ∨ 65 < 64) := by decide

/-! ## C03 -/

/-- Exactly which signed fields wrap as stated. -/
theorem C03_signed_wrap_exact (p : Profile) (e : Endian) (size : Nat) (f : Field) (ok : FieldOK size f)
    (hsg : f.ty.signed = true) (hvar : f.variants = none) :
    (∀ mem : Bytes, size ≤ mem.length → ∀ v, OfType f.ty v →
      ∃ mem', f.set p e size mem v = .ok mem' ∧ Stored mem mem' f.off f.bits v ∧
        f.get p e mem' = .ok (v.bmod (2 ^ f.bits))) ↔ Supported f := by
  constructor
  · intro h
    rw [← C01_roundtrip_exact p e size f ok hvar]
    intro mem hm v hv
    have hpos := ok.pos
    have h2 := int_two_pow_succ f.bits hpos
    have hle := ok.le
    have hmono : (2 : Int) ^ (f.bits - 1) ≤ 2 ^ (f.ty.bits - 1) := by
      have := Nat.pow_le_pow_right (n := 2) (by omega) (show f.bits - 1 ≤ f.ty.bits - 1 by omega)
      exact_mod_cast this
    have hfit : - (2 : Int) ^ (f.bits - 1) ≤ v ∧ v < 2 ^ (f.bits - 1) := by
      simp only [Storable, hvar] at hv
      cases hT : f.ty <;> simp_all [Fits, IntTy.signed]
    have hof : OfType f.ty v := by
      cases hT : f.ty <;> simp_all [OfType, Fits, IntTy.signed, IntTy.bits] <;> omega
    obtain ⟨mem', h1, _, h3⟩ := h mem hm v hof
    refine ⟨mem', h1, ?_⟩
    rw [h3, Int.bmod_eq_of_le]
    · push_cast; omega
    · push_cast; omega
  · intro hsup mem hm v _
    exact C03_signed_wrap_partial p e size f ok hsg hvar hsup mem hm v

/-- Non-vacuity: both sides occur. -/
example : Supported (.plain "x" .i16 3 13) ∧ ¬ Supported (.plain "x" .i8 0 1) ∧ ¬ Supported (.plain "x" .i64 9 64) := by decide

/-! ## C04 -/

/-- Exactly which setters put every bit where the layout says. -/
theorem C04_layout_exact (p : Profile) (e : Endian) (size : Nat) (f : Field) (ok : FieldOK size f)
    (hvar : f.variants = none) :
    (∀ mem : Bytes, size ≤ mem.length → ∀ v, Storable f v → ∃ mem', f.set p e size mem v = .ok mem' ∧
      ∀ k, k < f.bits → ∃ b, mem'[(f.off + k) / 8]? = some b ∧
        b.getLsbD ((f.off + k) % 8) = (v % 2 ^ f.bits).toNat.testBit k) ↔ NoStraddle f.off f.bits := by
  have hb := f.ty.bits_cases
  have hle := ok.le
  have hin := ok.inside
  have hpos := ok.pos
  have hn64 : f.bits ≤ 64 := by omega
  constructor
  · intro h
    by_cases hs : NoStraddle f.off f.bits
    · exact hs
    exfalso
    have hw := straddle_iff.mp hs
    obtain ⟨v, hv, _, htop⟩ := top_value ok hvar hs
    obtain ⟨mem', h1, h2⟩ := h (List.replicate size 0#8) (by simp) v hv
    obtain ⟨d', w1, w2, w3⟩ := writeBytes_straddle (p := p) (e := e) (signed := f.encSigned) (v := v)
      (d := (List.replicate size 0#8).take size) hn64 (by simpa using hin) hs
    rw [set_of_write (by simp) w1] at h1
    cases h1
    obtain ⟨b, hb1, hb2⟩ := h2 (f.bits - 1) (by omega)
    rw [List.drop_eq_nil_of_le (by simp), List.append_nil, w3 _ (by omega) (by omega)] at hb1
    have : b = 0#8 := List.eq_of_mem_replicate (List.mem_of_mem_take (List.mem_of_getElem? hb1))
    subst this
    rw [htop] at hb2
    simp at hb2
  · intro hs mem hm v hv
    exact C04_layout_partial p e size f ok hs mem hm v hv

/-- Exactly which getters read every bit from where the layout says. -/
theorem C04_read_exact (p : Profile) (e : Endian) (size : Nat) (f : Field) (ok : FieldOK size f)
    (hvar : f.variants = none) :
    (∀ mem : Bytes, size ≤ mem.length → ∃ v, f.get p e mem = .ok v ∧ Fits f.ty f.bits v ∧
      (f.ty ≠ .bool → ∀ k, k < f.bits → ∃ b, mem[(f.off + k) / 8]? = some b ∧
        b.getLsbD ((f.off + k) % 8) = (v % 2 ^ f.bits).toNat.testBit k) ∧
      (f.ty = .bool → (v = 1 ↔ ∃ k b, k < f.bits ∧ mem[(f.off + k) / 8]? = some b ∧
        b.getLsbD ((f.off + k) % 8) = true))) ↔ Supported f := by
  have hb := f.ty.bits_cases
  have hle := ok.le
  have hin := ok.inside
  have hpos := ok.pos
  have hn64 : f.bits ≤ 64 := by omega
  constructor
  · intro h
    by_cases hs : NoStraddle f.off f.bits
    · refine ⟨hs, ?_⟩
      intro hsg h1
      obtain ⟨v, g1, g2, _⟩ := h (List.replicate size 0xff#8) (by simp)
      rw [get_eq ok.pos ok.le (by simpa using hin) hs] at g1
      have hone : fieldRaw (List.replicate size 0xff#8) f.off f.bits = 1 := by
        apply Nat.eq_of_testBit_eq
        intro k
        rw [testBit_fieldRaw, h1, bitAt_eq]
        by_cases hk : k = 0
        · subst hk
          have : f.off / 8 < size := by omega
          have h8 : f.off % 8 < 8 := Nat.mod_lt _ (by omega)
          simp only [Nat.add_zero, List.getElem?_replicate, if_pos this]
          have : (255#8).getLsbD (f.off % 8) = true := by
            have : ∀ i, i < 8 → (255#8).getLsbD i = true := by decide
            exact this _ h8
          simp [this]
        · have : ¬ k < 1 := by omega
          rw [Nat.testBit_lt_two_pow (Nat.one_lt_two_pow hk)]
          simp [this]
      rw [hone] at g1
      simp only [codeDecode, h1, if_true, Field.transmute, hvar, Out.ok.injEq] at g1
      subst g1
      rw [h1] at g2
      cases hT : f.ty <;> simp_all [Fits, IntTy.signed]
    · exfalso
      have hw := straddle_iff.mp hs
      have hlt : f.off / 8 + 8 < size := by omega
      obtain ⟨v, g1, _, g3, _⟩ := h ((List.replicate size 0#8).set (f.off / 8 + 8) 0xff#8) (by simp)
      have hnb : f.ty ≠ .bool := by rcases straddle_ty hle hs with hT | hT <;> rw [hT] <;> simp
      obtain ⟨b, hb1, hb2⟩ := g3 hnb (f.bits - 1) (by omega)
      rw [show (f.off + (f.bits - 1)) / 8 = f.off / 8 + 8 by omega, List.getElem?_set_self (by simpa using hlt)] at hb1
      cases hb1
      have h8 : (f.off + (f.bits - 1)) % 8 < 8 := Nat.mod_lt _ (by omega)
      have hff : (0xff#8).getLsbD ((f.off + (f.bits - 1)) % 8) = true := by
        have : ∀ i, i < 8 → (255#8).getLsbD i = true := by decide
        exact this _ h8
      rw [hff] at hb2
      unfold Field.get at g1
      have hread : readBytes p e f.ty ((List.replicate size 0#8).set (f.off / 8 + 8) 0xff#8) f.off f.bits =
          readInt p e f.ty ((List.replicate size 0#8).set (f.off / 8 + 8) 0xff#8) f.off f.bits := by
        rcases straddle_ty hle hs with hT | hT <;> rw [hT] <;> rfl
      rw [hread] at g1
      by_cases hsz : size ≤ 2 * (f.off / 8) + 8
      · rw [readInt_straddle_ub hn64 (by simpa using hin) hs (by simpa using hsz)] at g1
        cases g1
      · obtain ⟨x, _, hr, hx⟩ := readInt_straddle (p := p) (e := e) (T := f.ty)
          (d := (List.replicate size 0#8).set (f.off / 8 + 8) 0xff#8) hn64 (by simpa using hin) hs
          (by simp; omega)
        have hx := hx (by
          rw [List.getElem?_set_ne (by omega), List.getElem?_replicate, if_pos (by omega)])
        rw [hr, extendSign_small hpos hle hx] at g1
        simp only [Out.ok_bind, Field.transmute, hvar, Out.ok.injEq] at g1
        subst g1
        have hxl : x.toNat < 2 ^ f.bits := Nat.lt_of_lt_of_le hx (Nat.pow_le_pow_right (by omega) (by omega))
        have : ((x.toNat : Int) % 2 ^ f.bits).toNat = x.toNat := by
          rw [Int.emod_eq_of_lt (by omega) (by exact_mod_cast hxl)]; omega
        rw [this, Nat.testBit_lt_two_pow hx] at hb2
        cases hb2
  · intro hsup mem hm
    exact C04_read_partial p e size f ok hvar hsup mem hm

/-- Non-vacuity of the two theorems: fields that are laid out correctly and one that is not; a one-bit signed field is written
correctly but not read correctly. -/
example : NoStraddle 3 13 ∧ ¬ NoStraddle 9 64 ∧ FieldOK 10 (.plain "x" .u64 9 64) ∧ NoStraddle 0 1 ∧
    ¬ (∀ mem : Bytes, 1 ≤ mem.length → ∃ v, (Field.plain "x" .i8 0 1).get .debug .big mem = .ok v ∧ Fits .i8 1 v ∧
      (IntTy.i8 ≠ .bool → ∀ k, k < 1 → ∃ b, mem[(0 + k) / 8]? = some b ∧ b.getLsbD ((0 + k) % 8) = (v % 2 ^ 1).toNat.testBit k) ∧
      (IntTy.i8 = .bool → (v = 1 ↔ ∃ k b, k < 1 ∧ mem[(0 + k) / 8]? = some b ∧ b.getLsbD ((0 + k) % 8) = true))) :=
  ⟨by decide, by decide, fieldOK_of_plainOK (by decide), by decide,
    fun h => absurd ((C04_read_exact .debug .big 1 (.plain "x" .i8 0 1) (fieldOK_of_plainOK (by decide)) rfl).mp h) (by decide)⟩

/-! ## C09 -/

/-- Exactly which enum fields (of supported layout) can be read whatever their bits are: those with a variant for every bit
pattern. -/
theorem C09_enum_read_exact (p : Profile) (e : Endian) (size : Nat) (f : Field) (l : List (Int × String))
    (ok : FieldOK size f) (hvar : f.variants = some l) (hsup : Supported f) :
    (∀ mem : Bytes, size ≤ mem.length → ∃ v, f.get p e mem = .ok v) ↔
      ∀ v, Fits f.ty f.bits v → v ∈ l.map Prod.fst := by
  constructor
  · intro h v hv
    have hin := ok.inside
    have hrange : f.ty.signed = true ∨ (0 ≤ v ∧ v < 2 ^ f.bits) := by
      cases hsg : f.ty.signed with
      | true => exact .inl rfl
      | false => exact .inr (fits_unsigned ok.pos hsg hv)
    obtain ⟨mem', h1, h2, _⟩ := set_stored (p := p) (e := e) (mem := List.replicate size 0#8) (v := v) ok (by simp)
      hsup.1 hrange
    have hl : size ≤ mem'.length := by rw [h2.length]; simp
    obtain ⟨x, hx⟩ := h mem' hl
    rw [(C09_enum_read_partial p e size f l ok hvar mem' hl).2 hsup, decode_of_fits ok.pos hv h2.field] at hx
    by_cases hmem : v ∈ l.map Prod.fst
    · exact hmem
    · rw [if_neg hmem] at hx; cases hx
  · intro h mem hm
    refine ⟨decode f.ty f.bits (fieldRaw mem f.off f.bits), ?_⟩
    rw [(C09_enum_read_partial p e size f l ok hvar mem hm).2 hsup, if_pos]
    apply h
    have hlt := fieldRaw_lt mem f.off f.bits
    have hp := int_two_pow_succ f.bits ok.pos
    have hcast : ((2 ^ f.bits : Nat) : Int) = 2 ^ f.bits := by push_cast; rfl
    have hcast' : ((2 ^ (f.bits - 1) : Nat) : Int) = 2 ^ (f.bits - 1) := by push_cast; rfl
    cases hT : f.ty <;> simp only [decode, Fits, twos] <;> first | omega | (split <;> omega)

/-- Non-vacuity: an enum of two variants in one bit can always be read, `enumField` (two variants in two bits) cannot. -/
example : (∀ mem : Bytes, 1 ≤ mem.length →
      ∃ v, ({ Field.plain "x" .u8 3 1 with variants := some [(0, "A"), (1, "B")] } : Field).get .debug .little mem = .ok v) ∧
    ¬ ∀ mem : Bytes, 1 ≤ mem.length → ∃ v, enumField.get .debug .little mem = .ok v := by
  constructor
  · refine (C09_enum_read_exact .debug .little 1 { Field.plain "x" .u8 3 1 with variants := some [(0, "A"), (1, "B")] } _
      ⟨by decide, by decide, by decide, by decide, ?_⟩ rfl (by decide)).mpr ?_
    · intro l hl v hv
      simp only [Option.some.injEq] at hl
      subst hl
      simp at hv
      rcases hv with rfl | rfl <;> decide
    · intro v hv
      have : 0 ≤ v ∧ v < 2 := hv
      simp; omega
  · intro h
    have := (C09_enum_read_exact .debug .little 1 enumField _ enumField_ok rfl (by decide)).mp h 1 (by decide)
    revert this; decide

end Flatdata
