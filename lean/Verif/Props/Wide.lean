import Verif.Props.Fields
/-!
# C52: fields declared wider than their Rust type

Nothing in `define_struct!` compares the declared width with the type; the macro also accepts a `u8` of twelve bits.
(Whether a compiler warns about the constant subtraction in `extend_sign!` for signed types is not considered.)
-/
namespace Flatdata
open Spec

/-- A field of a plain type that is declared wider than the type. -/
structure WideOK (size : Nat) (f : Field) : Prop where
  wide : f.ty.bits < f.bits
  le : f.bits ≤ 64
  inside : f.off + f.bits ≤ 8 * size
  sign : f.encSigned = f.ty.signed
  plain : f.variants = none

/-- C52 in full: such a field holds every value of its type. -/
def C52_claim : Prop :=
  ∀ (p : Profile) (e : Endian) (size : Nat) (f : Field), WideOK size f → NoStraddle f.off f.bits →
    ∀ (mem : Bytes), size ≤ mem.length → ∀ v, OfType f.ty v →
      ∃ mem', f.set p e size mem v = .ok mem' ∧ f.get p e mem' = .ok v

/-! ## what is read -/

theorem fieldRaw_mod {d : Bytes} {o n m : Nat} (h : m ≤ n) : fieldRaw d o n % 2 ^ m = fieldRaw d o m := by
  symm
  apply fieldRaw_eq_of_testBit (Nat.mod_lt _ (Nat.two_pow_pos m))
  intro i hi
  rw [Nat.testBit_mod_two_pow, testBit_fieldRaw]
  simp [hi, show i < n by omega]

theorem extendSign_wide_unsigned {p : Profile} {T : IntTy} (hs : T.signed = false) {v : BitVec 64} {n : Nat} :
    extendSign p T v n = .ok ((v.toNat % 2 ^ T.bits : Nat) : Int) := by
  unfold extendSign castFromU64
  simp [hs]

/-- The number of bits that a signed getter takes into account in a release build. -/
def keptBits (T : IntTy) (n : Nat) : Nat := if n % T.bits = 0 then T.bits else n % T.bits

theorem keptBits_bounds (T : IntTy) (n : Nat) : 1 ≤ keptBits T n ∧ keptBits T n ≤ T.bits := by
  unfold keptBits
  have hb := T.bits_cases
  have := Nat.mod_lt n (show 0 < T.bits by omega)
  split <;> omega

theorem extendSign_wide_signed {T : IntTy} (hs : T.signed = true) {v : BitVec 64} {n : Nat} (hT : T.bits < n) (hn : n ≤ 64) :
    extendSign .release T v n = .ok (twos (keptBits T n) (v.toNat % 2 ^ keptBits T n)) := by
  unfold extendSign
  rw [if_pos hs]
  have hb := T.bits_cases
  obtain ⟨hm1, hm2⟩ := keptBits_bounds T n
  have hsub : usub .release T.bits n = .ok ((usizeMod + T.bits - n) % usizeMod) := by
    unfold usub; rw [if_neg (by omega)]
  rw [hsub]
  simp only [Out.ok_bind]
  have hk : ((usizeMod + T.bits - n) % usizeMod % 2 ^ 32) % T.bits = T.bits - keptBits T n := by
    unfold usizeMod keptBits
    rcases hb with h | h | h | h <;> rw [h] at * <;> split <;> omega
  rw [hk]
  congr 1
  have hx : ((v.setWidth T.bits) <<< (T.bits - keptBits T n) : BitVec T.bits) =
      (BitVec.ofNat T.bits (v.toNat % 2 ^ keptBits T n)) <<< (T.bits - keptBits T n) := by
    apply BitVec.eq_of_toNat_eq
    rw [BitVec.toNat_shiftLeft, BitVec.toNat_shiftLeft, BitVec.toNat_setWidth, BitVec.toNat_ofNat]
    have hlt : v.toNat % 2 ^ keptBits T n < 2 ^ T.bits :=
      Nat.lt_of_lt_of_le (Nat.mod_lt _ (Nat.two_pow_pos _)) (Nat.pow_le_pow_right (by omega) hm2)
    rw [Nat.mod_eq_of_lt hlt, Nat.shiftLeft_eq, Nat.shiftLeft_eq]
    have hp : 2 ^ T.bits = 2 ^ keptBits T n * 2 ^ (T.bits - keptBits T n) := by
      rw [← Nat.pow_add]; congr 1; omega
    rw [hp, Nat.mul_mod_mul_right, Nat.mul_mod_mul_right, Nat.mod_mod, Nat.mod_mul_right_mod]
  rw [hx, BitVec.toInt_sshiftRight, BitVec.toInt_shiftLeft]
  have hlt : v.toNat % 2 ^ keptBits T n < 2 ^ keptBits T n := Nat.mod_lt _ (Nat.two_pow_pos _)
  have h2 : v.toNat % 2 ^ keptBits T n < 2 ^ T.bits := Nat.lt_of_lt_of_le hlt (Nat.pow_le_pow_right (by omega) hm2)
  rw [BitVec.toNat_ofNat, Nat.mod_eq_of_lt h2, Nat.shiftLeft_eq, twos_shift hm1 hm2 hlt, Int.shiftRight_eq_div_pow]
  have : (2 : Int) ^ (T.bits - keptBits T n) ≠ 0 := by
    have := Int.pow_pos (n := 2) (m := T.bits - keptBits T n) (by omega); omega
  push_cast
  exact Int.mul_ediv_cancel _ this

theorem get_plain {p : Profile} {e : Endian} {f : Field} {mem : Bytes} (h : f.variants = none) :
    f.get p e mem = readBytes p e f.ty mem f.off f.bits := by
  unfold Field.get
  cases readBytes p e f.ty mem f.off f.bits <;> simp [Field.transmute, h, Out.ok_bind] <;> rfl

/-- Reading an unsigned (or `bool`) field gives what the lowest bits of the field say, as many as the type has, whatever the
others are. -/
theorem C52_read_unsigned (p : Profile) (e : Endian) (size : Nat) (f : Field) (ok : WideOK size f) (hs : NoStraddle f.off f.bits)
    (hu : f.ty.signed = false) (mem : Bytes) (hm : size ≤ mem.length) :
    f.get p e mem = .ok (decode f.ty f.ty.bits (fieldRaw mem f.off f.ty.bits)) := by
  have hb := f.ty.bits_cases
  have hw := ok.wide
  have hin := ok.inside
  have key : ∀ T : IntTy, T.signed = false → T.bits = f.ty.bits →
      readInt p e T mem f.off f.bits = .ok (fieldRaw mem f.off f.ty.bits : Int) := by
    intro T hT hTb
    obtain ⟨v, hv, hr⟩ := readInt_masked (p := p) (e := e) (T := T) (d := mem) (o := f.off) (n := f.bits)
      (by omega) ok.le (by omega) hs
    rw [hr, extendSign_wide_unsigned hT, hv, hTb, fieldRaw_mod (by omega)]
  rw [get_plain ok.plain]
  by_cases hT : f.ty = .bool
  · rw [hT] at key ⊢
    simp only [readBytes]
    rw [key .u8 rfl rfl]
    simp only [Out.ok_bind, decode]
    by_cases hz : fieldRaw mem f.off (IntTy.bits .bool) = 0 <;> simp [hz]
  · have e1 : readBytes p e f.ty mem f.off f.bits = readInt p e f.ty mem f.off f.bits := by
      cases h : f.ty <;> simp_all [readBytes]
    rw [e1, key f.ty hu rfl]
    cases h : f.ty <;> simp_all [decode, IntTy.signed]

/-- Reading a signed field: panics with overflow checks (`size_of::<T>() * 8 - num_bits`); without, the value of the lowest
`keptBits` bits. -/
theorem C52_read_signed (e : Endian) (size : Nat) (f : Field) (ok : WideOK size f) (hs : NoStraddle f.off f.bits)
    (hu : f.ty.signed = true) (mem : Bytes) (hm : size ≤ mem.length) :
    f.get .debug e mem = .panic ∧
    f.get .release e mem = .ok (twos (keptBits f.ty f.bits) (fieldRaw mem f.off (keptBits f.ty f.bits))) := by
  have hb := f.ty.bits_cases
  have hw := ok.wide
  have hin := ok.inside
  have hk := keptBits_bounds f.ty f.bits
  have e1 : ∀ p, readBytes p e f.ty mem f.off f.bits = readInt p e f.ty mem f.off f.bits := by
    intro p
    cases h : f.ty <;> simp_all [readBytes, IntTy.signed]
  constructor
  · rw [get_plain ok.plain, e1]
    obtain ⟨v, hv, hr⟩ := readInt_masked (p := .debug) (e := e) (T := f.ty) (d := mem) (o := f.off) (n := f.bits)
      (by omega) ok.le (by omega) hs
    rw [hr]
    unfold extendSign usub
    rw [if_pos hu, if_neg (by omega)]
    rfl
  · rw [get_plain ok.plain, e1]
    obtain ⟨v, hv, hr⟩ := readInt_masked (p := .release) (e := e) (T := f.ty) (d := mem) (o := f.off) (n := f.bits)
      (by omega) ok.le (by omega) hs
    rw [hr, extendSign_wide_signed hu hw ok.le, hv, fieldRaw_mod (by omega)]

/-! ## what is set -/

theorem wide_set {p : Profile} {e : Endian} {size : Nat} {f : Field} {mem : Bytes} {v : Int}
    (ok : WideOK size f) (hm : size ≤ mem.length) (hs : NoStraddle f.off f.bits) (hv : OfType f.ty v) :
    ∃ mem', f.set p e size mem v = .ok mem' ∧ Stored mem mem' f.off f.bits v := by
  have hb := f.ty.bits_cases
  have hw := ok.wide
  have hlen : (mem.take size).length = size := by simp; omega
  have hfit : f.encSigned = true ∨ (0 ≤ v ∧ v < 2 ^ f.bits) := by
    rw [ok.sign]
    have hmono : (2 : Int) ^ f.ty.bits ≤ 2 ^ f.bits := by
      have : (2 : Nat) ^ f.ty.bits ≤ 2 ^ f.bits := Nat.pow_le_pow_right (by omega) (by omega)
      exact_mod_cast this
    unfold OfType at hv
    cases h : f.ty <;> rw [h] at hv hmono <;> simp only [Fits, IntTy.signed, IntTy.bits] at hv hmono ⊢
    all_goals first
      | exact .inl trivial
      | exact .inr ⟨by omega, by omega⟩
      | (right; rcases hv with rfl | rfl <;> omega)
  obtain ⟨d', h1, h2⟩ := writeBytes_stored (p := p) (e := e) (signed := f.encSigned) (v := v)
    (d := mem.take size) (o := f.off) (n := f.bits) (by omega) ok.le (by rw [hlen]; exact ok.inside) hs hfit
  refine ⟨d' ++ mem.drop size, ?_, ?_⟩
  · unfold Field.set
    rw [if_neg (by omega), h1]; rfl
  · have := h2.append (rest := mem.drop size) (by rw [hlen]; exact ok.inside)
    rwa [List.take_append_drop] at this

theorem stored_low {d d' : Bytes} {o n m : Nat} {v : Int} (h : Stored d d' o n v) (hm : m ≤ n) :
    (fieldRaw d' o m : Int) = v % 2 ^ m := by
  rw [← fieldRaw_mod (d := d') (o := o) hm]
  push_cast
  rw [h.field, Int.emod_emod_of_dvd]
  exact ⟨2 ^ (n - m), by rw [← Int.pow_add]; congr 1; omega⟩

/-- C52 for unsigned types and `bool`: what is set is got back, and no bit outside the field changes. Missing w.r.t.
`C52_claim`: signed types (`C52_exact`). -/
theorem C52_unsigned_partial (p : Profile) (e : Endian) (size : Nat) (f : Field) (ok : WideOK size f)
    (hs : NoStraddle f.off f.bits) (hu : f.ty.signed = false) (mem : Bytes) (hm : size ≤ mem.length) (v : Int)
    (hv : OfType f.ty v) :
    ∃ mem', f.set p e size mem v = .ok mem' ∧ f.get p e mem' = .ok v ∧
      mem'.length = mem.length ∧ ∀ k, k < f.off ∨ f.off + f.bits ≤ k → bitAt mem' k = bitAt mem k := by
  obtain ⟨mem', h1, h2⟩ := wide_set (p := p) (e := e) ok hm hs hv
  refine ⟨mem', h1, ?_, h2.length, h2.frame⟩
  rw [C52_read_unsigned p e size f ok hs hu mem' (by rw [h2.length]; exact hm)]
  have hb := f.ty.bits_cases
  rw [decode_of_fits (by omega) hv (stored_low h2 (by have := ok.wide; omega))]

/-- Non-vacuity: a `u8` of twelve bits at bit 3, in a buffer full of ones. -/
example : ∃ mem', (Field.plain "x" .u8 3 12).set .debug .big 2 [0xff#8, 0xff#8] 0xa5 = .ok mem' ∧
    (Field.plain "x" .u8 3 12).get .debug .big mem' = .ok 0xa5 ∧ mem'.length = 2 ∧
    ∀ k, k < 3 ∨ 15 ≤ k → bitAt mem' k = bitAt [0xff#8, 0xff#8] k :=
  C52_unsigned_partial .debug .big 2 (.plain "x" .u8 3 12) ⟨by decide, by decide, by decide, rfl, rfl⟩ (by decide) rfl
    [0xff#8, 0xff#8] (by decide) 0xa5 (by decide)

/-- Non-vacuity: the four bits above the type are ignored; a `bool` of twelve bits is false although a bit is set. -/
example : (Field.plain "x" .u8 3 12).get .debug .little [0xff#8, 0x7f#8] = .ok 255 ∧
    (Field.plain "x" .bool 0 12).get .debug .little [0#8, 1#8] = .ok 0 :=
  ⟨C52_read_unsigned .debug .little 2 (.plain "x" .u8 3 12) ⟨by decide, by decide, by decide, rfl, rfl⟩ (by decide) rfl
      [0xff#8, 0x7f#8] (by decide),
    C52_read_unsigned .debug .little 2 (.plain "x" .bool 0 12) ⟨by decide, by decide, by decide, rfl, rfl⟩ (by decide) rfl
      [0#8, 1#8] (by decide)⟩

/-- Non-vacuity: an `i8` of twelve bits keeps its lowest four. -/
example : (Field.plain "x" .i8 0 12).get .debug .little [0x0f#8, 0#8] = .panic ∧
    (Field.plain "x" .i8 0 12).get .release .little [0x0f#8, 0#8] = .ok (-1) :=
  C52_read_signed .little 2 (.plain "x" .i8 0 12) ⟨by decide, by decide, by decide, rfl, rfl⟩ (by decide) rfl
    [0x0f#8, 0#8] (by decide)

/-- Exactly when C52 holds of a field: it is unsigned, or overflow checks are off and its width is a multiple of the width
of the type. -/
theorem C52_exact (p : Profile) (e : Endian) (size : Nat) (f : Field) (ok : WideOK size f) (hs : NoStraddle f.off f.bits) :
    (∀ mem : Bytes, size ≤ mem.length → ∀ v, OfType f.ty v →
        ∃ mem', f.set p e size mem v = .ok mem' ∧ f.get p e mem' = .ok v) ↔
      (f.ty.signed = true → p = .release ∧ f.bits % f.ty.bits = 0) := by
  have hb := f.ty.bits_cases
  have hw := ok.wide
  constructor
  · intro h hsg
    have hof : ∀ v : Int, -(2 ^ (f.ty.bits - 1) : Int) ≤ v → v < 2 ^ (f.ty.bits - 1) → OfType f.ty v := by
      intro v h1 h2
      cases hT : f.ty <;> rw [hT] at h1 h2 hsg <;> simp_all [OfType, Fits, IntTy.signed, IntTy.bits]
    have hpos : (0 : Int) < 2 ^ (f.ty.bits - 1) := Int.pow_pos (by omega)
    cases p with
    | debug =>
      obtain ⟨mem', a, b⟩ := h (List.replicate size 0#8) (by simp) 0 (hof 0 (by omega) hpos)
      rw [(C52_read_signed e size f ok hs hsg mem' (by rw [(set_length a).1]; simp)).1] at b
      cases b
    | release =>
      refine ⟨rfl, ?_⟩
      apply Classical.byContradiction
      intro hne
      have hk : keptBits f.ty f.bits = f.bits % f.ty.bits := if_neg hne
      have hlt := Nat.mod_lt f.bits (show 0 < f.ty.bits by omega)
      have hmono : (2 : Int) ^ (f.bits % f.ty.bits) ≤ 2 ^ (f.ty.bits - 1) := by
        have : (2 : Nat) ^ (f.bits % f.ty.bits) ≤ 2 ^ (f.ty.bits - 1) := Nat.pow_le_pow_right (by omega) (by omega)
        exact_mod_cast this
      have hp2 : (0 : Int) < 2 ^ (f.bits % f.ty.bits) := Int.pow_pos (by omega)
      have hv : OfType f.ty (-(2 ^ (f.bits % f.ty.bits))) := hof _ (by omega) (by omega)
      obtain ⟨mem', a, b⟩ := h (List.replicate size 0#8) (by simp) _ hv
      obtain ⟨m2, a', st⟩ := wide_set (p := .release) (e := e) (mem := List.replicate size 0#8) ok (by simp) hs hv
      rw [a] at a'; cases a'
      rw [(C52_read_signed e size f ok hs hsg mem' (by rw [(set_length a).1]; simp)).2, hk] at b
      have h0 : fieldRaw mem' f.off (f.bits % f.ty.bits) = 0 := by
        have := stored_low st (show f.bits % f.ty.bits ≤ f.bits from Nat.mod_le _ _)
        rw [Int.neg_emod_self] at this
        omega
      rw [h0] at b
      have : twos (f.bits % f.ty.bits) 0 = 0 := by
        unfold twos
        rw [if_neg (by have := Nat.two_pow_pos (f.bits % f.ty.bits - 1); omega)]
        rfl
      rw [this] at b
      simp only [Out.ok.injEq] at b
      omega
  · intro h mem hm v hv
    cases hsg : f.ty.signed with
    | false =>
      obtain ⟨mem', h1, h2, _⟩ := C52_unsigned_partial p e size f ok hs hsg mem hm v hv
      exact ⟨mem', h1, h2⟩
    | true =>
      obtain ⟨rfl, h0⟩ := h hsg
      obtain ⟨mem', a, st⟩ := wide_set (p := .release) (e := e) ok hm hs hv
      refine ⟨mem', a, ?_⟩
      rw [(C52_read_signed e size f ok hs hsg mem' (by rw [(set_length a).1]; exact hm)).2]
      have hk : keptBits f.ty f.bits = f.ty.bits := if_pos h0
      rw [hk]
      have := decode_of_fits (T := f.ty) (n := f.ty.bits) (by omega) hv (stored_low st (by omega))
      cases hT : f.ty <;> rw [hT] at this hsg <;> simp_all [decode, IntTy.signed]

/-- The unrestricted claim is false of the code: an `i8` of twelve bits. -/
theorem C52_refuted : ¬ C52_claim := by
  intro h
  have := (C52_exact .debug .little 2 (.plain "x" .i8 0 12) ⟨by decide, by decide, by decide, rfl, rfl⟩ (by decide)).mp
    (fun mem hm v hv => h .debug .little 2 (.plain "x" .i8 0 12) ⟨by decide, by decide, by decide, rfl, rfl⟩ (by decide) mem hm v hv)
  exact absurd (this rfl).1 (by decide)

/-- Non-vacuity of the exact statement, both ways: in a release build an `i8` of sixteen bits works, one of twelve does not. -/
example : (∀ mem : Bytes, 2 ≤ mem.length → ∀ v, OfType .i8 v → ∃ mem',
      (Field.plain "x" .i8 0 16).set .release .little 2 mem v = .ok mem' ∧ (Field.plain "x" .i8 0 16).get .release .little mem' = .ok v) ∧
    ¬ ∀ mem : Bytes, 2 ≤ mem.length → ∀ v, OfType .i8 v → ∃ mem',
      (Field.plain "x" .i8 0 12).set .release .little 2 mem v = .ok mem' ∧ (Field.plain "x" .i8 0 12).get .release .little mem' = .ok v :=
  ⟨(C52_exact .release .little 2 (.plain "x" .i8 0 16) ⟨by decide, by decide, by decide, rfl, rfl⟩ (by decide)).mpr
      (fun _ => ⟨rfl, rfl⟩),
    fun h => absurd ((C52_exact .release .little 2 (.plain "x" .i8 0 12) ⟨by decide, by decide, by decide, rfl, rfl⟩
      (by decide)).mp h rfl).2 (by decide)⟩

end Flatdata
