import Verif.Proofs.Fill
import Verif.Model.Coappearances
/-!
# C01 - C05, C09: fields of a struct

`set`/`get` below are the generated setter/getter, `mem` the memory behind the reference (at least one struct).
-/
namespace Flatdata
open Spec

/-- The fields for which the code is right: no ninth byte beyond byte offset 0 (`NoStraddle`), and no one-bit
signed field. -/
def Supported (f : Field) : Prop := NoStraddle f.off f.bits ∧ (f.ty.signed = true → f.bits ≠ 1)

instance (f : Field) : Decidable (Supported f) := by unfold Supported; infer_instance

/-! ## C01 -/

/-- C01 in full: what is set is got back, for every declared field and every storable value. -/
def C01_claim : Prop :=
  ∀ (p : Profile) (e : Endian) (S : StructDef), WF S → ∀ f ∈ S.fields, ∀ (mem : Bytes), S.size ≤ mem.length →
    ∀ v, Storable f v → ∃ mem', f.set p e S.size mem v = .ok mem' ∧ f.get p e mem' = .ok v

/-- C01 for all supported fields. Missing w.r.t. `C01_claim`: fields that need a ninth byte at byte offset > 0 and
one-bit signed fields, for which the claim is false (`C01_roundtrip_exact`). -/
theorem C01_roundtrip_partial (p : Profile) (e : Endian) (S : StructDef) (wf : WF S) (f : Field) (hf : f ∈ S.fields)
    (hsup : Supported f) (mem : Bytes) (hm : S.size ≤ mem.length) (v : Int) (hv : Storable f v) :
    ∃ mem', f.set p e S.size mem v = .ok mem' ∧ f.get p e mem' = .ok v ∧ mem'.length = mem.length := by
  have ok := wf.field f hf
  obtain ⟨mem', h1, h2, _⟩ := set_stored (p := p) (e := e) ok hm hsup.1 (signed_or_range ok hv)
  refine ⟨mem', h1, ?_, h2.length⟩
  have hin := ok.inside
  rw [get_eq ok.pos ok.le (by rw [h2.length]; omega) hsup.1, codeDecode_eq_decode hsup.2 (fieldRaw_lt _ _ _),
    decode_of_fits ok.pos (storable_signed_or_fits ok hv) h2.field, transmute_storable hv]

/-- Exact domain of C01: a (non-enum) field round-trips for all buffers and values iff it is supported. -/
theorem C01_roundtrip_exact (p : Profile) (e : Endian) (size : Nat) (f : Field) (ok : FieldOK size f)
    (hvar : f.variants = none) :
    (∀ mem : Bytes, size ≤ mem.length → ∀ v, Storable f v →
        ∃ mem', f.set p e size mem v = .ok mem' ∧ f.get p e mem' = .ok v) ↔ Supported f := by
  constructor
  · intro h
    by_cases hs : NoStraddle f.off f.bits
    · refine ⟨hs, ?_⟩
      intro hsg h1
      have hin := ok.inside
      have hst : Storable f (-1) := by
        simp only [Storable, hvar]
        cases hT : f.ty <;> simp_all [Fits, IntTy.signed]
      obtain ⟨mem', a, b⟩ := h (List.replicate size 0#8) (by simp) (-1) hst
      obtain ⟨m2, a', st, _⟩ := set_stored (p := p) (e := e) (mem := List.replicate size 0#8) (v := -1) ok
        (by simp) hs (.inl hsg)
      rw [a] at a'; cases a'
      rw [get_eq ok.pos ok.le (by rw [st.length]; simpa using hin) hs] at b
      simp only [codeDecode, h1, if_true, Field.transmute, hvar, Out.ok.injEq] at b
      omega
    · obtain ⟨mem, v, hl, hv, hno⟩ := straddle_no_roundtrip (p := p) (e := e) ok hvar hs
      exact absurd (h mem (by omega) v hv) hno
  · intro hsup mem hm v hv
    obtain ⟨mem', h1, h2, _⟩ := C01_roundtrip_partial p e ⟨"", size, [f]⟩
      ⟨by simpa using ok, by simp⟩ f (by simp) hsup mem hm v hv
    exact ⟨mem', h1, h2⟩

/-- C01: a field of the full width of its type that begins with a byte takes all values of the type, from the smallest to the largest. -/
theorem C01_whole_type (p : Profile) (e : Endian) (name : String) (T : IntTy) (n : Nat) (lo hi : Int) (hT : (T, n, lo, hi) ∈ rustTypes) (pos size : Nat)
    (hs : 8 * pos + n ≤ 8 * size) (mem : Bytes) (hm : size ≤ mem.length) (v : Int) (h1 : lo ≤ v) (h2 : v ≤ hi) :
    ∃ mem', (Field.plain name T (8 * pos) n).set p e size mem v = .ok mem' ∧ (Field.plain name T (8 * pos) n).get p e mem' = .ok v := by
  obtain ⟨k1, k2, k3, k4⟩ := (by decide : ∀ x ∈ rustTypes, 1 ≤ x.2.1 ∧ x.2.1 ≤ x.1.bits ∧ (x.1.signed = true → x.2.1 ≠ 1) ∧ x.2.1 ≤ 64) _ hT
  have hf : Fits T n v := by
    simp only [rustTypes, List.mem_cons, List.not_mem_nil, or_false, Prod.mk.injEq] at hT
    rcases hT with ⟨rfl, rfl, rfl, rfl⟩ | ⟨rfl, rfl, rfl, rfl⟩ | ⟨rfl, rfl, rfl, rfl⟩ | ⟨rfl, rfl, rfl, rfl⟩ | ⟨rfl, rfl, rfl, rfl⟩ | ⟨rfl, rfl, rfl, rfl⟩ |
      ⟨rfl, rfl, rfl, rfl⟩ | ⟨rfl, rfl, rfl, rfl⟩ | ⟨rfl, rfl, rfl, rfl⟩
    all_goals simp only [Fits]; omega
  have hns : NoStraddle (8 * pos) n := .inl (by dsimp only at k4; omega)
  exact (C01_roundtrip_exact p e size (.plain name T (8 * pos) n) ⟨k1, k2, hs, rfl, fun _ h => by cases h⟩ rfl).mpr ⟨hns, k3⟩ mem hm v hf

/-- Non-vacuity: the smallest `i32`. -/
example : ∃ mem', (Field.plain "x" .i32 (8 * 1) 32).set .debug .big 5 [1#8, 2#8, 3#8, 4#8, 5#8] (-2147483648) = .ok mem' ∧
    (Field.plain "x" .i32 (8 * 1) 32).get .debug .big mem' = .ok (-2147483648) :=
  C01_whole_type .debug .big "x" .i32 32 (-2147483648) 2147483647 (by decide) 1 5 (by decide) _ (by decide) _ (by decide) (by decide)

/-- Non-vacuity, both ways: a signed field of 13 bits, and one of a single bit. -/
example : (∀ mem : Bytes, 2 ≤ mem.length → ∀ v, Storable (.plain "x" .i16 3 13) v →
      ∃ mem', (Field.plain "x" .i16 3 13).set .debug .big 2 mem v = .ok mem' ∧ (Field.plain "x" .i16 3 13).get .debug .big mem' = .ok v) ∧
    ¬ ∀ mem : Bytes, 1 ≤ mem.length → ∀ v, Storable (.plain "x" .i8 0 1) v →
      ∃ mem', (Field.plain "x" .i8 0 1).set .debug .big 1 mem v = .ok mem' ∧ (Field.plain "x" .i8 0 1).get .debug .big mem' = .ok v :=
  ⟨(C01_roundtrip_exact .debug .big 2 (.plain "x" .i16 3 13) (fieldOK_of_plainOK (by decide)) rfl).mpr (by decide),
    fun h => absurd ((C01_roundtrip_exact .debug .big 1 (.plain "x" .i8 0 1) (fieldOK_of_plainOK (by decide)) rfl).mp h) (by decide)⟩

/-- A struct a schema can declare, whose second field the code cannot handle: 64 bits at bit offset 9. -/
def wideStruct : StructDef := ⟨"W", 10, [.plain "a" .u8 0 8, .plain "b" .u64 9 64]⟩

theorem wideStruct_wf : WF wideStruct := wf_of_plain (by decide) (by decide)

/-- The unrestricted claim is false of the code. -/
theorem C01_refuted : ¬ C01_claim := by
  intro h
  have := (C01_roundtrip_exact .debug .little 10 (.plain "b" .u64 9 64) (wideStruct_wf.field _ (by decide)) rfl).mp
    (fun mem hm v hv => h .debug .little wideStruct wideStruct_wf _ (by decide) mem hm v hv)
  revert this; decide

/-- Non-vacuity: `Chapter.minor` (7 bits at bit offset 4, two bytes), value 99. -/
example : ∃ mem', (Field.plain "minor" .u8 4 7).set .release .big 2 [0xff#8, 0xff#8, 3#8] 99 = .ok mem' ∧
    (Field.plain "minor" .u8 4 7).get .release .big mem' = .ok 99 ∧ mem'.length = 3 :=
  C01_roundtrip_partial _ _ Coappearances.Chapter (wf_of_plain (by decide) (by decide)) _ (by decide) (by decide)
    [0xff#8, 0xff#8, 3#8] (by decide) 99 (by decide)

/-! ## C02 -/

/-- C02 in full: whatever value the setter's type accepts, no bit outside the field changes, and other fields read as
before. -/
def C02_claim : Prop :=
  ∀ (p : Profile) (e : Endian) (S : StructDef), WF S → ∀ f ∈ S.fields, ∀ (mem mem' : Bytes), S.size ≤ mem.length →
    ∀ v, Accepted f v → f.set p e S.size mem v = .ok mem' →
      (∀ k, k < f.off ∨ f.off + f.bits ≤ k → bitAt mem' k = bitAt mem k) ∧
      (∀ g ∈ S.fields, Disjoint f g → g.get p e mem' = g.get p e mem)

/-- C02 for values that fit the field or have a signed type, and non-straddling fields. Missing w.r.t.
`C02_claim`: straddling fields and unsigned values wider than the field, for which it is false (`C02_refuted`). -/
theorem C02_isolation_partial (p : Profile) (e : Endian) (S : StructDef) (wf : WF S) (f : Field) (hf : f ∈ S.fields)
    (hs : NoStraddle f.off f.bits) (mem : Bytes) (hm : S.size ≤ mem.length) (v : Int)
    (hv : f.ty.signed = true ∨ Storable f v) :
    ∃ mem', f.set p e S.size mem v = .ok mem' ∧
      (∀ k, k < f.off ∨ f.off + f.bits ≤ k → bitAt mem' k = bitAt mem k) ∧
      (∀ g ∈ S.fields, NoStraddle g.off g.bits → Disjoint f g → g.get p e mem' = g.get p e mem) := by
  have ok := wf.field f hf
  have hv' : f.ty.signed = true ∨ (0 ≤ v ∧ v < 2 ^ f.bits) := by
    rcases hv with h | h
    · exact .inl h
    · exact signed_or_range ok h
  obtain ⟨mem', h1, h2, _⟩ := set_stored (p := p) (e := e) ok hm hs hv'
  refine ⟨mem', h1, h2.frame, ?_⟩
  intro g hg hgs hd
  have okg := wf.field g hg
  have hin := okg.inside
  refine get_congr okg.pos okg.le (by rw [h2.length]; omega) (by omega) hgs ?_
  intro k hk1 hk2
  apply h2.frame
  unfold Disjoint at hd
  omega

/-- Damage of an over-wide unsigned value: only bits above the field, inside the bytes the field lies in, and only
from 0 to 1. -/
theorem C02_damage_bound (p : Profile) (e : Endian) (size : Nat) (f : Field) (ok : FieldOK size f)
    (hs : NoStraddle f.off f.bits) (mem : Bytes) (hm : size ≤ mem.length) (v : Int) :
    ∃ mem', f.set p e size mem v = .ok mem' ∧ mem'.length = mem.length ∧
      (∀ k, bitAt mem' k ≠ bitAt mem k → f.off ≤ k ∧ k / 8 ≤ (f.off + f.bits - 1) / 8) ∧
      (∀ k, f.off + f.bits ≤ k → bitAt mem k = true → bitAt mem' k = true) := by
  have hb := f.ty.bits_cases
  have hle := ok.le
  have hpos := ok.pos
  have hin := ok.inside
  have hlen : (mem.take size).length = size := by simp; omega
  obtain ⟨d', h1, h2, h3⟩ := writeBytes_bits (p := p) (e := e) (signed := f.encSigned) (v := v) (d := mem.take size)
    hpos (by omega) (by rw [hlen]; exact hin) hs
  have hset : f.set p e size mem v = .ok (d' ++ mem.drop size) := by
    unfold Field.set; rw [if_neg (by omega), h1]; rfl
  have htouch : f.off / 8 + touchedBytes f.off f.bits = (f.off + f.bits - 1) / 8 + 1 := by
    unfold touchedBytes numBytes
    split
    · split <;> omega
    · omega
  have hmem : ∀ k, bitAt mem k = bitAt (mem.take size ++ mem.drop size) k := by simp
  refine ⟨_, hset, by simp [h2]; omega, ?_, ?_⟩
  · intro k hk
    rw [hmem, bitAt_append, bitAt_append, h2, hlen] at hk
    by_cases hk8 : k < 8 * size
    · simp only [hk8, if_true] at hk
      rw [h3] at hk
      split at hk
      · omega
      · split at hk
        · omega
        · exact absurd rfl hk
    · simp only [hk8, if_false] at hk; exact absurd rfl hk
  · intro k hk hset
    rw [hmem, bitAt_append, hlen] at hset
    rw [bitAt_append, h2, hlen]
    by_cases hk8 : k < 8 * size
    · simp only [hk8, if_true] at hset ⊢
      rw [h3, if_neg (by omega)]
      split <;> simp [hset]
    · simp only [hk8, if_false] at hset ⊢; exact hset

/-- Non-vacuity: writing 255 into four bits damages at most the rest of that byte. -/
example : ∃ mem', (Field.plain "major" .u8 0 4).set .debug .little 2 [0#8, 0#8] 255 = .ok mem' ∧ mem'.length = 2 ∧
    (∀ k, bitAt mem' k ≠ bitAt [0#8, 0#8] k → 0 ≤ k ∧ k / 8 ≤ 0) ∧ ∀ k, 0 + 4 ≤ k → bitAt [0#8, 0#8] k = true → bitAt mem' k = true :=
  C02_damage_bound .debug .little 2 (.plain "major" .u8 0 4) (fieldOK_of_plainOK (by decide)) (by decide) [0#8, 0#8] (by decide) 255

/-- The unrestricted claim is false: `Chapter.set_major(16)` (4 bits) changes `minor`. -/
theorem C02_refuted : ¬ C02_claim := by
  intro h
  have := (h .release .little Coappearances.Chapter (wf_of_plain (by decide) (by decide))
    (.plain "major" .u8 0 4) (by decide) [0#8, 0#8] [16#8, 0#8] (by decide) 16 (by decide) (by decide)).2
    (.plain "minor" .u8 4 7) (by decide) (by decide)
  revert this; decide

/-- It is also false for values that fit, if the field straddles a ninth byte: setting `b` at bits 65..128 of this struct
overwrites `a` in byte 8. -/
def farStruct : StructDef := ⟨"F", 18, [.plain "a" .u8 64 1, .plain "b" .u64 65 64]⟩

theorem C02_refuted_straddle : ∃ mem mem' : Bytes, WF farStruct ∧ mem.length = farStruct.size ∧
    Storable (.plain "b" .u64 65 64) (2 ^ 63) ∧
    (Field.plain "b" .u64 65 64).set .release .little 18 mem (2 ^ 63) = .ok mem' ∧
    (Field.plain "a" .u8 64 1).get .release .little mem = .ok 0 ∧
    (Field.plain "a" .u8 64 1).get .release .little mem' = .ok 1 :=
  ⟨List.replicate 18 0#8, (List.replicate 18 0#8).set 8 1#8, wf_of_plain (by decide) (by decide), by decide, by decide,
    by decide, by decide, by decide⟩

/-- Non-vacuity of `C02_isolation_partial`: setting `Chapter.minor`, `Chapter.major` keeps its value. -/
example : ∃ mem', (Field.plain "minor" .u8 4 7).set .debug .little 2 [0x0b#8, 0#8] 127 = .ok mem' ∧
    (Field.plain "major" .u8 0 4).get .debug .little mem' = .ok 11 := by
  obtain ⟨mem', h1, _, h3⟩ := C02_isolation_partial .debug .little Coappearances.Chapter
    (wf_of_plain (by decide) (by decide)) (.plain "minor" .u8 4 7) (by decide) (by decide) [0x0b#8, 0#8] (by decide) 127
    (.inr (by decide))
  refine ⟨mem', h1, ?_⟩
  rw [h3 (.plain "major" .u8 0 4) (by decide) (by decide) (by decide)]
  decide

/-! ## C03 -/

/-- C03 in full. -/
def C03_claim : Prop :=
  ∀ (p : Profile) (e : Endian) (size : Nat) (f : Field), FieldOK size f → f.ty.signed = true → f.variants = none →
    ∀ mem : Bytes, size ≤ mem.length → ∀ v, OfType f.ty v →
      ∃ mem', f.set p e size mem v = .ok mem' ∧ Stored mem mem' f.off f.bits v ∧
        f.get p e mem' = .ok (v.bmod (2 ^ f.bits))

/-- C03 for supported fields: the stored bits are `v mod 2^bits`, nothing else changes, and the getter returns the
sign-extended value (`Int.bmod` is the balanced remainder). -/
theorem C03_signed_wrap_partial (p : Profile) (e : Endian) (size : Nat) (f : Field) (ok : FieldOK size f)
    (hsg : f.ty.signed = true) (hvar : f.variants = none) (hsup : Supported f) (mem : Bytes) (hm : size ≤ mem.length)
    (v : Int) :
    ∃ mem', f.set p e size mem v = .ok mem' ∧ Stored mem mem' f.off f.bits v ∧
      f.get p e mem' = .ok (v.bmod (2 ^ f.bits)) := by
  obtain ⟨mem', h1, h2, _⟩ := set_stored (p := p) (e := e) (v := v) ok hm hsup.1 (.inl hsg)
  refine ⟨mem', h1, h2, ?_⟩
  have hin := ok.inside
  rw [get_eq ok.pos ok.le (by rw [h2.length]; omega) hsup.1, codeDecode_eq_decode hsup.2 (fieldRaw_lt _ _ _)]
  have : decode f.ty f.bits (fieldRaw mem' f.off f.bits) = twos f.bits (fieldRaw mem' f.off f.bits) := by
    cases hT : f.ty <;> simp_all [decode, IntTy.signed]
  rw [this, twos_emod ok.pos h2.field]
  simp [Field.transmute, hvar]

/-- One-bit signed fields do store the right bit (only the getter is wrong). -/
theorem C03_signed_store (p : Profile) (e : Endian) (size : Nat) (f : Field) (ok : FieldOK size f)
    (hsg : f.ty.signed = true) (hs : NoStraddle f.off f.bits) (mem : Bytes) (hm : size ≤ mem.length)
    (v : Int) : ∃ mem', f.set p e size mem v = .ok mem' ∧ Stored mem mem' f.off f.bits v := by
  obtain ⟨mem', h1, h2, _⟩ := set_stored (p := p) (e := e) (v := v) ok hm hs (.inl hsg)
  exact ⟨mem', h1, h2⟩

/-- Non-vacuity: also for a single bit. -/
example : ∃ mem', (Field.plain "x" .i8 5 1).set .release .big 1 [0#8] 7 = .ok mem' ∧ Stored [0#8] mem' 5 1 7 :=
  C03_signed_store .release .big 1 (.plain "x" .i8 5 1) (fieldOK_of_plainOK (by decide)) rfl (by decide) [0#8] (by decide) 7

/-- False in full: a one-bit `i8` field set to -1 reads 1. -/
theorem C03_refuted : ¬ C03_claim := by
  intro h
  obtain ⟨mem', h1, _, h3⟩ := h .debug .little 1 (.plain "x" .i8 0 1) (fieldOK_of_plainOK (by decide)) rfl rfl [0#8]
    (by decide) (-1) (by decide)
  have : (Field.plain "x" .i8 0 1).set .debug .little 1 [0#8] (-1) = .ok [1#8] := by decide
  rw [this] at h1
  cases h1
  revert h3; decide

/-- Non-vacuity: a 13-bit `i16` field at bit offset 3, set to 5000 (too big), wraps to 5000 - 8192. -/
example : ∃ mem', (Field.plain "x" .i16 3 13).set .release .big 2 [7#8, 0#8] 5000 = .ok mem' ∧
    Stored [7#8, 0#8] mem' 3 13 5000 ∧ (Field.plain "x" .i16 3 13).get .release .big mem' = .ok (-3192) :=
  C03_signed_wrap_partial _ _ 2 (.plain "x" .i16 3 13) (fieldOK_of_plainOK (by decide)) rfl rfl (by decide) _ (by decide) 5000

/-! ## C04 -/

theorem readInt_endian (p : Profile) (e e' : Endian) (T : IntTy) (mem : Bytes) (o n : Nat) :
    readInt p e T mem o n = readInt p e' T mem o n := by
  unfold readInt
  by_cases h1 : n = 1
  · simp [h1]
  · simp only [h1, if_false]
    by_cases h : 8 < numBytes o n ∨ mem.length < o / 8 + numBytes o n
    · simp [h]
    · simp only [h, if_false]
      rw [fromLe_copy_endian e _ (by simp; omega), fromLe_copy_endian e' _ (by simp; omega)]

theorem writeBytes_endian (p : Profile) (e e' : Endian) (sg : Bool) (v : Int) (mem : Bytes) (o n : Nat) :
    writeBytes p e sg v mem o n = writeBytes p e' sg v mem o n := by
  unfold writeBytes
  simp only
  by_cases h : 8 < numBytes o n ∨ mem.length < o / 8 + numBytes o n
  · simp [h]
  · simp only [h, if_false]
    rw [fromLe_copy_endian e _ (by simp; omega), fromLe_copy_endian e' _ (by simp; omega)]
    simp only [u64ToMem_fromLe]

/-- C04, first half: getters and setters give the same results on hosts of either byte order; no restriction on fields,
buffers or values. -/
theorem C04_endian_independent (p : Profile) (e e' : Endian) (size : Nat) (f : Field) (mem : Bytes) (v : Int) :
    f.get p e mem = f.get p e' mem ∧ f.set p e size mem v = f.set p e' size mem v := by
  constructor
  · unfold Field.get
    have : readBytes p e f.ty mem f.off f.bits = readBytes p e' f.ty mem f.off f.bits := by
      unfold readBytes
      split
      · rw [readInt_endian p e e']
      · exact readInt_endian p e e' _ _ _ _
    rw [this]
  · unfold Field.set
    rw [writeBytes_endian p e e']

example : (Field.plain "x" .u32 5 20).set .debug .big 4 [1#8, 2#8, 3#8, 4#8] 0x12345 =
    (Field.plain "x" .u32 5 20).set .debug .little 4 [1#8, 2#8, 3#8, 4#8] 0x12345 :=
  (C04_endian_independent .debug .big .little 4 (.plain "x" .u32 5 20) _ _).2

/-- C04, second half (full): bit `k` of the stored value is bit `(off+k) % 8` of byte `(off+k) / 8`. -/
def C04_layout_claim : Prop :=
  ∀ (p : Profile) (e : Endian) (size : Nat) (f : Field), FieldOK size f → ∀ mem : Bytes, size ≤ mem.length →
    ∀ v, Storable f v → ∃ mem', f.set p e size mem v = .ok mem' ∧
      ∀ k, k < f.bits → ∃ b, mem'[(f.off + k) / 8]? = some b ∧
        b.getLsbD ((f.off + k) % 8) = (v % 2 ^ f.bits).toNat.testBit k

/-- C04 layout for non-straddling fields (missing: straddling ones, for which it is false, `C04_layout_refuted`). -/
theorem C04_layout_partial (p : Profile) (e : Endian) (size : Nat) (f : Field) (ok : FieldOK size f)
    (hs : NoStraddle f.off f.bits) (mem : Bytes) (hm : size ≤ mem.length) (v : Int) (hv : Storable f v) :
    ∃ mem', f.set p e size mem v = .ok mem' ∧
      ∀ k, k < f.bits → ∃ b, mem'[(f.off + k) / 8]? = some b ∧
        b.getLsbD ((f.off + k) % 8) = (v % 2 ^ f.bits).toNat.testBit k := by
  obtain ⟨mem', h1, h2, _⟩ := set_stored (p := p) (e := e) ok hm hs (signed_or_range ok hv)
  refine ⟨mem', h1, ?_⟩
  intro k hk
  have hin := ok.inside
  have hlt : (f.off + k) / 8 < mem'.length := by rw [h2.length]; omega
  refine ⟨_, List.getElem?_eq_getElem hlt, ?_⟩
  have hb := testBit_fieldRaw mem' f.off f.bits k
  have hraw : fieldRaw mem' f.off f.bits = (v % 2 ^ f.bits).toNat := by
    rw [← h2.field]; simp
  rw [hraw] at hb
  rw [hb, bitAt_eq]
  simp [hk, hlt]

theorem C04_layout_refuted : ¬ C04_layout_claim := by
  intro h
  obtain ⟨mem', h1, h2⟩ := h .release .little 10 (.plain "b" .u64 9 64) (fieldOK_of_plainOK (by decide))
    (List.replicate 10 0#8) (by decide) (2 ^ 63) (by decide)
  have : (Field.plain "b" .u64 9 64).set .release .little 10 (List.replicate 10 0#8) (2 ^ 63) =
      .ok ((List.replicate 10 0#8).set 8 1#8) := by decide
  rw [this] at h1
  cases h1
  obtain ⟨b, hb1, hb2⟩ := h2 63 (by decide)
  have hb0 : b = 0#8 := by
    have : ((List.replicate 10 0#8).set 8 1#8)[(9 + 63) / 8]? = some 0#8 := by decide
    exact Option.some.inj (hb1.symm.trans this)
  subst hb0
  revert hb2; decide

/-- Non-vacuity: 32-bit field at byte 4. -/
example : ∃ mem', (Field.plain "author_ref" .u32 32 32).set .debug .big 8 (List.replicate 8 0#8) 0x2a = .ok mem' ∧
      ∀ k, k < 32 → ∃ b, mem'[(32 + k) / 8]? = some b ∧
        b.getLsbD ((32 + k) % 8) = ((0x2a : Int) % 2 ^ 32).toNat.testBit k :=
  C04_layout_partial _ _ 8 (.plain "author_ref" .u32 32 32) (fieldOK_of_plainOK (by decide)) (by decide) _ (by decide) _
    (by decide)

/-- C04, the same for getters (full): the bits of the value read are those bits of the memory (for `bool`: whether any bit is
set), and the value is within the range of the field, which determines it. -/
def C04_read_claim : Prop :=
  ∀ (p : Profile) (e : Endian) (size : Nat) (f : Field), FieldOK size f → f.variants = none → ∀ mem : Bytes, size ≤ mem.length →
    ∃ v, f.get p e mem = .ok v ∧ Fits f.ty f.bits v ∧
      (f.ty ≠ .bool → ∀ k, k < f.bits → ∃ b, mem[(f.off + k) / 8]? = some b ∧
        b.getLsbD ((f.off + k) % 8) = (v % 2 ^ f.bits).toNat.testBit k) ∧
      (f.ty = .bool → (v = 1 ↔ ∃ k b, k < f.bits ∧ mem[(f.off + k) / 8]? = some b ∧ b.getLsbD ((f.off + k) % 8) = true))

/-- C04 for getters of supported fields (missing: straddling and one-bit signed ones, for which it is false). -/
theorem C04_read_partial (p : Profile) (e : Endian) (size : Nat) (f : Field) (ok : FieldOK size f) (hvar : f.variants = none)
    (hsup : Supported f) (mem : Bytes) (hm : size ≤ mem.length) :
    ∃ v, f.get p e mem = .ok v ∧ Fits f.ty f.bits v ∧
      (f.ty ≠ .bool → ∀ k, k < f.bits → ∃ b, mem[(f.off + k) / 8]? = some b ∧
        b.getLsbD ((f.off + k) % 8) = (v % 2 ^ f.bits).toNat.testBit k) ∧
      (f.ty = .bool → (v = 1 ↔ ∃ k b, k < f.bits ∧ mem[(f.off + k) / 8]? = some b ∧ b.getLsbD ((f.off + k) % 8) = true)) := by
  have hin := ok.inside
  have hlt := fieldRaw_lt mem f.off f.bits
  have hcast : ((2 ^ f.bits : Nat) : Int) = 2 ^ f.bits := by push_cast; rfl
  have hp := int_two_pow_succ f.bits ok.pos
  refine ⟨decode f.ty f.bits (fieldRaw mem f.off f.bits), ?_, ?_, ?_, ?_⟩
  · rw [get_eq ok.pos ok.le (by omega) hsup.1, codeDecode_eq_decode hsup.2 hlt]
    unfold Field.transmute; rw [hvar]
  · have hcast' : ((2 ^ (f.bits - 1) : Nat) : Int) = 2 ^ (f.bits - 1) := by push_cast; rfl
    cases hT : f.ty <;> simp only [decode, Fits, twos] <;> first | omega | (split <;> omega)
  · intro hb k hk
    have hl : (f.off + k) / 8 < mem.length := by omega
    refine ⟨_, List.getElem?_eq_getElem hl, ?_⟩
    rw [← codeDecode_eq_decode hsup.2 hlt, codeDecode_emod hlt fun h => absurd h hb, Int.toNat_natCast, testBit_fieldRaw, bitAt_eq]
    simp [hk, hl]
  · intro hb
    have h0 : fieldRaw mem f.off f.bits = 0 ↔ ∀ k, k < f.bits → bitAt mem (f.off + k) = false := by
      constructor
      · intro h k hk
        have := testBit_fieldRaw mem f.off f.bits k
        simpa [h, hk] using this
      · intro h
        apply Nat.eq_of_testBit_eq
        intro k
        rw [testBit_fieldRaw, Nat.zero_testBit]
        by_cases hk : k < f.bits
        · simp [h k hk]
        · simp [hk]
    have h1 : ∀ k, k < f.bits → (bitAt mem (f.off + k) = true ↔
        ∃ b, mem[(f.off + k) / 8]? = some b ∧ b.getLsbD ((f.off + k) % 8) = true) := by
      intro k hk
      have hl : (f.off + k) / 8 < mem.length := by omega
      rw [bitAt_eq]
      simp [hl]
    rw [hb]
    simp only [decode]
    constructor
    · intro h
      by_cases hx : fieldRaw mem f.off f.bits = 0
      · simp [hx] at h
      · rw [h0] at hx
        simp only [Classical.not_forall] at hx
        obtain ⟨k, hk, hx⟩ := hx
        obtain ⟨b, hb⟩ := (h1 k hk).mp (by simpa using hx)
        exact ⟨k, b, hk, hb⟩
    · rintro ⟨k, b, hk, h⟩
      rw [if_neg]
      intro hx
      have := h0.mp hx k hk
      rw [(h1 k hk).mpr ⟨b, h⟩] at this
      cases this

theorem C04_read_refuted : ¬ C04_read_claim := by
  intro h
  obtain ⟨v, h1, h2, _⟩ := h .release .little 1 (.plain "b" .i8 0 1) (fieldOK_of_plainOK (by decide)) rfl [1#8] (by decide)
  have : (Field.plain "b" .i8 0 1).get .release .little [1#8] = .ok 1 := by decide
  rw [this] at h1; cases h1
  revert h2; decide

/-- Non-vacuity: a signed field of 10 bits at bit offset 3. -/
example : ∃ v, (Field.plain "x" .i16 3 10).get .debug .big [0xa8#8, 0x1f#8] = .ok v ∧ v = -11 := by
  obtain ⟨v, h, _⟩ := C04_read_partial .debug .big 2 (.plain "x" .i16 3 10) (fieldOK_of_plainOK (by decide)) rfl (by decide)
    [0xa8#8, 0x1f#8] (by decide)
  refine ⟨v, h, ?_⟩
  have : (Field.plain "x" .i16 3 10).get .debug .big [0xa8#8, 0x1f#8] = .ok (-11) := by decide
  rw [this] at h
  exact (Out.ok.inj h).symm

/-! ## C05 -/

/-- C05 in full: whatever value is passed and whatever lies behind the struct, the setter succeeds and touches only the
struct's bytes, and the getter returns the same as on the struct's bytes alone, without panic or stray access. -/
def C05_claim : Prop :=
  ∀ (p : Profile) (e : Endian) (size : Nat) (f : Field), FieldOK size f → f.variants = none →
    ∀ mem : Bytes, mem.length = size → ∀ rest : Bytes,
      (∀ v, ∃ mem', mem'.length = size ∧ f.set p e size (mem ++ rest) v = .ok (mem' ++ rest) ∧
        f.set p e size mem v = .ok mem') ∧
      (∃ x, f.get p e (mem ++ rest) = .ok x ∧ f.get p e mem = .ok x)

/-- The setter half holds for every declared field and every value, without exception. -/
theorem C05_setter_confined (p : Profile) (e : Endian) (size : Nat) (f : Field) (ok : FieldOK size f)
    (mem : Bytes) (hm : mem.length = size) (rest : Bytes) (v : Int) :
    ∃ mem', mem'.length = size ∧ f.set p e size (mem ++ rest) v = .ok (mem' ++ rest) ∧
        f.set p e size mem v = .ok mem' := by
  have hb := f.ty.bits_cases
  have hle := ok.le
  obtain ⟨d', h1, h2⟩ := writeBytes_total (p := p) (e := e) (signed := f.encSigned) (v := v) (d := mem)
    ok.pos (by omega) (by rw [hm]; exact ok.inside)
  refine ⟨d', by omega, ?_, ?_⟩
  · unfold Field.set
    rw [if_neg (by simp; omega), List.take_append_of_le_length (by omega), List.take_of_length_le (by omega),
      h1, List.drop_append_of_le_length (by omega), List.drop_eq_nil_of_le (by omega)]
    rfl
  · unfold Field.set
    rw [if_neg (by omega), List.take_of_length_le (by omega), h1, List.drop_eq_nil_of_le (by omega)]
    simp

/-- The getter half for non-straddling fields. Missing w.r.t. `C05_claim`: straddling fields, see
`C05_getter_exact`, `C05_refuted`. -/
theorem C05_getter_confined_partial (p : Profile) (e : Endian) (size : Nat) (f : Field) (ok : FieldOK size f)
    (hvar : f.variants = none) (hs : NoStraddle f.off f.bits) (mem : Bytes) (hm : mem.length = size) (rest : Bytes) :
    ∃ x, f.get p e (mem ++ rest) = .ok x ∧ f.get p e mem = .ok x := by
  have hin := ok.inside
  refine ⟨codeDecode f.ty f.bits (fieldRaw mem f.off f.bits), ?_, ?_⟩
  · rw [get_congr (p' := p) (e' := e) (m' := mem) ok.pos ok.le (by simp; omega) (by omega) hs,
      get_eq ok.pos ok.le (by omega) hs]
    · simp [Field.transmute, hvar]
    · intro k _ _
      rw [bitAt_append, if_pos (by omega)]
  · rw [get_eq ok.pos ok.le (by omega) hs]
    simp [Field.transmute, hvar]

/-- Non-vacuity: the last field of a struct of 10 bytes, with two more bytes behind it. -/
example : ∃ x, (Field.plain "n" .u32 64 16).get .release .little (List.replicate 10 5#8 ++ [1#8, 2#8]) = .ok x ∧
    (Field.plain "n" .u32 64 16).get .release .little (List.replicate 10 5#8) = .ok x :=
  C05_getter_confined_partial _ _ 10 (.plain "n" .u32 64 16) (fieldOK_of_plainOK (by decide)) rfl (by decide) _ (by decide) _

/-- Exactly which getters never read outside their struct. -/
theorem C05_getter_exact (p : Profile) (e : Endian) (size : Nat) (f : Field) (ok : FieldOK size f)
    (hvar : f.variants = none) :
    (∀ mem : Bytes, mem.length = size → ∃ x, f.get p e mem = .ok x) ↔
      (NoStraddle f.off f.bits ∨ 2 * (f.off / 8) + 8 < size) := by
  have hb := f.ty.bits_cases
  have hle := ok.le
  have hin := ok.inside
  have hread : ∀ mem, ¬ NoStraddle f.off f.bits →
      readBytes p e f.ty mem f.off f.bits = readInt p e f.ty mem f.off f.bits := by
    intro mem hs
    rcases straddle_ty hle hs with hT | hT <;> rw [hT] <;> rfl
  constructor
  · intro h
    by_cases hs : NoStraddle f.off f.bits
    · exact .inl hs
    · right
      rcases Nat.lt_or_ge (2 * (f.off / 8) + 8) size with h' | h'
      · exact h'
      · exfalso
        obtain ⟨x, hx⟩ := h (List.replicate size 0#8) (by simp)
        unfold Field.get at hx
        rw [hread _ hs, readInt_straddle_ub (by omega) (by simpa using hin) hs (by simpa using h')] at hx
        cases hx
  · intro h mem hm
    by_cases hs : NoStraddle f.off f.bits
    · obtain ⟨x, _, hx⟩ := C05_getter_confined_partial p e size f ok hvar hs mem hm []
      exact ⟨x, hx⟩
    · obtain ⟨v, hv, hr, _⟩ := readInt_straddle (p := p) (e := e) (T := f.ty) (d := mem) (by omega)
        (by rw [hm]; exact hin) hs (by rw [hm]; rcases h with h | h; exact absurd h hs; exact h)
      unfold Field.get
      rw [hread _ hs, hr]
      cases hsg : f.ty.signed with
      | true => rw [extendSign_signed hsg ok.pos hle hv]; exact ⟨_, by simp [Field.transmute, hvar]; rfl⟩
      | false => rw [extendSign_unsigned hsg hle hv]; exact ⟨_, by simp [Field.transmute, hvar]; rfl⟩

/-- Non-vacuity, both ways: the straddling field at bit 65 can be read in a struct of 25 bytes, not in one of 17. -/
example : (∀ mem : Bytes, mem.length = 25 → ∃ x, (Field.plain "n" .u64 65 64).get .release .little mem = .ok x) ∧
    ¬ ∀ mem : Bytes, mem.length = 17 → ∃ x, (Field.plain "n" .u64 65 64).get .release .little mem = .ok x :=
  ⟨(C05_getter_exact .release .little 25 (.plain "n" .u64 65 64) (fieldOK_of_plainOK (by decide)) rfl).mpr (by decide),
    fun h => absurd ((C05_getter_exact .release .little 17 (.plain "n" .u64 65 64) (fieldOK_of_plainOK (by decide)) rfl).mp h) (by decide)⟩

/-- False in full: the getter of a 64-bit field at bit offset 9 of a 10-byte struct reads the byte after the struct. -/
theorem C05_refuted : ¬ C05_claim := by
  intro h
  have := (C05_getter_exact .debug .little 10 (.plain "b" .u64 9 64) (fieldOK_of_plainOK (by decide)) rfl).mp (by
    intro mem hm
    obtain ⟨x, _, hx⟩ := (h .debug .little 10 (.plain "b" .u64 9 64) (fieldOK_of_plainOK (by decide)) rfl mem hm []).2
    exact ⟨x, hx⟩)
  revert this; decide

/-- Non-vacuity: `Invariants.num_connected_components` in the last two bytes, oversized value, other data behind. -/
example : ∃ mem', mem'.length = 10 ∧
    (Field.plain "n" .u32 64 16).set .release .little 10 (List.replicate 10 0#8 ++ [1#8, 2#8]) (2 ^ 32 - 1) =
      .ok (mem' ++ [1#8, 2#8]) ∧
    (Field.plain "n" .u32 64 16).set .release .little 10 (List.replicate 10 0#8) (2 ^ 32 - 1) = .ok mem' :=
  C05_setter_confined _ _ 10 (.plain "n" .u32 64 16) (fieldOK_of_plainOK (by decide)) _ (by decide) _ _

/-! ## C09 -/

/-- C09 in full: an enum field never yields anything but a variant, and yields the last variant written. -/
def C09_claim : Prop :=
  ∀ (p : Profile) (e : Endian) (size : Nat) (f : Field) (l : List (Int × String)), FieldOK size f →
    f.variants = some l → ∀ mem : Bytes, size ≤ mem.length →
      (∃ v, v ∈ l.map Prod.fst ∧ f.get p e mem = .ok v) ∧
      (∀ v ∈ l.map Prod.fst, ∃ mem', f.set p e size mem v = .ok mem' ∧ f.get p e mem' = .ok v)

/-- Writing then reading an enum field (supported layouts) gives the variant written. -/
theorem C09_enum_roundtrip_partial (p : Profile) (e : Endian) (size : Nat) (f : Field) (l : List (Int × String))
    (ok : FieldOK size f) (hvar : f.variants = some l) (hsup : Supported f) (mem : Bytes) (hm : size ≤ mem.length)
    (v : Int) (hv : v ∈ l.map Prod.fst) :
    ∃ mem', f.set p e size mem v = .ok mem' ∧ f.get p e mem' = .ok v := by
  obtain ⟨mem', h1, h2, _⟩ := C01_roundtrip_partial p e ⟨"", size, [f]⟩
      ⟨by simpa using ok, by simp⟩ f (by simp) hsup mem hm v (by simpa [Storable, hvar] using hv)
  exact ⟨mem', h1, h2⟩

/-- A normally completing getter of an enum field returns a variant, for any layout and content; and for supported
layouts it completes normally exactly if the stored bits are (the two's complement of) a discriminant, otherwise the
behaviour is undefined. -/
theorem C09_enum_read_partial (p : Profile) (e : Endian) (size : Nat) (f : Field) (l : List (Int × String))
    (ok : FieldOK size f) (hvar : f.variants = some l) (mem : Bytes) (hm : size ≤ mem.length) :
    (∀ v, f.get p e mem = .ok v → v ∈ l.map Prod.fst) ∧
    (Supported f → f.get p e mem =
      if decode f.ty f.bits (fieldRaw mem f.off f.bits) ∈ l.map Prod.fst
      then .ok (decode f.ty f.bits (fieldRaw mem f.off f.bits)) else .ub) := by
  constructor
  · intro v hv
    unfold Field.get at hv
    rw [Out.bind_eq_ok] at hv
    obtain ⟨x, _, hx⟩ := hv
    simp only [Field.transmute, hvar] at hx
    split at hx
    · cases hx; assumption
    · cases hx
  · intro hsup
    have hin := ok.inside
    rw [get_eq ok.pos ok.le (by omega) hsup.1, codeDecode_eq_decode hsup.2 (fieldRaw_lt _ _ _)]
    simp [Field.transmute, hvar]

/-- The enum of src/archive.rs:759-791 (`u8`, variants 0 and 2) with 2 bits. -/
def enumField : Field :=
  { Field.plain "x" .u8 0 2 with variants := some [(0, "X"), (2, "Y")] }

theorem enumField_ok : FieldOK 1 enumField :=
  ⟨by decide, by decide, by decide, by decide, by
    intro l hl v hv
    simp only [enumField, Option.some.injEq] at hl
    subst hl
    simp at hv
    rcases hv with rfl | rfl <;> decide⟩

/-- False in full: stored bits that are no variant (here 1) are transmuted. -/
theorem C09_refuted : ¬ C09_claim := by
  intro h
  obtain ⟨⟨v, _, hv⟩, _⟩ := h .debug .little 1 enumField _ enumField_ok rfl [1#8] (by decide)
  revert hv
  have : enumField.get .debug .little [1#8] = .ub := by decide
  rw [this]
  simp

/-- Non-vacuity of `C09_enum_roundtrip_partial`. -/
example : ∃ mem', enumField.set .debug .little 1 [0xff#8] 2 = .ok mem' ∧ enumField.get .debug .little mem' = .ok 2 :=
  C09_enum_roundtrip_partial _ _ 1 enumField _ enumField_ok rfl (by decide) _ (by decide) 2 (by decide)

/-- Non-vacuity of `C09_enum_read_partial`: bits that are no variant. -/
example : enumField.get .debug .little [0xff#8] = .ub := by
  have h := (C09_enum_read_partial .debug .little 1 enumField _ enumField_ok rfl [0xff#8] (by decide)).2 (by decide)
  exact h.trans (by decide)

end Flatdata
