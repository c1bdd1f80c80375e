import Verif.Proofs.Straddle
namespace Flatdata
open Spec

/-- `bool` fields have one bit (wider ones do not determine their bits). -/
def BoolOne (f : Field) : Prop := f.ty = .bool → f.bits = 1

instance (f : Field) : Decidable (BoolOne f) := by unfold BoolOne; infer_instance

theorem codeDecode_range {T : IntTy} {n x : Nat} (hn : 1 ≤ n) (hx : x < 2 ^ n) :
    T.signed = true ∨ (0 ≤ codeDecode T n x ∧ codeDecode T n x < 2 ^ n) := by
  have hcast : ((2 ^ n : Nat) : Int) = 2 ^ n := by push_cast; rfl
  have hp := int_two_pow_succ n hn
  have hpp : (0 : Int) < 2 ^ (n - 1) := Int.pow_pos (by omega)
  cases h : T.signed with
  | true => exact .inl rfl
  | false =>
    right
    rw [codeDecode_eq_decode (by simp [h]) hx]
    cases T <;> simp only [decode, IntTy.signed, Bool.true_eq_false] at h ⊢
    · split <;> omega
    all_goals omega

theorem twos_emod_self {n x : Nat} (hx : x < 2 ^ n) : twos n x % 2 ^ n = (x : Int) := by
  have hcast : ((2 ^ n : Nat) : Int) = 2 ^ n := by push_cast; rfl
  unfold twos
  split
  · rw [Int.sub_emod_right, Int.emod_eq_of_lt (by omega) (by omega)]
  · rw [Int.emod_eq_of_lt (by omega) (by omega)]

theorem codeDecode_emod {T : IntTy} {n x : Nat} (hx : x < 2 ^ n) (hb : T = .bool → n = 1) :
    codeDecode T n x % 2 ^ n = (x : Int) := by
  have hcast : ((2 ^ n : Nat) : Int) = 2 ^ n := by push_cast; rfl
  have h1 : (x : Int) % 2 ^ n = x := Int.emod_eq_of_lt (by omega) (by omega)
  unfold codeDecode
  split
  · exact h1
  · cases T <;> simp only [decode]
    case bool => rename_i hne; exact absurd (hb rfl) hne
    all_goals first | exact twos_emod_self hx | exact h1

theorem codeDecode_inj {T : IntTy} {n x y : Nat} (hx : x < 2 ^ n) (hy : y < 2 ^ n) (hb : T = .bool → n = 1)
    (h : codeDecode T n x = codeDecode T n y) : x = y := by
  have h1 := codeDecode_emod (T := T) hx hb
  have h2 := codeDecode_emod (T := T) hy hb
  rw [h] at h1
  omega

/-- Reading back a value that was read from somewhere gives the same value, even for `bool` fields wider than a bit and
one-bit signed fields. -/
theorem codeDecode_stable {T : IntTy} {n x y : Nat} (hn : 1 ≤ n) (hx : x < 2 ^ n)
    (h : (y : Int) = codeDecode T n x % 2 ^ n) : codeDecode T n y = codeDecode T n x := by
  by_cases hb : T = .bool → n = 1
  · rw [codeDecode_emod hx hb] at h
    have : y = x := by omega
    rw [this]
  · simp only [Classical.not_imp] at hb
    obtain ⟨hT, hn1⟩ := hb
    subst hT
    have hp := int_two_pow_succ n hn
    have hpp : (0 : Int) < 2 ^ (n - 1) := Int.pow_pos (by omega)
    simp only [codeDecode, hn1, if_false, decode] at h ⊢
    by_cases hx0 : x = 0
    · simp [hx0] at h ⊢; omega
    · rw [if_neg hx0] at h ⊢
      rw [Int.emod_eq_of_lt (by omega) (by omega)] at h
      simp [show y ≠ 0 by omega]

/-- All getters of the fields complete normally on `mem` (automatic for structs without enums). -/
def Readable (p : Profile) (e : Endian) (fs : List Field) (mem : Bytes) : Prop :=
  ∀ f ∈ fs, ∃ v, f.get p e mem = .ok v

/-- bit `k` belongs to no field -/
def Uncovered (fs : List Field) (k : Nat) : Prop := ∀ f ∈ fs, k < f.off ∨ f.off + f.bits ≤ k

theorem get_ok {p : Profile} {e : Endian} {f : Field} {mem : Bytes} {v : Int} (h1 : 1 ≤ f.bits) (h2 : f.bits ≤ f.ty.bits)
    (h3 : f.off + f.bits ≤ 8 * mem.length) (hs : NoStraddle f.off f.bits) (h : f.get p e mem = .ok v) :
    v = codeDecode f.ty f.bits (fieldRaw mem f.off f.bits) := by
  rw [get_eq h1 h2 h3 hs] at h
  unfold Field.transmute at h
  split at h
  · cases h; rfl
  · split at h
    · cases h; rfl
    · cases h

theorem fillFields_spec {p : Profile} {e : Endian} {size : Nat} {src : Bytes} (hsrc : size ≤ src.length) :
    ∀ (fs : List Field), (∀ f ∈ fs, FieldOK size f ∧ NoStraddle f.off f.bits) → fs.Pairwise Disjoint →
      Readable p e fs src → ∀ dst : Bytes, size ≤ dst.length →
    ∃ dst', fillFields p e size fs dst src = .ok dst' ∧ dst'.length = dst.length ∧ dst'.drop size = dst.drop size ∧
      (∀ f ∈ fs, (fieldRaw dst' f.off f.bits : Int) =
        codeDecode f.ty f.bits (fieldRaw src f.off f.bits) % 2 ^ f.bits) ∧
      (∀ k, Uncovered fs k → bitAt dst' k = bitAt dst k) := by
  intro fs
  induction fs with
  | nil =>
    intro _ _ _ dst _
    exact ⟨dst, rfl, rfl, rfl, by simp, by simp⟩
  | cons f fs ih =>
    intro hok hdis hread dst hdst
    obtain ⟨okf, hsf⟩ := hok f (by simp)
    have hin := okf.inside
    obtain ⟨v, hv⟩ := hread f (by simp)
    have hveq := get_ok okf.pos okf.le (by omega) hsf hv
    have hlt := fieldRaw_lt src f.off f.bits
    obtain ⟨d1, s1, st, dr⟩ := set_stored (p := p) (e := e) (mem := dst) (v := v) okf hdst hsf
      (by rw [hveq]; exact codeDecode_range okf.pos hlt)
    rw [List.pairwise_cons] at hdis
    obtain ⟨dst', g1, g2, g3, g4, g5⟩ := ih (fun g hg => hok g (by simp [hg])) hdis.2
      (fun g hg => hread g (by simp [hg])) d1 (by rw [st.length]; exact hdst)
    refine ⟨dst', ?_, by rw [g2, st.length], by rw [g3, dr], ?_, ?_⟩
    · simp only [fillFields, hv, Out.ok_bind, s1, g1]
    · intro g hg
      rcases List.mem_cons.mp hg with rfl | hg'
      · have : fieldRaw dst' g.off g.bits = fieldRaw d1 g.off g.bits := by
          apply fieldRaw_congr
          intro i hi
          apply g5
          intro h hh
          have := hdis.1 h hh
          unfold Disjoint at this
          omega
        rw [this, st.field, hveq]
      · exact g4 g hg'
    · intro k hk
      rw [g5 k (fun g hg => hk g (by simp [hg]))]
      exact st.frame k (hk f (by simp))

theorem eqFields_spec {p : Profile} {e : Endian} {a b : Bytes} :
    ∀ fs : List Field, Readable p e fs a → Readable p e fs b →
      ∃ r, eqFields p e fs a b = .ok r ∧ (r = true ↔ ∀ f ∈ fs, f.get p e a = f.get p e b) := by
  intro fs
  induction fs with
  | nil => intro _ _; exact ⟨true, rfl, by simp⟩
  | cons f fs ih =>
    intro ha hb
    obtain ⟨x, hx⟩ := ha f (by simp)
    obtain ⟨y, hy⟩ := hb f (by simp)
    obtain ⟨r, hr, hiff⟩ := ih (fun g hg => ha g (by simp [hg])) (fun g hg => hb g (by simp [hg]))
    simp only [eqFields, hx, hy, Out.ok_bind]
    by_cases hxy : x = y
    · rw [if_pos hxy]
      refine ⟨r, hr, ?_⟩
      rw [hiff]
      simp [hx, hy, hxy]
    · rw [if_neg hxy]
      refine ⟨false, rfl, ?_⟩
      simp [hx, hy, hxy]

theorem readable_of_plain {p : Profile} {e : Endian} {size : Nat} {fs : List Field} {mem : Bytes}
    (hok : ∀ f ∈ fs, FieldOK size f ∧ NoStraddle f.off f.bits) (hplain : ∀ f ∈ fs, f.variants = none)
    (hm : size ≤ mem.length) : Readable p e fs mem := by
  intro f hf
  obtain ⟨ok, hs⟩ := hok f hf
  have := ok.inside
  exact ⟨_, by rw [get_eq ok.pos ok.le (by omega) hs]; simp [Field.transmute, hplain f hf]; rfl⟩

end Flatdata
