import Verif.Props.Structs
import Verif.Props.FieldsExact
/-!
# C08, C40: exactly which structs are compared and copied right
-/
namespace Flatdata
open Spec

/-- Every bit pattern of an enum field is a variant, and read as such (fields of other types have no variants). -/
def EveryPattern (f : Field) : Prop :=
  ∀ l, f.variants = some l → (f.ty.signed = true → f.bits ≠ 1) ∧ ∀ v, Fits f.ty f.bits v → v ∈ l.map Prod.fst

namespace StructExact

/-- A single bit. -/
def oneBit (size k : Nat) : Bytes := (List.replicate size 0#8).set (k / 8) (1#8 <<< (k % 8))

theorem length_oneBit (size k : Nat) : (oneBit size k).length = size := by simp [oneBit]

theorem bitAt_zeros (size j : Nat) : bitAt (List.replicate size 0#8) j = false := by
  rw [bitAt_eq, List.getElem?_replicate]
  split <;> simp

theorem bitAt_oneBit {size k : Nat} (h : k < 8 * size) (j : Nat) : bitAt (oneBit size k) j = decide (j = k) := by
  unfold oneBit
  rw [bitAt_set _ _ _ _ (by simp; omega), bitAt_zeros]
  by_cases h1 : j / 8 = k / 8
  · rw [if_pos h1]
    have : ∀ a, a < 8 → ∀ b, b < 8 → (1#8 <<< a).getLsbD b = decide (b = a) := by decide
    rw [this _ (by omega) _ (by omega)]
    have : (j % 8 = k % 8) ↔ j = k := by omega
    simp [this]
  · rw [if_neg h1]
    have : j ≠ k := fun h => h1 (by rw [h])
    simp [this]

theorem fieldRaw_zeros (size o n : Nat) : fieldRaw (List.replicate size 0#8) o n = 0 := by
  apply Nat.eq_of_testBit_eq
  intro i
  rw [testBit_fieldRaw, bitAt_zeros]
  simp

theorem fieldRaw_oneBit {size k o n : Nat} (h : k < 8 * size) (h1 : o ≤ k) (h2 : k < o + n) : fieldRaw (oneBit size k) o n = 2 ^ (k - o) := by
  apply Nat.eq_of_testBit_eq
  intro i
  rw [testBit_fieldRaw, bitAt_oneBit h, Nat.testBit_two_pow]
  by_cases hi : k - o = i
  · subst hi
    simp [show o + (k - o) = k by omega]; omega
  · simp only [hi, decide_false]
    have : o + i ≠ k := by omega
    simp [this]

/-- The first field of a kind. -/
theorem exists_first {Q : Field → Prop} : ∀ {fs : List Field}, (∃ f ∈ fs, Q f) → ∃ f ∈ fs, Q f ∧ ∀ g ∈ fs, Q g → f.off ≤ g.off
  | [], h => by obtain ⟨f, hf, _⟩ := h; cases hf
  | f :: fs, h => by
    by_cases hr : ∃ g ∈ fs, Q g
    · obtain ⟨g, hg, hq, hmin⟩ := exists_first hr
      by_cases hf : Q f ∧ f.off ≤ g.off
      · refine ⟨f, by simp, hf.1, ?_⟩
        intro x hx hqx
        rcases List.mem_cons.mp hx with rfl | hx
        · exact Nat.le_refl _
        · exact Nat.le_trans hf.2 (hmin x hx hqx)
      · refine ⟨g, by simp [hg], hq, ?_⟩
        intro x hx hqx
        rcases List.mem_cons.mp hx with rfl | hx
        · have : ¬ x.off ≤ g.off := fun h => hf ⟨hqx, h⟩
          omega
        · exact hmin x hx hqx
    · obtain ⟨g, hg, hq⟩ := h
      rcases List.mem_cons.mp hg with rfl | hg
      · refine ⟨g, by simp, hq, ?_⟩
        intro x hx hqx
        rcases List.mem_cons.mp hx with rfl | hx
        · exact Nat.le_refl _
        · exact absurd ⟨x, hx, hqx⟩ hr
      · exact absurd ⟨g, hg, hq⟩ hr

theorem disjoint_of_ne : ∀ {fs : List Field}, fs.Pairwise Disjoint → ∀ {a b : Field}, a ∈ fs → b ∈ fs → a ≠ b → Disjoint a b
  | [], _, _, _, h, _, _ => by cases h
  | f :: fs, h, a, b, ha, hb, hab => by
    rw [List.pairwise_cons] at h
    rcases List.mem_cons.mp ha with rfl | ha' <;> rcases List.mem_cons.mp hb with rfl | hb'
    · exact absurd rfl hab
    · exact h.1 b hb'
    · exact (h.1 a ha').symm
    · exact disjoint_of_ne h.2 ha' hb' hab

/-- What the getter of a straddling field reads. -/
theorem readInt_straddle_congr {p : Profile} {e : Endian} {T : IntTy} {d d' : Bytes} {o n : Nat} (hn' : n ≤ 64) (hl : d.length = d'.length)
    (hs : ¬ NoStraddle o n) (hb : ∀ k, o ≤ k → k < 8 * (o / 8 + 8) → bitAt d k = bitAt d' k)
    (h9 : d[2 * (o / 8) + 8]? = d'[2 * (o / 8) + 8]?) : readInt p e T d o n = readInt p e T d' o n := by
  have hw := straddle_iff.mp hs
  have hnb8 : numBytes o n = 8 := numBytes_wide hw.1 hn'
  have hword : fromLe e (copyIntoZeroU64 e ((d.drop (o / 8)).take 8)) >>> (o % 8) =
      fromLe e (copyIntoZeroU64 e ((d'.drop (o / 8)).take 8)) >>> (o % 8) := by
    apply BitVec.eq_of_getLsbD_eq
    intro i hi
    rw [BitVec.getLsbD_ushiftRight, BitVec.getLsbD_ushiftRight]
    by_cases h : o % 8 + i < 64
    · rw [getLsbD_copyIntoZero _ _ (by simp; omega), getLsbD_copyIntoZero _ _ (by simp; omega), bitAt_take, bitAt_drop, bitAt_take,
        bitAt_drop, hb _ (by omega) (by omega)]
    · rw [BitVec.getLsbD_of_ge _ _ (by omega), BitVec.getLsbD_of_ge _ _ (by omega)]
  unfold readInt
  rw [if_neg (show n ≠ 1 by omega), if_neg (show n ≠ 1 by omega)]
  simp only [hnb8, hword, hl]
  rw [show o / 8 + (o / 8 + 8) = 2 * (o / 8) + 8 by omega, h9]

/-- Nobody reads the first bit of the ninth byte of the first straddling field. -/
theorem get_unread {p : Profile} {e : Endian} {S : StructDef} (wf : WF S) {f : Field} (hf : f ∈ S.fields) (hs : ¬ NoStraddle f.off f.bits)
    (hmin : ∀ g ∈ S.fields, ¬ NoStraddle g.off g.bits → f.off ≤ g.off) {g : Field} (hg : g ∈ S.fields) :
    g.get p e (oneBit S.size (8 * (f.off / 8 + 8))) = g.get p e (List.replicate S.size 0#8) := by
  have hw := straddle_iff.mp hs
  have okf := wf.field f hf
  have okg := wf.field g hg
  have hinf := okf.inside
  have hing := okg.inside
  have hb := g.ty.bits_cases
  have hle := okg.le
  have hk : 8 * (f.off / 8 + 8) < 8 * S.size := by omega
  -- the bit is not one of `g`, unless `g` is `f`
  have hdis : g = f ∨ 8 * (f.off / 8 + 8) < g.off ∨ g.off + g.bits ≤ 8 * (f.off / 8 + 8) := by
    by_cases hgf : g = f
    · exact .inl hgf
    · right
      have h := disjoint_of_ne wf.disjoint hg hf hgf
      unfold Disjoint at h; omega
  by_cases hsg : NoStraddle g.off g.bits
  · have hne : g ≠ f := fun h => hs (h ▸ hsg)
    rw [get_eq okg.pos okg.le (by rw [length_oneBit]; omega) hsg, get_eq okg.pos okg.le (by simpa using hing) hsg]
    congr 2
    apply fieldRaw_congr
    intro i hi
    rw [bitAt_oneBit hk, bitAt_zeros]
    have : g.off + i ≠ 8 * (f.off / 8 + 8) := by
      rcases hdis with h | h | h
      · exact absurd h hne
      · omega
      · omega
    simp [this]
  · have hwg := straddle_iff.mp hsg
    have hle' := hmin g hg hsg
    unfold Field.get
    have hread : ∀ d : Bytes, readBytes p e g.ty d g.off g.bits = readInt p e g.ty d g.off g.bits := by
      intro d
      rcases straddle_ty hle hsg with hT | hT <;> rw [hT] <;> rfl
    rw [hread, hread, readInt_straddle_congr (d' := List.replicate S.size 0#8) (by omega) (by simp [oneBit]) hsg]
    · intro k hk1 hk2
      rw [bitAt_oneBit hk, bitAt_zeros]
      have : k ≠ 8 * (f.off / 8 + 8) := by
        rcases hdis with h | h | h
        · subst h; omega
        · omega
        · omega
      simp [this]
    · unfold oneBit
      rw [List.getElem?_set_ne (by omega)]

/-- Comparing with itself reads everything. -/
theorem eq_self_reads {p : Profile} {e : Endian} {mem : Bytes} : ∀ {fs : List Field} {r : Bool}, eqFields p e fs mem mem = .ok r → Readable p e fs mem
  | [], _, _ => fun _ h => by cases h
  | f :: fs, r, h => by
    unfold eqFields at h
    rw [Out.bind_eq_ok] at h
    obtain ⟨x, hx, h⟩ := h
    rw [hx] at h
    rw [Out.ok_bind, if_pos rfl] at h
    intro g hg
    rcases List.mem_cons.mp hg with rfl | hg
    · exact ⟨x, hx⟩
    · exact eq_self_reads h g hg

/-- Copying reads everything. -/
theorem fill_reads {p : Profile} {e : Endian} {size : Nat} {src : Bytes} : ∀ {fs : List Field} {dst r : Bytes},
    fillFields p e size fs dst src = .ok r → Readable p e fs src
  | [], _, _, _ => fun _ h => by cases h
  | f :: fs, dst, r, h => by
    unfold fillFields at h
    rw [Out.bind_eq_ok] at h
    obtain ⟨x, hx, h⟩ := h
    rw [Out.bind_eq_ok] at h
    obtain ⟨d, _, h⟩ := h
    intro g hg
    rcases List.mem_cons.mp hg with rfl | hg
    · exact ⟨x, hx⟩
    · exact fill_reads h g hg

/-- Where nothing straddles: all contents can be read exactly if every bit pattern of every enum is a variant. -/
theorem readable_iff {p : Profile} {e : Endian} {S : StructDef} (wf : WF S) (hns : ∀ f ∈ S.fields, NoStraddle f.off f.bits) :
    (∀ mem : Bytes, S.size ≤ mem.length → Readable p e S.fields mem) ↔ ∀ f ∈ S.fields, EveryPattern f := by
  constructor
  · intro h f hf l hl
    have ok := wf.field f hf
    have hin := ok.inside
    have hpos := ok.pos
    have h1 : f.ty.signed = true → f.bits ≠ 1 := by
      intro hsg h1
      obtain ⟨v, hv⟩ := h (oneBit S.size f.off) (by rw [length_oneBit]; exact Nat.le_refl _) f hf
      rw [get_eq ok.pos ok.le (by rw [length_oneBit]; omega) (hns f hf), fieldRaw_oneBit (by omega) (Nat.le_refl _) (by omega)] at hv
      simp only [Nat.sub_self, Nat.pow_zero, codeDecode, h1, if_true, Field.transmute, hl] at hv
      split at hv
      · rename_i hmem
        have := ok.variants l hl _ hmem
        rw [h1] at this
        cases hT : f.ty <;> simp_all [Fits, IntTy.signed]
      · cases hv
    exact ⟨h1, (C09_enum_read_exact p e S.size f l ok hl ⟨hns f hf, h1⟩).mp fun mem hm => h mem hm f hf⟩
  · intro h mem hm f hf
    have ok := wf.field f hf
    have hin := ok.inside
    cases hl : f.variants with
    | none => exact ⟨_, by rw [get_eq ok.pos ok.le (by omega) (hns f hf)]; simp [Field.transmute, hl]; rfl⟩
    | some l =>
      obtain ⟨h1, h2⟩ := h f hf l hl
      exact (C09_enum_read_exact p e S.size f l ok hl ⟨hns f hf, h1⟩).mpr h2 mem hm

/-- Copying does not touch the bits that its setters do not write. -/
theorem fill_keeps {p : Profile} {e : Endian} {size k : Nat} {src : Bytes} (hsrc : size ≤ src.length) (hk9 : 72 ≤ k) (hk : k < 8 * size) :
    ∀ {fs : List Field}, (∀ g ∈ fs, FieldOK size g) →
      (∀ g ∈ fs, (k < g.off ∨ g.off + g.bits ≤ k) ∨ (¬ NoStraddle g.off g.bits ∧ 8 * (g.off / 8 + 8) ≤ k)) →
      ∀ {dst r : Bytes}, size ≤ dst.length → fillFields p e size fs dst src = .ok r → bitAt r k = bitAt dst k
  | [], _, _, _, _, _, h => by cases h; rfl
  | f :: fs, hok, hg, dst, r, hl, h => by
    unfold fillFields at h
    rw [Out.bind_eq_ok] at h
    obtain ⟨v, hv, h⟩ := h
    rw [Out.bind_eq_ok] at h
    obtain ⟨d, hd, h⟩ := h
    have ok := hok f (by simp)
    have hin := ok.inside
    have hb := f.ty.bits_cases
    have hle := ok.le
    have hone : d.length = dst.length ∧ bitAt d k = bitAt dst k := by
      by_cases hs : NoStraddle f.off f.bits
      · have hveq := get_ok ok.pos ok.le (by omega) hs hv
        obtain ⟨d1, s1, st, _⟩ := set_stored (p := p) (e := e) (mem := dst) (v := v) ok hl hs
          (by rw [hveq]; exact codeDecode_range ok.pos (fieldRaw_lt src f.off f.bits))
        rw [s1] at hd
        cases hd
        refine ⟨st.length, st.frame k ?_⟩
        rcases hg f (by simp) with h | h
        · exact h
        · exact absurd hs h.1
      · have hw := straddle_iff.mp hs
        have hlen : (dst.take size).length = size := by simp; omega
        obtain ⟨d', w1, w2, w3⟩ := writeBytes_straddle_bits (p := p) (e := e) (signed := f.encSigned) (v := v) (d := dst.take size)
          (o := f.off) (n := f.bits) (by omega) (by omega) hs
        rw [set_of_write hl w1] at hd
        cases hd
        rw [hlen] at w2
        refine ⟨by simp [w2]; omega, ?_⟩
        rw [bitAt_append, if_pos (by omega), w3 k, if_neg (by omega), if_neg, bitAt_take_lt _ _ _ hk]
        rcases hg f (by simp) with h | h <;> omega
    rw [fill_keeps hsrc hk9 hk (fun g hg' => hok g (by simp [hg'])) (fun g hg' => hg g (by simp [hg'])) (by omega) h, hone.2]

/-- Two patterns of a wide `bool` are both `true`. -/
theorem bool_two {f : Field} (ht : f.ty = .bool) (h : f.bits ≠ 1) : codeDecode f.ty f.bits 1 = 1 ∧ codeDecode f.ty f.bits 2 = 1 := by
  simp [codeDecode, h, ht, decode]

end StructExact
open StructExact

/-- Exactly which structs are compared right whatever their content is: those without straddling fields, without `bool`s wider
than one bit, and whose enums have a variant for every bit pattern. -/
theorem C08_equality_exact (p : Profile) (e : Endian) (S : StructDef) (wf : WF S) :
    (∀ a b : Bytes, S.size ≤ a.length → S.size ≤ b.length → ∃ r, S.eq p e a b = .ok r ∧
      (r = true ↔ ∀ f ∈ S.fields, ∀ k, f.off ≤ k → k < f.off + f.bits → bitAt a k = bitAt b k)) ↔
    ∀ f ∈ S.fields, NoStraddle f.off f.bits ∧ BoolOne f ∧ EveryPattern f := by
  constructor
  · intro h
    have hread : ∀ mem : Bytes, S.size ≤ mem.length → Readable p e S.fields mem := by
      intro mem hm
      obtain ⟨r, hr, _⟩ := h mem mem hm hm
      exact eq_self_reads hr
    have hns : ∀ f ∈ S.fields, NoStraddle f.off f.bits := by
      intro f hf
      refine Classical.byContradiction fun hs => ?_
      obtain ⟨f, hf, hs, hmin⟩ := exists_first (Q := fun f => ¬ NoStraddle f.off f.bits) ⟨f, hf, hs⟩
      have hw := straddle_iff.mp hs
      have ok := wf.field f hf
      have hin := ok.inside
      have hl : S.size ≤ (oneBit S.size (8 * (f.off / 8 + 8))).length := by rw [length_oneBit]; exact Nat.le_refl _
      have hz : S.size ≤ (List.replicate S.size 0#8).length := by simp
      obtain ⟨r, hr, hiff⟩ := h _ _ hl hz
      obtain ⟨r', hr', hiff'⟩ := eqFields_spec (p := p) (e := e) S.fields (hread _ hl) (hread _ hz)
      have : r = r' := by
        have := hr.symm.trans hr'
        cases this; rfl
      subst this
      have ht := hiff'.mpr fun g hg => get_unread wf hf hs hmin hg
      have := hiff.mp ht f hf (8 * (f.off / 8 + 8)) (by omega) (by omega)
      rw [bitAt_oneBit (by omega), bitAt_zeros] at this
      simp at this
    refine fun f hf => ⟨hns f hf, ?_, (readable_iff wf hns).mp hread f hf⟩
    intro ht
    refine Classical.byContradiction fun h1 => ?_
    have ok := wf.field f hf
    have hin := ok.inside
    have hpos := ok.pos
    have hla : S.size ≤ (oneBit S.size f.off).length := by rw [length_oneBit]; exact Nat.le_refl _
    have hlb : S.size ≤ (oneBit S.size (f.off + 1)).length := by rw [length_oneBit]; exact Nat.le_refl _
    obtain ⟨r, hr, hiff⟩ := h _ _ hla hlb
    obtain ⟨r', hr', hiff'⟩ := eqFields_spec (p := p) (e := e) S.fields (hread _ hla) (hread _ hlb)
    have : r = r' := by
      have := hr.symm.trans hr'
      cases this; rfl
    subst this
    have htrue : r = true := by
      refine hiff'.mpr fun g hg => ?_
      have okg := wf.field g hg
      have hing := okg.inside
      rw [get_eq okg.pos okg.le (by rw [length_oneBit]; omega) (hns g hg), get_eq okg.pos okg.le (by rw [length_oneBit]; omega) (hns g hg)]
      by_cases hgf : g = f
      · subst hgf
        rw [fieldRaw_oneBit (by omega) (by omega) (by omega), fieldRaw_oneBit (by omega) (by omega) (by omega)]
        have := bool_two ht h1
        simp only [Nat.sub_self, Nat.pow_zero, show g.off + 1 - g.off = 1 by omega, Nat.pow_one, this]
      · congr 2
        apply fieldRaw_congr
        intro i hi
        rw [bitAt_oneBit (by omega), bitAt_oneBit (by omega)]
        have h := disjoint_of_ne wf.disjoint hg hf hgf
        unfold Disjoint at h
        rw [decide_eq_false (by omega), decide_eq_false (by omega)]
    have := hiff.mp htrue f hf f.off (Nat.le_refl _) (by omega)
    rw [bitAt_oneBit (by omega), bitAt_oneBit (by omega)] at this
    simp at this
  · intro h a b ha hb
    have hns : ∀ f ∈ S.fields, NoStraddle f.off f.bits := fun f hf => (h f hf).1
    have hread := (readable_iff (p := p) (e := e) wf hns).mpr fun f hf => (h f hf).2.2
    exact C08_equality_partial p e S wf hns (fun f hf => (h f hf).2.1) a b ha hb (hread a ha) (hread b hb)

/-- Non-vacuity: `Chapter` is compared right, a struct with a two-bit `bool` and one with an enum of two variants in two bits are not. -/
example : WF Coappearances.Chapter ∧ (∀ f ∈ Coappearances.Chapter.fields, NoStraddle f.off f.bits ∧ BoolOne f ∧ EveryPattern f) ∧
    WF ⟨"B", 1, [.plain "b" .bool 0 2]⟩ ∧ ¬ (∀ f ∈ [Field.plain "b" .bool 0 2], NoStraddle f.off f.bits ∧ BoolOne f ∧ EveryPattern f) ∧
    ¬ EveryPattern enumField := by
  refine ⟨wf_of_plain (by decide) (by decide), ?_, wf_of_plain (by decide) (by decide), ?_, ?_⟩
  · intro f hf
    have h : NoStraddle f.off f.bits ∧ BoolOne f ∧ f.variants = none := by revert f; decide
    exact ⟨h.1, h.2.1, fun l hl => by rw [h.2.2] at hl; cases hl⟩
  · intro h
    have := (h (.plain "b" .bool 0 2) (by simp)).2.1 rfl
    revert this; decide
  · intro h
    have := (h _ rfl).2 3 (by decide)
    revert this; decide

/-- Exactly which structs `fill_from` copies bit by bit, whatever their content is (where the bits outside the fields agree): the same. -/
theorem C40_struct_exact (p : Profile) (e : Endian) (S : StructDef) (wf : WF S) :
    (∀ dst src : Bytes, S.size ≤ dst.length → S.size ≤ src.length →
      (∀ k, k < 8 * S.size → Uncovered S.fields k → bitAt dst k = bitAt src k) →
      S.fillFrom p e dst src = .ok (src.take S.size ++ dst.drop S.size)) ↔
    ∀ f ∈ S.fields, NoStraddle f.off f.bits ∧ BoolOne f ∧ EveryPattern f := by
  constructor
  · intro h
    have hread : ∀ mem : Bytes, S.size ≤ mem.length → Readable p e S.fields mem := fun mem hm =>
      fill_reads (h mem mem hm hm fun _ _ _ => rfl)
    have hlen : ∀ k, S.size ≤ (oneBit S.size k).length := fun k => by rw [length_oneBit]; exact Nat.le_refl _
    have hz : S.size ≤ (List.replicate S.size 0#8).length := by simp
    -- copying a single bit of a field into zeros
    have hcopy : ∀ f ∈ S.fields, ∀ k, f.off ≤ k → k < f.off + f.bits →
        S.fillFrom p e (List.replicate S.size 0#8) (oneBit S.size k) = .ok (oneBit S.size k) := by
      intro f hf k h1 h2
      have hin := (wf.field f hf).inside
      have := h (List.replicate S.size 0#8) (oneBit S.size k) hz (hlen k) (by
        intro j hj hu
        rw [bitAt_zeros, bitAt_oneBit (by omega)]
        have : j ≠ k := fun hjk => by have := hu f hf; omega
        simp [this])
      rw [this, List.take_of_length_le (by rw [length_oneBit]; exact Nat.le_refl _), List.drop_of_length_le (by simp), List.append_nil]
    have hns : ∀ f ∈ S.fields, NoStraddle f.off f.bits := by
      intro f hf
      refine Classical.byContradiction fun hs => ?_
      have hw := straddle_iff.mp hs
      have hin := (wf.field f hf).inside
      have hc := hcopy f hf (8 * (f.off / 8 + 8)) (by omega) (by omega)
      have := fill_keeps (p := p) (e := e) (k := 8 * (f.off / 8 + 8)) (hlen (8 * (f.off / 8 + 8))) (by omega) (by omega) wf.field (by
        intro g hg
        by_cases hgf : g = f
        · subst hgf; exact .inr ⟨hs, Nat.le_refl _⟩
        · have h := disjoint_of_ne wf.disjoint hg hf hgf
          unfold Disjoint at h
          left; omega) hz hc
      rw [bitAt_oneBit (by omega), bitAt_zeros] at this
      simp at this
    refine fun f hf => ⟨hns f hf, ?_, (readable_iff wf hns).mp hread f hf⟩
    intro ht
    refine Classical.byContradiction fun h1 => ?_
    have ok := wf.field f hf
    have hin := ok.inside
    have hpos := ok.pos
    have hc := hcopy f hf (f.off + 1) (by omega) (by omega)
    obtain ⟨d, g1, _, _, g4, _⟩ := fillFields_spec (p := p) (e := e) (hlen (f.off + 1)) S.fields (fun g hg => ⟨wf.field g hg, hns g hg⟩)
      wf.disjoint (hread _ (hlen _)) (List.replicate S.size 0#8) hz
    have hd : d = oneBit S.size (f.off + 1) := by
      have := g1.symm.trans hc
      cases this; rfl
    have := g4 f hf
    rw [hd, fieldRaw_oneBit (by omega) (by omega) (by omega), show f.off + 1 - f.off = 1 by omega, Nat.pow_one, (bool_two ht h1).2] at this
    have hp : (2 : Int) ≤ 2 ^ f.bits := by
      have := Nat.pow_le_pow_right (n := 2) (by omega) hpos
      exact_mod_cast this
    rw [Int.emod_eq_of_lt (by omega) (by omega)] at this
    omega
  · intro h dst src hd hs hu
    have hns : ∀ f ∈ S.fields, NoStraddle f.off f.bits := fun f hf => (h f hf).1
    exact C40_struct_copy_partial p e S wf hns (fun f hf => (h f hf).2.1) dst src hd hs
      ((readable_iff (p := p) (e := e) wf hns).mpr (fun f hf => (h f hf).2.2) src hs) hu

/-- C07 where nothing straddles: copying from a source does all that is claimed exactly if its enum fields hold variants. -/
theorem C07_source_exact (p : Profile) (e : Endian) (S : StructDef) (wf : WF S) (hns : ∀ f ∈ S.fields, NoStraddle f.off f.bits)
    (dst src : Bytes) (hdst : S.size ≤ dst.length) (hsrc : S.size ≤ src.length) :
    (∃ dst', S.fillFrom p e dst src = .ok dst' ∧ dst'.length = dst.length ∧
      (∀ f ∈ S.fields, f.get p e dst' = f.get p e src) ∧ S.eq p e dst' src = .ok true ∧
      (∀ k, Uncovered S.fields k → bitAt dst' k = bitAt dst k) ∧ S.fillFrom p e dst' src = .ok dst') ↔ Readable p e S.fields src :=
  ⟨fun ⟨_, h, _⟩ => fill_reads h, fun h => C07_fill_from_partial p e S wf hns dst src hdst hsrc h⟩

/-- C07 for all contents of a struct where nothing straddles: exactly if every bit pattern of its enum fields is a variant. -/
theorem C07_contents_exact (p : Profile) (e : Endian) (S : StructDef) (wf : WF S) (hns : ∀ f ∈ S.fields, NoStraddle f.off f.bits) :
    (∀ dst src : Bytes, S.size ≤ dst.length → S.size ≤ src.length →
      ∃ dst', S.fillFrom p e dst src = .ok dst' ∧ dst'.length = dst.length ∧
        (∀ f ∈ S.fields, f.get p e dst' = f.get p e src) ∧ S.eq p e dst' src = .ok true ∧
        (∀ k, Uncovered S.fields k → bitAt dst' k = bitAt dst k) ∧ S.fillFrom p e dst' src = .ok dst') ↔
    ∀ f ∈ S.fields, EveryPattern f := by
  rw [← readable_iff (p := p) (e := e) wf hns]
  constructor
  · intro h mem hm
    obtain ⟨_, h, _⟩ := h mem mem hm hm
    exact fill_reads h
  · intro h dst src hd hs
    exact C07_fill_from_partial p e S wf hns dst src hd hs (h src hs)

/-- `Chapter` has no enum fields: copying works for all contents. -/
example : WF Coappearances.Chapter ∧ (∀ f ∈ Coappearances.Chapter.fields, NoStraddle f.off f.bits) ∧
    ∀ f ∈ Coappearances.Chapter.fields, EveryPattern f := by
  refine ⟨wf_of_plain (by decide) (by decide), by decide, ?_⟩
  have : ∀ f ∈ Coappearances.Chapter.fields, f.variants = none := by decide
  intro f hf l hl
  rw [this f hf] at hl; cases hl

end Flatdata
