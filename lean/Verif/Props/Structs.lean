import Verif.Proofs.Fill
import Verif.Props.Fields
/-!
# C07, C08 and the struct part of C40: copying and comparing structs
-/
namespace Flatdata
open Spec

/-! ## C07 -/

/-- C07 in full. -/
def C07_claim : Prop :=
  ∀ (p : Profile) (e : Endian) (S : StructDef), WF S → ∀ dst src : Bytes, S.size ≤ dst.length → S.size ≤ src.length →
    ∃ dst', S.fillFrom p e dst src = .ok dst' ∧ dst'.length = dst.length ∧
      (∀ f ∈ S.fields, f.get p e dst' = f.get p e src) ∧ S.eq p e dst' src = .ok true ∧
      (∀ k, Uncovered S.fields k → bitAt dst' k = bitAt dst k) ∧
      S.fillFrom p e dst' src = .ok dst'

/-- C07 for non-straddling fields and a source whose enum fields hold variants (`Readable`; automatic without enums).
One-bit signed fields and wide `bool`s are included. -/
theorem C07_fill_from_partial (p : Profile) (e : Endian) (S : StructDef) (wf : WF S)
    (hns : ∀ f ∈ S.fields, NoStraddle f.off f.bits) (dst src : Bytes) (hdst : S.size ≤ dst.length)
    (hsrc : S.size ≤ src.length) (hread : Readable p e S.fields src) :
    ∃ dst', S.fillFrom p e dst src = .ok dst' ∧ dst'.length = dst.length ∧
      (∀ f ∈ S.fields, f.get p e dst' = f.get p e src) ∧ S.eq p e dst' src = .ok true ∧
      (∀ k, Uncovered S.fields k → bitAt dst' k = bitAt dst k) ∧
      S.fillFrom p e dst' src = .ok dst' := by
  have hok : ∀ f ∈ S.fields, FieldOK S.size f ∧ NoStraddle f.off f.bits := fun f hf => ⟨wf.field f hf, hns f hf⟩
  obtain ⟨dst', h1, h2, _, h4, h5⟩ := fillFields_spec hsrc S.fields hok wf.disjoint hread dst hdst
  have hget : ∀ f ∈ S.fields, f.get p e dst' = f.get p e src := by
    intro f hf
    have ok := wf.field f hf
    have hin := ok.inside
    rw [get_eq ok.pos ok.le (by omega) (hns f hf), get_eq ok.pos ok.le (by omega) (hns f hf),
      codeDecode_stable ok.pos (fieldRaw_lt _ _ _) (h4 f hf)]
  refine ⟨dst', h1, h2, hget, ?_, h5, ?_⟩
  · obtain ⟨r, hr, hiff⟩ := eqFields_spec (p := p) (e := e) S.fields (a := dst') (b := src)
      (fun f hf => by rw [hget f hf]; exact hread f hf) hread
    have : r = true := hiff.mpr hget
    rw [this] at hr; exact hr
  · obtain ⟨d2, g1, g2, g3, g4, g5⟩ := fillFields_spec hsrc S.fields hok wf.disjoint hread dst' (by omega)
    have : d2 = dst' := by
      apply bytes_ext g2
      intro k hk
      by_cases hu : Uncovered S.fields k
      · exact g5 k hu
      · unfold Uncovered at hu
        simp only [Classical.not_forall] at hu
        obtain ⟨f, hf, hnot⟩ := hu
        have heq : fieldRaw d2 f.off f.bits = fieldRaw dst' f.off f.bits := by
          have a := g4 f hf
          have b := h4 f hf
          rw [← b] at a
          exact_mod_cast a
        have hb := congrArg (fun x => x.testBit (k - f.off)) heq
        simp only [testBit_fieldRaw] at hb
        have e1 : f.off + (k - f.off) = k := by omega
        have e2 : k - f.off < f.bits := by omega
        simpa [e1, e2] using hb
    rw [this] at g1; exact g1

/-- False in full (straddling field). -/
theorem C07_refuted : ¬ C07_claim := by
  intro h
  obtain ⟨dst', h1, _⟩ := h .debug .little ⟨"B", 10, [.plain "b" .u64 9 64]⟩ (wf_of_plain (by decide) (by decide))
    (List.replicate 10 0#8) (List.replicate 10 0#8) (by decide) (by decide)
  have : StructDef.fillFrom .debug .little ⟨"B", 10, [.plain "b" .u64 9 64]⟩ (List.replicate 10 0#8)
    (List.replicate 10 0#8) = .ub := by decide
  rw [this] at h1; cases h1

/-- Non-vacuity: copying a `Chapter` (its 5 unused bits keep the old content of the destination). -/
example : ∃ dst', Coappearances.Chapter.fillFrom .release .little [0xff#8, 0xff#8] [0x21#8, 0x03#8] = .ok dst' ∧
    Coappearances.Chapter.eq .release .little dst' [0x21#8, 0x03#8] = .ok true := by
  obtain ⟨d, h1, _, _, h4, _⟩ := C07_fill_from_partial .release .little Coappearances.Chapter
    (wf_of_plain (by decide) (by decide)) (by decide) [0xff#8, 0xff#8] [0x21#8, 0x03#8] (by decide) (by decide)
    (readable_of_plain (size := 2) (fun f hf => ⟨(wf_of_plain (S := Coappearances.Chapter) (by decide) (by decide)).field f hf,
      by revert f; decide⟩) (by decide) (by decide))
  exact ⟨d, h1, h4⟩

/-! ## C08 -/

/-- C08 in full: `==` completes and holds exactly if the bits of all declared fields agree. -/
def C08_claim : Prop :=
  ∀ (p : Profile) (e : Endian) (S : StructDef), WF S → ∀ a b : Bytes, S.size ≤ a.length → S.size ≤ b.length →
    ∃ r, S.eq p e a b = .ok r ∧
      (r = true ↔ ∀ f ∈ S.fields, ∀ k, f.off ≤ k → k < f.off + f.bits → bitAt a k = bitAt b k)

/-- C08 for non-straddling fields, one-bit `bool`s and readable contents (no invalid enum discriminants). -/
theorem C08_equality_partial (p : Profile) (e : Endian) (S : StructDef) (wf : WF S)
    (hns : ∀ f ∈ S.fields, NoStraddle f.off f.bits) (hbool : ∀ f ∈ S.fields, BoolOne f) (a b : Bytes)
    (ha : S.size ≤ a.length) (hb : S.size ≤ b.length) (hra : Readable p e S.fields a) (hrb : Readable p e S.fields b) :
    ∃ r, S.eq p e a b = .ok r ∧
      (r = true ↔ ∀ f ∈ S.fields, ∀ k, f.off ≤ k → k < f.off + f.bits → bitAt a k = bitAt b k) := by
  obtain ⟨r, hr, hiff⟩ := eqFields_spec S.fields hra hrb
  refine ⟨r, hr, ?_⟩
  rw [hiff]
  constructor
  · intro h f hf k hk1 hk2
    have ok := wf.field f hf
    have hin := ok.inside
    obtain ⟨x, hx⟩ := hra f hf
    have hy := h f hf
    rw [hx] at hy
    have e1 := get_ok ok.pos ok.le (by omega) (hns f hf) hx
    have e2 := get_ok ok.pos ok.le (by omega) (hns f hf) hy.symm
    have heq := codeDecode_inj (fieldRaw_lt _ _ _) (fieldRaw_lt _ _ _) (hbool f hf) (e1.symm.trans e2)
    have hb := congrArg (fun x => x.testBit (k - f.off)) heq
    simp only [testBit_fieldRaw] at hb
    have e1 : f.off + (k - f.off) = k := by omega
    have e2 : k - f.off < f.bits := by omega
    simpa [e1, e2] using hb
  · intro h f hf
    have ok := wf.field f hf
    have hin := ok.inside
    exact get_congr ok.pos ok.le (by omega) (by omega) (hns f hf) (h f hf)

/-- Whatever the layout (even straddling fields), `==` is reflexive, symmetric and transitive wherever it completes. -/
theorem C08_equivalence (p : Profile) (e : Endian) (S : StructDef) (a b c : Bytes)
    (hra : Readable p e S.fields a) (hrb : Readable p e S.fields b) (hrc : Readable p e S.fields c) :
    S.eq p e a a = .ok true ∧ S.eq p e a b = S.eq p e b a ∧
    (S.eq p e a b = .ok true → S.eq p e b c = .ok true → S.eq p e a c = .ok true) := by
  have key : ∀ {x y : Bytes}, Readable p e S.fields x → Readable p e S.fields y →
      ∃ r, S.eq p e x y = .ok r ∧ (r = true ↔ ∀ f ∈ S.fields, f.get p e x = f.get p e y) :=
    fun hx hy => eqFields_spec S.fields hx hy
  obtain ⟨r1, e1, i1⟩ := key hra hra
  obtain ⟨r2, e2, i2⟩ := key hra hrb
  obtain ⟨r3, e3, i3⟩ := key hrb hra
  obtain ⟨r4, e4, i4⟩ := key hrb hrc
  obtain ⟨r5, e5, i5⟩ := key hra hrc
  refine ⟨by rw [e1, i1.mpr (fun _ _ => rfl)], ?_, ?_⟩
  · rw [e2, e3]
    have : r2 = true ↔ r3 = true := by
      rw [i2, i3]
      exact ⟨fun h f hf => (h f hf).symm, fun h f hf => (h f hf).symm⟩
    cases r2 <;> cases r3 <;> simp_all
  · rw [e2, e4, e5]
    simp only [Out.ok.injEq]
    intro ha hb
    rw [i5]
    intro f hf
    rw [i2.mp ha f hf, i4.mp hb f hf]

/-- Non-vacuity: three structs that differ outside their fields. -/
example : Coappearances.Chapter.eq .debug .big [0x21#8, 0xfb#8] [0x21#8, 0x03#8] = .ok true →
    Coappearances.Chapter.eq .debug .big [0x21#8, 0x03#8] [0x21#8, 0x0b#8] = .ok true →
    Coappearances.Chapter.eq .debug .big [0x21#8, 0xfb#8] [0x21#8, 0x0b#8] = .ok true :=
  have hr : ∀ mem : Bytes, 2 ≤ mem.length → Readable .debug .big Coappearances.Chapter.fields mem := fun mem hm =>
    readable_of_plain (size := 2) (fun f hf =>
      ⟨(wf_of_plain (S := Coappearances.Chapter) (by decide) (by decide)).field f hf, by revert f; decide⟩)
      (by decide) hm
  (C08_equivalence .debug .big Coappearances.Chapter _ _ _ (hr _ (by decide)) (hr _ (by decide)) (hr _ (by decide))).2.2

/-- False in full: two 2-bit `bool` fields holding 1 and 2 are both `true`. -/
theorem C08_refuted : ¬ C08_claim := by
  intro h
  obtain ⟨r, h1, h2⟩ := h .debug .little ⟨"B", 1, [.plain "b" .bool 0 2]⟩ (wf_of_plain (by decide) (by decide))
    [1#8] [2#8] (by decide) (by decide)
  have : StructDef.eq .debug .little ⟨"B", 1, [.plain "b" .bool 0 2]⟩ [1#8] [2#8] = .ok true := by decide
  rw [this] at h1
  cases h1
  have := h2.mp rfl (.plain "b" .bool 0 2) (by decide) 0 (by decide) (by decide)
  revert this; decide

/-- Non-vacuity: two `Chapter`s differing only in unused bits are equal. -/
example : ∃ r, Coappearances.Chapter.eq .debug .big [0x21#8, 0xfb#8] [0x21#8, 0x03#8] = .ok r ∧
    (r = true ↔ ∀ f ∈ Coappearances.Chapter.fields, ∀ k, f.off ≤ k → k < f.off + f.bits →
      bitAt [0x21#8, 0xfb#8] k = bitAt [0x21#8, 0x03#8] k) :=
  have hr : ∀ mem : Bytes, 2 ≤ mem.length → Readable .debug .big Coappearances.Chapter.fields mem := fun mem hm =>
    readable_of_plain (size := 2) (fun f hf =>
      ⟨(wf_of_plain (S := Coappearances.Chapter) (by decide) (by decide)).field f hf, by revert f; decide⟩)
      (by decide) hm
  C08_equality_partial _ _ _ (wf_of_plain (by decide) (by decide)) (by decide) (by decide) _ _ (by decide) (by decide)
    (hr _ (by decide)) (hr _ (by decide))

/-! ## C40, single structs -/

/-- Copying one struct with `fill_from` into memory whose uncovered bits already agree with the source (in particular:
fresh zeroed memory, if the source's unused bits are zero) reproduces the source bytes exactly. -/
theorem C40_struct_copy_partial (p : Profile) (e : Endian) (S : StructDef) (wf : WF S)
    (hns : ∀ f ∈ S.fields, NoStraddle f.off f.bits) (hbool : ∀ f ∈ S.fields, BoolOne f) (dst src : Bytes)
    (hdst : S.size ≤ dst.length) (hsrc : S.size ≤ src.length) (hread : Readable p e S.fields src)
    (hun : ∀ k, k < 8 * S.size → Uncovered S.fields k → bitAt dst k = bitAt src k) :
    S.fillFrom p e dst src = .ok (src.take S.size ++ dst.drop S.size) := by
  have hok : ∀ f ∈ S.fields, FieldOK S.size f ∧ NoStraddle f.off f.bits := fun f hf => ⟨wf.field f hf, hns f hf⟩
  obtain ⟨dst', h1, h2, h3, h4, h5⟩ := fillFields_spec hsrc S.fields hok wf.disjoint hread dst hdst
  unfold StructDef.fillFrom
  rw [h1]
  congr 1
  apply bytes_ext (by simp [h2]; omega)
  intro k hk
  have hlen : (src.take S.size).length = S.size := by simp; omega
  rw [bitAt_append, hlen, bitAt_take]
  by_cases hk8 : k < 8 * S.size
  · simp only [hk8, if_true]
    by_cases hu : Uncovered S.fields k
    · rw [h5 k hu, hun k hk8 hu]; simp
    · unfold Uncovered at hu
      simp only [Classical.not_forall] at hu
      obtain ⟨f, hf, hnot⟩ := hu
      have heq : fieldRaw dst' f.off f.bits = fieldRaw src f.off f.bits := by
        have a := h4 f hf
        rw [codeDecode_emod (fieldRaw_lt _ _ _) (hbool f hf)] at a
        exact_mod_cast a
      have hb := congrArg (fun x => x.testBit (k - f.off)) heq
      simp only [testBit_fieldRaw] at hb
      have e1 : f.off + (k - f.off) = k := by omega
      have e2 : k - f.off < f.bits := by omega
      simpa [e1, e2] using hb
  · simp only [hk8, if_false]
    rw [← h3, bitAt_drop]
    congr 1; omega

/-- Non-vacuity: a `Chapter` whose 5 unused bits are 0 is copied exactly into fresh memory with 8 bytes of padding. -/
example : Coappearances.Chapter.fillFrom .debug .little (List.replicate 10 0#8) [0x21#8, 0x03#8] =
    .ok ([0x21#8, 0x03#8] ++ List.replicate 8 0#8) :=
  C40_struct_copy_partial .debug .little Coappearances.Chapter (wf_of_plain (by decide) (by decide)) (by decide) (by decide)
    (List.replicate 10 0#8) [0x21#8, 0x03#8] (by decide) (by decide)
    (readable_of_plain (size := 2) (fun f hf =>
      ⟨(wf_of_plain (S := Coappearances.Chapter) (by decide) (by decide)).field f hf, by revert f; decide⟩)
      (by decide) (by decide))
    (by
      have : ∀ k, k < 16 → bitAt (List.replicate 10 0#8) k = bitAt [0x21#8, 0x03#8] k ∨
        ¬ (∀ f ∈ Coappearances.Chapter.fields, k < f.off ∨ f.off + f.bits ≤ k) := by decide
      intro k hk hu
      exact (this k hk).resolve_right (fun h => h hu))

end Flatdata
