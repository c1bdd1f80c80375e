import Verif.Proofs.Vector
import Verif.Model.Coappearances
/-!
# C06, C10, C11: struct buffers and vectors
-/
namespace Flatdata
open Spec

/-! ## C06 -/

/-- A field for which zero is a valid value: always, except for enums without a variant 0. -/
def ZeroOK (f : Field) : Prop := ∀ l, f.variants = some l → (0 : Int) ∈ l.map Prod.fst

theorem codeDecode_zero (T : IntTy) (n : Nat) : codeDecode T n 0 = 0 := by
  have hpos : 0 < 2 ^ (n - 1) := Nat.pow_pos (by omega)
  have htwos : twos n 0 = 0 := by unfold twos; rw [if_neg (by omega)]; rfl
  unfold codeDecode
  split
  · rfl
  · cases T <;> simp [decode, htwos]

/-- Fields of zeroed memory read as zero, whatever follows that memory. -/
theorem C06_zero_reads (p : Profile) (e : Endian) (size : Nat) (f : Field) (ok : FieldOK size f)
    (hns : NoStraddle f.off f.bits) (hz : ZeroOK f) (mem : Bytes) (hm : size ≤ mem.length)
    (hmem : mem.take size = zeros size) : f.get p e mem = .ok 0 := by
  have hin := ok.inside
  rw [get_eq ok.pos ok.le (by omega) hns]
  have hraw : fieldRaw mem f.off f.bits = 0 := by
    apply fieldRaw_eq_of_testBit (Nat.pow_pos (by omega))
    intro i hi
    have h1 := bitAt_take mem size (f.off + i)
    rw [hmem] at h1
    unfold zeros at h1
    rw [bitAt_replicate_zero] at h1
    have h2 : f.off + i < 8 * size := by omega
    simp only [h2, decide_true, Bool.true_and] at h1
    rw [← h1]; simp
  rw [hraw, codeDecode_zero]
  unfold Field.transmute
  cases h : f.variants with
  | none => rfl
  | some l => simp only [if_pos (hz l h)]

/-- Non-vacuity: zero bytes, with something else behind the struct. -/
example : (Field.plain "minor" .u8 4 7).get .debug .big [0#8, 0#8, 0xff#8] = .ok 0 :=
  C06_zero_reads .debug .big 2 _ (fieldOK_of_plainOK (by decide)) (by decide) (by intro l h; cases h) _ (by decide) (by decide)

/-- C06 in full for struct buffers: the fields of a new one read as zero. -/
def C06_structbuf_claim : Prop :=
  ∀ (p : Profile) (e : Endian) (S : StructDef), WF S → ∀ f ∈ S.fields,
    f.get p e (StructBuf.get (StructBuf.new S)) = .ok 0

/-- `StructBuf::new`. Missing: straddling fields and enums without variant 0, where it is false. -/
theorem C06_structbuf_partial (p : Profile) (e : Endian) (S : StructDef) (wf : WF S) (f : Field) (hf : f ∈ S.fields)
    (hns : NoStraddle f.off f.bits) (hz : ZeroOK f) : f.get p e (StructBuf.get (StructBuf.new S)) = .ok 0 := by
  refine C06_zero_reads p e S.size f (wf.field f hf) hns hz _ ?_ ?_
  · simp [StructBuf.get, StructBuf.new]
  · simp [StructBuf.get, StructBuf.new, zeros]

/-- The bytes a new struct buffer is serialized to are all zero (no restriction). -/
theorem C06_structbuf_bytes (S : StructDef) : StructBuf.asBytes S (StructBuf.new S) = .ok (zeros S.size) := by
  simp [StructBuf.asBytes, StructBuf.new, sliceRange, zeros]

example : StructBuf.asBytes Coappearances.Chapter (StructBuf.new Coappearances.Chapter) = .ok [0#8, 0#8] :=
  C06_structbuf_bytes Coappearances.Chapter

/-- `Vector`: after any history (with in-range accesses) `grow` hands out zeroed memory and leaves the other elements
alone; the elements of `with_len` start as zero. `Rep` is established and kept by all operations (`C10`). -/
theorem C06_vector_grow (p : Profile) (e : Endian) (S : StructDef) (hs : 0 < S.size) (n : Nat) (ops : List VecOp)
    (l : List Bytes) (hfit : FitsMem S.size (ops ++ [.grow []]) n)
    (hl : runList p e S ops (List.replicate n (zeros S.size)) = .ok l) :
    ∃ d0 data data' pos, Vector.withLen p S.size n = .ok d0 ∧ runVec p e S ops d0 = .ok data ∧
      Vector.grow p S.size data = .ok (data', pos) ∧ (data'.drop pos).take S.size = zeros S.size ∧
      data'.take pos = l.flatten := by
  have hsplit : ∀ (ops : List VecOp) (n : Nat) (l l' : List Bytes), FitsMem S.size (ops ++ [.grow []]) n →
      l.length = n → runList p e S ops l = .ok l' →
      FitsMem S.size ops n ∧ (l'.length + 1) * S.size + 8 < 2 ^ 63 := by
    intro ops
    induction ops with
    | nil =>
      intro n l l' h hl hr
      cases hr
      subst hl
      refine ⟨?_, h⟩
      have := FitsMem.bound _ _ h
      exact this
    | cons op ops ih =>
      intro n l l' h hl hr
      simp only [runList, Out.bind_eq_ok] at hr
      obtain ⟨l1, h1, hr⟩ := hr
      cases op with
      | grow w =>
        simp only [listOp, Out.bind_eq_ok] at h1
        obtain ⟨x, _, h1⟩ := h1
        cases h1
        exact ih (n + 1) _ l' h (by simp [hl]) hr
      | reserve k =>
        cases h1
        have := ih n _ l' h.2 hl hr
        exact ⟨⟨h.1, this.1⟩, this.2⟩
      | atMut i w =>
        simp only [listOp] at h1
        cases hi : l[i]? with
        | none => rw [hi] at h1; cases h1
        | some x =>
          rw [hi] at h1
          simp only [Out.bind_eq_ok] at h1
          obtain ⟨y, _, h1⟩ := h1
          cases h1
          exact ih n _ l' h (by simp [hl]) hr
  obtain ⟨hf, hg⟩ := hsplit ops n _ l hfit (by simp) hl
  obtain ⟨d0, h1, h2⟩ := withLen_rep (p := p) (FitsMem.bound _ _ hf)
  obtain ⟨data, h3, h4, _⟩ := runVec_spec hs ops d0 _ l h2 (by simpa using hf) hl
  obtain ⟨data', h5, h6⟩ := h4.grow p hs hg
  have hfl := h4.all.length_flatten
  refine ⟨d0, data, data', _, h1, h3, h5, ?_, ?_⟩
  · rw [h6.eq, ← hfl, List.flatten_append, List.append_assoc, List.drop_left]
    simp [zeros]
  · rw [h6.eq, ← hfl, List.flatten_append, List.append_assoc, List.take_left]

/-- False in full: a straddling field of a new (30 byte) struct buffer is read outside the buffer. -/
theorem C06_refuted : ¬ C06_structbuf_claim := by
  intro h
  have := h .debug .little ⟨"B", 30, [.plain "b" .u64 161 64]⟩ (wf_of_plain (by decide) (by decide))
    (.plain "b" .u64 161 64) (by decide)
  revert this; decide

/-- Non-vacuity: field `major` of a new `Chapter`. -/
example : (Field.plain "minor" .u8 4 7).get .debug .big (StructBuf.get (StructBuf.new Coappearances.Chapter)) = .ok 0 :=
  C06_structbuf_partial .debug .big Coappearances.Chapter (wf_of_plain (by decide) (by decide)) _ (by decide) (by decide)
    (by intro l h; cases h)

/-- Non-vacuity: grow, write 0xff.. to the element, grow again. -/
example : ∃ d0 data data' pos, Vector.withLen .debug 2 1 = .ok d0 ∧
    runVec .debug .little Coappearances.Chapter [.grow [.fill [0xff#8, 0xff#8]]] d0 = .ok data ∧
    Vector.grow .debug 2 data = .ok (data', pos) ∧ (data'.drop pos).take 2 = [0#8, 0#8] ∧
    data'.take pos = [0#8, 0#8, 0xff#8, 0x07#8] :=
  C06_vector_grow .debug .little Coappearances.Chapter (by decide) 1 [.grow [.fill [0xff#8, 0xff#8]]]
    [[0#8, 0#8], [0xff#8, 0x07#8]] (by decide) (by decide)

/-! ## C10 -/

/-- What C10 says of a vector and a list. -/
structure Agrees (p : Profile) (size : Nat) (data : Bytes) (l : List Bytes) : Prop where
  len : Vector.len p size data = .ok l.length
  isEmpty : Vector.isEmpty p size data = .ok (decide (l = []))
  bytes : Vector.asBytes p data = .ok l.flatten
  view : elems size l.flatten = l
  at' : ∀ i x, l[i]? = some x → ∃ r, Vector.at' p size data i = .ok r ∧ r.take size = x

theorem Rep.agrees {p : Profile} {size : Nat} {data : Bytes} {l : List Bytes} (hs : 0 < size) (h : Rep size data l)
    (hd : data.length < 2 ^ 63) : Agrees p size data l := by
  refine ⟨h.len hs p, by unfold Vector.isEmpty; rw [h.len hs p, Out.ok_bind]; cases l <;> simp, h.asBytes p, elems_flatten hs h.all, ?_⟩
  intro i x hi
  refine ⟨_, h.at' p hd hi, ?_⟩
  obtain ⟨hlt, hx⟩ := List.getElem?_eq_some_iff.mp hi
  have : x.length = size := h.all x (by rw [← hx]; exact List.getElem_mem hlt)
  rw [List.append_assoc, List.take_append_of_le_length (by omega), List.take_of_length_le (by omega)]

/-- C10 in full: any history with in-range indices (i.e. one that completes on the list), if it completes on the vector,
ends with the vector agreeing with the list. -/
def C10_claim : Prop :=
  ∀ (p : Profile) (e : Endian) (S : StructDef), 0 < S.size → S.size < 2 ^ 63 → ∀ (n : Nat), n < usizeMod →
    ∀ (ops : List VecOp) (l : List Bytes) (d0 data : Bytes),
    runList p e S ops (List.replicate n (zeros S.size)) = .ok l → Vector.withLen p S.size n = .ok d0 →
    runVec p e S ops d0 = .ok data → Agrees p S.size data l

/-- C10. Missing: `with_len(n)` in wrapping builds with `n * size + 8 >= 2^64` (false: `C10_refuted`). -/
theorem C10_vector_refines_list_partial (p : Profile) (e : Endian) (S : StructDef) (hs : 0 < S.size)
    (hs' : S.size < 2 ^ 63) (n : Nat) (hn : p = .debug ∨ n * S.size + 8 < usizeMod) (ops : List VecOp) (l : List Bytes)
    (d0 data : Bytes) (hl : runList p e S ops (List.replicate n (zeros S.size)) = .ok l)
    (h0 : Vector.withLen p S.size n = .ok d0) (hv : runVec p e S ops d0 = .ok data) : Agrees p S.size data l := by
  have hfit : n * S.size + 8 < 2 ^ 63 := by
    unfold Vector.withLen Vector.calcSize at h0
    have hmul : n * S.size < usizeMod := by
      rcases hn with rfl | hn
      · apply Classical.byContradiction
        intro hc
        unfold umul at h0
        rw [if_neg hc] at h0; cases h0
      · omega
    rw [umul_ok hmul, Out.ok_bind] at h0
    have hadd : n * S.size + paddingSize < usizeMod := by
      rcases hn with rfl | hn
      · apply Classical.byContradiction
        intro hc
        unfold uadd at h0
        rw [if_neg hc] at h0; cases h0
      · exact hn
    rw [uadd_ok hadd, Out.ok_bind] at h0
    unfold alloc at h0
    by_cases hc : n * S.size + paddingSize < 2 ^ 63
    · exact hc
    · rw [if_neg hc] at h0; cases h0
  obtain ⟨d, h1, h2⟩ := withLen_rep (p := p) hfit
  rw [h1] at h0
  cases h0
  obtain ⟨h3, h4⟩ := runVec_safe hs hs' ops d0 data _ l h2 (by rw [h2.length]; simpa using hfit) hl hv
  exact h3.agrees hs h4

/-- Non-vacuity: the operations complete on the list and on the vector. -/
example : runList .debug .little Coappearances.Chapter [.grow [.set (.plain "major" .u8 0 4) 3], .reserve 7] [zeros 2] =
      .ok [zeros 2, [3#8, 0#8]] ∧ Vector.withLen .debug 2 1 = .ok (zeros 10) ∧
    runVec .debug .little Coappearances.Chapter [.grow [.set (.plain "major" .u8 0 4) 3], .reserve 7] (zeros 10) =
      .ok ([0#8, 0#8, 3#8, 0#8] ++ zeros 8) ∧
    Agrees .debug 2 ([0#8, 0#8, 3#8, 0#8] ++ zeros 8) [zeros 2, [3#8, 0#8]] :=
  ⟨by decide, by decide, by decide, C10_vector_refines_list_partial .debug .little Coappearances.Chapter (by decide) (by decide) 1 (.inl rfl)
    [.grow [.set (.plain "major" .u8 0 4) 3], .reserve 7] _ (zeros 10) _ (by decide) (by decide) (by decide)⟩

/-- Histories that fit in memory complete: no operation panics or touches foreign memory. -/
theorem C10_completes (p : Profile) (e : Endian) (S : StructDef) (hs : 0 < S.size) (n : Nat) (ops : List VecOp)
    (l : List Bytes) (hfit : FitsMem S.size ops n)
    (hl : runList p e S ops (List.replicate n (zeros S.size)) = .ok l) :
    ∃ d0 data, Vector.withLen p S.size n = .ok d0 ∧ runVec p e S ops d0 = .ok data ∧ Agrees p S.size data l := by
  obtain ⟨d0, h1, h2⟩ := withLen_rep (p := p) (FitsMem.bound _ _ hfit)
  obtain ⟨data, h3, h4, h5⟩ := runVec_spec hs ops d0 _ l h2 (by simpa using hfit) hl
  exact ⟨d0, data, h1, h3, h4.agrees hs h5⟩

/-- Reading a field through `at` on the vector gives the same as reading it from the list element. -/
theorem C10_fields (p : Profile) (e : Endian) (S : StructDef) (wf : WF S) (data : Bytes) (l : List Bytes)
    (h : Agrees p S.size data l) (i : Nat) (x : Bytes) (hi : l[i]? = some x) (hx : x.length = S.size) (f : Field)
    (hf : f ∈ S.fields) (hns : NoStraddle f.off f.bits) :
    ∃ r, Vector.at' p S.size data i = .ok r ∧ f.get p e r = f.get p e x := by
  obtain ⟨r, h1, h2⟩ := h.at' i x hi
  have hr : S.size ≤ r.length := by
    have := congrArg List.length h2
    rw [List.length_take] at this; omega
  refine ⟨r, h1, ?_⟩
  have ok := wf.field f hf
  have hin := ok.inside
  refine get_congr ok.pos ok.le (by omega) (by omega) hns ?_
  intro k _ hk
  rw [← h2, bitAt_take]
  simp [show k < 8 * S.size by omega]

/-- Non-vacuity: reading a field of the second element. -/
example (h : Agrees .debug 2 ([0#8, 0#8, 3#8, 0#8] ++ zeros 8) [zeros 2, [3#8, 0#8]]) :
    ∃ r, Vector.at' .debug 2 ([0#8, 0#8, 3#8, 0#8] ++ zeros 8) 1 = .ok r ∧ (Field.plain "major" .u8 0 4).get .debug .big r = .ok 3 :=
  C10_fields .debug .big Coappearances.Chapter (wf_of_plain (by decide) (by decide)) _ _ h 1 [3#8, 0#8] rfl rfl (.plain "major" .u8 0 4)
    (by decide) (by decide)

/-- False in full: without overflow checks `with_len(2^61)` of an 8-byte struct is an empty vector. -/
theorem C10_refuted : ¬ C10_claim := by
  intro h
  have := (h .release .little ⟨"A", 8, []⟩ (by decide) (by decide) (2 ^ 61) (by decide) [] _ (zeros 8) (zeros 8) rfl
    (by decide) rfl).len
  rw [List.length_replicate] at this
  revert this
  decide

/-- Non-vacuity: `with_len(1)`, grow, overwrite element 0, reserve. -/
example : ∃ d0 data, Vector.withLen .release 2 1 = .ok d0 ∧
    runVec .release .little Coappearances.Chapter [.grow [.set (.plain "major" .u8 0 4) 3], .reserve 7,
      .atMut 0 [.set (.plain "minor" .u8 4 7) 9]] d0 = .ok data ∧
    Agrees .release 2 data [[0x90#8, 0#8], [3#8, 0#8]] :=
  C10_completes .release .little Coappearances.Chapter (by decide) 1 _ _
    (by decide) (by decide)

/-! ## C11 -/

/-- C11 in full. -/
def C11_claim : Prop :=
  ∀ (p : Profile) (size : Nat) (data : Bytes) (l : List Bytes), 0 < size → Rep size data l → data.length < 2 ^ 63 →
    ∀ i, i < usizeMod → l.length ≤ i → Vector.at' p size data i = .panic ∧ Vector.atMut p size data i = .panic

/-- What the code detects in overflow-checked builds: exactly the indices beyond the padding. -/
theorem C11_exact_debug (size : Nat) (data : Bytes) (l : List Bytes) (h : Rep size data l)
    (i : Nat) (hd : data.length < 2 ^ 63) :
    (Vector.at' .debug size data i = .panic ↔ l.length * size + 8 < i * size) ∧
    (Vector.atMut .debug size data i = .panic ↔ l.length * size + 8 < i * size) := by
  have hlen := h.length
  unfold Vector.at' Vector.atMut sliceFrom
  by_cases hov : i * size < usizeMod
  · rw [umul_ok hov]
    simp only [Out.ok_bind, hlen]
    by_cases hle : i * size ≤ l.length * size + 8
    · simp only [if_pos hle, Out.ok_bind, reduceCtorEq, false_iff, Nat.not_lt]; exact ⟨hle, hle⟩
    · simp only [if_neg hle, Out.panic_bind, true_iff, Nat.not_le] at *; exact ⟨hle, hle⟩
  · have : umul .debug i size = .panic := by unfold umul; rw [if_neg hov]
    rw [this]
    simp only [Out.panic_bind, true_iff]
    unfold usizeMod at hov; omega

/-- Non-vacuity: with one element of two bytes, the indices 1 to 5 are not detected. -/
example : Vector.at' .debug 2 (zeros 10) 5 ≠ .panic ∧ Vector.at' .debug 2 (zeros 10) 6 = .panic :=
  have h := fun i => (C11_exact_debug 2 (zeros 10) [zeros 2] ⟨AllSize.single rfl, rfl⟩ i (by decide)).1
  ⟨fun hp => absurd ((h 5).mp hp) (by decide), (h 6).mpr (by decide)⟩

/-- C11 for indices beyond the 8 padding bytes (missing: indices that still point into the padding, see
`C11_exact_debug`, `C11_refuted`). -/
theorem C11_detected_partial (p : Profile) (size : Nat) (data : Bytes) (l : List Bytes) (h : Rep size data l) (i : Nat)
    (hp : p = .debug ∨ i * size < usizeMod) (hi : l.length * size + 8 < i * size) :
    Vector.at' p size data i = .panic ∧ Vector.atMut p size data i = .panic := by
  have hlen := h.length
  unfold Vector.at' Vector.atMut sliceFrom
  by_cases hov : i * size < usizeMod
  · rw [umul_ok hov]
    simp only [Out.ok_bind, hlen]
    rw [if_neg (by omega)]; exact ⟨rfl, rfl⟩
  · rcases hp with rfl | hp
    · have : umul .debug i size = .panic := by unfold umul; rw [if_neg hov]
      rw [this]; exact ⟨rfl, rfl⟩
    · exact absurd hp hov

/-- The consequence: for every struct larger than 8 bytes, writing a field of "element `len()`" through `at_mut` (safe
code) accesses memory outside the vector. -/
theorem C11_memory_unsafe (p : Profile) (e : Endian) (S : StructDef) (h8 : 8 < S.size) (data : Bytes) (l : List Bytes)
    (h : Rep S.size data l) (hd : data.length < 2 ^ 63) (f : Field) (v : Int) :
    VecOp.run p e S data (.atMut l.length [.set f v]) = .ub := by
  have hlen := h.length
  simp only [VecOp.run, Vector.atMut, sliceFrom]
  rw [umul_ok (by unfold usizeMod; omega), Out.ok_bind, if_pos (by omega)]
  simp only [Out.ok_bind, Vector.writeAt, runHandle, HandleOp.run, Field.set]
  rw [if_pos (by simp; omega)]
  rfl

/-- False in full: `at(0)` on an empty vector returns a reference. -/
theorem C11_refuted : ¬ C11_claim := by
  intro h
  have := (h .debug 2 (zeros 8) [] (by decide) ⟨AllSize.nil 2, rfl⟩ (by decide) 0 (by decide) (by decide)).1
  revert this; decide

/-- Writing through such a reference makes a later `grow` return an element that is not zero. -/
theorem C11_dirty_grow : ∃ data data' : Bytes,
    runVec .debug .little Coappearances.Chapter [.atMut 0 [.set (.plain "major" .u8 0 4) 3]] (zeros 8) = .ok data ∧
    Vector.grow .debug 2 data = .ok (data', 0) ∧ data'.take 2 = [3#8, 0#8] :=
  ⟨3#8 :: zeros 7, 3#8 :: zeros 9, by decide, by decide, by decide⟩

/-- Non-vacuity of `C11_detected_partial`: index 6 of a one-element vector of 2-byte structs. -/
example : Vector.at' .release 2 (zeros 10) 6 = .panic ∧ Vector.atMut .release 2 (zeros 10) 6 = .panic :=
  C11_detected_partial .release 2 (zeros 10) [zeros 2] ⟨AllSize.single rfl, rfl⟩ 6 (.inr (by decide)) (by decide)

/-- Non-vacuity of `C11_memory_unsafe`: an empty vector of 10-byte structs. -/
example : VecOp.run .release .little ⟨"A", 10, [.plain "a" .u8 0 8]⟩ (zeros 8) (.atMut 0 [.set (.plain "a" .u8 0 8) 1]) = .ub :=
  C11_memory_unsafe .release .little _ (by decide) (zeros 8) [] ⟨AllSize.nil _, rfl⟩ (by decide) _ 1

end Flatdata
