import Verif.Props.Errors
import Verif.Props.Vectors
import Verif.Proofs.Straddle
/-!
# C06, C10, C18 exactly

The theorems named `_partial` for these properties give sufficient conditions; here the conditions are shown to be necessary
too.
-/
namespace Flatdata
open Spec StorageExample

/-! ## C06 -/

theorem readInt_zeros {p : Profile} {e : Endian} {T : IntTy} {N o n : Nat} (hn : 1 ≤ n) (hT : n ≤ T.bits) (hn' : n ≤ 64)
    (hs : ¬ NoStraddle o n) (hlen : 2 * (o / 8) + 8 < N) : readInt p e T (List.replicate N 0#8) o n = .ok 0 := by
  have hw := straddle_iff.mp hs
  have hnb8 : numBytes o n = 8 := numBytes_wide hw.1 hn'
  have hword : ((List.replicate N 0#8).drop (o / 8)).take 8 = List.replicate 8 0#8 := by
    rw [List.drop_replicate, List.take_replicate, Nat.min_eq_left (by omega)]
  have hz : fromLe e (copyIntoZeroU64 e (List.replicate 8 0#8)) = 0#64 := by cases e <;> decide
  have hm : masked 0#64 n = 0#64 := by unfold masked; split <;> simp
  unfold readInt
  rw [if_neg (show n ≠ 1 by omega)]
  simp only [hnb8]
  rw [if_neg (by rw [List.length_replicate]; omega), if_pos (by omega), List.getElem?_replicate_of_lt (by omega), hword, hz]
  simp only [BitVec.zero_ushiftRight, BitVec.setWidth_zero, BitVec.zero_shiftLeft, BitVec.or_self, hm]
  exact extendSign_small hn hT (by simpa using Nat.pow_pos (by omega))

/-- C06 exactly: a field of a new struct buffer reads as zero if and only if zero is one of its values and, for a field that needs a ninth byte,
the byte that is read instead is inside the buffer. -/
theorem C06_structbuf_exact (p : Profile) (e : Endian) (S : StructDef) (wf : WF S) (f : Field) (hf : f ∈ S.fields) :
    f.get p e (StructBuf.get (StructBuf.new S)) = .ok 0 ↔ ZeroOK f ∧ (NoStraddle f.off f.bits ∨ 2 * (f.off / 8) < S.size) := by
  have ok := wf.field f hf
  have hle := ok.le
  have hpos := ok.pos
  have hin := ok.inside
  have hb := f.ty.bits_cases
  have tr : f.transmute 0 = .ok 0 ↔ ZeroOK f := by
    unfold Field.transmute ZeroOK
    cases h : f.variants with
    | none => exact ⟨fun _ l hl => (by cases hl), fun _ => rfl⟩
    | some l =>
      constructor
      · intro h' l' hl
        cases hl
        apply Classical.byContradiction
        intro hc
        simp only [if_neg hc] at h'
        cases h'
      · intro h'
        simp only [if_pos (h' l rfl)]
  by_cases hs : NoStraddle f.off f.bits
  · have hraw : fieldRaw (StructBuf.get (StructBuf.new S)) f.off f.bits = 0 := by
      apply fieldRaw_eq_of_testBit (Nat.pow_pos (by omega))
      intro i hi
      unfold StructBuf.get StructBuf.new
      rw [bitAt_replicate_zero]
      simp
    have hl : (StructBuf.get (StructBuf.new S)).length = S.size + 8 := by simp [StructBuf.get, StructBuf.new, paddingSize]
    rw [get_eq hpos hle (by omega) hs, hraw, codeDecode_zero, tr]
    exact ⟨fun h => ⟨h, .inl hs⟩, fun h => h.1⟩
  · have hread : ∀ mem, readBytes p e f.ty mem f.off f.bits = readInt p e f.ty mem f.off f.bits := by
      intro mem
      rcases straddle_ty hle hs with hT | hT <;> rw [hT] <;> rfl
    unfold Field.get
    rw [hread]
    have hp : paddingSize = 8 := rfl
    by_cases hlt : 2 * (f.off / 8) < S.size
    · have h1 : readInt p e f.ty (StructBuf.get (StructBuf.new S)) f.off f.bits = .ok 0 := readInt_zeros hpos hle (by omega) hs (by omega)
      rw [h1, Out.ok_bind, tr]
      exact ⟨fun h => ⟨h, .inr hlt⟩, fun h => h.1⟩
    · have hl : (StructBuf.get (StructBuf.new S)).length = S.size + 8 := by simp [StructBuf.get, StructBuf.new, paddingSize]
      rw [readInt_straddle_ub (by omega) (by omega) hs (by omega)]
      refine ⟨fun h => (by cases h), fun h => ?_⟩
      rcases h.2 with h | h
      · exact absurd h hs
      · exact absurd h hlt

/-- Non-vacuity, both ways: a field that needs a ninth byte near the beginning of its struct, and near its end. -/
example : (Field.plain "b" .u64 65 64).get .debug .little (StructBuf.get (StructBuf.new ⟨"B", 30, [.plain "b" .u64 65 64]⟩)) = .ok 0 ∧
    (Field.plain "b" .u64 161 64).get .debug .little (StructBuf.get (StructBuf.new ⟨"B", 30, [.plain "b" .u64 161 64]⟩)) ≠ .ok 0 :=
  ⟨(C06_structbuf_exact .debug .little ⟨"B", 30, [.plain "b" .u64 65 64]⟩ (wf_of_plain (by decide) (by decide)) _ (by simp)).mpr
      ⟨fun l hl => (by cases hl), .inr (by decide)⟩,
    fun h => absurd ((C06_structbuf_exact .debug .little ⟨"B", 30, [.plain "b" .u64 161 64]⟩ (wf_of_plain (by decide) (by decide)) _ (by simp)).mp h).2
      (by decide)⟩

/-! ## C10 -/

theorem runVec_bounded {p : Profile} {e : Endian} {S : StructDef} : ∀ (ops : List VecOp) (data data' : Bytes), data.length < 2 ^ 63 →
    runVec p e S ops data = .ok data' → data'.length < 2 ^ 63
  | [], _, _, h, hr => by cases hr; exact h
  | op :: ops, data, data', h, hr => by
    have wa : ∀ {d d' : Bytes} {pos : Nat} {w : List HandleOp}, Vector.writeAt p e S d pos w = .ok d' → d'.length = d.length := by
      intro d d' pos w h
      unfold Vector.writeAt at h
      obtain ⟨m, h1, h2⟩ := Out.bind_eq_ok.mp h
      cases h2
      have := runHandle_length _ _ _ h1
      simp only [List.length_append, List.length_take, List.length_drop] at this ⊢
      omega
    simp only [runVec, Out.bind_eq_ok] at hr
    obtain ⟨d1, h1, hr⟩ := hr
    refine runVec_bounded ops d1 data' ?_ hr
    cases op with
    | grow w =>
      simp only [VecOp.run, Out.bind_eq_ok] at h1
      obtain ⟨r, hg, h1⟩ := h1
      rw [wa h1]
      simp only [Vector.grow, Out.bind_eq_ok] at hg
      obtain ⟨n, _, _, ha, l, _, i, _, q, _, _, _, hg⟩ := hg
      cases hg
      unfold alloc at ha
      split at ha
      · rename_i hlt
        simp only [resize0, List.length_append, List.length_take, List.length_replicate]
        omega
      · cases ha
    | reserve k =>
      simp only [VecOp.run, Vector.reserve, Out.bind_eq_ok] at h1
      obtain ⟨_, _, _, _, _, _, _, _, _, _, _, _, h1⟩ := h1
      cases h1
      exact h
    | atMut i w =>
      simp only [VecOp.run, Out.bind_eq_ok] at h1
      obtain ⟨_, _, h1⟩ := h1
      rw [wa h1]
      exact h

theorem runList_keeps {p : Profile} {e : Endian} {S : StructDef} : ∀ (ops : List VecOp) (l l' : List Bytes), (∀ x ∈ l, x.length = S.size) →
    runList p e S ops l = .ok l' → (∀ x ∈ l', x.length = S.size) ∧ l.length ≤ l'.length
  | [], _, _, h, hr => by cases hr; exact ⟨h, Nat.le_refl _⟩
  | op :: ops, l, l', h, hr => by
    simp only [runList, Out.bind_eq_ok] at hr
    obtain ⟨l1, h1, hr⟩ := hr
    have key : (∀ x ∈ l1, x.length = S.size) ∧ l.length ≤ l1.length := by
      cases op with
      | grow w =>
        simp only [listOp, Out.bind_eq_ok] at h1
        obtain ⟨x, hx, h1⟩ := h1
        cases h1
        refine ⟨fun y hy => ?_, by simp⟩
        rcases List.mem_append.mp hy with hy | hy
        · exact h y hy
        · rw [List.mem_singleton.mp hy, runHandle_length _ _ _ hx]
          simp [zeros]
      | reserve k => cases h1; exact ⟨h, Nat.le_refl _⟩
      | atMut i w =>
        simp only [listOp] at h1
        cases hi : l[i]? with
        | none => rw [hi] at h1; cases h1
        | some x =>
          rw [hi] at h1
          simp only [Out.bind_eq_ok] at h1
          obtain ⟨y, hy, h1⟩ := h1
          cases h1
          refine ⟨fun z hz => ?_, by simp⟩
          rcases List.mem_or_eq_of_mem_set hz with hz | rfl
          · exact h z hz
          · rw [runHandle_length _ _ _ hy]
            exact h x (List.mem_of_getElem? hi)
    obtain ⟨k1, k2⟩ := runList_keeps ops l1 l' key.1 hr
    exact ⟨k1, Nat.le_trans key.2 k2⟩

/-- C10 exactly: a history that completes on the vector and on the list ends with the two agreeing if and only if the number of bytes of
`with_len(n)` has not wrapped around. -/
theorem C10_exact (p : Profile) (e : Endian) (S : StructDef) (hs : 0 < S.size) (hs' : S.size < 2 ^ 63) (n : Nat) (ops : List VecOp)
    (l : List Bytes) (d0 data : Bytes) (hl : runList p e S ops (List.replicate n (zeros S.size)) = .ok l)
    (h0 : Vector.withLen p S.size n = .ok d0) (hv : runVec p e S ops d0 = .ok data) :
    Agrees p S.size data l ↔ n * S.size + 8 < usizeMod := by
  constructor
  · intro h
    have hd0 : d0.length < 2 ^ 63 := by
      simp only [Vector.withLen, Out.bind_eq_ok] at h0
      obtain ⟨m, _, _, ha, h0⟩ := h0
      cases h0
      unfold alloc at ha
      split at ha
      · simpa using ‹m < 2 ^ 63›
      · cases ha
    have hd := runVec_bounded ops d0 data hd0 hv
    obtain ⟨k1, k2⟩ := runList_keeps ops _ l (fun x hx => by rw [List.eq_of_mem_replicate hx]; simp [zeros]) hl
    have hb := h.bytes
    unfold Vector.asBytes at hb
    obtain ⟨m, _, hb⟩ := Out.bind_eq_ok.mp hb
    unfold sliceRange at hb
    split at hb
    · rename_i hm
      have hlen := congrArg (fun r : Out Bytes => match r with | .ok x => x.length | _ => 0) hb
      simp only [List.drop_zero, List.length_take] at hlen
      have hf : l.flatten.length = l.length * S.size := AllSize.length_flatten k1
      rw [hf] at hlen
      rw [List.length_replicate] at k2
      have := Nat.mul_le_mul_right S.size k2
      unfold usizeMod
      omega
    · cases hb
  · intro h
    exact C10_vector_refines_list_partial p e S hs hs' n (.inr h) ops l d0 data hl h0 hv

/-- Non-vacuity, both ways: an overflow in a wrapping build, and none. -/
example : ¬ Agrees .release 8 (zeros 8) (List.replicate (2 ^ 61) (zeros 8)) ∧ Agrees .release 8 (zeros 16) [zeros 8] :=
  ⟨fun h => absurd ((C10_exact .release .little ⟨"A", 8, []⟩ (by decide) (by decide) (2 ^ 61) [] _ (zeros 8) (zeros 8) rfl (by decide) rfl).mp h)
      (by decide),
    (C10_exact .release .little ⟨"A", 8, []⟩ (by decide) (by decide) 1 [] _ (zeros 16) (zeros 16) rfl (by decide) rfl).mpr (by decide)⟩

/-! ## C18 -/

/-- C18 exactly: another schema is reported as such if and only if the storage can read it at all, that is, always in memory, and on disk if
it is not empty. -/
theorem C18_exact [DiffLib] (k : Kind) (p : Profile) (e : Endian) (w : k.backend.W) (o : k.backend.Obj)
    (name expected found : String) (d x : Bytes) (hr : k.Reachable w) (ho : k.alive w o) (hn : k.noFault w) (hl : d.length < 2 ^ 63)
    (hd : k.stored w o name = some d) (hx : Holds d x) (hc : k.stored w o (name ++ ".schema") = some (strBytes found))
    (ud : k.unread w o name) (uc : k.unread w o (name ++ ".schema")) (hne : found ≠ expected) :
    (∃ diff w', Storage.read k.backend p e o name expected w = (.err (.wrongSignature name diff), w') ∧
      diffLeft diff = DiffLib.linesOf found ∧ diffRight diff = DiffLib.linesOf expected) ↔ k.mappable (strBytes found) := by
  constructor
  · rintro ⟨diff, w', h, _, _⟩
    have cur : ∀ n, k.unread w o n → k.current w o n := by
      intro n hu
      rw [Kind.unread_iff] at hu
      rw [Kind.current_iff]
      intro s hs
      rw [hu] at hs
      cases hs
    cases C49_read_partial k p e w w' o name expected _ hr ho hn (cur _ ud) (cur _ uc) h with
    | schema d' x' found' diff' hd' hc' =>
      have := hc'.1
      rw [hc] at this
      rw [Option.some.inj this]
      exact hc'.2
  · intro mc
    exact C18_wrong_signature_partial k p e w o name expected found d x hn hl hd hx hc mc ud uc hne

/-- Non-vacuity, both ways: the schemas `s` and the empty one on disk. -/
example [DiffLib] : (∃ diff w', Storage.read file .debug .little objD "x" "t" disk1 = (.err (.wrongSignature "x" diff), w') ∧
      diffLeft diff = DiffLib.linesOf "s" ∧ diffRight diff = DiffLib.linesOf "t") ∧
    ¬ ∃ diff w', Storage.read file .debug .little objD "x" "t" (disk0 [([['d'], ['x']], image [7#8]), ([['d'], "x.schema".toList], [])]) =
        (.err (.wrongSignature "x" diff), w') ∧ diffLeft diff = DiffLib.linesOf "" ∧ diffRight diff = DiffLib.linesOf "t" :=
  ⟨(C18_exact .disk .debug .little disk1 objD "x" "t" "s" (image [7#8]) [7#8] (disk0_reachable _ _) Nat.zero_lt_one (disk0_noFault _) (by decide)
      (by decide +kernel) (holds_image _ (by decide)) (by decide +kernel) rfl rfl (by decide)).mpr (by change strBytes "s" ≠ []; decide),
    fun h => (C18_exact .disk .debug .little _ objD "x" "t" "" (image [7#8]) [7#8] (disk0_reachable _ _) Nat.zero_lt_one (disk0_noFault _) (by decide)
      (by decide +kernel) (holds_image _ (by decide)) (by decide +kernel) rfl rfl (by decide)).mp h rfl⟩

end Flatdata
