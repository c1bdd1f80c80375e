import Verif.Props.ExtVectors
/-!
# Properties C23, C24, C25 for external vectors: closing, buffering, dropping
-/
namespace Flatdata
open Spec StorageExample VecExample

/-! ## C23: failures on close -/

/-- C23 in full, for external vectors: closing a vector returns, whatever I/O fails. -/
def C23_extvec_claim : Prop :=
  ∀ (_ : DiffLib) (k : Kind) (p : Profile) (e : Endian) (S : StructDef) (w0 w w1 : k.backend.W) (o : k.backend.Obj)
    (name schema : String) (v v1 : ExtVec k.backend) (es : List (List HandleOp)), 0 < S.size → k.Unused w0 o name →
    createExternalVector p e o name schema w0 = (.ok v, w) → Grows k p e S o name w v es w1 v1 → es.length * S.size + 8 < 2 ^ 63 →
    (∃ s w2, v1.close p e w1 = (.ok s, w2)) ∨ ∃ x w2, v1.close p e w1 = (.err x, w2)

/-- Disk full while the padding is written: `close` panics instead of returning the error. -/
theorem C23_extvec_refuted : ¬ C23_extvec_claim := by
  intro h
  let w0 := disk0 [] fun t => if t = 7 then some 0 else none
  have hb : (build (B := file) objD es w0).1.isOk = true := by decide
  obtain ⟨v1, w1, hb⟩ := isOk_run hb
  obtain ⟨v, w, hc, g⟩ := build_grows (k := .disk) hb
  have hr := h naiveDiff .disk .debug .little S w0 w w1 objD "x" "s" v v1 es (by decide) (unused_disk0 ..) hc g (by decide)
  have hp : ((do let v ← (build (B := file) objD es).mapErr (RErr.io · "x")
                 @ExtVec.close file .debug .little naiveDiff v : Act FileW RErr _) w0).1.isPanic = true := by decide
  rw [Act.bind_ok (Act.mapErr_ok hb)] at hp
  rcases hr with ⟨_, _, hr⟩ | ⟨_, _, hr⟩ <;> rw [hr] at hp <;> cases hp

/-- What happens instead. `close` never exhibits undefined behaviour. It panics only if some I/O call fails. An error
is returned only if everything has been written and the size field is final: it comes from reading the resource back. -/
theorem C23_extvec_partial [DiffLib] (k : Kind) (p : Profile) (e : Endian) (S : StructDef) (hs : 0 < S.size) (w0 w w1 w2 : k.backend.W)
    (o : k.backend.Obj) (name schema : String) (v v1 : ExtVec k.backend) (es : List (List HandleOp)) (r : Res RErr (Slice k.backend.Base))
    (hu : k.Unused w0 o name) (hc : createExternalVector p e o name schema w0 = (.ok v, w))
    (g : Grows k p e S o name w v es w1 v1) (hb : es.length * S.size + 8 < 2 ^ 63) (hcl : v1.close p e w1 = (r, w2)) :
    r ≠ .ub ∧ (r = .panic → ¬ k.noFault w1) ∧
    (∀ x, r = .err x → ∃ xs c, Elements p e S es xs ∧ xs.flatten.length ≤ c.length ∧ (c.length = xs.flatten.length → c = xs.flatten) ∧
      k.stored w2 o name = some (le64 xs.flatten.length ++ c ++ zeros 8)) := by
  obtain ⟨i, u, n⟩ := created_inv S.size hu hc
  obtain ⟨pre, buf, c, i1, el, u1, nf, _⟩ := grows_inv i u hs g hb
  obtain ⟨r, w2', h2, cl, _⟩ := i1.close u1 (k.loc_schema_ne o name) p e (by rw [← el.length_eq]; omega)
  rw [hcl] at h2; cases h2
  cases cl with
  | failed nf => exact ⟨by simp, fun _ h => nf ((k.noFault_iff _).mp h), by simp⟩
  | unread x c' h1 h2 h3 _ =>
    exact ⟨by simp, by simp, fun _ _ => ⟨_, c', el, h1, h2, (k.stored_eq ..).trans h3⟩⟩
  | ok s => exact ⟨by simp, by simp, by simp⟩

/-- The file cannot be opened for reading after the vector was written: this is returned as an error. -/
example : (do let v ← (build (B := file) objD es).mapErr (RErr.io · "x")
              @ExtVec.close file .debug .little naiveDiff v : Act FileW RErr _)
    (disk0 [] fun t => if t = 11 then some 0 else none) |>.1.isErr = true := by decide

/-! ## C24: bounded buffer -/

theorem uadd_le {p : Profile} {a b n : Nat} (h : uadd p a b = .ok n) : n ≤ a + b := by
  unfold uadd at h
  split at h
  · cases h; exact Nat.le_refl _
  · cases p <;> cases h
    exact Nat.mod_le _ _

theorem Vector.writeAt_length {p : Profile} {e : Endian} {S : StructDef} {data d : Bytes} {pos : Nat} {ops : List HandleOp}
    (h : Vector.writeAt p e S data pos ops = .ok d) : d.length = data.length := by
  unfold Vector.writeAt at h
  cases hr : runHandle p e S ops (data.drop pos) with
  | ok m =>
    rw [hr] at h; cases h
    have := runHandle_length _ _ _ hr
    rw [List.length_append, List.length_take, this, List.length_drop]; omega
  | panic => rw [hr] at h; cases h
  | ub => rw [hr] at h; cases h

/-- The buffer of an external vector never exceeds 32 MiB and one element, whatever happens. -/
theorem C24_extvec (k : Kind) (p : Profile) (e : Endian) (S : StructDef) (o : k.backend.Obj) (name schema : String)
    (w0 w w1 : k.backend.W) (v v1 : ExtVec k.backend) (es : List (List HandleOp))
    (hc : createExternalVector p e o name schema w0 = (.ok v, w)) (g : Grows k p e S o name w v es w1 v1) :
    v1.data.length ≤ 32 * 1024 * 1024 + S.size := by
  have hlim : bufferLimit = 32 * 1024 * 1024 := by decide
  induction g with
  | start =>
    unfold createExternalVector at hc
    obtain ⟨_, _, _, hc⟩ := Act.bind_eq_ok hc
    obtain ⟨_, _, _, hc⟩ := Act.bind_eq_ok hc
    obtain ⟨_, _, _, hc⟩ := Act.bind_eq_ok hc
    obtain ⟨_, _, _, hc⟩ := Act.bind_eq_ok hc
    cases hc
    change (List.replicate 8 0#8).length ≤ _
    rw [List.length_replicate]; omega
  | @grow es w1 v1 v2 pos w2 ops d g h hw ih =>
    unfold ExtVec.grow at h
    obtain ⟨v3, w3, h3, h⟩ := Act.bind_eq_ok h
    obtain ⟨n, w4, h4, h⟩ := Act.bind_eq_ok h
    obtain ⟨_, _, _, h⟩ := Act.bind_eq_ok h
    obtain ⟨_, _, _, h⟩ := Act.bind_eq_ok h
    obtain ⟨_, _, _, h⟩ := Act.bind_eq_ok h
    obtain ⟨_, _, _, h⟩ := Act.bind_eq_ok h
    cases h
    have hn := uadd_le (Act.lift_eq_ok h4).1
    have h5 : v3.data.length ≤ bufferLimit := by
      unfold ExtVec.flushIfFull at h3
      split at h3
      · unfold ExtVec.flush at h3
        obtain ⟨_, _, _, h3⟩ := Act.bind_eq_ok h3
        obtain ⟨_, _, _, h3⟩ := Act.bind_eq_ok h3
        obtain ⟨_, _, _, h3⟩ := Act.bind_eq_ok h3
        cases h3
        change (List.replicate 8 0#8).length ≤ _
        rw [List.length_replicate]; decide
      · cases h3; omega
    have hl := Vector.writeAt_length hw
    change d.length ≤ _
    rw [hl]
    change (resize0 v3.data n).length ≤ _
    unfold resize0
    rw [List.length_append, List.length_take, List.length_replicate]; omega
  | failed _ _ ih => exact ih
  | other _ _ ih => exact ih
  | elsewhere _ _ _ _ ih => exact ih

/-- While the buffer is not full, `grow` performs no I/O and does not fail. -/
theorem grow_small {B : Backend} {p : Profile} {size : Nat} {v : ExtVec B} {w : B.W} (h : v.data.length ≤ bufferLimit) :
    (v.grow p size w).2 = w ∧ ∀ x, (v.grow p size w).1 ≠ .err x := by
  unfold ExtVec.grow ExtVec.flushIfFull
  rw [if_neg (by omega)]
  have lw : ∀ {α β : Type} (x : Out α) (f : α → Act B.W IoErr β), (∀ a, (f a w).2 = w ∧ ∀ x, (f a w).1 ≠ .err x) →
      ((Act.lift x >>= f) w).2 = w ∧ ∀ y, ((Act.lift x >>= f) w).1 ≠ .err y := by
    intro α β x f hf
    cases x with
    | ok a => exact hf a
    | panic => exact ⟨rfl, fun _ h => by cases h⟩
    | ub => exact ⟨rfl, fun _ h => by cases h⟩
  apply lw; intro n
  apply lw; intro _
  apply lw; intro len
  apply lw; intro pos
  apply lw; intro _
  exact ⟨rfl, fun _ h => by cases h⟩

/-! ### Example: a vector that is flushed, with a failure in between -/

namespace VecExample

/-- Elements of 32 MiB. -/
def Big : StructDef := ⟨"Big", 2 ^ 25, []⟩

/-- The seventh system call fails without effect. -/
def faulty : FileW := disk0 [] fun t => if t = 6 then some 0 else none

end VecExample

theorem writeAt_nil {p : Profile} {e : Endian} {S : StructDef} {d : Bytes} {pos : Nat} : Vector.writeAt p e S d pos [] = .ok d := by
  unfold Vector.writeAt
  change Out.ok (d.take pos ++ d.drop pos) = _
  rw [List.take_append_drop]

/-- Three `grow`s, of which the second fails while it flushes the buffer: `close` shows two elements, more bytes than the
buffer ever held. -/
theorem VecExample.retry_any [DiffLib] (Big : StructDef) (hS : Big.size = 2 ^ 25) : ∃ v w v1 w1 s w2, createExternalVector (B := file) .debug .little objD "x" "s" faulty = (.ok v, w) ∧
    Grows .disk .debug .little Big objD "x" w v [[], []] w1 v1 ∧
    (∃ va wa x wb, Grows .disk .debug .little Big objD "x" w v [[]] wa va ∧ va.grow .debug Big.size wa = (.err x, wb)) ∧
    v1.close .debug .little w1 = (.ok s, w2) ∧ v1.data.length ≤ bufferLimit + Big.size ∧
    Kind.stored .disk w2 objD "x" = some (image (zeros Big.size ++ zeros Big.size)) := by
  have hs : 0 < Big.size := by rw [hS]; omega
  have hbig : ∀ n, n ≤ 2 → n * Big.size + 8 < 2 ^ 63 := by intro n hn; rw [hS]; omega
  have hne := Kind.loc_schema_ne .disk objD "x"
  have h0 : (createExternalVector (B := file) .debug .little objD "x" "s" faulty).1.isOk = true := by decide
  have ht : (createExternalVector (B := file) .debug .little objD "x" "s" faulty).2.fs.tick = 6 := by decide
  have hf : (createExternalVector (B := file) .debug .little objD "x" "s" faulty).2.fs.fault = faulty.fs.fault := rfl
  obtain ⟨v, w, hc⟩ := isOk_run h0
  rw [hc] at ht hf
  change w.fs.tick = 6 at ht
  change w.fs.fault = _ at hf
  obtain ⟨i, u, _⟩ := created_inv (k := .disk) Big.size (unused_disk0 _ _ _) hc
  have g0 : Grows .disk .debug .little Big objD "x" w v [] w v := .start
  -- the first element is buffered
  have hl0 : v.data.length = 8 := by rw [i.rep.eq]; rfl
  have sm := grow_small (B := file) (p := .debug) (size := Big.size) (v := v) (w := w) (by rw [hl0]; decide)
  rcases i.grow hne .debug hs (hbig _ (by simp only [List.length_append, List.length_cons, List.length_nil]; omega)) with ⟨va, pos, wa, pre, buf, c, h1, i1, e1, hpos, hcl, _⟩ | ⟨_, _, _, h1, _⟩
  rotate_left
  · exact absurd (by rw [h1]) (sm.2 _)
  obtain rfl : wa = w := by have := sm.1; rw [h1] at this; exact this
  have epb : pre = [] ∧ buf = [] := by simpa using e1
  obtain ⟨rfl, rfl⟩ := epb
  have ec : c = [] := hcl rfl
  subst ec
  have ga : Grows .disk .debug .little Big objD "x" wa v [[]] wa va := .grow g0 h1 (writeAt_nil (d := va.data))
  have hla : va.data.length = 2 ^ 25 + 8 := by
    rw [i1.rep.eq, List.length_append, List.nil_append, List.flatten_cons, List.flatten_nil, List.append_nil]
    unfold zeros
    rw [List.length_replicate, List.length_replicate, hS]
  -- the second `grow` fails
  obtain ⟨st, hst, ap⟩ := i1.writing.stream
  have hfl : ∃ d, va.grow .debug Big.size wa = (.err .other, (FileSt.writeAll st d wa).2) ∧
      (FileSt.writeAll st d wa).1 = .err .other := by
    have hwr : ∀ d, (FileSt.writeAll st d wa).1 = .err .other := by
      intro d
      unfold FileSt.writeAll FileSt.syscall
      rw [ht, hf]; rfl
    refine ⟨va.data.take (va.data.length - 8), ?_, hwr _⟩
    unfold ExtVec.grow ExtVec.flushIfFull
    rw [if_pos (by rw [hla]; decide)]
    apply Act.bind_err
    unfold ExtVec.flush
    have hu : usub .debug va.data.length paddingSize = .ok (va.data.length - 8) := by
      unfold usub; rw [paddingSize_eq, if_pos (by omega)]
    have hsl : sliceRange va.data 0 (va.data.length - 8) = .ok (va.data.take (va.data.length - 8)) := by
      unfold sliceRange; rw [if_pos (by omega)]; rfl
    rw [hu, Act.bind_ok (show (Act.lift (Out.ok (va.data.length - 8)) : Act FileW IoErr Nat) wa = (.ok _, wa) from rfl), hsl,
      Act.bind_ok (show (Act.lift (Out.ok (va.data.take (va.data.length - 8))) : Act FileW IoErr Bytes) wa = (.ok _, wa) from rfl)]
    apply Act.bind_err
    unfold Handle.write
    rw [hst]
    apply Act.bind_err
    exact Prod.ext (hwr _) rfl
  obtain ⟨d, hfl, hwr⟩ := hfl
  rcases i1.grow hne .debug hs (hbig _ (by simp only [List.length_append, List.length_cons, List.length_nil]; omega)) with ⟨_, _, _, _, _, _, h2, _⟩ | ⟨x, d', wb, h2, i2, o2, _⟩
  · rw [hfl] at h2; cases h2
  have gb : Grows .disk .debug .little Big objD "x" wa v [[]] wb va := .failed ga h2
  rw [hfl] at h2
  have hwb : (FileSt.writeAll st d wa).2 = wb := congrArg Prod.snd h2
  have hd' : d' = [] := by
    obtain ⟨st', hst', ap'⟩ := i2.writing.stream
    have hm := ap'.medium
    have hw : wb.fs.files (key (join objD.path "x")) = some (le64 0) := by
      rw [← hwb]
      unfold FileSt.writeAll FileSt.syscall
      rw [ht, hf]
      change upd wa.fs.files (wa.fs.fds st).1 ((wa.fs.files (wa.fs.fds st).1).map (putAt · (wa.fs.fds st).2 (d.take 0))) _ = _
      have hloc : (wa.fs.fds st).1 = key (join objD.path "x") := ap.sloc
      have hmed : wa.fs.files (key (join objD.path "x")) = some (le64 0 ++ []) := ap.medium
      have hpo : (wa.fs.fds st).2 = (le64 0 ++ []).length := ap.pos
      rw [hloc, upd_same, hmed, hpo, List.take_zero]
      decide
    have : some (le64 0 ++ ([] ++ d')) = some (le64 0) := hm.symm.trans hw
    have := congrArg List.length (Option.some.inj this)
    simp only [List.length_append] at this
    exact List.length_eq_zero_iff.mp (by simpa using this)
  subst hd'
  have nfb : Kind.noFault .disk wb := by
    rw [← hwb]
    unfold FileSt.writeAll FileSt.syscall
    rw [ht, hf]
    intro t htk
    change 6 + 1 ≤ t at htk
    change wa.fs.fault t = none
    rw [hf]
    change (if t = 6 then some 0 else none) = none
    rw [if_neg (by omega)]
  -- the third one succeeds
  rcases i2.grow hne .debug hs (hbig _ (by simp only [List.length_append, List.length_cons, List.length_nil]; omega)) with ⟨vc, pos, wc, pre, buf, c, h3, i3, e3, hpos, hcl, hlen, _, o3⟩ | ⟨_, _, _, _, _, _, nf⟩
  rotate_left
  · exact absurd nfb nf
  have gc : Grows .disk .debug .little Big objD "x" wa v [[], []] wc vc := .grow gb h3 (writeAt_nil (d := vc.data))
  have nfc : Kind.noFault .disk wc := o3.noFault nfb
  obtain ⟨r, wd, h4, cl, _⟩ := i3.close ((u.only o2).only o3) hne .debug .little (by
    have := hbig 2 (by omega)
    rw [← List.append_assoc, e3]
    simp only [List.length_append, List.length_cons, List.length_nil]; omega)
  cases cl with
  | failed nf => exact absurd nfc nf
  | unread x c' _ _ _ nf =>
    exact absurd nfc (nf (hcl rfl) (by change strBytes "s" ≠ []; decide))
  | ok s hm hd hr =>
    refine ⟨v, wa, vc, wc, s, wd, hc, gc, ⟨va, wa, _, wb, ga, by rw [hfl, h2]⟩, h4, hlen, ?_⟩
    rw [Kind.stored_eq]
    refine hm.trans ?_
    rw [← List.append_assoc, e3]
    simp only [List.nil_append, List.cons_append, List.flatten_cons, List.flatten_nil, List.append_nil]

/-- Three `grow`s, of which the second fails while it flushes the buffer: `close` shows two elements, more bytes than the
buffer ever held. -/
theorem VecExample.retry [DiffLib] : ∃ v w v1 w1 s w2, createExternalVector (B := file) .debug .little objD "x" "s" faulty = (.ok v, w) ∧
    Grows .disk .debug .little Big objD "x" w v [[], []] w1 v1 ∧
    (∃ va wa x wb, Grows .disk .debug .little Big objD "x" w v [[]] wa va ∧ va.grow .debug Big.size wa = (.err x, wb)) ∧
    v1.close .debug .little w1 = (.ok s, w2) ∧ v1.data.length ≤ bufferLimit + Big.size ∧
    Kind.stored .disk w2 objD "x" = some (image (zeros Big.size ++ zeros Big.size)) :=
  retry_any Big rfl

/-- C22 and C24 for this history. -/
example [DiffLib] : ∃ v w v1 w1 s w2, createExternalVector (B := file) .debug .little objD "x" "s" faulty = (.ok v, w) ∧
    Grows .disk .debug .little Big objD "x" w v [[], []] w1 v1 ∧ v1.close .debug .little w1 = (.ok s, w2) ∧ v1.len = 2 ∧
    v1.data.length ≤ 32 * 1024 * 1024 + Big.size ∧ ∃ xs : List Bytes, xs.length = 2 ∧ file.deref w2 s = .ok xs.flatten := by
  obtain ⟨v, w, v1, w1, s, w2, hc, g, _, hcl, _, _⟩ := retry
  obtain ⟨h1, xs, el, h2, _⟩ := C22_faults .disk .debug .little Big (by decide) faulty w w1 w2 objD "x" "s" v v1 [[], []] s
    (unused_disk0 ..) hc g (by decide) hcl
  exact ⟨v, w, v1, w1, s, w2, hc, g, hcl, h1, C24_extvec .disk _ _ _ _ _ _ _ _ _ _ _ _ hc g, xs, el.length_eq.symm, h2⟩

/-! ## C25: dropping -/

/-- C25 in full, for handles and external vectors. -/
def C25_claim : Prop :=
  ∀ (_ : DiffLib) (k : Kind) (p : Profile) (e : Endian) (size : Nat) (v : ExtVec k.backend) (w : k.backend.W), 8 ≤ v.data.length →
    if v.isOpen then (v.drop : Act k.backend.W Empty Unit) w = (.panic, w)
    else (v.drop : Act k.backend.W Empty Unit) w = (.ok (), w) ∧ (∃ x, v.grow p size w = (.err x, w)) ∧
      ∃ x, v.close p e w = (.err x, w)

/-- A vector whose handle is closed (one made with `ExternalVector::new`) still accepts elements until its buffer is full. -/
theorem C25_refuted : ¬ C25_claim := by
  intro h
  have := h naiveDiff .memory .debug .little 8 (ExtVec.new ⟨none, 0, obj, "x", "s"⟩) mem0 (by decide)
  obtain ⟨_, ⟨x, hx⟩, _⟩ := this
  have h1 : (ExtVec.grow (B := mem) .debug 8 (ExtVec.new ⟨none, 0, obj, "x", "s"⟩) mem0).1.isOk = true := by decide
  rw [hx] at h1; cases h1

/-- Dropping: an open handle or vector panics, a closed one does nothing. -/
theorem C25_drop_exact (B : Backend) (v : ExtVec B) (w : B.W) :
    (v.drop : Act B.W Empty Unit) w = (if v.isOpen then .panic else .ok (), w) := by
  unfold ExtVec.drop ExtVec.isOpen Handle.drop
  split <;> rfl

example : ((ExtVec.new (B := mem) ⟨none, 0, obj, "x", "s"⟩).drop : Act MemW Empty Unit) mem0 = (.ok (), mem0) :=
  C25_drop_exact mem _ _

theorem write_open {B : Backend} {p : Profile} {h h' : Handle B} {d : Bytes} {w w' : B.W} (hw : h.write p d w = (.ok h', w')) :
    h'.isOpen = true := by
  unfold Handle.write at hw
  cases hs : h.stream with
  | none => rw [hs] at hw; cases hw
  | some s =>
    rw [hs] at hw
    obtain ⟨_, _, _, hw⟩ := Act.bind_eq_ok hw
    obtain ⟨_, _, _, hw⟩ := Act.bind_eq_ok hw
    cases hw
    rfl

theorem grow_open {B : Backend} {p : Profile} {size pos : Nat} {v v' : ExtVec B} {w w' : B.W} (ho : v.isOpen = true)
    (h : v.grow p size w = (.ok (v', pos), w')) : v'.isOpen = true := by
  unfold ExtVec.grow at h
  obtain ⟨v3, w3, h3, h⟩ := Act.bind_eq_ok h
  obtain ⟨_, _, _, h⟩ := Act.bind_eq_ok h
  obtain ⟨_, _, _, h⟩ := Act.bind_eq_ok h
  obtain ⟨_, _, _, h⟩ := Act.bind_eq_ok h
  obtain ⟨_, _, _, h⟩ := Act.bind_eq_ok h
  obtain ⟨_, _, _, h⟩ := Act.bind_eq_ok h
  cases h
  unfold ExtVec.flushIfFull at h3
  split at h3
  · unfold ExtVec.flush at h3
    obtain ⟨_, _, _, h3⟩ := Act.bind_eq_ok h3
    obtain ⟨_, _, _, h3⟩ := Act.bind_eq_ok h3
    obtain ⟨_, _, h4, h3⟩ := Act.bind_eq_ok h3
    cases h3
    exact write_open h4
  · cases h3; exact ho

/-- A vector that has been created and not closed panics when dropped, whatever happened to it. -/
theorem C25_unclosed_panics (k : Kind) (p : Profile) (e : Endian) (S : StructDef) (o : k.backend.Obj) (name schema : String)
    (w0 w w1 : k.backend.W) (v v1 : ExtVec k.backend) (es : List (List HandleOp))
    (hc : createExternalVector p e o name schema w0 = (.ok v, w)) (g : Grows k p e S o name w v es w1 v1) :
    v1.isOpen = true ∧ (v1.drop : Act k.backend.W Empty Unit) w1 = (.panic, w1) := by
  have : v1.isOpen = true := by
    induction g with
    | start =>
      unfold createExternalVector at hc
      obtain ⟨_, _, _, hc⟩ := Act.bind_eq_ok hc
      obtain ⟨_, _, _, hc⟩ := Act.bind_eq_ok hc
      obtain ⟨_, _, _, hc⟩ := Act.bind_eq_ok hc
      obtain ⟨_, _, h4, hc⟩ := Act.bind_eq_ok hc
      cases hc
      unfold Handle.tryNew at h4
      obtain ⟨_, _, _, h4⟩ := Act.bind_eq_ok h4
      cases h4; rfl
    | grow g h hw ih =>
      have := grow_open ih h
      exact this
    | failed _ _ ih => exact ih
    | other _ _ ih => exact ih
    | elsewhere _ _ _ _ ih => exact ih
  refine ⟨this, ?_⟩
  rw [C25_drop_exact, if_pos this]

/-- Non-vacuity: two elements, not closed. -/
example : ∃ v1 w1, (v1.drop : Act FileW Empty Unit) w1 = (.panic, w1) ∧ ∃ v w, Grows .disk .debug .little S objD "x" w v es w1 v1 := by
  obtain ⟨v, w, v1, w1, hc, g⟩ := VecExample.run_disk
  exact ⟨v1, w1, (C25_unclosed_panics .disk .debug .little S objD "x" "s" (disk0 []) w w1 v v1 es hc g).2, v, w, g⟩

/-- After `close` returned a view, or an error from reading it back, the handle is closed: dropping it does nothing. If
writing failed, it is still open. -/
theorem C25_after_close [DiffLib] (B : Backend) (p : Profile) (e : Endian) (h h' : Handle B) (s : B.Strm) (hs : h.stream = some s)
    (r : Except RErr (Slice B.Base)) (w w' : B.W) (hc : h.close p e w = (.ok (r, h'), w')) :
    (h'.isOpen = false ∧ ∃ w1, h.finish p e s w = (.ok (), w1)) ∨ (h' = h ∧ ∃ x, r = .error (.io x h.name) ∧ h.finish p e s w = (.err x, w')) := by
  unfold Handle.close at hc
  rw [hs] at hc
  obtain ⟨r1, w1, h1, hc⟩ := Act.bind_eq_ok hc
  unfold Act.attempt at h1
  cases hf : h.finish p e s w with
  | mk r2 w2 =>
    rw [hf] at h1
    cases r2 with
    | ok a =>
      cases h1
      obtain ⟨r3, w3, h3, hc⟩ := Act.bind_eq_ok hc
      cases hc
      exact .inl ⟨rfl, _, rfl⟩
    | err x =>
      cases h1; cases hc
      exact .inr ⟨rfl, x, rfl, rfl⟩
    | panic => cases h1
    | ub => cases h1

/-- Non-vacuity, both ways: closing works, and fails on a full disk. -/
example : (∃ h s, h.stream = some s ∧ ∃ r h' w', @Handle.close file .debug .little naiveDiff h (disk0 []) = (.ok (r, h'), w') ∧ h'.isOpen = false) ∧
    ∃ h s, h.stream = some s ∧ ∃ r h' w', @Handle.close file .debug .little naiveDiff h (disk0 [] fun _ => some 0) = (.ok (r, h'), w') ∧ h' = h :=
  ⟨⟨⟨some 0, 0, objD, "x", "s"⟩, _, rfl, _, _, _, rfl, rfl⟩, ⟨⟨some 0, 0, objD, "x", "s"⟩, _, rfl, _, _, _, rfl, rfl⟩⟩

/-- Writing to or closing a closed handle is an error without effect, and so is flushing and closing a vector on it. Growing
such a vector only buffers. -/
theorem C25_closed_errors_partial [DiffLib] (B : Backend) (p : Profile) (e : Endian) (size : Nat) (v : ExtVec B) (w : B.W)
    (hl : 8 ≤ v.data.length) (ho : v.isOpen = false) :
    (∀ d, v.handle.write p d w = (.err .unexpectedEof, w)) ∧
    v.handle.close p e w = (.ok (.error (.io .unexpectedEof v.handle.name), v.handle), w) ∧
    v.flush p w = (.err .unexpectedEof, w) ∧
    v.close p e w = (.err (.io .unexpectedEof v.handle.name), w) ∧
    (bufferLimit < v.data.length → v.grow p size w = (.err .unexpectedEof, w)) ∧
    (v.grow p size w).2 = w := by
  have hs : v.handle.stream = none := by
    unfold ExtVec.isOpen Handle.isOpen at ho
    cases h : v.handle.stream with
    | none => rfl
    | some s => rw [h] at ho; cases ho
  have hw : ∀ d, v.handle.write p d w = (.err .unexpectedEof, w) := by
    intro d; unfold Handle.write; rw [hs]; rfl
  have hu : usub p v.data.length paddingSize = .ok (v.data.length - 8) := by
    unfold usub; rw [paddingSize_eq, if_pos hl]
  have hsl : sliceRange v.data 0 (v.data.length - 8) = .ok (v.data.take (v.data.length - 8)) := by
    unfold sliceRange; rw [if_pos (by omega)]; rfl
  have hf : v.flush p w = (.err .unexpectedEof, w) := by
    unfold ExtVec.flush
    rw [hu, Act.bind_ok (show (Act.lift (Out.ok (v.data.length - 8)) : Act B.W IoErr Nat) w = (.ok _, w) from rfl), hsl,
      Act.bind_ok (show (Act.lift (Out.ok (v.data.take (v.data.length - 8))) : Act B.W IoErr Bytes) w = (.ok _, w) from rfl)]
    exact Act.bind_err (hw _)
  have hg : bufferLimit < v.data.length → v.grow p size w = (.err .unexpectedEof, w) := by
    intro h
    unfold ExtVec.grow ExtVec.flushIfFull
    rw [if_pos h]
    exact Act.bind_err hf
  refine ⟨hw, ?_, hf, ?_, hg, ?_⟩
  · unfold Handle.close; rw [hs]; rfl
  · unfold ExtVec.close
    rw [Act.bind_ok (Act.attempt_err hf)]
    have : (v.drop : Act B.W RErr Unit) w = (.ok (), w) := by
      unfold ExtVec.drop Handle.drop
      rw [if_neg]; · rfl
      unfold ExtVec.isOpen at ho; rw [ho]; simp
    change ((v.drop : Act B.W RErr Unit) >>= _) w = _
    rw [Act.bind_ok this]; rfl
  · by_cases h : bufferLimit < v.data.length
    · rw [hg h]
    · unfold ExtVec.grow ExtVec.flushIfFull
      rw [if_neg h]
      have lw : ∀ {α β : Type} (x : Out α) (f : α → Act B.W IoErr β), (∀ a, (f a w).2 = w) → ((Act.lift x >>= f) w).2 = w := by
        intro α β x f hf
        cases x with
        | ok a => exact hf a
        | panic => rfl
        | ub => rfl
      apply lw; intro n
      apply lw; intro _
      apply lw; intro len
      apply lw; intro pos
      apply lw; intro _
      rfl

/-- A vector with two elements, not closed. -/
example : ((do let v ← build (B := mem) obj es
               v.drop : Act MemW IoErr Unit) mem0).1.isPanic = true := by decide

/-- A vector on a closed handle. -/
example [DiffLib] : (ExtVec.new (B := mem) ⟨none, 0, obj, "x", "s"⟩).close .debug .little mem0
    = (.err (.io .unexpectedEof "x"), mem0) :=
  (C25_closed_errors_partial mem .debug .little 8 (ExtVec.new ⟨none, 0, obj, "x", "s"⟩) mem0 (by decide) rfl).2.2.2.1

end Flatdata
