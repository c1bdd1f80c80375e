import Verif.Proofs.Disturbed
import Verif.Props.Blind
/-!
# Property C71: files changed by others while a vector is being written
-/
namespace Flatdata
open Spec StorageExample VecExample BlindExample

/-- After a successful creation, whatever was there before. -/
theorem created_mine {p : Profile} {e : Endian} {o : Obj} {name schema : String} {w0 w : FileW} {v : ExtVec file} (size : Nat)
    (hr : Kind.Reachable .disk w0) (ho : Kind.alive .disk w0 o)
    (h : createExternalVector (B := file) p e o name schema w0 = (.ok v, w)) : Mine o name schema size w v [] [] 0 := by
  have hst : Kind.Steps .disk w0 w := Kind.steps_of (k := .disk) (fun _ => Kind.pres_createExternalVector) ho h
  rcases createExternalVector_spec (L := fileLaws) p e o name schema size w0 (Kind.loc_schema_ne .disk o name) trivial trivial with
    ⟨v', w', h1, i, _⟩ | ⟨_, _, h1, _⟩
  · rw [h] at h1; cases h1
    obtain ⟨s, hs, a⟩ := i.writing.stream
    have hp : (w.fs.fds s).2 = 8 := by
      have := a.pos
      rw [List.append_nil, length_le64] at this
      exact this
    exact ⟨i.writing.obj, i.writing.nameEq, i.writing.schemaEq, i.writing.size, ⟨s, hs, a.live, Prod.ext a.sloc hp⟩, Nat.le_refl _,
      Kind.Steps.inv hst hr.inv, i.rep, i.len, i.all⟩
  · rw [h] at h1; cases h1

/-- C71 in full: while a vector is written to a file, other processes may change the file, and the program itself may create
the resource again, write to it through other streams and read it; if closing then returns a view, it shows the elements of
the vector. -/
def C71_claim : Prop :=
  ∀ (_ : DiffLib) (p : Profile) (e : Endian) (S : StructDef) (o : Obj) (name schema : String) (w0 w w1 w2 : FileW)
    (v v1 : ExtVec file) (es : List (List HandleOp)) (xs : List Bytes) (s : Slice Key),
    Kind.Reachable .disk w0 → Kind.alive .disk w0 o → 0 < S.size →
    createExternalVector (B := file) p e o name schema w0 = (.ok v, w) → Disturbed p e S w v es w1 v1 → Elements p e S es xs →
    es.length * S.size + 8 < 2 ^ 63 → v1.close p e w1 = (.ok s, w2) → file.deref w2 s = .ok xs.flatten

section
variable [DiffLib] (p : Profile) (e : Endian) (S : StructDef) (o : Obj) (name schema : String) (w0 w w1 w2 : FileW)
  (v v1 : ExtVec file) (es : List (List HandleOp)) (xs : List Bytes) (s : Slice Key)
  (hr : Kind.Reachable .disk w0) (ho : Kind.alive .disk w0 o) (hs : 0 < S.size)
  (hc : createExternalVector (B := file) p e o name schema w0 = (.ok v, w)) (g : Disturbed p e S w v es w1 v1)
  (el : Elements p e S es xs)
include hr ho hs hc g el

/-- It is so as long as the vector has at most 32 MiB: then nothing is written before closing, and closing writes everything. -/
theorem C71_partial (hsm : es.length * S.size + 8 ≤ 32 * 1024 * 1024) (h : v1.close p e w1 = (.ok s, w2)) :
    file.deref w2 s = .ok xs.flatten := by
  have i := created_mine S.size hr ho hc
  obtain ⟨pre, buf, q, i1, el1, _, sm⟩ := disturbed_inv i hs g (by omega)
  obtain ⟨rfl, rfl⟩ := sm hsm
  have hx : xs = buf := el.unique el1
  subst hx
  obtain ⟨st, hst, hl, hf⟩ := i1.stream
  have hex := i1.inv.fds st hl
  rw [hf] at hex
  cases hcn : w1.fs.files (key (join o.path name)) with
  | none => exact absurd hcn hex
  | some c =>
    have := i1.close (by rw [List.nil_append, ← el.length_eq]; omega) hcn (.inl rfl) h
    rw [this]
    simp [dataOnDisk]

/-- Exactly what the returned view shows (if the storage object has not read the resource before): of the bytes which have
been flushed before, `size_in_bytes` in number, what is in the file now, and then the rest of the vector. So the view shows
the vector if and only if the flushed part has not been changed. -/
theorem C71_exact (hb : es.length * S.size + 16 < 2 ^ 63) (hu : Kind.unread .disk w1 o name) :
    v1.handle.size ≤ xs.flatten.length ∧ (v1.handle.size = 0 ∨ 32 * 1024 * 1024 < v1.handle.size + 8) ∧
    ∃ c, w1.fs.files (key (join o.path name)) = some c ∧ (v1.close p e w1 = (.ok s, w2) →
      file.deref w2 s = .ok (dataOnDisk c v1.handle.size ++ xs.flatten.drop v1.handle.size) ∧
      (file.deref w2 s = .ok xs.flatten ↔ dataOnDisk c v1.handle.size = xs.flatten.take v1.handle.size)) := by
  have i := created_mine S.size hr ho hc
  obtain ⟨pre, buf, q, i1, el1, fl, _⟩ := disturbed_inv i hs g (by omega)
  have hx : xs = pre ++ buf := el.unique el1
  subst hx
  obtain ⟨st, hst, hl, hf⟩ := i1.stream
  have hex := i1.inv.fds st hl
  rw [hf] at hex
  rw [i1.hsize]
  have hd : (pre ++ buf).flatten.drop pre.flatten.length = buf.flatten := by
    rw [List.flatten_append, List.drop_left]
  have ht : (pre ++ buf).flatten.take pre.flatten.length = pre.flatten := by
    rw [List.flatten_append, List.take_left]
  refine ⟨by rw [List.flatten_append, List.length_append]; omega, ?_, ?_⟩
  · rcases fl with rfl | h
    · exact .inl rfl
    · exact .inr h
  cases hcn : w1.fs.files (key (join o.path name)) with
  | none => exact absurd hcn hex
  | some c =>
    refine ⟨c, rfl, fun h => ?_⟩
    have := i1.close (by rw [← el.length_eq]; omega) hcn (.inr hu) h
    rw [hd, ht]
    refine ⟨this, ?_⟩
    rw [this, List.flatten_append]
    constructor
    · intro he
      exact List.append_cancel_right (Out.ok.inj he)
    · intro he
      rw [he]

end

namespace DistExample

/-- The file after another process has changed the first byte of the flushed element. -/
def meddled (S : StructDef) : Bytes := 1#8 :: zeros (S.size - 1)

/-- What the other process does. -/
def meddle (S : StructDef) (w : FileW) : FileW :=
  { w with fs := { w.fs with files := upd w.fs.files (key (join objD.path "x")) (some (le64 0 ++ meddled S)) } }

/-- Two elements of 32 MiB, the first of which is changed in the file by another process before the vector is closed. -/
theorem wrong [DiffLib] (S : StructDef) (hS : S.size = 2 ^ 25) : ∃ v w v1 w1 s w2,
    createExternalVector (B := file) .debug .little objD "x" "s" (disk0 []) = (.ok v, w) ∧
    Disturbed .debug .little S w v [[], []] w1 v1 ∧ Elements .debug .little S [[], []] [zeros S.size, zeros S.size] ∧
    Kind.unread .disk w1 objD "x" ∧
    v1.close .debug .little w1 = (.ok s, w2) ∧ file.deref w2 s = .ok (meddled S ++ zeros S.size) := by
  have hs : 0 < S.size := by rw [hS]; omega
  have hbig : ∀ n, n ≤ 2 → n * S.size + 8 < 2 ^ 63 := by intro n hn; rw [hS]; omega
  have hne := Kind.loc_schema_ne .disk objD "x"
  have h0 : (createExternalVector (B := file) .debug .little objD "x" "s" (disk0 [])).1.isOk = true := by decide
  obtain ⟨v, w, hc⟩ := isOk_run h0
  obtain ⟨i, u, nf⟩ := created_inv (k := .disk) S.size (unused_disk0 _ _ _) hc
  have nf := nf (disk0_noFault _)
  rcases i.grow hne .debug hs (hbig _ (by simp only [List.length_append, List.length_nil]; omega)) with
    ⟨va, pa, wa, prea, bufa, ca, h1, i1, e1, hpa, hca, _, _, o1⟩ | ⟨_, _, _, h1, _, _, n1⟩
  rotate_left
  · exact absurd nf n1
  have ep : prea = [] ∧ bufa = [] := by simpa using e1
  obtain ⟨rfl, rfl⟩ := ep
  have w1ok : Vector.writeAt .debug .little S va.data pa [] = .ok (va.data.take pa ++ va.data.drop pa) := rfl
  rw [hpa] at w1ok
  obtain ⟨x1, hx1, i1⟩ := i1.writeAt w1ok
  cases hx1
  rcases i1.grow hne .debug hs (hbig _ (by simp only [List.length_append, List.length_cons, List.length_nil]; omega)) with
    ⟨vb, pb, wb, preb, bufb, cb, h2, i2, e2, hpb, hcb, hlb, _, o2⟩ | ⟨_, _, _, h2, _, _, n2⟩
  rotate_left
  · exact absurd (o1.noFault nf) n2
  have hp : preb = [zeros S.size] ∧ bufb = [] := by
    cases preb with
    | nil =>
      exfalso
      have : bufb.length = 1 := by
        have := congrArg List.length e2
        simpa using this
      rw [i2.rep.length, List.length_append, this] at hlb
      rw [show bufferLimit = 2 ^ 25 from by decide, hS] at hlb
      simp only [List.length_cons, List.length_nil] at hlb
      omega
    | cons y t =>
      have e3 : y = zeros S.size ∧ t = [] ∧ bufb = [] := by simpa using e2
      obtain ⟨rfl, rfl, rfl⟩ := e3
      exact ⟨rfl, rfl⟩
  obtain ⟨rfl, rfl⟩ := hp
  have w2ok : Vector.writeAt .debug .little S vb.data pb [] = .ok (vb.data.take pb ++ vb.data.drop pb) := rfl
  rw [hpb] at w2ok
  obtain ⟨x2, hx2, i2⟩ := i2.writeAt w2ok
  cases hx2
  have hcb := hcb (hca rfl)
  have hml : (meddled S).length = S.size := by
    unfold meddled zeros
    rw [List.length_cons, List.length_replicate]; omega
  have hu : Unseen fileLaws objD "x" wb := (u.only o1).only o2
  obtain ⟨st, hst, a⟩ := i2.writing.stream
  -- the file is changed
  obtain ⟨wc, hwc⟩ : ∃ wc, wc = meddle S wb := ⟨_, rfl⟩
  have hfs : ∀ k, wc.fs.files k = upd wb.fs.files (key (join objD.path "x")) (some (le64 0 ++ meddled S)) k := by
    intro k; rw [hwc]; rfl
  have hmaps : wc.maps = wb.maps := by rw [hwc]; rfl
  have hnext : wc.next = wb.next := by rw [hwc]; rfl
  have hfds : wc.fs.fds = wb.fs.fds := by rw [hwc]; rfl
  have hnf : wc.fs.nextFd = wb.fs.nextFd := by rw [hwc]; rfl
  have hout : Outside wb wc := by
    refine ⟨hmaps, hnext, hfds, hnf, fun k hk => ?_⟩
    rw [hfs]
    by_cases he : k = key (join objD.path "x")
    · rw [he, upd_same]; simp
    · rw [upd_other _ _ he]; exact hk
  have i3 : EvInv fileLaws objD "x" "s" S.size wc
      { vb with data := vb.data.take (([] : List Bytes).length * S.size) ++ vb.data.drop (([] : List Bytes).length * S.size) }
      [meddled S] [zeros S.size] (meddled S) := by
    refine ⟨⟨i2.writing.obj, i2.writing.nameEq, i2.writing.schemaEq, ?_, ⟨st, hst, ?_, ?_, (hfs _).trans (upd_same _ _ _), ?_⟩, ?_, ?_, ?_⟩,
      i2.rep, i2.len, .single hml⟩
    · rw [i2.writing.size]
      simp only [List.flatten_cons, List.flatten_nil, List.append_nil, hml]
      unfold zeros; rw [List.length_replicate]
    · have := a.live
      change st < wb.fs.nextFd at this
      change st < wc.fs.nextFd
      rw [hnf]; exact this
    · have := a.sloc
      change (wb.fs.fds st).1 = _ at this
      change (wc.fs.fds st).1 = _
      rw [hfds]; exact this
    · have := a.pos
      change (wb.fs.fds st).2 = _ at this
      change (wc.fs.fds st).2 = _
      rw [hfds, this, hcb, List.length_append, List.length_append, hml]
      simp only [List.flatten_cons, List.flatten_nil, List.append_nil]
      unfold zeros; rw [List.length_replicate]
    · simp
    · intro _; simp
    · have h5 := i2.writing.schemaStored
      change wb.fs.files (key (join objD.path (Storage.schemaName "x"))) = _ at h5
      change wc.fs.files (key (join objD.path (Storage.schemaName "x"))) = _
      have hne' : key (join objD.path (Storage.schemaName "x")) ≠ key (join objD.path "x") := hne
      rw [hfs, upd_other _ _ hne', h5]
  have hu3 : Unseen fileLaws objD "x" wc := by
    obtain ⟨h6, h7⟩ := hu
    change (wb.maps _ _).map _ = none at h6 h7
    refine ⟨?_, ?_⟩
    · change (wc.maps _ _).map _ = none
      rw [hmaps]; exact h6
    · change (wc.maps _ _).map _ = none
      rw [hmaps]; exact h7
  obtain ⟨r, w2, hcl, out, _⟩ := i3.close hu3 hne .debug .little (by
    have := hbig 2 (by omega)
    simp only [List.length_append, List.length_cons, List.length_nil]; omega)
  have nf3 : fileLaws.noFault wc := by
    have h8 : FileSt.NoFault wb := o2.noFault (o1.noFault nf)
    rw [hwc]; exact h8
  have hunr : Kind.unread .disk wc objD "x" := by
    have := hu3.data
    change (wc.maps objD.id (join objD.path "x")).map _ = none at this
    cases hm : wc.maps objD.id (join objD.path "x") with
    | none => exact hm
    | some z => rw [hm] at this; cases this
  cases out with
  | failed n => exact absurd nf3 n
  | unread x c _ _ _ n => exact absurd nf3 (n (by simp) (by change strBytes "s" ≠ []; decide))
  | ok s hm hd hrd hbl =>
    refine ⟨v, w, _, wc, s, w2, hc, .outside (.grow (es := [[]]) (ops := []) (.grow (es := []) (ops := []) .start h1
      (by rw [hpa]; exact w1ok)) h2 (by rw [hpb]; exact w2ok)) hout, ⟨rfl, rfl, trivial⟩, hunr, hcl, ?_⟩
    rw [hd]
    simp only [List.cons_append, List.nil_append, List.flatten_cons, List.flatten_nil, List.append_nil]

end DistExample
open DistExample

/-- In general it is not so: what has been flushed earlier can be changed, and closing does not notice. -/
theorem C71_refuted : ¬ C71_claim := by
  intro h
  obtain ⟨v, w, v1, w1, s, w2, hc, g, el, _, hcl, hd⟩ := @wrong naiveDiff Big rfl
  have := h naiveDiff .debug .little Big objD "x" "s" (disk0 []) w w1 w2 v v1 _ _ s (disk0_reachable _ _) (show 0 < 1 by decide)
    (Nat.two_pow_pos _) hc g el (by
      change 2 * 2 ^ 25 + 8 < 2 ^ 63
      omega) hcl
  rw [hd] at this
  have h0 := congrArg List.head? (Out.ok.inj this)
  have hz : (zeros Big.size).head? = some 0#8 := by
    unfold zeros
    rw [List.head?_replicate, if_neg (show ¬ Big.size = 0 from Nat.ne_of_gt (Nat.two_pow_pos _))]
  rw [List.flatten_cons, List.head?_append, List.head?_append, hz] at h0
  have : (1#8 : Byte) = 0#8 := Option.some.inj h0
  exact absurd this (by decide)

/-- The hypotheses of `C71_exact` can be met with a vector which is not shown right: the two elements of 32 MiB. -/
example [DiffLib] : ∃ v w v1 w1 s w2, createExternalVector (B := file) .debug .little objD "x" "s" (disk0 []) = (.ok v, w) ∧
    Disturbed .debug .little Big w v [[], []] w1 v1 ∧ Elements .debug .little Big [[], []] [zeros Big.size, zeros Big.size] ∧
    Kind.unread .disk w1 objD "x" ∧ v1.close .debug .little w1 = (.ok s, w2) ∧
    file.deref w2 s = .ok (meddled Big ++ zeros Big.size) := wrong Big rfl

namespace DistExample

/-- Another process fills the file with something else. -/
def garble (w : FileW) : FileW :=
  { w with fs := { w.fs with files := upd w.fs.files (key (join objD.path "x")) (some (zeros 11 ++ [7#8, 7#8])) } }

/-- Creates a vector, grows it, creates the same resource again, lets another process change the file, and closes the vector. -/
def smallRun : Act FileW RErr (Slice Key) := do
  let v ← (createExternalVector (B := file) .debug .little objD "x" "s").mapErr (RErr.io · "x")
  let r ← (v.grow .debug S.size).mapErr (RErr.io · "x")
  let d ← Act.lift (Vector.writeAt .debug .little S r.1.data r.2 [.set (.plain "a" .u64 0 64) 5])
  let _ ← (file.createOutputStream objD "x").mapErr (RErr.io · "x")
  let _ ← (fun w => (.ok (), garble w) : Act FileW RErr Unit)
  @ExtVec.close file .debug .little naiveDiff { r.1 with data := d }

theorem smallRun_ok : (smallRun (disk0 [])).1.isOk = true := by decide +kernel

theorem garble_file (w : FileW) : (garble w).fs.files (key (join objD.path "x")) = some (zeros 11 ++ [7#8, 7#8]) := by
  have h : ∀ k, (garble w).fs.files k = upd w.fs.files (key (join objD.path "x")) (some (zeros 11 ++ [7#8, 7#8])) k := fun _ => rfl
  rw [h, upd_same]

theorem garble_outside (w : FileW) : Outside w (garble w) := by
  refine ⟨rfl, rfl, rfl, rfl, fun k hk => ?_⟩
  change upd w.fs.files (key (join objD.path "x")) (some (zeros 11 ++ [7#8, 7#8])) k ≠ none
  by_cases he : k = key (join objD.path "x")
  · rw [he, upd_same]; simp
  · rw [upd_other _ _ he]; exact hk

end DistExample

/-- The hypotheses of `C71_partial` can be met: one element, the same resource created a second time, and a file filled with
something else by another process. -/
example : ∃ v w v1 w1 s w2, createExternalVector (B := file) .debug .little objD "x" "s" (disk0 []) = (.ok v, w) ∧
    Disturbed .debug .little S w v [[.set (.plain "a" .u64 0 64) 5]] w1 v1 ∧
    Elements .debug .little S [[.set (.plain "a" .u64 0 64) 5]] [le64 5] ∧
    w1.fs.files (key (join objD.path "x")) = some (zeros 11 ++ [7#8, 7#8]) ∧
    @ExtVec.close file .debug .little naiveDiff v1 w1 = (.ok s, w2) ∧ file.deref w2 s = .ok (le64 5) := by
  obtain ⟨s, w2, h⟩ := isOk_run smallRun_ok
  unfold smallRun at h
  obtain ⟨v, w, h1, k1⟩ := Act.bind_eq_ok h
  have hc := mapErr_eq_ok h1
  obtain ⟨r, wa, h2, k2⟩ := Act.bind_eq_ok k1
  have hg := mapErr_eq_ok h2
  obtain ⟨d, wb, h3, k3⟩ := Act.bind_eq_ok k2
  obtain ⟨t, wc, h4, k4⟩ := Act.bind_eq_ok k3
  have ho := mapErr_eq_ok h4
  obtain ⟨u, wd, h5, k5⟩ := Act.bind_eq_ok k4
  obtain rfl : garble wc = wd := congrArg Prod.snd h5
  obtain ⟨hw, hwb⟩ := Act.lift_eq_ok h3
  rw [hwb] at ho
  have el : Elements .debug .little S [[.set (.plain "a" .u64 0 64) 5]] [le64 5] := ⟨by decide, trivial⟩
  have i := created_mine (o := objD) S.size (disk0_reachable [] fun _ => none) (show 0 < 1 by decide) hc
  have g1 : Disturbed .debug .little S w v [[.set (.plain "a" .u64 0 64) 5]] wa { r.1 with data := d } :=
    .grow (es := []) .start hg hw
  obtain ⟨_, _, _, i1, _⟩ := disturbed_inv i (by decide) g1 (by decide)
  obtain ⟨st, hst, _⟩ := i1.stream
  have hs1 : Kind.Steps .disk (disk0 []) w :=
    Kind.steps_of (k := .disk) (o := objD) (fun _ => Kind.pres_createExternalVector) (show 0 < 1 by decide) hc
  have hs2 : Kind.Steps .disk w wa :=
    Kind.steps_of (k := .disk) (o := objD) (fun _ => Kind.pres_grow) (hs1.alive (show 0 < 1 by decide)) hg
  have hal : Kind.alive .disk wa objD := hs2.alive (hs1.alive (show 0 < 1 by decide))
  have g : Disturbed .debug .little S w v [[.set (.plain "a" .u64 0 64) 5]] (garble wc) { r.1 with data := d } :=
    .outside (.call g1 hst (.create hal ho)) (garble_outside _)
  exact ⟨v, w, _, garble wc, s, w2, hc, g, el, garble_file wc, k5,
    @C71_partial naiveDiff .debug .little S objD "x" "s" (disk0 []) w (garble wc) w2 v _ _ _ s (disk0_reachable _ _)
      (show 0 < 1 by decide) (by decide) hc g el (by decide) k5⟩

end Flatdata
