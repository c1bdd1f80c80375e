import Verif.Spec.Disturbed
import Verif.Proofs.Grows
import Verif.Proofs.LawsFile
import Verif.Proofs.Program
/-!
# Vectors whose files are changed by others
-/
namespace Flatdata
open Spec FileSt

/-- An open vector: `pre` has been flushed, `buf` is in the buffer, and `q` is what the stream has moved on. Nothing is known
about the content of the file. -/
structure Mine (o : Obj) (name schema : String) (size : Nat) (w : FileW) (v : ExtVec file) (pre buf : List Bytes) (q : Nat) :
    Prop where
  obj : v.handle.obj = o
  nameEq : v.handle.name = name
  schemaEq : v.handle.schema = schema
  hsize : v.handle.size = pre.flatten.length
  stream : ∃ s, v.handle.stream = some s ∧ s < w.fs.nextFd ∧ w.fs.fds s = (key (join o.path name), 8 + q)
  le : pre.flatten.length ≤ q
  inv : FileSt.Inv w
  rep : Rep size v.data buf
  len : v.len = pre.length + buf.length
  all : AllSize size pre

section
variable {o : Obj} {name schema : String} {size : Nat} {w w' : FileW} {v : ExtVec file} {pre buf : List Bytes} {q : Nat}

theorem CallBeside.stays {s : Nat} (h : CallBeside s w w') (hi : FileSt.Inv w) (hs : s < w.fs.nextFd) :
    FileSt.Inv w' ∧ s < w'.fs.nextFd ∧ w'.fs.fds s = w.fs.fds s := by
  cases h with
  | subdir h => exact ⟨fileLaws.subdir_inv hi h, by cases h; exact ⟨hs, rfl⟩⟩
  | @exists_ o n _ r _ h =>
    refine ⟨fileLaws.exists_inv hi h, ?_⟩
    change pathExists (join o.path n) w = (r, w') at h
    obtain ⟨b, w1, h1, q1, _⟩ := pathExists_spec (join o.path n) w
    rw [h1] at h; cases h
    exact ⟨by rw [q1.nextFd]; exact hs, by rw [q1.fds]⟩
  | read h =>
    obtain ⟨a, b, c⟩ := (fileLaws.read_keeps h).2.1 s hs
    exact ⟨fileLaws.read_inv hi h, a, Prod.ext b c⟩
  | create ho h =>
    obtain ⟨a, b, c⟩ := (fileLaws.create_keeps h).2.1 s hs
    exact ⟨fileLaws.create_inv hi ho h, a, Prod.ext b c⟩
  | @write s' b _ r _ hne h =>
    refine ⟨fileLaws.write_inv hi h, ?_⟩
    change writeAll s' b w = (r, w') at h
    have key : ∃ b', w' = written (tk w) s' b' := by
      rcases writeAll_spec s' b w with h' | ⟨e, k, h', _⟩ <;> rw [h'] at h <;> cases h
      · exact ⟨_, rfl⟩
      · exact ⟨_, rfl⟩
    obtain ⟨b', rfl⟩ := key
    have := (written_keeps (tk w) s' b').2 s
    exact ⟨hs, Prod.ext this.1 (this.2 hne.symm)⟩
  | @seek s' _ r _ hne h =>
    refine ⟨fileLaws.seek_inv hi h, ?_⟩
    change seekStart s' w = (r, w') at h
    have key : w' = rewound (tk w) s' ∨ w' = tk w := by
      rcases seekStart_spec s' w with h' | ⟨e, h' | h', _⟩ <;> rw [h'] at h <;> cases h
      · exact .inl rfl
      · exact .inl rfl
      · exact .inr rfl
    rcases key with rfl | rfl
    · have := rewound_keeps (tk w) s' s
      exact ⟨hs, Prod.ext this.1 (this.2 hne.symm)⟩
    · exact ⟨hs, rfl⟩

theorem Mine.call {s : Nat} (i : Mine o name schema size w v pre buf q) (hs : v.handle.stream = some s) (h : CallBeside s w w') :
    Mine o name schema size w' v pre buf q := by
  obtain ⟨s', hs', hl, hf⟩ := i.stream
  rw [hs] at hs'; cases hs'
  obtain ⟨a, b, c⟩ := CallBeside.stays h i.inv hl
  exact ⟨i.obj, i.nameEq, i.schemaEq, i.hsize, ⟨s, hs, b, c.trans hf⟩, i.le, a, i.rep, i.len, i.all⟩

theorem Mine.outside (i : Mine o name schema size w v pre buf q) (h : Outside w w') : Mine o name schema size w' v pre buf q := by
  obtain ⟨s, hs, hl, hf⟩ := i.stream
  refine ⟨i.obj, i.nameEq, i.schemaEq, i.hsize, ⟨s, hs, by rw [h.nextFd]; exact hl, by rw [h.fds]; exact hf⟩, i.le, ⟨?_, ?_⟩, i.rep,
    i.len, i.all⟩
  · intro j p k n hm
    rw [h.maps] at hm
    exact ⟨(i.inv.maps j p k n hm).1, h.kept _ (i.inv.maps j p k n hm).2⟩
  · intro s' hs'
    rw [h.nextFd] at hs'
    rw [h.fds]
    exact h.kept _ (i.inv.fds s' hs')

/-- A flush writes the buffer at the position of the stream. -/
theorem Mine.flush (i : Mine o name schema size w v pre buf q) (p : Profile) (hb : (pre ++ buf).length * size < 2 ^ 64) :
    (∃ v' w', v.flush p w = (.ok v', w') ∧ Mine o name schema size w' v' (pre ++ buf) [] (q + buf.flatten.length) ∧
      w'.maps = w.maps ∧ w'.fs.files (key (join o.path name)) =
        (w.fs.files (key (join o.path name))).map (putAt · (8 + q) buf.flatten)) ∨
    (∃ x w' q', v.flush p w = (.err x, w') ∧ Mine o name schema size w' v pre buf q') := by
  obtain ⟨e1, e2⟩ := i.rep.body p
  obtain ⟨s, hs, hl, hf⟩ := i.stream
  have hlen : pre.flatten.length + buf.flatten.length = (pre ++ buf).length * size := by
    rw [← (i.all.append i.rep.all).length_flatten]; simp
  unfold ExtVec.flush
  rw [e1]
  change (∃ v' w', (Act.lift (sliceRange v.data 0 buf.flatten.length) >>= _) w = _ ∧ _) ∨
    (∃ x w' q', (Act.lift (sliceRange v.data 0 buf.flatten.length) >>= _) w = _ ∧ _)
  rw [e2]
  change (∃ v' w', (v.handle.write p buf.flatten >>= _) w = _ ∧ _) ∨ (∃ x w' q', (v.handle.write p buf.flatten >>= _) w = _ ∧ _)
  have fdw : ∀ b, (written (tk w) s b).fs.fds s = (key (join o.path name), 8 + (q + b.length)) := by
    intro b
    change upd w.fs.fds s ((w.fs.fds s).1, (w.fs.fds s).2 + b.length) s = _
    rw [upd_same, hf, Nat.add_assoc]
  rcases writeAll_spec s buf.flatten w with h1 | ⟨x, k, h1, _⟩
  · left
    have hw : v.handle.write p buf.flatten w = (.ok { v.handle with size := v.handle.size + buf.flatten.length },
        written (tk w) s buf.flatten) := by
      unfold Handle.write
      rw [hs]
      change (writeAll s buf.flatten >>= _) w = _
      rw [Act.bind_ok h1, uadd_ok (by rw [i.hsize, hlen]; exact hb)]
      change (Res.ok (⟨some s, _, _, _, _⟩ : Handle file), _) = (Res.ok (⟨v.handle.stream, _, _, _, _⟩ : Handle file), _)
      rw [hs]
    refine ⟨_, _, Act.bind_ok hw, ⟨i.obj, i.nameEq, i.schemaEq, ?_, ⟨s, hs, hl, fdw _⟩, ?_, fileLaws.write_inv i.inv h1, rep_nil _, ?_,
      i.all.append i.rep.all⟩, rfl, ?_⟩
    · change v.handle.size + _ = _
      rw [i.hsize]; simp
    · have := i.le
      simp only [List.flatten_append, List.length_append]; omega
    · simp [i.len]
    · change upd w.fs.files (w.fs.fds s).1 ((w.fs.files (w.fs.fds s).1).map (putAt · (w.fs.fds s).2 buf.flatten)) _ = _
      rw [hf, upd_same]
  · right
    refine ⟨x, _, q + (buf.flatten.take k).length, Act.bind_err (w' := written (tk w) s (buf.flatten.take k)) ?_,
      ⟨i.obj, i.nameEq, i.schemaEq, i.hsize, ⟨s, hs, hl, fdw _⟩, ?_, fileLaws.write_inv i.inv h1, i.rep, i.len, i.all⟩⟩
    · unfold Handle.write
      rw [hs]
      change (writeAll s buf.flatten >>= _) w = _
      rw [Act.bind_err h1]
    · have := i.le; omega

theorem Mine.flushIfFull (i : Mine o name schema size w v pre buf q) (p : Profile) (hb : (pre ++ buf).length * size < 2 ^ 64) :
    (∃ v' w' pre' buf' q', v.flushIfFull p w = (.ok v', w') ∧ Mine o name schema size w' v' pre' buf' q' ∧
      pre' ++ buf' = pre ++ buf ∧ v'.data.length ≤ bufferLimit ∧
      ((pre' = pre ∧ q' = q) ∨ bufferLimit < pre'.flatten.length + 8)) ∨
    (∃ x w' q', v.flushIfFull p w = (.err x, w') ∧ Mine o name schema size w' v pre buf q' ∧ bufferLimit < v.data.length) := by
  unfold ExtVec.flushIfFull
  split
  · rename_i hlt
    rcases i.flush p hb with ⟨v', w', h1, i1, _⟩ | ⟨x, w', q', h1, i1⟩
    · refine .inl ⟨v', w', _, _, _, h1, i1, by simp, ?_, .inr ?_⟩
      · rw [i1.rep.eq]; simp [zeros, bufferLimit]
      · have := i.rep.eq
        rw [this] at hlt; simp [zeros] at hlt ⊢; omega
    · exact .inr ⟨x, w', q', h1, i1, hlt⟩
  · rename_i hle
    exact .inl ⟨v, w, pre, buf, q, rfl, i, rfl, by omega, .inl ⟨rfl, rfl⟩⟩

theorem Mine.grow (i : Mine o name schema size w v pre buf q) (p : Profile) (hs : 0 < size)
    (hb : ((pre ++ buf).length + 1) * size + 8 < 2 ^ 63) :
    (∃ v' pos w' pre' buf' q', v.grow p size w = (.ok (v', pos), w') ∧
      Mine o name schema size w' v' pre' (buf' ++ [zeros size]) q' ∧ pre' ++ buf' = pre ++ buf ∧ pos = buf'.length * size ∧
      ((pre' = pre ∧ q' = q) ∨ bufferLimit < pre'.flatten.length + 8)) ∨
    (∃ x w' q', v.grow p size w = (.err x, w') ∧ Mine o name schema size w' v pre buf q' ∧ bufferLimit < v.data.length) := by
  rw [Nat.add_mul, Nat.one_mul] at hb
  rcases i.flushIfFull p (by omega) with ⟨v', w', pre', buf', q', h1, i1, e1, hl, hf⟩ | ⟨x, w', q', h1, i1, hlt⟩
  · left
    have hlen := i1.rep.length
    have hle : buf'.length * size ≤ (pre ++ buf).length * size := by
      rw [← e1]; exact Nat.mul_le_mul_right _ (by simp)
    have hle2 : (pre ++ buf).length ≤ (pre ++ buf).length * size := Nat.le_mul_of_pos_right _ hs
    have hv : v'.len = (pre ++ buf).length := by rw [i1.len, ← e1, List.length_append]
    refine ⟨⟨resize0 v'.data (v'.data.length + size), v'.len + 1, v'.handle⟩, buf'.length * size, w', pre', buf', q', ?_,
      ⟨i1.obj, i1.nameEq, i1.schemaEq, i1.hsize, i1.stream, i1.le, i1.inv, resize0_rep i1.rep, ?_, i1.all⟩, e1, rfl, hf⟩
    · unfold ExtVec.grow
      rw [Act.bind_ok h1, uadd_ok (by unfold usizeMod; omega)]
      change (Act.lift (alloc (v'.data.length + size)) >>= _) w' = _
      have : alloc (v'.data.length + size) = .ok () := by unfold alloc; rw [if_pos (by omega)]
      rw [this]
      change (Act.lift (uadd p v'.len 1) >>= _) w' = _
      rw [uadd_ok (by unfold usizeMod; omega)]
      change (Act.lift (usub p v'.data.length paddingSize) >>= _) w' = _
      rw [paddingSize_eq, usub_ok (by omega), hlen, Nat.add_sub_cancel]
      change (Act.lift (sliceFrom _ _) >>= _) w' = _
      have hr := (resize0_rep i1.rep).length
      rw [hlen] at hr
      unfold sliceFrom
      rw [if_pos (by rw [hr, List.length_append, Nat.add_mul]; simp only [List.length_singleton]; omega)]
      rfl
    · simp [i1.len]; omega
  · right
    refine ⟨x, w', q', ?_, i1, hlt⟩
    unfold ExtVec.grow
    rw [Act.bind_err h1]

theorem Mine.writeAt {S : StructDef} (i : Mine o name schema S.size w v pre (buf ++ [zeros S.size]) q) {p : Profile} {e : Endian}
    {ops : List HandleOp} {d : Bytes} (h : Vector.writeAt p e S v.data (buf.length * S.size) ops = .ok d) :
    ∃ x, runHandle p e S ops (zeros S.size) = .ok x ∧ Mine o name schema S.size w { v with data := d } pre (buf ++ [x]) q := by
  have hd : v.data.drop (buf.length * S.size) = zeros S.size ++ zeros 8 := by
    rw [i.rep.eq, List.flatten_append, ← (show AllSize S.size buf from fun x hx => i.rep.all x (by simp [hx])).length_flatten]
    simp
  have h0 := h
  unfold Vector.writeAt at h
  rw [hd, runHandle_local ops _ (by simp [zeros])] at h
  simp only [Out.bind_eq_ok] at h
  obtain ⟨m, ⟨x, hx, hm⟩, h⟩ := h
  refine ⟨x, hx, i.obj, i.nameEq, i.schemaEq, i.hsize, i.stream, i.le, i.inv, ?_, by simpa using i.len, i.all⟩
  obtain ⟨d', h1, h2⟩ := i.rep.writeAt (i := buf.length) (x := zeros S.size) (by simp) hx
  rw [h0] at h1; cases h1
  have : (buf ++ [zeros S.size]).set buf.length x = buf ++ [x] := by
    rw [List.set_append_right _ _ (Nat.le_refl _)]; simp
  rw [this] at h2; exact h2

end

/-- The state after any disturbed history. -/
theorem disturbed_inv {p : Profile} {e : Endian} {S : StructDef} {o : Obj} {name schema : String} {w w1 : FileW} {v v1 : ExtVec file}
    {es : List (List HandleOp)} (i : Mine o name schema S.size w v [] [] 0) (hs : 0 < S.size) (g : Disturbed p e S w v es w1 v1) :
    es.length * S.size + 8 < 2 ^ 63 →
    ∃ pre buf q, Mine o name schema S.size w1 v1 pre buf q ∧ Elements p e S es (pre ++ buf) ∧
      (pre = [] ∨ bufferLimit < pre.flatten.length + 8) ∧ (es.length * S.size + 8 ≤ bufferLimit → pre = [] ∧ q = 0) := by
  induction g with
  | start => exact fun _ => ⟨[], [], 0, i, trivial, .inl rfl, fun _ => ⟨rfl, rfl⟩⟩
  | @grow es w1 v1 v2 pos w2 ops d g h hw ih =>
    intro hb
    have hb' := hb
    rw [List.length_append, Nat.add_mul] at hb
    simp only [List.length_singleton, Nat.one_mul] at hb
    obtain ⟨pre, buf, q, i1, el, fl, sm⟩ := ih (by omega)
    have hlen := el.length_eq
    rcases i1.grow p hs (by rw [← hlen]; simpa using hb') with ⟨v', pos', w', pre', buf', q', h1, i2, e2, hp, hf⟩ | ⟨_, _, _, h1, _⟩
    · rw [h] at h1; cases h1
      rw [hp] at hw
      obtain ⟨x, hx, i3⟩ := i2.writeAt hw
      refine ⟨pre', buf' ++ [x], q', i3, ?_, ?_, ?_⟩
      · rw [← List.append_assoc, e2]
        exact el.snoc hx
      · rcases hf with ⟨rfl, _⟩ | hf
        · exact fl
        · exact .inr hf
      · intro hsm
        rw [List.length_append, Nat.add_mul] at hsm
        simp only [List.length_singleton, Nat.one_mul] at hsm
        obtain ⟨e3, e4⟩ := sm (by omega)
        rcases hf with ⟨rfl, rfl⟩ | hf
        · exact ⟨e3, e4⟩
        · exfalso
          have h2 : pre'.flatten.length ≤ (pre ++ buf).length * S.size := by
            rw [← e2, ← (show AllSize S.size (pre' ++ buf') from by rw [e2]; exact i1.all.append i1.rep.all).length_flatten]
            simp
          rw [← hlen] at h2
          omega
    · rw [h] at h1; cases h1
  | @failed es w1 v1 x w2 g h ih =>
    intro hb
    obtain ⟨pre, buf, q, i1, el, fl, sm⟩ := ih hb
    have hlen := el.length_eq
    have small : bufferLimit < v1.data.length → es.length * S.size + 8 ≤ bufferLimit → False := by
      intro h1 h2
      rw [i1.rep.length] at h1
      have : buf.length * S.size ≤ es.length * S.size := by rw [hlen]; exact Nat.mul_le_mul_right _ (by simp)
      omega
    have hbf : (pre ++ buf).length * S.size < 2 ^ 64 := by
      rw [← hlen]; have : (2 : Nat) ^ 63 < 2 ^ 64 := by decide
      omega
    rcases i1.flushIfFull p hbf with ⟨v', w', pre', buf', q', h1, i2, e2, hl, hf⟩ | ⟨x', w', q', h1, i2, hlt⟩
    · exfalso
      unfold ExtVec.grow at h
      rw [Act.bind_ok h1] at h
      have lift_err : ∀ {α β : Type} {a : Out α} {f : α → Act FileW IoErr β} {w w' : FileW} {x},
          (Act.lift a >>= f) w = (.err x, w') → ∃ y, a = .ok y ∧ f y w = (.err x, w') := by
        intro α β a f w w' x h
        cases a with
        | ok y => exact ⟨y, rfl, h⟩
        | panic => cases h
        | ub => cases h
      obtain ⟨_, _, h⟩ := lift_err h
      obtain ⟨_, _, h⟩ := lift_err h
      obtain ⟨_, _, h⟩ := lift_err h
      obtain ⟨_, _, h⟩ := lift_err h
      obtain ⟨_, _, h⟩ := lift_err h
      cases h
    · have h2 : v1.grow p S.size w1 = (.err x', w') := by unfold ExtVec.grow; rw [Act.bind_err h1]
      rw [h] at h2; cases h2
      exact ⟨pre, buf, q', i2, el, fl, fun hsm => absurd hsm (small hlt)⟩
  | @call es w1 v1 s w2 g hst h ih =>
    intro hb
    obtain ⟨pre, buf, q, i1, el, fl, sm⟩ := ih hb
    exact ⟨pre, buf, q, i1.call hst h, el, fl, sm⟩
  | @outside es w1 v1 w2 g h ih =>
    intro hb
    obtain ⟨pre, buf, q, i1, el, fl, sm⟩ := ih hb
    exact ⟨pre, buf, q, i1.outside h, el, fl, sm⟩

section
variable {o : Obj} {name schema : String} {size : Nat} {w w' : FileW} {v : ExtVec file} {pre buf : List Bytes} {q : Nat}

/-- Padding and size field. -/
theorem Mine.finish (i : Mine o name schema size w v pre buf q) {p : Profile} {e : Endian} {s : Nat} (hst : v.handle.stream = some s)
    (hb : pre.flatten.length < 2 ^ 64) (h : v.handle.finish p e s w = (.ok (), w')) :
    w'.maps = w.maps ∧ FileSt.Inv w' ∧ w'.fs.files (key (join o.path name)) =
      (w.fs.files (key (join o.path name))).map fun c => putAt (putAt c (8 + q) (zeros 8)) 0 (le64 pre.flatten.length) := by
  obtain ⟨s', hs', hl, hf⟩ := i.stream
  rw [hst] at hs'; cases hs'
  unfold Handle.finish at h
  obtain ⟨_, wa, h1, h⟩ := Act.bind_eq_ok h
  obtain ⟨_, wb, h2, h3⟩ := Act.bind_eq_ok h
  rw [i.hsize] at h3
  have h3 : file.writeAll s (le64 pre.flatten.length) wb = (.ok (), w') := (writeSize_eq (B := file) p e s hb wb).symm.trans h3
  change writeAll s (zeros 8) w = _ at h1
  have ia := fileLaws.write_inv i.inv h1
  have ib := fileLaws.seek_inv ia h2
  have ic := fileLaws.write_inv ib h3
  change seekStart s wa = _ at h2
  change writeAll s _ wb = _ at h3
  rcases writeAll_spec s (zeros 8) w with h' | ⟨x, k, h', _⟩ <;> rw [h'] at h1 <;> cases h1
  rcases seekStart_spec s (written (tk w) s (zeros 8)) with h' | ⟨x, h' | h', _⟩ <;> rw [h'] at h2 <;> cases h2
  rcases writeAll_spec s (le64 pre.flatten.length) (rewound (tk (written (tk w) s (zeros 8))) s) with h' | ⟨x, k, h', _⟩ <;>
    rw [h'] at h3 <;> cases h3
  have hw1 : (rewound (tk (written (tk w) s (zeros 8))) s).fs.fds s = (key (join o.path name), 0) := by
    change upd (upd w.fs.fds s _) s ((upd w.fs.fds s ((w.fs.fds s).1, _) s).1, 0) s = _
    rw [upd_same, upd_same, hf]
  refine ⟨rfl, ic, ?_⟩
  change upd (rewound (tk (written (tk w) s (zeros 8))) s).fs.files ((rewound (tk (written (tk w) s (zeros 8))) s).fs.fds s).1 _ _ = _
  change upd _ _ (((rewound (tk (written (tk w) s (zeros 8))) s).fs.files ((rewound (tk (written (tk w) s (zeros 8))) s).fs.fds s).1).map
    (putAt · ((rewound (tk (written (tk w) s (zeros 8))) s).fs.fds s).2 _)) _ = _
  rw [hw1, upd_same]
  change (upd w.fs.files (w.fs.fds s).1 ((w.fs.files (w.fs.fds s).1).map (putAt · (w.fs.fds s).2 (zeros 8))) _).map _ = _
  rw [hf, upd_same, Option.map_map]
  rfl

/-- A successful read, whatever has been mapped before. -/
theorem disk_read_ok [DiffLib] {p : Profile} {e : Endian} {s : Slice Key} {d : Bytes} (hi : FileSt.Inv w)
    (hd : w.fs.files (key (join o.path name)) = some d) (hsz : leNat (d.take 8) + 16 < 2 ^ 64) (h8 : 8 ≤ d.length)
    (h : Storage.read file p e o name schema w = (.ok s, w')) :
    s = ⟨key (join o.path name), 8, leNat (d.take 8)⟩ ∧ w'.fs.files = w.fs.files ∧
      (w.maps o.id (join o.path name) = none → d.length = leNat (d.take 8) + 16) := by
  unfold Storage.read at h
  obtain ⟨sd, wa, h1, h⟩ := Act.bind_eq_ok h
  obtain ⟨ss, wb, h2, h⟩ := Act.bind_eq_ok h
  have h1 := mapErr_eq_ok h1
  have h2 := mapErr_eq_ok h2
  have f1 : wa.fs.files = w.fs.files := funext (fileLaws.read_keeps h1).1
  have f2 : wb.fs.files = wa.fs.files := funext (fileLaws.read_keeps h2).1
  have hsd : ∃ m, sd = ⟨key (join o.path name), 0, m⟩ ∧ (w.maps o.id (join o.path name) = none → m = d.length) := by
    change readResource o name w = _ at h1
    rcases read_spec o name w with ⟨k, m, w1, hm, q, _, h'⟩ | ⟨d', w1, hm, h3, h4, q, _, h'⟩ | ⟨e, w1, q, _, h', _⟩ <;>
      rw [h'] at h1 <;> cases h1
    · exact ⟨m, by rw [(hi.maps _ _ _ _ hm).1], fun hn => by rw [hm] at hn; cases hn⟩
    · rw [hd] at h3; cases h3
      exact ⟨_, rfl, fun _ => rfl⟩
  obtain ⟨m, rfl, hm⟩ := hsd
  have hcont : file.content wb (key (join o.path name)) = d := by
    change (wb.fs.files (key (join o.path name))).getD [] = d
    rw [f2, f1, hd]; rfl
  unfold Storage.checkResource at h
  split at h
  · cases h
  · obtain ⟨header, wc, a1, b1⟩ := Act.bind_eq_ok h
    have a2 : header = d.take 8 ∧ wc = wb := by
      unfold Backend.load at a1
      obtain ⟨h4, h5⟩ := Act.lift_eq_ok a1
      unfold Backend.deref at h4
      rw [hcont] at h4
      dsimp only at h4
      rw [if_pos (by omega), List.drop_zero] at h4
      exact ⟨(Out.ok.inj h4).symm, h5⟩
    rw [a2.1, a2.2] at b1
    obtain ⟨z, wd, a3, b2⟩ := Act.bind_eq_ok b1
    obtain ⟨a3, e3⟩ := Act.lift_eq_ok a3
    rw [readBytes_header p e (by rw [List.length_take]; omega)] at a3
    have a3 := (Out.ok.inj a3).symm
    rw [a3, e3, Int.toNat_natCast] at b2
    obtain ⟨t, we, a4, b3⟩ := Act.bind_eq_ok b2
    obtain ⟨a4, e4⟩ := Act.lift_eq_ok a4
    rw [uadd_ok (by unfold usizeMod; omega)] at a4
    have a4 := (Out.ok.inj a4).symm
    rw [a4, e4] at b3
    obtain ⟨t2, wg, a5, b4⟩ := Act.bind_eq_ok b3
    obtain ⟨a5, e5⟩ := Act.lift_eq_ok a5
    rw [paddingSize_eq, uadd_ok (by unfold usizeMod; omega)] at a5
    have a5 := (Out.ok.inj a5).symm
    rw [a5, e5] at b4
    split at b4
    · cases b4
    · rename_i hne
      dsimp only at hne
      obtain ⟨st, wk, a6, b5⟩ := Act.bind_eq_ok b4
      have e6 : wk = wb := by
        unfold Backend.load at a6
        exact (Act.lift_eq_ok a6).2
      rw [e6] at b5
      unfold Storage.checkSchema at b5
      cases hu : fromUtf8 st with
      | none => rw [hu] at b5; cases b5
      | some x =>
        rw [hu] at b5
        dsimp only at b5
        split at b5
        · cases b5
        · obtain ⟨h4, e7⟩ := Act.lift_eq_ok b5
          unfold Storage.payload at h4
          split at h4
          · refine ⟨(Out.ok.inj h4).symm, by rw [e7]; exact f2.trans f1, fun hn => ?_⟩
            have := hm hn; omega
          · cases h4

end

/-- Two writes after each other, the second not empty. -/
theorem putAt_putAt (c b z : Bytes) (n : Nat) (hz : z ≠ []) : putAt (putAt c n b) (n + b.length) z =
    (c ++ zeros n).take n ++ b ++ z ++ c.drop (n + b.length + z.length) := by
  have pad : (c ++ zeros n).take n = c.take n ++ List.replicate (n - c.length) 0#8 := by
    rw [List.take_append]
    unfold zeros
    rw [List.take_replicate]
    congr 2
    omega
  rw [pad]
  unfold putAt
  rw [if_neg hz]
  by_cases hb : b = []
  · subst hb
    simp
  · rw [if_neg hb]
    have hl : (List.take n c ++ List.replicate (n - c.length) 0#8).length = n := by simp; omega
    have hl2 : (List.take n c ++ List.replicate (n - c.length) 0#8 ++ b).length = n + b.length := by
      rw [List.length_append, hl]
    rw [List.take_append_of_le_length (by omega), List.take_of_length_le (by omega),
      List.drop_append, List.drop_of_length_le (show _ ≤ n + b.length + z.length by omega), List.nil_append, hl2, List.drop_drop]
    have : n + b.length - (List.take n c ++ List.replicate (n - c.length) 0#8 ++ b ++ List.drop (n + b.length) c).length = 0 := by
      rw [List.length_append, hl2]; omega
    rw [this]
    congr 1
    · simp
    · congr 1; omega

/-- What is the same after a call that concerns the resource `name` of `o` and the stream `st` only. -/
structure Beside (o : Obj) (name : String) (st : Nat) (w w' : FileW) : Prop where
  inv : FileSt.Inv w'
  files : ∀ l, l ≠ key (join o.path name) → w'.fs.files l = w.fs.files l
  fds : ∀ s, s ≠ st → s < w.fs.nextFd → s < w'.fs.nextFd ∧ w'.fs.fds s = w.fs.fds s
  maps : ∀ n, key (join o.path n) ≠ key (join o.path name) → key (join o.path n) ≠ key (join o.path (Storage.schemaName name)) →
    w.maps o.id (join o.path n) = none → w'.maps o.id (join o.path n) = none

theorem Beside.trans {o : Obj} {name : String} {st : Nat} {w w' w'' : FileW} (h : Beside o name st w w') (h' : Beside o name st w' w'') :
    Beside o name st w w'' :=
  ⟨h'.inv, fun l hl => (h'.files l hl).trans (h.files l hl),
    fun s hs hl => ⟨(h'.fds s hs (h.fds s hs hl).1).1, (h'.fds s hs (h.fds s hs hl).1).2.trans (h.fds s hs hl).2⟩,
    fun n h1 h2 h3 => h'.maps n h1 h2 (h.maps n h1 h2 h3)⟩

theorem beside_read [DiffLib] {o : Obj} {name schema : String} {st : Nat} {p : Profile} {e : Endian} {w w' : FileW} {r}
    (hi : FileSt.Inv w) (h : Storage.read file p e o name schema w = (r, w')) : Beside o name st w w' := by
  have step : ∀ m, m = name ∨ m = Storage.schemaName name → Act.Pres (fun w' => Beside o name st w w') (file.readResource o m) := by
    intro m hm w1 b1
    have k1 := fileLaws.read_keeps (o := o) (n := m) (w := w1) rfl
    refine b1.trans ⟨fileLaws.read_inv b1.inv rfl, fun l _ => k1.1 l, fun s _ hl => ?_, fun n h1 h2 h3 => ?_⟩
    · obtain ⟨a, b, c⟩ := k1.2.1 s hl
      exact ⟨a, Prod.ext b c⟩
    · have h4 := k1.2.2.1 o n (by rcases hm with rfl | rfl <;> assumption)
      change Option.map _ (FileW.maps _ o.id (join o.path n)) = Option.map _ (FileW.maps w1 o.id (join o.path n)) at h4
      rw [h3] at h4
      exact Option.map_eq_none_iff.mp h4
  have all : Act.Pres (fun w' => Beside o name st w w') (Storage.read file p e o name schema) := by
    unfold Storage.read
    refine Act.Pres.bind (Act.Pres.mapErr (step _ (.inl rfl))) fun d => Act.Pres.bind (Act.Pres.mapErr (step _ (.inr rfl))) fun s => ?_
    intro w1 hu1
    have := (checkResource_same (B := file) p e name schema (w := w1) (w' := w1) (sd := d) (ss := s) rfl rfl).2.1
    rw [this]; exact hu1
  have := all w ⟨hi, fun _ _ => rfl, fun _ _ h => ⟨h, rfl⟩, fun _ _ _ h => h⟩
  rw [h] at this; exact this

/-- Padding and size field, beside. -/
theorem Mine.beside_finish {o : Obj} {name schema : String} {size : Nat} {w w' : FileW} {v : ExtVec file} {pre buf : List Bytes} {q : Nat}
    (i : Mine o name schema size w v pre buf q) {p : Profile} {e : Endian} {s : Nat} (hst : v.handle.stream = some s)
    (hb : pre.flatten.length < 2 ^ 64) (h : v.handle.finish p e s w = (.ok (), w')) : Beside o name s w w' := by
  obtain ⟨s', hs', hl, hf⟩ := i.stream
  rw [hst] at hs'; cases hs'
  obtain ⟨m, inv, _⟩ := i.finish hst hb h
  unfold Handle.finish at h
  obtain ⟨_, wa, h1, h⟩ := Act.bind_eq_ok h
  obtain ⟨_, wb, h2, h3⟩ := Act.bind_eq_ok h
  rw [i.hsize] at h3
  have h3 : file.writeAll s (le64 pre.flatten.length) wb = (.ok (), w') := (writeSize_eq (B := file) p e s hb wb).symm.trans h3
  change writeAll s (zeros 8) w = _ at h1
  change seekStart s wa = _ at h2
  change writeAll s _ wb = _ at h3
  rcases writeAll_spec s (zeros 8) w with h' | ⟨x, k, h', _⟩ <;> rw [h'] at h1 <;> cases h1
  rcases seekStart_spec s (written (tk w) s (zeros 8)) with h' | ⟨x, h' | h', _⟩ <;> rw [h'] at h2 <;> cases h2
  rcases writeAll_spec s (le64 pre.flatten.length) (rewound (tk (written (tk w) s (zeros 8))) s) with h' | ⟨x, k, h', _⟩ <;>
    rw [h'] at h3 <;> cases h3
  have k1 := written_keeps (tk w) s (zeros 8)
  have k2 := rewound_keeps (tk (written (tk w) s (zeros 8))) s
  have k3 := written_keeps (tk (rewound (tk (written (tk w) s (zeros 8))) s)) s (le64 pre.flatten.length)
  refine ⟨inv, fun l hn => ?_, fun s' hs' hl' => ⟨hl', ?_⟩, fun n _ _ hn => by rw [m]; exact hn⟩
  · have e1 : ((rewound (tk (written (tk w) s (zeros 8))) s).fs.fds s).1 = key (join o.path name) :=
      ((k2 s).1.trans (k1.2 s).1).trans (by rw [show (tk w).fs.fds s = w.fs.fds s from rfl, hf])
    refine (k3.1 l (fun he => hn (he.trans e1))).trans (k1.1 l fun he => hn (he.trans ?_))
    change (w.fs.fds s).1 = _
    rw [hf]
  · exact Prod.ext (((k3.2 s').1.trans (k2 s').1).trans (k1.2 s').1) ((((k3.2 s').2 hs').trans ((k2 s').2 hs')).trans ((k1.2 s').2 hs'))

/-- The second half of closing: what the returned view shows, if `buf` has been flushed before. -/
theorem Mine.closeHandle [DiffLib] {o : Obj} {name schema : String} {size : Nat} {w1 w' : FileW} {v1 : ExtVec file}
    {pre buf : List Bytes} {q st : Nat} (i1 : Mine o name schema size w1 v1 (pre ++ buf) [] (q + buf.flatten.length))
    (hle : pre.flatten.length ≤ q) {p : Profile} {e : Endian} {s : Slice Key} {c : Bytes} (hlen : (pre ++ buf).flatten.length + 16 < 2 ^ 64)
    (f1 : w1.fs.files (key (join o.path name)) = some (putAt c (8 + q) buf.flatten))
    (hq : q = pre.flatten.length ∨ w1.maps o.id (join o.path name) = none) (hst : v1.handle.stream = some st)
    (h : v1.closeHandle p e w1 = (.ok s, w')) :
    file.deref w' s = .ok (dataOnDisk c pre.flatten.length ++ buf.flatten) ∧ s.base = key (join o.path name) ∧ Beside o name st w1 w' := by
  unfold ExtVec.closeHandle at h
  obtain ⟨r, w2, h2, h⟩ := Act.bind_eq_ok h
  have h2 := mapErr_eq_ok h2
  unfold Handle.close at h2
  rw [hst] at h2
  obtain ⟨r1, w3, h3, h2⟩ := Act.bind_eq_ok h2
  cases hfin : v1.handle.finish p e st w1 with
  | mk rf wf =>
  cases rf with
  | err x =>
    rw [Act.attempt_err hfin] at h3
    cases h3
    cases h2
    obtain ⟨_, _, _, h⟩ := Act.bind_eq_ok h
    cases h
  | panic => unfold Act.attempt at h3; rw [hfin] at h3; cases h3
  | ub => unfold Act.attempt at h3; rw [hfin] at h3; cases h3
  | ok u =>
    rw [Act.attempt_ok hfin] at h3
    rw [← Res.ok.inj (Prod.mk.inj h3).1, ← (Prod.mk.inj h3).2] at h2
    dsimp only at h2
    obtain ⟨r2, w4, h4, h2'⟩ := Act.bind_eq_ok h2
    have e2 := (Prod.mk.inj h2').2
    have e1 := (Res.ok.inj (Prod.mk.inj h2').1).symm
    rw [e1, ← e2] at h
    obtain ⟨_, w5, h5, h'⟩ := Act.bind_eq_ok h
    have h5 : w5 = w4 := by
      change (Handle.drop { v1.handle with stream := none } : Act FileW RErr Unit) w4 = _ at h5
      exact (Prod.mk.inj h5).2.symm
    rw [h5] at h'
    have h6 : r2 = .ok s ∧ w4 = w' := by
      cases r2 with
      | ok a => cases h'; exact ⟨rfl, rfl⟩
      | error a => cases h'
    rw [h6.1, h6.2, i1.obj, i1.nameEq, i1.schemaEq] at h4
    have h7 : Storage.read file p e o name schema wf = (.ok s, w') := by
      unfold Act.attempt at h4
      cases hr : Storage.read file p e o name schema wf with
      | mk rr wr =>
      rw [hr] at h4
      cases rr <;> cases h4
      rfl
    obtain ⟨m2, inv2, f2⟩ := i1.finish hst (by omega) hfin
    rw [f1, Option.map_some] at f2
    rw [Nat.add_assoc 8 q buf.flatten.length |>.symm, putAt_putAt _ _ _ _ (by simp [zeros]), putAt_inside, length_le64] at f2
    have hT : (pre ++ buf).flatten.length = pre.flatten.length + buf.flatten.length := by simp
    have hX : ((c ++ zeros (8 + q)).take (8 + q)).length = 8 + q := by
      rw [List.length_take, List.length_append]; unfold zeros; rw [List.length_replicate]; omega
    generalize hr : c.drop (8 + q + buf.flatten.length + (zeros 8).length) = rest at f2
    have hz : (zeros 8).length = 8 := by decide
    have hd8 : ((c ++ zeros (8 + q)).take (8 + q) ++ buf.flatten ++ zeros 8 ++ rest).drop 8 =
        ((c ++ zeros (8 + q)).take (8 + q)).drop 8 ++ (buf.flatten ++ (zeros 8 ++ rest)) := by
      rw [List.append_assoc, List.append_assoc, List.drop_append_of_le_length (by omega)]
    rw [hd8] at f2
    have hn : leNat ((le64 (pre ++ buf).flatten.length ++ (((c ++ zeros (8 + q)).take (8 + q)).drop 8 ++
        (buf.flatten ++ (zeros 8 ++ rest)))).take 8) = (pre ++ buf).flatten.length := by
      rw [take8_le64, leNat_le64 (by omega)]
    obtain ⟨e8, e9, e10⟩ := disk_read_ok inv2 f2 (by rw [hn]; omega) (by rw [List.length_append, length_le64]; omega) h7
    rw [hn] at e8 e10
    have hqf : q = pre.flatten.length := by
      rcases hq with hq | hq
      · exact hq
      · have := e10 (by rw [m2]; exact hq)
        simp only [List.length_append, length_le64, List.length_drop, hX, hz] at this
        simp only [List.flatten_append, List.length_append] at this hT
        simp only [List.flatten_append, List.length_append] at *
        omega
    have hcont : file.content w' (key (join o.path name)) = le64 (pre ++ buf).flatten.length ++ (((c ++ zeros (8 + q)).take (8 + q)).drop 8 ++
        (buf.flatten ++ (zeros 8 ++ rest))) := by
      change (w'.fs.files (key (join o.path name))).getD [] = _
      rw [e9, f2]; rfl
    have hD : (((c ++ zeros (8 + q)).take (8 + q)).drop 8) = dataOnDisk c pre.flatten.length := by
      unfold dataOnDisk
      rw [← hqf, List.drop_take, Nat.add_sub_cancel_left]
    have hDl : (dataOnDisk c pre.flatten.length).length = pre.flatten.length := by
      rw [← hD, List.length_drop, hX]; omega
    have goal : ∀ X : Bytes, X = le64 (pre ++ buf).flatten.length ++ (((c ++ zeros (8 + q)).take (8 + q)).drop 8 ++
        (buf.flatten ++ (zeros 8 ++ rest))) → (if 8 + (pre ++ buf).flatten.length ≤ X.length then
          Out.ok ((X.drop 8).take (pre ++ buf).flatten.length) else .ub) = .ok (dataOnDisk c pre.flatten.length ++ buf.flatten) := by
      rintro X rfl
      rw [hD, drop8_le64, if_pos (by rw [List.length_append, length_le64, List.length_append, hDl, List.length_append]; omega), hT,
        ← List.append_assoc, List.take_append_of_le_length (by rw [List.length_append, hDl]; omega),
        List.take_of_length_le (by rw [List.length_append, hDl]; omega)]
    rw [e8]
    exact ⟨goal _ hcont, rfl, (i1.beside_finish hst (by omega) hfin).trans (beside_read inv2 h7)⟩

section
variable {o : Obj} {name : String} {st : Nat} {w0 : FileW}

/-- What is the same after writing to the stream `st` of the resource `name`. -/
structure OwnFile (o : Obj) (name : String) (st : Nat) (w0 w : FileW) : Prop where
  beside : Beside o name st w0 w
  maps : w.maps = w0.maps
  place : (w.fs.fds st).1 = key (join o.path name)

theorem own_write {h : Handle file} {p : Profile} {d : Bytes} (hst : h.stream = some st) :
    Act.Pres (OwnFile o name st w0) (h.write p d) := by
  unfold Handle.write
  rw [hst]
  refine .bind ?_ fun _ => .bind (.lift _) fun _ => .pure _
  intro w hw
  have : ∃ b, (file.writeAll st d w).2 = written (tk w) st b := by
    change ∃ b, (writeAll st d w).2 = _
    rcases writeAll_spec st d w with h | ⟨_, _, h, _⟩
    · exact ⟨_, by rw [h]⟩
    · exact ⟨_, by rw [h]⟩
  obtain ⟨b, hb⟩ := this
  have hinv : FileSt.Inv (file.writeAll st d w).2 := fileLaws.write_inv hw.beside.inv (r := (file.writeAll st d w).1) rfl
  change OwnFile o name st w0 (file.writeAll st d w).2
  rw [hb] at hinv ⊢
  have k1 := written_keeps (tk w) st b
  refine ⟨hw.beside.trans ⟨hinv, fun l hl => k1.1 l fun he => hl (he.trans hw.place), fun s hs hl => ⟨hl, ?_⟩, fun _ _ _ h => h⟩, hw.maps,
    (k1.2 st).1.trans hw.place⟩
  exact Prod.ext (k1.2 s).1 ((k1.2 s).2 hs)

theorem own_flush {v : ExtVec file} {p : Profile} (hst : v.handle.stream = some st) : Act.Pres (OwnFile o name st w0) (v.flush p) :=
  .bind (.lift _) fun _ => .bind (.lift _) fun _ => .bind (own_write hst) fun _ => .pure _

end

theorem Mine.own {o : Obj} {name schema : String} {size st : Nat} {w : FileW} {v : ExtVec file} {pre buf : List Bytes} {q : Nat}
    (i : Mine o name schema size w v pre buf q) (hst : v.handle.stream = some st) : OwnFile o name st w w := by
  obtain ⟨s, hs, hl, hf⟩ := i.stream
  rw [hst] at hs; cases hs
  exact ⟨⟨i.inv, fun _ _ => rfl, fun _ _ h => ⟨h, rfl⟩, fun _ _ _ h => h⟩, rfl, by rw [hf]⟩

/-- A vector is not affected by what happens to another. -/
theorem Mine.beside {o : Obj} {name schema n : String} {size st : Nat} {w w' : FileW} {v : ExtVec file} {pre buf : List Bytes} {q : Nat}
    (i : Mine o name schema size w v pre buf q) (h : Beside o n st w w') (hne : v.handle.stream ≠ some st) :
    Mine o name schema size w' v pre buf q := by
  obtain ⟨s, hs, hl, hf⟩ := i.stream
  obtain ⟨a, b⟩ := h.fds s (fun he => hne (by rw [hs, he])) hl
  exact ⟨i.obj, i.nameEq, i.schemaEq, i.hsize, ⟨s, hs, a, b.trans hf⟩, i.le, h.inv, i.rep, i.len, i.all⟩

/-- Closing: what the returned view shows. -/
theorem Mine.close_full [DiffLib] {o : Obj} {name schema : String} {size : Nat} {w w' : FileW} {v : ExtVec file} {pre buf : List Bytes} {q st : Nat}
    (i : Mine o name schema size w v pre buf q) {p : Profile} {e : Endian} {s : Slice Key} {c : Bytes}
    (hb : (pre ++ buf).length * size + 16 < 2 ^ 64) (hc : w.fs.files (key (join o.path name)) = some c)
    (hq : q = pre.flatten.length ∨ w.maps o.id (join o.path name) = none) (hst : v.handle.stream = some st) (h : v.close p e w = (.ok s, w')) :
    file.deref w' s = .ok (dataOnDisk c pre.flatten.length ++ buf.flatten) ∧ s.base = key (join o.path name) ∧ Beside o name st w w' := by
  have hlen : (pre ++ buf).flatten.length = (pre ++ buf).length * size := (i.all.append i.rep.all).length_flatten
  unfold ExtVec.close at h
  rcases i.flush p (by omega) with ⟨v1, w1, h1, i1, m1, f1⟩ | ⟨x, w1, q', h1, i1⟩
  rotate_left
  · rw [Act.bind_ok (Act.attempt_err h1)] at h
    change ((v.drop : Act FileW RErr Unit) >>= _) w1 = _ at h
    obtain ⟨_, _, _, h⟩ := Act.bind_eq_ok h
    cases h
  rw [Act.bind_ok (Act.attempt_ok h1)] at h
  change ExtVec.closeHandle p e v1 w1 = _ at h
  have o1 := own_flush (p := p) hst w (i.own hst)
  rw [h1] at o1
  have hst1 : v1.handle.stream = some st := by
    unfold ExtVec.flush at h1
    obtain ⟨_, _, _, h1⟩ := Act.bind_eq_ok h1
    obtain ⟨_, _, _, h1⟩ := Act.bind_eq_ok h1
    obtain ⟨hd, _, h2, h1⟩ := Act.bind_eq_ok h1
    cases h1
    unfold Handle.write at h2
    rw [hst] at h2
    obtain ⟨_, _, _, h2⟩ := Act.bind_eq_ok h2
    obtain ⟨_, _, _, h2⟩ := Act.bind_eq_ok h2
    cases h2
    rfl
  obtain ⟨a, b, c'⟩ := i1.closeHandle i.le (by omega) (by rw [f1, hc]; rfl) (by rw [m1]; exact hq) hst1 h
  exact ⟨a, b, o1.beside.trans c'⟩

theorem Mine.close [DiffLib] {o : Obj} {name schema : String} {size : Nat} {w w' : FileW} {v : ExtVec file} {pre buf : List Bytes} {q : Nat}
    (i : Mine o name schema size w v pre buf q) {p : Profile} {e : Endian} {s : Slice Key} {c : Bytes}
    (hb : (pre ++ buf).length * size + 16 < 2 ^ 64) (hc : w.fs.files (key (join o.path name)) = some c)
    (hq : q = pre.flatten.length ∨ w.maps o.id (join o.path name) = none) (h : v.close p e w = (.ok s, w')) :
    file.deref w' s = .ok (dataOnDisk c pre.flatten.length ++ buf.flatten) := by
  obtain ⟨st, hst, _⟩ := i.stream
  exact (i.close_full hb hc hq hst h).1

end Flatdata
