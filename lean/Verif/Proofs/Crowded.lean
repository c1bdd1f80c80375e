import Verif.Spec.Crowded
import Verif.Proofs.Disturbed
import Verif.Props.Rewrite
/-!
# Vectors in memory to whose stream others write
-/
namespace Flatdata
open Spec

/-- An open vector in memory, to whose stream others have written `n` bytes. -/
structure Crowd (o : Obj) (name schema : String) (size n : Nat) (w : MemW) (v : ExtVec mem) (pre buf : List Bytes) : Prop where
  alive : o.id < w.next
  handle : v.handle = ⟨some (MemSt.loc o name), pre.flatten.length, o, name, schema⟩
  stream : ∃ c, w.streams (MemSt.loc o name) = some (c, c.length) ∧ c.length = 8 + pre.flatten.length + n ∧
    (n = 0 → c = le64 0 ++ pre.flatten)
  unread : w.resources (MemSt.loc o name) = none
  schema : w.streams (MemSt.loc o (Storage.schemaName name)) ≠ none
  rep : Rep size v.data buf
  len : v.len = pre.length + buf.length
  all : AllSize size pre

section
variable {o : Obj} {name schema : String} {size n : Nat} {w w' : MemW} {v : ExtVec mem} {pre buf : List Bytes}

theorem Crowd.flush (i : Crowd o name schema size n w v pre buf) (p : Profile) (hb : (pre ++ buf).length * size < 2 ^ 64) :
    ∃ v' w', v.flush p w = (.ok v', w') ∧ Crowd o name schema size n w' v' (pre ++ buf) [] := by
  obtain ⟨e1, e2⟩ := i.rep.body p
  obtain ⟨c, hs, hl, hc⟩ := i.stream
  have hlen : pre.flatten.length + buf.flatten.length = (pre ++ buf).length * size := by
    rw [← (i.all.append i.rep.all).length_flatten]; simp
  obtain ⟨w1, h1, s1, o1⟩ := mem_append buf.flatten hs
  have hw : v.handle.write p buf.flatten w = (.ok ⟨some (MemSt.loc o name), (pre ++ buf).flatten.length, o, name, schema⟩, w1) := by
    rw [i.handle]
    unfold Handle.write
    change (MemSt.writeAll _ buf.flatten >>= _) w = _
    rw [Act.bind_ok h1, uadd_ok (by unfold usizeMod; rw [hlen]; exact hb), Act.lift_bind, List.flatten_append, List.length_append]
    rfl
  have hne : MemSt.loc o (Storage.schemaName name) ≠ MemSt.loc o name := Kind.loc_schema_ne .memory o name
  refine ⟨⟨List.replicate paddingSize 0#8, v.len, ⟨some (MemSt.loc o name), (pre ++ buf).flatten.length, o, name, schema⟩⟩, w1, ?_,
    ⟨by rw [o1.next]; exact i.alive, rfl, ⟨_, s1, ?_, ?_⟩, by rw [o1.resources]; exact i.unread, ?_, rep_nil _, ?_,
    i.all.append i.rep.all⟩⟩
  · unfold ExtVec.flush
    rw [e1, Act.lift_bind, e2, Act.lift_bind, Act.bind_ok hw]
    rfl
  · rw [List.length_append, hl, List.flatten_append, List.length_append]; omega
  · intro h0
    rw [hc h0, List.flatten_append, List.append_assoc]
  · rw [o1.streams _ hne]; exact i.schema
  · simp [i.len]

theorem Crowd.grow (i : Crowd o name schema size n w v pre buf) (p : Profile) (hs : 0 < size)
    (hb : ((pre ++ buf).length + 1) * size + 8 < 2 ^ 63) :
    ∃ v' pos w' pre' buf', v.grow p size w = (.ok (v', pos), w') ∧
      Crowd o name schema size n w' v' pre' (buf' ++ [zeros size]) ∧ pre' ++ buf' = pre ++ buf ∧ pos = buf'.length * size := by
  rw [Nat.add_mul, Nat.one_mul] at hb
  have hf : ∃ v' w' pre' buf', v.flushIfFull p w = (.ok v', w') ∧ Crowd o name schema size n w' v' pre' buf' ∧
      pre' ++ buf' = pre ++ buf := by
    unfold ExtVec.flushIfFull
    split
    · obtain ⟨v', w', h1, i1⟩ := i.flush p (by omega)
      exact ⟨v', w', _, _, h1, i1, by simp⟩
    · exact ⟨v, w, pre, buf, rfl, i, rfl⟩
  obtain ⟨v', w', pre', buf', h1, i1, e1⟩ := hf
  have hlen := i1.rep.length
  have hle : buf'.length * size ≤ (pre ++ buf).length * size := by
    rw [← e1]; exact Nat.mul_le_mul_right _ (by simp)
  have hle2 : (pre ++ buf).length ≤ (pre ++ buf).length * size := Nat.le_mul_of_pos_right _ hs
  have hv : v'.len = (pre ++ buf).length := by rw [i1.len, ← e1, List.length_append]
  refine ⟨⟨resize0 v'.data (v'.data.length + size), v'.len + 1, v'.handle⟩, buf'.length * size, w', pre', buf', ?_,
    ⟨i1.alive, i1.handle, i1.stream, i1.unread, i1.schema, resize0_rep i1.rep, ?_, i1.all⟩, e1, rfl⟩
  · unfold ExtVec.grow
    rw [Act.bind_ok h1, uadd_ok (by unfold usizeMod; omega)]
    change (Act.lift (alloc (v'.data.length + size)) >>= _) w' = _
    have : alloc (v'.data.length + size) = .ok () := by unfold alloc; rw [if_pos (by omega)]
    rw [this]
    change (Act.lift (uadd p v'.len 1) >>= _) w' = _
    rw [uadd_ok (by unfold usizeMod; omega)]
    change (Act.lift (usub p v'.data.length paddingSize) >>= _) w' = _
    rw [paddingSize_eq, usub_ok (by omega), hlen, Nat.add_sub_cancel]
    change (Act.lift (sliceFrom _ _) >>= _) w' = _
    have hr := (resize0_rep i1.rep).length
    rw [hlen] at hr
    unfold sliceFrom
    rw [if_pos (by rw [hr, List.length_append, Nat.add_mul]; simp only [List.length_singleton]; omega)]
    rfl
  · simp [i1.len]; omega

theorem Crowd.writeAt {S : StructDef} (i : Crowd o name schema S.size n w v pre (buf ++ [zeros S.size])) {p : Profile} {e : Endian}
    {ops : List HandleOp} {d : Bytes} (h : Vector.writeAt p e S v.data (buf.length * S.size) ops = .ok d) :
    ∃ x, runHandle p e S ops (zeros S.size) = .ok x ∧ Crowd o name schema S.size n w { v with data := d } pre (buf ++ [x]) := by
  have hd : v.data.drop (buf.length * S.size) = zeros S.size ++ zeros 8 := by
    rw [i.rep.eq, List.flatten_append, ← (show AllSize S.size buf from fun x hx => i.rep.all x (by simp [hx])).length_flatten]
    simp
  have h0 := h
  unfold Vector.writeAt at h
  rw [hd, runHandle_local ops _ (by simp [zeros])] at h
  simp only [Out.bind_eq_ok] at h
  obtain ⟨m, ⟨x, hx, hm⟩, h⟩ := h
  refine ⟨x, hx, i.alive, i.handle, i.stream, i.unread, i.schema, ?_, by simpa using i.len, i.all⟩
  obtain ⟨d', h1, h2⟩ := i.rep.writeAt (i := buf.length) (x := zeros S.size) (by simp) hx
  rw [h0] at h1; cases h1
  have : (buf ++ [zeros S.size]).set buf.length x = buf ++ [x] := by
    rw [List.set_append_right _ _ (Nat.le_refl _)]; simp
  rw [← this]; exact h2

end

/-- The state after any crowded history, continuing a vector that already has elements. -/
theorem crowded_from {p : Profile} {e : Endian} {S : StructDef} {o : Obj} {name schema : String} {w w1 : MemW} {v v1 : ExtVec mem}
    {es0 es : List (List HandleOp)} {n0 n : Nat} {pre0 buf0 : List Bytes} (i : Crowd o name schema S.size n0 w v pre0 buf0)
    (el0 : Elements p e S es0 (pre0 ++ buf0)) (hs : 0 < S.size) (g : Crowded p e S o name w v es n w1 v1) :
    (es0 ++ es).length * S.size + 8 < 2 ^ 63 →
    ∃ pre buf, Crowd o name schema S.size (n0 + n) w1 v1 pre buf ∧ Elements p e S (es0 ++ es) (pre ++ buf) := by
  induction g with
  | start => exact fun _ => ⟨pre0, buf0, i, by rw [List.append_nil]; exact el0⟩
  | @grow es n w1 v1 v2 pos w2 ops d g h hw ih =>
    rw [← List.append_assoc]
    intro hb
    have hb' := hb
    rw [List.length_append, Nat.add_mul] at hb
    simp only [List.length_singleton, Nat.one_mul] at hb
    obtain ⟨pre, buf, i1, el⟩ := ih (by omega)
    have hlen := el.length_eq
    obtain ⟨v', pos', w', pre', buf', h1, i2, e2, hp⟩ := i1.grow p hs (by rw [← hlen]; simpa [Nat.add_assoc] using hb')
    rw [h] at h1; cases h1
    rw [hp] at hw
    obtain ⟨x, hx, i3⟩ := i2.writeAt hw
    refine ⟨pre', buf' ++ [x], i3, ?_⟩
    rw [← List.append_assoc, e2]
    exact el.snoc hx
  | @create es n w1 v1 r w2 g h ih =>
    intro hb
    obtain ⟨pre, buf, i1, el⟩ := ih hb
    obtain ⟨c, hs, _⟩ := i1.stream
    rcases MemSt.create_cases o name w1 with ⟨x, _, h2⟩ | ⟨h1, _⟩
    · have h : MemSt.createOutputStream o name w1 = _ := h
      rw [h] at h2; cases h2
      exact ⟨pre, buf, i1, el⟩
    · rw [h1] at hs; cases hs
  | @write es n w1 v1 b r w2 g h ih =>
    intro hb
    obtain ⟨pre, buf, i1, el⟩ := ih hb
    obtain ⟨c, hs, hl, hc⟩ := i1.stream
    obtain ⟨w3, h1, s1, o1⟩ := mem_append b hs
    have hne : MemSt.loc o (Storage.schemaName name) ≠ MemSt.loc o name := Kind.loc_schema_ne .memory o name
    have h : MemSt.writeAll (MemSt.loc o name) b w1 = _ := h
    rw [h] at h1; cases h1
    refine ⟨pre, buf, ⟨by rw [o1.next]; exact i1.alive, i1.handle, ⟨_, s1, by rw [List.length_append]; omega, fun h0 => ?_⟩,
      by rw [o1.resources]; exact i1.unread, by rw [o1.streams _ hne]; exact i1.schema,
      i1.rep, i1.len, i1.all⟩, el⟩
    have hb0 : b = [] := List.length_eq_zero_iff.mp (by omega)
    rw [hb0, List.append_nil]
    exact hc (by omega)
  | @other es n w1 v1 w2 g h ih =>
    intro hb
    obtain ⟨pre, buf, i1, el⟩ := ih hb
    obtain ⟨c, hs, hl, hc⟩ := i1.stream
    have k := h.keeps.1 o name rfl
    obtain ⟨m1, m2⟩ := h.step.mem
    have hm : (w2.streams (MemSt.loc o name)).map Prod.fst = (w1.streams (MemSt.loc o name)).map Prod.fst := k.medium
    obtain ⟨_, _, hp⟩ := k.streams (MemSt.loc o name) (show w1.streams (MemSt.loc o name) ≠ none by rw [hs]; simp) rfl
    have hp : ((w2.streams (MemSt.loc o name)).map Prod.snd).getD 0 = ((w1.streams (MemSt.loc o name)).map Prod.snd).getD 0 := hp
    have hca : (w2.resources (MemSt.loc o name)).map (fun d => (⟨MemSt.loc o name, 0, d.length⟩ : Slice MemLoc)) =
        (w1.resources (MemSt.loc o name)).map (fun d => (⟨MemSt.loc o name, 0, d.length⟩ : Slice MemLoc)) := k.cache o name rfl
    refine ⟨pre, buf, ⟨Nat.lt_of_lt_of_le i1.alive m1, i1.handle, ⟨c, ?_, hl, hc⟩, ?_, (m2 _ i1.alive).1 i1.schema,
      i1.rep, i1.len, i1.all⟩, el⟩
    · rw [hs] at hm hp
      cases hx : w2.streams (MemSt.loc o name) with
      | none => rw [hx] at hm; cases hm
      | some x =>
        rw [hx] at hm hp
        have e1 : x.1 = c := Option.some.inj hm
        have e2 : x.2 = c.length := hp
        rw [← e2, ← e1]
    · rw [i1.unread] at hca
      exact Option.map_eq_none_iff.mp hca

/-- The state after any crowded history. -/
theorem crowded_inv {p : Profile} {e : Endian} {S : StructDef} {o : Obj} {name schema : String} {w w1 : MemW} {v v1 : ExtVec mem}
    {es : List (List HandleOp)} {n0 n : Nat} (i : Crowd o name schema S.size n0 w v [] []) (hs : 0 < S.size)
    (g : Crowded p e S o name w v es n w1 v1) (hb : es.length * S.size + 8 < 2 ^ 63) :
    ∃ pre buf, Crowd o name schema S.size (n0 + n) w1 v1 pre buf ∧ Elements p e S es (pre ++ buf) :=
  crowded_from (es0 := []) i trivial hs g hb

/-- Reading in memory, from what the object sees. -/
theorem mem_read_seen [DiffLib] (p : Profile) (e : Endian) {w : MemW} {o : Obj} {name schema : String} {d c : Bytes}
    (hd : memSeen w (MemSt.loc o name) = some d) (hc : memSeen w (MemSt.loc o (Storage.schemaName name)) = some c) :
    ∃ w', Storage.read mem p e o name schema w = (toSlice ⟨MemSt.loc o name, 0, d.length⟩ (verdict p name schema d c), w') ∧
      w'.resources (MemSt.loc o name) = some d := by
  have whole : ∀ {w : MemW} {l : MemLoc} {d : Bytes}, w.resources l = some d → mem.deref w ⟨l, 0, d.length⟩ = .ok d := by
    intro w l d h
    change (if 0 + d.length ≤ ((w.resources l).getD []).length then Out.ok ((((w.resources l).getD []).drop 0).take d.length) else .ub) = _
    rw [h]; simp
  obtain ⟨w1, r1, c1, s1, _⟩ := memSeen_read hd
  obtain ⟨w2, r2, c2, s2, k2⟩ := memSeen_read ((s1 _).trans hc)
  have c1' := (k2 _ (by rw [c1]; simp)).trans c1
  exact ⟨w2, read_from (B := mem) p e r1 r2 (whole c1') (whole c2), c1'⟩

/-- What closing returns, if padding and size can be written. -/
theorem closeHandle_read {B : Backend} [DiffLib] {p : Profile} {e : Endian} {v : ExtVec B} {s : B.Strm} {w w1 w2 : B.W}
    {r : Res RErr (Slice B.Base)} (hs : v.handle.stream = some s) (hf : v.handle.finish p e s w = (.ok (), w1))
    (h : Storage.read B p e v.handle.obj v.handle.name v.handle.schema w1 = (r, w2)) : v.closeHandle p e w = (r, w2) := by
  unfold ExtVec.closeHandle Handle.close
  rw [hs]
  simp only [Act.bind_def, Act.mapErr, Act.attempt, hf, h]
  cases r <;> rfl

/-- Closing: the bytes that are read back. -/
theorem Crowd.close [DiffLib] {o : Obj} {name schema : String} {size n : Nat} {w : MemW} {v : ExtVec mem} {pre buf : List Bytes}
    (i : Crowd o name schema size n w v pre buf) (p : Profile) (e : Endian) (hb : (pre ++ buf).length * size + 8 < 2 ^ 63) :
    ∃ d c w', v.close p e w = (toSlice ⟨MemSt.loc o name, 0, d.length⟩ (verdict p name schema d c), w') ∧
      w'.resources (MemSt.loc o name) = some d ∧ leNat (d.take 8) = (pre ++ buf).flatten.length ∧
      d.length = (pre ++ buf).flatten.length + n + 16 ∧ (n = 0 → d = image (pre ++ buf).flatten) ∧ o.id < w'.next ∧
      w'.streams (MemSt.loc o (Storage.schemaName name)) ≠ none := by
  have hp : (2 : Nat) ^ 63 < 2 ^ 64 := by decide
  obtain ⟨v1, w1, h1, i1⟩ := i.flush p (by omega)
  have hne : MemSt.loc o (Storage.schemaName name) ≠ MemSt.loc o name := Kind.loc_schema_ne .memory o name
  have hlen : (pre ++ buf).flatten.length = (pre ++ buf).length * size := i1.all.length_flatten
  obtain ⟨c, hs, hl, hc⟩ := i1.stream
  obtain ⟨w2, h2, s2, o2⟩ := mem_append (List.replicate paddingSize 0#8) hs
  have h3 := MemSt.seekStart_eq s2
  have h4 := MemSt.writeAll_eq (le64 (pre ++ buf).flatten.length)
    (w := { w2 with streams := upd w2.streams (MemSt.loc o name) (some (c ++ List.replicate paddingSize 0#8, 0)) })
    (s := MemSt.loc o name) (c := c ++ List.replicate paddingSize 0#8) (q := 0) (by dsimp only; rw [upd_same])
  generalize hw4 : ({ ({ w2 with streams := upd w2.streams (MemSt.loc o name) (some (c ++ List.replicate paddingSize 0#8, 0)) } : MemW) with
    streams := upd (upd w2.streams (MemSt.loc o name) (some (c ++ List.replicate paddingSize 0#8, 0))) (MemSt.loc o name)
      (some (putAt (c ++ List.replicate paddingSize 0#8) 0 (le64 (pre ++ buf).flatten.length), 0 + (le64 (pre ++ buf).flatten.length).length)) }
      : MemW) = w4 at h4
  have s4 : w4.streams (MemSt.loc o name) = some (le64 (pre ++ buf).flatten.length ++ (c ++ List.replicate paddingSize 0#8).drop 8, 8) := by
    rw [← hw4]
    dsimp only
    rw [upd_same, putAt_inside, length_le64]
  have s4' : w4.streams (MemSt.loc o (Storage.schemaName name)) ≠ none := by
    rw [← hw4]
    dsimp only
    rw [upd_other _ _ hne, upd_other _ _ hne, o2.streams _ hne]
    exact i1.schema
  have r4 : w4.resources (MemSt.loc o name) = none := by
    rw [← hw4]
    change w2.resources _ = none
    rw [o2.resources]
    exact i1.unread
  have n4 : o.id < w4.next := by
    rw [← hw4]
    change o.id < w2.next
    rw [o2.next]; exact i1.alive
  have fin : v1.handle.finish p e (MemSt.loc o name) w1 = (.ok (), w4) := by
    unfold Handle.finish
    change (MemSt.writeAll (MemSt.loc o name) (List.replicate paddingSize 0#8) >>= _) w1 = _
    rw [Act.bind_ok h2]
    change (MemSt.seekStart (MemSt.loc o name) >>= _) w2 = _
    rw [Act.bind_ok h3]
    have hz : v1.handle.size = (pre ++ buf).flatten.length := by rw [i1.handle]
    rw [hz, writeSize_eq (B := mem) p e _ (by omega)]
    exact h4
  have hseen : memSeen w4 (MemSt.loc o name) = some (le64 (pre ++ buf).flatten.length ++ (c ++ List.replicate paddingSize 0#8).drop 8) := by
    unfold memSeen; rw [r4, s4]; rfl
  have hsch : ∃ t, memSeen w4 (MemSt.loc o (Storage.schemaName name)) = some t := by
    unfold memSeen
    cases h : w4.resources (MemSt.loc o (Storage.schemaName name)) with
    | some t => exact ⟨t, rfl⟩
    | none =>
      cases h' : w4.streams (MemSt.loc o (Storage.schemaName name)) with
      | none => exact absurd h' s4'
      | some t => exact ⟨t.1, rfl⟩
  obtain ⟨t, ht⟩ := hsch
  obtain ⟨w5, h5, r5⟩ := mem_read_seen (schema := schema) p e hseen ht
  have keep : Kind.Steps .memory w4 w5 := Kind.steps_of (k := .memory) (o := o) (fun _ => Kind.pres_storageRead) n4 h5
  have hd8 : c.drop 8 ++ List.replicate paddingSize 0#8 = (c ++ List.replicate paddingSize 0#8).drop 8 := by
    rw [List.drop_append_of_le_length (by omega)]
  refine ⟨_, t, w5, ?_, r5, ?_, ?_, fun h0 => ?_, keep.alive n4, ?_⟩
  · unfold ExtVec.close
    rw [Act.bind_ok (Act.attempt_ok h1)]
    change v1.closeHandle p e w1 = _
    exact closeHandle_read (by rw [i1.handle]) fin (by rw [i1.handle]; exact h5)
  · rw [List.take_append_of_le_length (by rw [length_le64]; exact Nat.le_refl _), List.take_of_length_le (by rw [length_le64]; exact Nat.le_refl _),
      leNat_le64 (by omega)]
  · rw [List.length_append, length_le64, List.length_drop, List.length_append, List.length_replicate, hl, paddingSize_eq]; omega
  · rw [← hd8, hc h0]
    unfold image
    rw [List.drop_left' (length_le64 0)]
    simp [zeros, paddingSize_eq]
  · have : ∀ {a b : Kind.memory.backend.W}, Kind.Steps .memory a b → o.id < a.next → a.streams (MemSt.loc o (Storage.schemaName name)) ≠ none →
        b.streams (MemSt.loc o (Storage.schemaName name)) ≠ none := by
      intro a b st ha hn
      induction st with
      | refl => exact hn
      | step st s' ih => exact (s'.mem.2 (MemSt.loc o (Storage.schemaName name)) (st.alive ha)).1 ih
    exact this keep n4 s4'

end Flatdata
