import Verif.Proofs.Handle
/-!
# External vectors: invariant and single steps, for every backend
-/
namespace Flatdata
open Spec

section
variable {B : Backend} {L : Laws B} {o : B.Obj} {name schema : String} {size : Nat}

/-- An open external vector: the elements `pre` have been flushed, `buf` are in the buffer, and `c` is at the place of the
resource after the size field. -/
structure EvInv (L : Laws B) (o : B.Obj) (name schema : String) (size : Nat) (w : B.W) (v : ExtVec B) (pre buf : List Bytes)
    (c : Bytes) : Prop where
  writing : Writing L o name schema w v.handle pre.flatten c
  rep : Rep size v.data buf
  len : v.len = pre.length + buf.length
  all : AllSize size pre

theorem EvInv.keeps {w w' : B.W} {v : ExtVec B} {pre buf : List Bytes} {c : Bytes}
    (i : EvInv L o name schema size w v pre buf c)
    (k1 : Keeps L w w' (L.loc o name)) (k2 : Keeps L w w' (L.loc o (Storage.schemaName name))) :
    EvInv L o name schema size w' v pre buf c := ⟨i.writing.keeps k1 k2, i.rep, i.len, i.all⟩

theorem rep_nil (size : Nat) : Rep size (zeros 8) [] := ⟨.nil _, rfl⟩

theorem EvInv.all' {w : B.W} {v : ExtVec B} {pre buf : List Bytes} {c : Bytes} (i : EvInv L o name schema size w v pre buf c) :
    AllSize size (pre ++ buf) := i.all.append i.rep.all

theorem EvInv.length {w : B.W} {v : ExtVec B} {pre buf : List Bytes} {c : Bytes} (i : EvInv L o name schema size w v pre buf c) :
    pre.flatten.length + buf.flatten.length = (pre ++ buf).length * size := by
  rw [← i.all'.length_flatten]; simp

theorem Rep.body {size : Nat} {data : Bytes} {l : List Bytes} (h : Rep size data l) (p : Profile) :
    usub p data.length paddingSize = .ok l.flatten.length ∧ sliceRange data 0 l.flatten.length = .ok l.flatten := by
  have hl : data.length = l.flatten.length + 8 := by rw [h.eq]; simp [zeros]
  refine ⟨?_, ?_⟩
  · rw [paddingSize_eq, usub_ok (by omega), hl]; rfl
  · unfold sliceRange
    rw [if_pos (by omega), h.eq]; simp

theorem EvInv.flush {w : B.W} {v : ExtVec B} {pre buf : List Bytes} {c : Bytes} (i : EvInv L o name schema size w v pre buf c)
    (hne : L.loc o (Storage.schemaName name) ≠ L.loc o name) (p : Profile) (hb : (pre ++ buf).length * size < 2 ^ 64) :
    (∃ v' w', v.flush p w = (.ok v', w') ∧ EvInv L o name schema size w' v' (pre ++ buf) [] (c ++ buf.flatten) ∧
      Only L w w' (· = L.loc o name)) ∨
    (∃ x d' w', v.flush p w = (.err x, w') ∧ EvInv L o name schema size w' v pre buf (c ++ d') ∧
      Only L w w' (· = L.loc o name) ∧ ¬ L.noFault w) := by
  obtain ⟨e1, e2⟩ := i.rep.body p
  unfold ExtVec.flush
  rw [e1]
  change (∃ v' w', (Act.lift (sliceRange v.data 0 buf.flatten.length) >>= _) w = _ ∧ _) ∨
    (∃ x d' w', (Act.lift (sliceRange v.data 0 buf.flatten.length) >>= _) w = _ ∧ _)
  rw [e2]
  change (∃ v' w', (v.handle.write p buf.flatten >>= _) w = _ ∧ _) ∨ (∃ x d' w', (v.handle.write p buf.flatten >>= _) w = _ ∧ _)
  rcases i.writing.write hne p buf.flatten (by rw [i.length]; exact hb) with ⟨h', w', h1, i1, o1⟩ | ⟨x, d', w', h1, i1, o1, nf⟩
  · refine .inl ⟨_, w', Act.bind_ok h1, ⟨?_, rep_nil _, ?_, i.all'⟩, o1⟩
    · rw [List.flatten_append]; exact i1
    · simp [i.len]
  · exact .inr ⟨x, d', w', Act.bind_err h1, ⟨i1, i.rep, i.len, i.all⟩, o1, nf⟩

theorem EvInv.flushIfFull {w : B.W} {v : ExtVec B} {pre buf : List Bytes} {c : Bytes} (i : EvInv L o name schema size w v pre buf c)
    (hne : L.loc o (Storage.schemaName name) ≠ L.loc o name) (p : Profile) (hb : (pre ++ buf).length * size < 2 ^ 64) :
    (∃ v' w' pre' buf' c', v.flushIfFull p w = (.ok v', w') ∧ EvInv L o name schema size w' v' pre' buf' c' ∧
      pre' ++ buf' = pre ++ buf ∧ (c = pre.flatten → c' = pre'.flatten) ∧ v'.data.length ≤ bufferLimit ∧
      (pre' = pre ∨ bufferLimit < pre'.flatten.length + 8) ∧
      Only L w w' (· = L.loc o name)) ∨
    (∃ x d' w', v.flushIfFull p w = (.err x, w') ∧ EvInv L o name schema size w' v pre buf (c ++ d') ∧
      Only L w w' (· = L.loc o name) ∧ ¬ L.noFault w) := by
  unfold ExtVec.flushIfFull
  split
  · rcases i.flush hne p hb with ⟨v', w', h1, i1, o1⟩ | h
    · refine .inl ⟨v', w', _, _, _, h1, i1, by simp, fun h => by simp [h], ?_, .inr ?_, o1⟩
      · rw [i1.rep.eq]; simp [zeros, bufferLimit]
      · rename_i hlt
        have := i.rep.eq
        rw [this] at hlt; simp [zeros] at hlt ⊢; omega
    · exact .inr h
  · rename_i hle
    exact .inl ⟨v, w, pre, buf, c, rfl, i, rfl, id, by omega, .inl rfl, .refl _ _⟩

/-- A new element of zeroes at the end of the buffer. -/
theorem resize0_rep {data : Bytes} {l : List Bytes} (h : Rep size data l) :
    Rep size (resize0 data (data.length + size)) (l ++ [zeros size]) := by
  refine ⟨h.all.append (.single (by simp [zeros])), ?_⟩
  have hl : data.length = l.flatten.length + 8 := by rw [h.eq]; simp [zeros]
  unfold resize0
  rw [List.take_of_length_le (by omega), h.eq]
  simp only [List.flatten_append, List.flatten_cons, List.flatten_nil, List.append_nil, List.append_assoc]
  congr 1
  rw [zeros_append]
  simp only [zeros, List.replicate_append_replicate, List.length_append, List.length_replicate]
  congr 1
  omega

theorem EvInv.grow {w : B.W} {v : ExtVec B} {pre buf : List Bytes} {c : Bytes} (i : EvInv L o name schema size w v pre buf c)
    (hne : L.loc o (Storage.schemaName name) ≠ L.loc o name) (p : Profile) (hs : 0 < size)
    (hb : ((pre ++ buf).length + 1) * size + 8 < 2 ^ 63) :
    (∃ v' pos w' pre' buf' c', v.grow p size w = (.ok (v', pos), w') ∧
      EvInv L o name schema size w' v' pre' (buf' ++ [zeros size]) c' ∧ pre' ++ buf' = pre ++ buf ∧
      pos = buf'.length * size ∧ (c = pre.flatten → c' = pre'.flatten) ∧ v'.data.length ≤ bufferLimit + size ∧
      (pre' = pre ∨ bufferLimit < pre'.flatten.length + 8) ∧
      Only L w w' (· = L.loc o name)) ∨
    (∃ x d' w', v.grow p size w = (.err x, w') ∧ EvInv L o name schema size w' v pre buf (c ++ d') ∧
      Only L w w' (· = L.loc o name) ∧ ¬ L.noFault w) := by
  rw [Nat.add_mul, Nat.one_mul] at hb
  rcases i.flushIfFull hne p (by omega) with ⟨v', w', pre', buf', c', h1, i1, e1, hc, hl, hf, o1⟩ | ⟨x, d', w', h1, i1, o1, nf⟩
  · left
    have hlen := i1.rep.length
    have hle : buf'.length * size ≤ (pre ++ buf).length * size := by
      rw [← e1]; exact Nat.mul_le_mul_right _ (by simp)
    have hle2 : (pre ++ buf).length ≤ (pre ++ buf).length * size := Nat.le_mul_of_pos_right _ hs
    have hv : v'.len = (pre ++ buf).length := by rw [i1.len, ← e1, List.length_append]
    refine ⟨⟨resize0 v'.data (v'.data.length + size), v'.len + 1, v'.handle⟩, buf'.length * size, w', pre', buf', c', ?_,
      ⟨i1.writing, resize0_rep i1.rep, ?_, i1.all⟩, e1, rfl, hc, ?_, hf, o1⟩
    · unfold ExtVec.grow
      rw [Act.bind_ok h1, uadd_ok (by unfold usizeMod; omega)]
      change (Act.lift (alloc (v'.data.length + size)) >>= _) w' = _
      have : alloc (v'.data.length + size) = .ok () := by unfold alloc; rw [if_pos (by omega)]
      rw [this]
      change (Act.lift (uadd p v'.len 1) >>= _) w' = _
      rw [uadd_ok (by unfold usizeMod; omega)]
      change (Act.lift (usub p v'.data.length paddingSize) >>= _) w' = _
      rw [paddingSize_eq, usub_ok (by omega), hlen, Nat.add_sub_cancel]
      change (Act.lift (sliceFrom _ _) >>= _) w' = _
      have hr := (resize0_rep i1.rep).length
      rw [hlen] at hr
      unfold sliceFrom
      rw [if_pos (by rw [hr, List.length_append, Nat.add_mul]; simp only [List.length_singleton]; omega)]
      rfl
    · simp [i1.len]; omega
    · rw [(resize0_rep i1.rep).length, List.length_append, Nat.add_mul]
      simp only [List.length_singleton]; omega
  · right
    refine ⟨x, d', w', ?_, i1, o1, nf⟩
    unfold ExtVec.grow
    rw [Act.bind_err h1]

/-- Operations through the handle of the last element. -/
theorem EvInv.writeAt {S : StructDef} {w : B.W} {v : ExtVec B} {pre buf : List Bytes} {c : Bytes}
    (i : EvInv L o name schema S.size w v pre (buf ++ [zeros S.size]) c) {p : Profile} {e : Endian} {ops : List HandleOp} {d : Bytes}
    (h : Vector.writeAt p e S v.data (buf.length * S.size) ops = .ok d) :
    ∃ x, runHandle p e S ops (zeros S.size) = .ok x ∧
      EvInv L o name schema S.size w { v with data := d } pre (buf ++ [x]) c := by
  have hd : v.data.drop (buf.length * S.size) = zeros S.size ++ zeros 8 := by
    rw [i.rep.eq, List.flatten_append, ← (show AllSize S.size buf from fun x hx => i.rep.all x (by simp [hx])).length_flatten]
    simp
  have h0 := h
  unfold Vector.writeAt at h
  rw [hd, runHandle_local ops _ (by simp [zeros])] at h
  simp only [Out.bind_eq_ok] at h
  obtain ⟨m, ⟨x, hx, hm⟩, h⟩ := h
  refine ⟨x, hx, i.writing, ?_, by simpa using i.len, i.all⟩
  obtain ⟨d', h1, h2⟩ := i.rep.writeAt (i := buf.length) (x := zeros S.size) (by simp) hx
  rw [h0] at h1; cases h1
  have : (buf ++ [zeros S.size]).set buf.length x = buf ++ [x] := by
    rw [List.set_append_right _ _ (Nat.le_refl _)]; simp
  rw [this] at h2; exact h2

/-- Closing a vector: every outcome. -/
inductive VecClosed [DiffLib] (p : Profile) (e : Endian) (L : Laws B) (o : B.Obj) (name schema : String) (all : Bytes) (clean : Prop) (w w' : B.W) :
    Res RErr (Slice B.Base) → Prop
  /-- I/O failed while the vector was written: its destructor panics -/
  | failed (nf : ¬ L.noFault w) : VecClosed p e L o name schema all clean w w' .panic
  /-- everything is written, the final read failed -/
  | unread (x : RErr) (c : Bytes) (hle : all.length ≤ c.length) (hc : c.length = all.length → c = all)
      (hm : L.medium w' (L.loc o name) = some (le64 all.length ++ c ++ zeros 8))
      (nf : clean → L.readable (strBytes schema) → ¬ L.noFault w) : VecClosed p e L o name schema all clean w w' (.err x)
  | ok (s : Slice B.Base) (hm : L.medium w' (L.loc o name) = some (image all)) (hs : B.deref w' s = .ok all)
      (hr : ∃ w1, Unseen L o name w1 ∧ Storage.read B p e o name schema w1 = (.ok s, w')) (hb : L.bloc s.base = L.loc o name) :
      VecClosed p e L o name schema all clean w w' (.ok s)

theorem EvInv.close [DiffLib] {w : B.W} {v : ExtVec B} {pre buf : List Bytes} {c : Bytes}
    (i : EvInv L o name schema size w v pre buf c)
    (hu : Unseen L o name w) (hne : L.loc o (Storage.schemaName name) ≠ L.loc o name) (p : Profile) (e : Endian)
    (hb : (pre ++ buf).length * size < 2 ^ 63) :
    ∃ r w', v.close p e w = (r, w') ∧ VecClosed p e L o name schema (pre ++ buf).flatten (c = pre.flatten) w w' r ∧
      Off L w w' (OwnLoc L o name) ∧ L.medium w' (L.loc o (Storage.schemaName name)) = some (strBytes schema) ∧
      ∃ d, L.medium w' (L.loc o name) = some d ∧ AllOrNothing d (pre ++ buf).flatten := by
  have own : ∀ l, l = L.loc o name → OwnLoc L o name l := fun _ => .inl
  unfold ExtVec.close
  rcases i.flush hne p (by omega) with ⟨v', w1, h1, i1, o1⟩ | ⟨x, d', w1, h1, i1, o1, nf⟩
  · rw [Act.bind_ok (Act.attempt_ok h1)]
    change ∃ r w', ExtVec.closeHandle p e v' w1 = _ ∧ _
    unfold ExtVec.closeHandle
    have hlen : (pre ++ buf).flatten.length < 2 ^ 63 := by rw [i.all'.length_flatten]; exact hb
    obtain ⟨r, w2, h2, cl, o2, s2, an⟩ := i1.writing.close (hu.only o1) hne p e hlen
    rw [Act.bind_ok (Act.mapErr_ok h2)]
    cases cl with
    | failed x nf =>
      refine ⟨.panic, w2, ?_, .failed fun h => nf (o1.noFault h), (o1.off own).trans o2, s2, an⟩
      apply Act.bind_panic
      unfold Handle.drop
      rw [if_pos i1.writing.isOpen]; rfl
    | unread x hm nf =>
      refine ⟨.err x, w2, rfl, .unread x _ i1.writing.le i1.writing.clean hm ?_, (o1.off own).trans o2, s2, an⟩
      intro hc hr h
      exact nf (by rw [hc, List.flatten_append]) hr (o1.noFault h)
    | ok s hm hc hs hr hb => exact ⟨.ok s, w2, rfl, .ok s hm hs hr hb, (o1.off own).trans o2, s2, an⟩
  · rw [Act.bind_ok (Act.attempt_err h1)]
    obtain ⟨s, _, a⟩ := i1.writing.stream
    refine ⟨.panic, w1, ?_, .failed nf, o1.off own, i1.writing.schemaStored, _, a.medium, allOrNothing_zero _ _⟩
    change ((v.drop : Act B.W RErr Unit) >>= _) w1 = _
    apply Act.bind_panic
    unfold ExtVec.drop Handle.drop
    rw [if_pos i.writing.isOpen]; rfl

/-- What is at the place of a resource when its creation fails. -/
def NotCreated (old : Option Bytes) (d : Option Bytes) : Prop := d = old ∨ ∃ b, d = some b ∧ b.length ≤ 8

/-- The part of `create_external_vector` (and of `create_multi_vector`) that writes the schema and creates the handle. -/
def createHandle (B : Backend) (p : Profile) (e : Endian) (o : B.Obj) (name schema : String) : Act B.W IoErr (Handle B) := do
  let s ← B.createOutputStream o (Storage.schemaName name)
  B.writeAll s (strBytes schema)
  let s ← B.createOutputStream o name
  Handle.tryNew p e o name schema s

theorem createHandle_spec (p : Profile) (e : Endian) (o : B.Obj) (name schema : String) (w : B.W)
    (hne : L.loc o (Storage.schemaName name) ≠ L.loc o name)
    (hf : L.fresh (L.medium w (L.loc o name))) (hf' : L.fresh (L.medium w (L.loc o (Storage.schemaName name)))) :
    (∃ h w', createHandle B p e o name schema w = (.ok h, w') ∧ Writing L o name schema w' h [] [] ∧
      Only L w w' (OwnLoc L o name)) ∨
    (∃ x w', createHandle B p e o name schema w = (.err x, w') ∧ Only L w w' (OwnLoc L o name) ∧
      NotCreated (L.medium w (L.loc o name)) (L.medium w' (L.loc o name))) := by
  have ownS : ∀ l, l = L.loc o (Storage.schemaName name) → OwnLoc L o name l := fun _ => .inr
  have ownD : ∀ l, l = L.loc o name → OwnLoc L o name l := fun _ => .inl
  unfold createHandle
  rcases create_step o (Storage.schemaName name) w hf' with ⟨s, w1, h1, a1, o1⟩ | ⟨x, w1, h1, o1, _⟩
  · rw [Act.bind_ok h1]
    rcases append_step a1 (strBytes schema) with ⟨w2, h2, a2, o2⟩ | ⟨x, b', w2, h2, hp, a2, o2, nf⟩
    · rw [Act.bind_ok h2]
      have o12 := (o1.trans o2)
      have m2 := (o12.keeps _ hne.symm).medium
      rcases create_step o name w2 (by rw [m2]; exact hf) with ⟨t, w3, h3, a3, o3⟩ | ⟨x, w3, h3, o3, m3⟩
      · rw [Act.bind_ok h3]
        unfold Handle.tryNew
        have e4 := writeSize_eq p e t (n := 0) (by decide) w3
        rcases append_step a3 (le64 0) with ⟨w4, h4, a4, o4⟩ | ⟨x, b', w4, h4, hp, a4, o4, nf⟩
        · left
          have oall := (o12.mono ownS).trans ((o3.trans o4).mono ownD)
          refine ⟨_, w4, Act.bind_ok (e4.trans h4), ⟨rfl, rfl, rfl, rfl, ⟨t, rfl, ?_⟩, by simp, fun _ => rfl, ?_⟩, oall⟩
          · simpa using a4
          · rw [((o3.trans o4).keeps _ hne).medium]; simpa using a2.medium
        · right
          refine ⟨x, w4, Act.bind_err (e4.trans h4), (o12.mono ownS).trans ((o3.trans o4).mono ownD), .inr ⟨_, a4.medium, ?_⟩⟩
          have := hp.length_le
          rw [length_le64] at this; simpa using this
      · right
        refine ⟨x, w3, Act.bind_err h3, (o12.mono ownS).trans (o3.mono ownD), ?_⟩
        rcases m3 with m3 | m3
        · exact .inl (m3.trans m2)
        · exact .inr ⟨[], m3, by simp⟩
    · right
      rw [Act.bind_err h2]
      exact ⟨x, w2, rfl, (o1.trans o2).mono ownS, .inl ((o1.trans o2).keeps _ hne.symm).medium⟩
  · right
    rw [Act.bind_err h1]
    exact ⟨x, w1, rfl, o1.mono ownS, .inl (o1.keeps _ hne.symm).medium⟩

theorem Act.bind_assoc {W E α β γ : Type} (x : Act W E α) (f : α → Act W E β) (g : β → Act W E γ) :
    ((x >>= f) >>= g) = (x >>= fun a => f a >>= g) := by
  funext w
  rw [Act.bind_def, Act.bind_def, Act.bind_def]
  cases h : x w with
  | mk r w' => cases r <;> rfl

theorem createExternalVector_eq (p : Profile) (e : Endian) (o : B.Obj) (name schema : String) :
    createExternalVector p e o name schema = (createHandle B p e o name schema >>= fun h => pure (ExtVec.new h)) := by
  unfold createExternalVector createHandle
  rw [Act.bind_assoc]; congr 1; funext s
  rw [Act.bind_assoc]; congr 1; funext _
  rw [Act.bind_assoc]

theorem createExternalVector_spec (p : Profile) (e : Endian) (o : B.Obj) (name schema : String) (size : Nat) (w : B.W)
    (hne : L.loc o (Storage.schemaName name) ≠ L.loc o name)
    (hf : L.fresh (L.medium w (L.loc o name))) (hf' : L.fresh (L.medium w (L.loc o (Storage.schemaName name)))) :
    (∃ v w', createExternalVector p e o name schema w = (.ok v, w') ∧ EvInv L o name schema size w' v [] [] [] ∧
      Only L w w' (OwnLoc L o name)) ∨
    (∃ x w', createExternalVector p e o name schema w = (.err x, w') ∧ Only L w w' (OwnLoc L o name) ∧
      NotCreated (L.medium w (L.loc o name)) (L.medium w' (L.loc o name))) := by
  rw [createExternalVector_eq]
  rcases createHandle_spec p e o name schema w hne hf hf' with ⟨h, w', h1, i1, o1⟩ | ⟨x, w', h1, o1, m1⟩
  · exact .inl ⟨_, w', Act.bind_ok h1, ⟨i1, rep_nil _, rfl, .nil _⟩, o1⟩
  · exact .inr ⟨x, w', Act.bind_err h1, o1, m1⟩

end

end Flatdata
