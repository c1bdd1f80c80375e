import Verif.Spec.MultiVector
import Verif.Proofs.ExtVector
import Verif.Proofs.MultiView
import Verif.Props.Fields
/-!
# Multivectors: invariant and single steps, for every backend
-/
namespace Flatdata
open Spec

theorem Act.lift_bind {W E α β : Type} {a : α} {f : α → Act W E β} {w : W} : (Act.lift (.ok a) >>= f) w = f a w := rfl

/-! ## index entries -/

/-- The operation by which `add_to_index` writes a number. -/
def indexOps (V : Variadic) (n : Nat) : List HandleOp := [.set (indexField V.indexBits) n]

theorem Spec.IndexOK.fieldOK {V : Variadic} (ok : IndexOK V) : FieldOK V.indexSize (indexField V.indexBits) :=
  ⟨ok.pos, ok.le, by simpa [indexField, Field.plain] using ok.inside, rfl, by simp [indexField, Field.plain]⟩

theorem runHandle_index {p : Profile} {e : Endian} {V : Variadic} {n : Nat} {mem : Bytes} :
    runHandle p e V.indexStruct (indexOps V n) mem = (indexField V.indexBits).set p e V.indexSize mem n := by
  change ((indexField V.indexBits).set p e V.indexSize mem n >>= fun m => Out.ok m) = _
  cases (indexField V.indexBits).set p e V.indexSize mem n <;> rfl

theorem indexEntry {p : Profile} {e : Endian} {V : Variadic} (ok : IndexOK V) (n : Nat) :
    ∃ x, runHandle p e V.indexStruct (indexOps V n) (zeros V.indexSize) = .ok x := by
  obtain ⟨x, _, _, h⟩ := C05_setter_confined p e V.indexSize (indexField V.indexBits) ok.fieldOK (zeros V.indexSize)
    (by simp [zeros]) [] n
  exact ⟨x, by rw [runHandle_index]; exact h⟩

theorem indexEntry_value {p : Profile} {e : Endian} {V : Variadic} (ok : IndexOK V) {n : Nat} {x : Bytes}
    (h : runHandle p e V.indexStruct (indexOps V n) (zeros V.indexSize) = .ok x) (hn : n < 2 ^ V.indexBits) :
    fieldRaw x 0 V.indexBits = n := by
  rw [runHandle_index] at h
  obtain ⟨x', h', st, _⟩ := set_stored (p := p) (e := e) (mem := zeros V.indexSize) (v := n) ok.fieldOK (by simp [zeros])
    (.inr (by simp [indexField, Field.plain]))
    (.inr ⟨by omega, by simp only [indexField, Field.plain]; exact_mod_cast hn⟩)
  rw [h] at h'; cases h'
  have := st.field
  simp only [indexField, Field.plain] at this
  rw [Int.emod_eq_of_lt (by omega) (by exact_mod_cast hn)] at this
  exact_mod_cast this

section
variable {B : Backend} {L : Laws B} {o : B.Obj} {name schema : String} {V : Variadic}

/-- The four places of a multivector are different. -/
structure Apart (L : Laws B) (o : B.Obj) (name : String) : Prop where
  data : L.loc o (Storage.schemaName name) ≠ L.loc o name
  index : L.loc o (Storage.schemaName (Storage.indexName name)) ≠ L.loc o (Storage.indexName name)
  indexData : L.loc o (Storage.indexName name) ≠ L.loc o name
  indexSchema : L.loc o (Storage.indexName name) ≠ L.loc o (Storage.schemaName name)
  schemaData : L.loc o (Storage.schemaName (Storage.indexName name)) ≠ L.loc o name
  schemaSchema : L.loc o (Storage.schemaName (Storage.indexName name)) ≠ L.loc o (Storage.schemaName name)

/-- The places of a multivector. -/
def MOwnLoc (L : Laws B) (o : B.Obj) (name : String) (l : L.Loc) : Prop :=
  OwnLoc L o name l ∨ OwnLoc L o (Storage.indexName name) l

theorem Apart.index_data (ap : Apart L o name) {l : L.Loc} (h : OwnLoc L o name l) :
    ¬ OwnLoc L o (Storage.indexName name) l := by
  rintro (h' | h') <;> rcases h with h | h <;> rw [h] at h'
  · exact ap.indexData h'.symm
  · exact ap.indexSchema h'.symm
  · exact ap.schemaData h'.symm
  · exact ap.schemaSchema h'.symm

/-- An open multivector: `preI`, `bufI`, `cI` describe the index as for `EvInv`; of the data, `pre` has been flushed, `body`
is in the buffer, and `c` is at the place of the resource after the size field. -/
structure MvInv (L : Laws B) (o : B.Obj) (name schema : String) (V : Variadic) (w : B.W) (v : MultiVec B) (preI bufI : List Bytes)
    (cI pre body c : Bytes) : Prop where
  index : EvInv L o (Storage.indexName name) (Storage.indexSchema schema) V.indexSize w v.index preI bufI cI
  data : Writing L o name schema w v.handle pre c
  buf : v.data = body ++ zeros 8
  flushed : v.sizeFlushed = pre.length

variable {w : B.W} {v : MultiVec B} {preI bufI : List Bytes} {cI pre body c : Bytes}

theorem MvInv.length (i : MvInv L o name schema V w v preI bufI cI pre body c) : v.data.length = body.length + 8 := by
  rw [i.buf]; simp [zeros]

theorem MvInv.keeps (i : MvInv L o name schema V w v preI bufI cI pre body c) {w' : B.W}
    (h : ∀ l, MOwnLoc L o name l → Keeps L w w' l) : MvInv L o name schema V w' v preI bufI cI pre body c :=
  ⟨i.index.keeps (h _ (.inr (.inl rfl))) (h _ (.inr (.inr rfl))), i.data.keeps (h _ (.inl (.inl rfl))) (h _ (.inl (.inr rfl))),
    i.buf, i.flushed⟩

theorem MvInv.read (i : MvInv L o name schema V w v preI bufI cI pre body c) {w' : B.W} {o' n r}
    (h : B.readResource o' n w = (r, w')) : MvInv L o name schema V w' v preI bufI cI pre body c :=
  ⟨⟨i.index.writing.read h, i.index.rep, i.index.len, i.index.all⟩, i.data.read h, i.buf, i.flushed⟩

theorem MvInv.flush (i : MvInv L o name schema V w v preI bufI cI pre body c) (ap : Apart L o name) (p : Profile)
    (hb : pre.length + body.length + 8 < 2 ^ 63) :
    (∃ v' w', v.flush p w = (.ok v', w') ∧ MvInv L o name schema V w' v' preI bufI cI (pre ++ body) [] (c ++ body) ∧
      v'.index = v.index ∧ Only L w w' (· = L.loc o name)) ∨
    (∃ x d' w', v.flush p w = (.err x, w') ∧ MvInv L o name schema V w' v preI bufI cI pre body (c ++ d') ∧
      Only L w w' (· = L.loc o name) ∧ ¬ L.noFault w) := by
  have hl := i.length
  have e1 : usub p v.data.length paddingSize = .ok body.length := by
    rw [paddingSize_eq, usub_ok (by omega), hl]; rfl
  have e2 : sliceRange v.data 0 body.length = .ok body := by
    unfold sliceRange
    rw [if_pos (by omega), i.buf]; simp
  unfold MultiVec.flush
  rw [e1]
  change (∃ v' w', (Act.lift (sliceRange v.data 0 body.length) >>= _) w = _ ∧ _) ∨
    (∃ x d' w', (Act.lift (sliceRange v.data 0 body.length) >>= _) w = _ ∧ _)
  rw [e2]
  change (∃ v' w', (v.handle.write p body >>= _) w = _ ∧ _) ∨ (∃ x d' w', (v.handle.write p body >>= _) w = _ ∧ _)
  have stay : ∀ {w'}, Only L w w' (· = L.loc o name) →
      EvInv L o (Storage.indexName name) (Storage.indexSchema schema) V.indexSize w' v.index preI bufI cI :=
    fun ow => i.index.keeps (ow.keeps _ ap.indexData) (ow.keeps _ ap.schemaData)
  rcases i.data.write ap.data p body (by omega) with ⟨h', w', h1, i1, o1⟩ | ⟨x, d', w', h1, i1, o1, nf⟩
  · left
    have e3 : uadd p v.sizeFlushed body.length = .ok (pre.length + body.length) := by
      rw [i.flushed, uadd_ok (by unfold usizeMod; omega)]
    refine ⟨{ v with data := zeros 8, handle := h', sizeFlushed := pre.length + body.length }, w', ?_,
      ⟨stay o1, i1, rfl, by simp⟩, rfl, o1⟩
    rw [Act.bind_ok h1, e3]; rfl
  · exact .inr ⟨x, d', w', Act.bind_err h1, ⟨stay o1, i1, i.buf, i.flushed⟩, o1, nf⟩

theorem MvInv.flushIfFull (i : MvInv L o name schema V w v preI bufI cI pre body c) (ap : Apart L o name) (p : Profile)
    (hb : pre.length + body.length + 8 < 2 ^ 63) :
    (∃ v' w' pre' body' c', v.flushIfFull p w = (.ok v', w') ∧ MvInv L o name schema V w' v' preI bufI cI pre' body' c' ∧
      pre' ++ body' = pre ++ body ∧ (c = pre → c' = pre') ∧ v'.index = v.index ∧
      (pre' = pre ∨ bufferLimit < pre'.length + 8) ∧
      Only L w w' (· = L.loc o name)) ∨
    (∃ x d' w', v.flushIfFull p w = (.err x, w') ∧ MvInv L o name schema V w' v preI bufI cI pre body (c ++ d') ∧
      Only L w w' (· = L.loc o name) ∧ ¬ L.noFault w) := by
  unfold MultiVec.flushIfFull
  split
  · rename_i hlt
    rcases i.flush ap p hb with ⟨v', w', h1, i1, hi, o1⟩ | h
    · refine .inl ⟨v', w', _, _, _, h1, i1, by simp, fun h => by simp [h], hi, .inr ?_, o1⟩
      have := i.length
      simp; omega
    · exact .inr h
  · exact .inl ⟨v, w, pre, body, c, rfl, i, rfl, id, rfl, .inl rfl, .refl _ _⟩

theorem MvInv.addToIndex (i : MvInv L o name schema V w v preI bufI cI pre body c) (ap : Apart L o name) (p : Profile) (e : Endian)
    (ok : IndexOK V) (hb : pre.length + body.length + 8 < 2 ^ 63) (hbI : ((preI ++ bufI).length + 1) * V.indexSize + 8 < 2 ^ 63) :
    (∃ v' w' preI' bufI' cI' x, v.addToIndex p e V w = (.ok v', w') ∧
      MvInv L o name schema V w' v' preI' (bufI' ++ [x]) cI' pre body c ∧ preI' ++ bufI' = preI ++ bufI ∧
      runHandle p e V.indexStruct (indexOps V (pre.length + body.length)) (zeros V.indexSize) = .ok x ∧
      (cI = preI.flatten → cI' = preI'.flatten) ∧ v'.data = v.data ∧
      (preI' = preI ∨ bufferLimit < preI'.flatten.length + 8) ∧
      Only L w w' (· = L.loc o (Storage.indexName name))) ∨
    (∃ x d' w', v.addToIndex p e V w = (.err x, w') ∧ MvInv L o name schema V w' v preI bufI (cI ++ d') pre body c ∧
      Only L w w' (· = L.loc o (Storage.indexName name)) ∧ ¬ L.noFault w) := by
  have stay : ∀ {w'}, Only L w w' (· = L.loc o (Storage.indexName name)) → Writing L o name schema w' v.handle pre c :=
    fun ow => i.data.keeps (ow.keeps _ ap.indexData.symm) (ow.keeps _ ap.indexSchema.symm)
  have hl := i.length
  unfold MultiVec.addToIndex
  rcases i.index.grow ap.index p ok.size_pos hbI with
    ⟨v', pos, w', preI', bufI', cI', h1, i1, e1, hp, hc, _, hf, o1⟩ | ⟨x, d', w', h1, i1, o1, nf⟩
  · left
    obtain ⟨x, hx⟩ := indexEntry (p := p) (e := e) ok (pre.length + body.length)
    obtain ⟨d, hd, _⟩ := Rep.writeAt (S := V.indexStruct) i1.rep (i := bufI'.length) (x := zeros V.indexSize) (by simp) hx
    obtain ⟨x', hx', i2⟩ := EvInv.writeAt (S := V.indexStruct) i1 hd
    have := hx.symm.trans hx'
    cases this
    have e2 : uadd p v.sizeFlushed v.data.length = .ok (pre.length + (body.length + 8)) := by
      rw [i.flushed, hl, uadd_ok (by unfold usizeMod; omega)]
    have e3 : usub p (pre.length + (body.length + 8)) paddingSize = .ok (pre.length + body.length) := by
      rw [paddingSize_eq, usub_ok (by omega)]; congr 1
    refine ⟨{ v with index := { v' with data := d } }, w', preI', bufI', cI', x, ?_, ⟨i2, stay o1, i.buf, i.flushed⟩, e1, hx, hc, rfl, hf, o1⟩
    rw [Act.bind_ok h1, e2, Act.lift_bind, e3, Act.lift_bind]
    change (Act.lift (Vector.writeAt p e V.indexStruct v'.data pos (indexOps V (pre.length + body.length))) >>= _) w' = _
    have hd' : Vector.writeAt p e V.indexStruct v'.data pos (indexOps V (pre.length + body.length)) = .ok d := by
      rw [hp]; exact hd
    rw [hd']
    rfl
  · exact .inr ⟨x, d', w', Act.bind_err h1, ⟨i1, stay o1, i.buf, i.flushed⟩, o1, nf⟩

/-- `grow`, whatever its result. -/
theorem MvInv.grow (i : MvInv L o name schema V w v preI bufI cI pre body c) (ap : Apart L o name) (p : Profile) (e : Endian)
    (ok : IndexOK V) (hb : pre.length + body.length + 8 < 2 ^ 63) (hbI : ((preI ++ bufI).length + 1) * V.indexSize + 8 < 2 ^ 63) :
    (∃ v' w' preI' bufI' cI' pre' body' c' x, v.grow p e V w = (.ok (.ok (), v'), w') ∧
      MvInv L o name schema V w' v' preI' (bufI' ++ [x]) cI' pre' body' c' ∧ preI' ++ bufI' = preI ++ bufI ∧
      pre' ++ body' = pre ++ body ∧
      runHandle p e V.indexStruct (indexOps V (pre.length + body.length)) (zeros V.indexSize) = .ok x ∧
      (cI = preI.flatten → cI' = preI'.flatten) ∧ (c = pre → c' = pre') ∧
      (preI' = preI ∨ bufferLimit < preI'.flatten.length + 8) ∧ (pre' = pre ∨ bufferLimit < pre'.length + 8) ∧
      Only L w w' (MOwnLoc L o name)) ∨
    (∃ x v' w' cI' pre' body' c', v.grow p e V w = (.ok (.error x, v'), w') ∧
      MvInv L o name schema V w' v' preI bufI cI' pre' body' c' ∧ pre' ++ body' = pre ++ body ∧
      (pre' = pre ∨ bufferLimit < pre'.length + 8) ∧
      Only L w w' (MOwnLoc L o name) ∧ ¬ L.noFault w) := by
  have own : ∀ l, l = L.loc o name → MOwnLoc L o name l := fun _ h => .inl (.inl h)
  have ownI : ∀ l, l = L.loc o (Storage.indexName name) → MOwnLoc L o name l := fun _ h => .inr (.inl h)
  unfold MultiVec.grow
  rcases i.flushIfFull ap p hb with ⟨v1, w1, pre1, body1, c1, h1, i1, e1, hc1, hi1, hf1, o1⟩ | ⟨x, d', w1, h1, i1, o1, nf⟩
  · have hlen : pre1.length + body1.length = pre.length + body.length := by
      rw [← List.length_append, ← List.length_append, e1]
    rw [Act.bind_ok (Act.attempt_ok h1)]
    rcases i1.addToIndex ap p e ok (by omega) hbI with
      ⟨v2, w2, preI', bufI', cI', x, h2, i2, e2, hx, hc2, hd2, hf2, o2⟩ | ⟨x, d', w2, h2, i2, o2, nf⟩
    · left
      refine ⟨v2, w2, preI', bufI', cI', pre1, body1, c1, x, ?_, i2, e2, e1, by rw [← hlen]; exact hx, hc2, hc1, hf2, hf1,
        (o1.mono own).trans (o2.mono ownI)⟩
      change (Act.attempt _ >>= _) w1 = _
      rw [Act.bind_ok (Act.attempt_ok h2)]
      rfl
    · right
      refine ⟨x, v1, w2, _, pre1, body1, c1, ?_, i2, e1, hf1, (o1.mono own).trans (o2.mono ownI), fun h => nf (o1.noFault h)⟩
      change (Act.attempt _ >>= _) w1 = _
      rw [Act.bind_ok (Act.attempt_err h2)]
      rfl
  · right
    refine ⟨x, v, w1, cI, pre, body, _, ?_, i1, rfl, .inl rfl, o1.mono own, nf⟩
    rw [Act.bind_ok (Act.attempt_err h1)]
    rfl

/-- `add_…` of the builder: the variant and zeroed memory behind the items so far. -/
theorem MvInv.builderAdd (i : MvInv L o name schema V w v preI bufI cI pre body c) (p : Profile) (t : BitVec 8) (size : Nat)
    (hb : body.length + 1 + size + 8 < 2 ^ 63) :
    MultiVec.builderAdd p t size v.data = .ok (body ++ t :: (zeros size ++ zeros 8), body.length + 1) := by
  have hl := i.length
  have e1 : uadd p 1 size = .ok (1 + size) := uadd_ok (by unfold usizeMod; omega)
  have e2 : uadd p v.data.length (1 + size) = .ok (body.length + 8 + (1 + size)) := by
    rw [hl]; exact uadd_ok (by unfold usizeMod; omega)
  have e3 : alloc (body.length + 8 + (1 + size)) = .ok () := by unfold alloc; rw [if_pos (by omega)]
  have e4 : usub p v.data.length paddingSize = .ok body.length := by
    rw [paddingSize_eq, usub_ok (by omega), hl]; rfl
  have e5 : resize0 v.data (body.length + 8 + (1 + size)) = body ++ 0#8 :: (zeros size ++ zeros 8) := by
    unfold resize0
    rw [List.take_of_length_le (by omega), i.buf]
    simp only [List.append_assoc]
    congr 1
    simp only [zeros, List.length_append, List.length_replicate, List.replicate_append_replicate, ← List.replicate_succ]
    congr 1
    omega
  have e6 : uadd p 1 v.data.length = .ok (1 + (body.length + 8)) := by
    rw [hl]; exact uadd_ok (by unfold usizeMod; omega)
  have e7 : usub p (1 + (body.length + 8)) paddingSize = .ok (body.length + 1) := by
    rw [paddingSize_eq, usub_ok (by omega)]; congr 1; omega
  unfold MultiVec.builderAdd
  rw [e1, Out.ok_bind, e2, Out.ok_bind, e3, Out.ok_bind, e4, Out.ok_bind, e5,
    if_pos (by simp), Out.ok_bind, e6, Out.ok_bind, e7, Out.ok_bind]
  unfold sliceFrom
  rw [if_pos (by simp), Out.ok_bind, List.set_append_right _ _ (Nat.le_refl _)]
  simp

/-- `add_…` of the builder, and the operations through the returned handle. -/
theorem MvInv.add (i : MvInv L o name schema V w v preI bufI cI pre body c) {p : Profile} {e : Endian} {a : Add} {d d' : Bytes}
    {pos : Nat} (h : MultiVec.builderAdd p a.type a.struct.size v.data = .ok (d, pos))
    (hw : Vector.writeAt p e a.struct d pos a.ops = .ok d') (hb : body.length + 1 + a.struct.size + 8 < 2 ^ 63) :
    ∃ x, runHandle p e a.struct a.ops (zeros a.struct.size) = .ok x ∧
      MvInv L o name schema V w { v with data := d' } preI bufI cI pre (body ++ (a.type :: x)) c := by
  have hd := i.builderAdd p a.type a.struct.size hb
  rw [hd] at h; cases h
  have hdrop : (body ++ a.type :: (zeros a.struct.size ++ zeros 8)).drop (body.length + 1) = zeros a.struct.size ++ zeros 8 := by
    rw [← List.drop_drop, List.drop_left]; rfl
  have htake : (body ++ a.type :: (zeros a.struct.size ++ zeros 8)).take (body.length + 1) = body ++ [a.type] := by
    rw [List.take_append]; simp [List.take_of_length_le]
  unfold Vector.writeAt at hw
  rw [hdrop, htake, runHandle_local a.ops _ (by simp [zeros])] at hw
  simp only [Out.bind_eq_ok] at hw
  obtain ⟨m, ⟨x, hx, hm⟩, hw⟩ := hw
  cases hm; cases hw
  exact ⟨x, hx, i.index, i.data, by simp, i.flushed⟩

/-- Closing a multivector: every outcome. -/
inductive MvClosed [DiffLib] (p : Profile) (e : Endian) (L : Laws B) (o : B.Obj) (name schema : String) (allI allD : Bytes)
    (cleanI cleanD : Prop) (w w' : B.W) : Res RErr (Slice B.Base × Slice B.Base) → Prop
  /-- I/O failed, or the index could not be read back: a destructor panics -/
  | failed (nf : cleanI → L.readable (strBytes (Storage.indexSchema schema)) → ¬ L.noFault w) :
      MvClosed p e L o name schema allI allD cleanI cleanD w w' .panic
  /-- everything is written, the final read of the data failed -/
  | unread (x : RErr) (c : Bytes) (hle : allD.length ≤ c.length) (hc : c.length = allD.length → c = allD)
      (hI : L.medium w' (L.loc o (Storage.indexName name)) = some (image allI))
      (hD : L.medium w' (L.loc o name) = some (le64 allD.length ++ c ++ zeros 8))
      (nf : cleanD → L.readable (strBytes schema) → ¬ L.noFault w) :
      MvClosed p e L o name schema allI allD cleanI cleanD w w' (.err x)
  | ok (si sd : Slice B.Base) (hI : L.medium w' (L.loc o (Storage.indexName name)) = some (image allI))
      (hD : L.medium w' (L.loc o name) = some (image allD))
      (hsI : B.deref w' si = .ok allI) (hsD : B.deref w' sd = .ok allD)
      (hrI : ∃ w1 w2, Unseen L o (Storage.indexName name) w1 ∧ Storage.read B p e o (Storage.indexName name) (Storage.indexSchema schema) w1 = (.ok si, w2) ∧
        B.deref w2 si = .ok allI ∧ Keeps L w2 w' (L.loc o (Storage.indexName name)) ∧
        Keeps L w2 w' (L.loc o (Storage.schemaName (Storage.indexName name))))
      (hrD : ∃ w1, Unseen L o name w1 ∧ Storage.read B p e o name schema w1 = (.ok sd, w')) :
      MvClosed p e L o name schema allI allD cleanI cleanD w w' (.ok (si, sd))

theorem dropOpen {E : Type} {h : Handle B} (hh : h.isOpen = true) (w : B.W) : (h.drop : Act B.W E Unit) w = (.panic, w) := by
  unfold Handle.drop
  rw [if_pos hh]; rfl

theorem Writing.nothing {h : Handle B} (i : Writing L o name schema w h pre c) (all : Bytes) :
    ∃ d, L.medium w (L.loc o name) = some d ∧ AllOrNothing d all := by
  obtain ⟨s, _, a⟩ := i.stream
  exact ⟨_, a.medium, allOrNothing_zero _ _⟩

/-- What is stored after a call. -/
structure MvStored (L : Laws B) (o : B.Obj) (name schema : String) (allI allD : Bytes) (w w' : B.W) : Prop where
  off : Off L w w' (MOwnLoc L o name)
  dataSchema : L.medium w' (L.loc o (Storage.schemaName name)) = some (strBytes schema)
  indexSchema : L.medium w' (L.loc o (Storage.schemaName (Storage.indexName name))) = some (strBytes (Storage.indexSchema schema))
  data : ∃ d, L.medium w' (L.loc o name) = some d ∧ AllOrNothing d allD
  index : ∃ d, L.medium w' (L.loc o (Storage.indexName name)) = some d ∧ AllOrNothing d allI

theorem MvStored.open' (i : MvInv L o name schema V w v preI bufI cI pre body c) {w0 : B.W}
    (h : Off L w0 w (MOwnLoc L o name)) (allI allD : Bytes) : MvStored L o name schema allI allD w0 w :=
  ⟨h, i.data.schemaStored, i.index.writing.schemaStored, i.data.nothing _, i.index.writing.nothing _⟩

theorem MvInv.close [DiffLib] (i : MvInv L o name schema V w v preI bufI cI pre body c) (ap : Apart L o name) (p : Profile) (e : Endian)
    (ok : IndexOK V) (hu : Unseen L o name w) (huI : Unseen L o (Storage.indexName name) w)
    (hb : pre.length + body.length + 8 < 2 ^ 63) (hbI : ((preI ++ bufI).length + 1) * V.indexSize + 8 < 2 ^ 63) :
    ∃ x r w', runHandle p e V.indexStruct (indexOps V (pre.length + body.length)) (zeros V.indexSize) = .ok x ∧
      v.close p e V w = (r, w') ∧
      MvClosed p e L o name schema (preI ++ bufI ++ [x]).flatten (pre ++ body) (cI = preI.flatten) (c = pre) w w' r ∧
      MvStored L o name schema (preI ++ bufI ++ [x]).flatten (pre ++ body) w w' := by
  have own : ∀ l, l = L.loc o name → MOwnLoc L o name l := fun _ h => .inl (.inl h)
  have ownI : ∀ l, l = L.loc o (Storage.indexName name) → MOwnLoc L o name l := fun _ h => .inr (.inl h)
  have hne := ap.data
  unfold MultiVec.close
  rcases i.addToIndex ap p e ok hb hbI with
    ⟨v1, w1, preI', bufI', cI', x, h1, i1, e1, hx, hc1, hd1, hf1, o1⟩ | ⟨x, d', w1, h1, i1, o1, nf⟩
  · refine ⟨x, ?_⟩
    rw [Act.bind_ok (Act.attempt_ok h1)]
    change ∃ r w', _ ∧ MultiVec.closeFlush p e v1 w1 = _ ∧ _
    unfold MultiVec.closeFlush
    rcases i1.flush ap p hb with ⟨v2, w2, h2, i2, hi2, o2⟩ | ⟨x2, d', w2, h2, i2, o2, nf⟩
    · rw [Act.bind_ok (Act.attempt_ok h2)]
      change ∃ r w', _ ∧ MultiVec.closeIndex p e v2 w2 = _ ∧ _
      unfold MultiVec.closeIndex
      have hall : preI' ++ (bufI' ++ [x]) = preI ++ bufI ++ [x] := by rw [← List.append_assoc, e1]
      have hlen : (preI' ++ (bufI' ++ [x])).length = (preI ++ bufI).length + 1 := by rw [hall]; simp; omega
      obtain ⟨r, w3, h3, cl, o3, s3, an3⟩ := i2.index.close ((huI.only o1).only o2) ap.index p e (by rw [hlen]; omega)
      rw [hall] at cl an3
      have k3 : Keeps L w2 w3 (L.loc o name) := o3.keeps _ (ap.index_data (.inl rfl))
      have k3' : Keeps L w2 w3 (L.loc o (Storage.schemaName name)) := o3.keeps _ (ap.index_data (.inr rfl))
      have d3 := i2.data.keeps k3 k3'
      have off3 : Off L w w3 (MOwnLoc L o name) :=
        ((o1.off ownI).trans (o2.off own)).trans ⟨fun l hl => o3.keeps l (fun h => hl (.inr h)), o3.noFault⟩
      have st3 : ∀ allD, MvStored L o name schema (preI ++ bufI ++ [x]).flatten allD w w3 :=
        fun _ => ⟨off3, d3.schemaStored, s3, d3.nothing _, an3⟩
      cases cl with
      | failed nf =>
        refine ⟨.panic, w3, hx, ?_, .failed fun _ _ h => nf (o2.noFault (o1.noFault h)), st3 _⟩
        apply Act.bind_panic
        unfold Act.attempt; rw [h3]
      | unread y c' _ _ _ nf =>
        refine ⟨.panic, w3, hx, ?_, .failed ?_, st3 _⟩
        · rw [Act.bind_ok (Act.attempt_err h3)]
          exact Act.bind_panic (dropOpen d3.isOpen w3)
        · exact fun hc hr h => nf (hc1 hc) hr (o2.noFault (o1.noFault h))
      | ok si hmI hsI hrI hbI =>
        rw [Act.bind_ok (Act.attempt_ok h3)]
        change ∃ r w', _ ∧ MultiVec.closeData p e v2 si w3 = _ ∧ _
        unfold MultiVec.closeData
        have hu3 : Unseen L o name w3 := ((hu.only o1).only o2).keeps k3 k3'
        obtain ⟨r, w4, h4, cl, o4, s4, an4⟩ := d3.close hu3 ap.data p e (by simp; omega)
        rw [Act.bind_ok (Act.mapErr_ok h4)]
        have kI : Keeps L w3 w4 (L.loc o (Storage.indexName name)) := o4.keeps _ fun h => ap.index_data h (.inl rfl)
        have kI' : Keeps L w3 w4 (L.loc o (Storage.schemaName (Storage.indexName name))) :=
          o4.keeps _ fun h => ap.index_data h (.inr rfl)
        have off4 : Off L w w4 (MOwnLoc L o name) :=
          off3.trans ⟨fun l hl => o4.keeps l (fun h => hl (.inl h)), o4.noFault⟩
        have st4 : MvStored L o name schema (preI ++ bufI ++ [x]).flatten (pre ++ body) w w4 := by
          refine ⟨off4, s4, kI'.medium.trans s3, an4, ?_⟩
          obtain ⟨d, hd, an⟩ := an3
          exact ⟨d, kI.medium.trans hd, an⟩
        have hmI' := kI.medium.trans hmI
        cases cl with
        | failed y nf =>
          refine ⟨.panic, w4, hx, ?_, .failed ?_, st4⟩
          · exact Act.bind_panic (dropOpen d3.isOpen w4)
          · exact fun _ _ h => nf (off3.noFault h)
        | unread y hm nf =>
          refine ⟨.err y, w4, hx, rfl, .unread y _ d3.le d3.clean hmI' hm ?_, st4⟩
          exact fun hc hr h => nf (by rw [hc]) hr (off3.noFault h)
        | ok sd hm hc hs hr hb' =>
          refine ⟨.ok (si, sd), w4, hx, rfl, .ok si sd hmI' hm ?_ hs ?_ hr, st4⟩
          · rw [deref_keeps (kI.content _ hbI)]; exact hsI
          · obtain ⟨wr, hur, hr⟩ := hrI
            exact ⟨wr, w3, hur, hr, hsI, kI, kI'⟩
    · rw [Act.bind_ok (Act.attempt_err h2)]
      refine ⟨.panic, w2, hx, ?_, .failed fun _ _ h => nf (o1.noFault h), .open' i2 ((o1.off ownI).trans (o2.off own)) _ _⟩
      apply Act.bind_panic
      unfold MultiVec.drop
      exact Act.bind_panic (dropOpen i2.index.writing.isOpen w2)
  · obtain ⟨y, hy⟩ := indexEntry (p := p) (e := e) ok (pre.length + body.length)
    rw [Act.bind_ok (Act.attempt_err h1)]
    refine ⟨y, .panic, w1, hy, ?_, .failed fun _ _ => nf, .open' i1 (o1.off ownI) _ _⟩
    apply Act.bind_panic
    unfold MultiVec.drop
    exact Act.bind_panic (dropOpen i1.index.writing.isOpen w1)

/-- Creating a multivector: every outcome. -/
theorem createMultiVector_spec (p : Profile) (e : Endian) (o : B.Obj) (name schema : String) (V : Variadic) (w : B.W)
    (ap : Apart L o name)
    (hf : L.fresh (L.medium w (L.loc o name))) (hf' : L.fresh (L.medium w (L.loc o (Storage.schemaName name))))
    (hfI : L.fresh (L.medium w (L.loc o (Storage.indexName name))))
    (hfI' : L.fresh (L.medium w (L.loc o (Storage.schemaName (Storage.indexName name))))) :
    (∃ v w', createMultiVector p e o name schema w = (.ok v, w') ∧ MvInv L o name schema V w' v [] [] [] [] [] [] ∧
      Only L w w' (MOwnLoc L o name)) ∨
    (∃ x w', createMultiVector p e o name schema w = (.err x, w') ∧ Only L w w' (OwnLoc L o (Storage.indexName name)) ∧
      NotCreated (L.medium w (L.loc o (Storage.indexName name))) (L.medium w' (L.loc o (Storage.indexName name)))) ∨
    (∃ w', createMultiVector p e o name schema w = (.panic, w') ∧ Only L w w' (MOwnLoc L o name) ∧
      L.medium w' (L.loc o (Storage.indexName name)) = some (le64 0) ∧
      L.medium w' (L.loc o (Storage.schemaName (Storage.indexName name))) = some (strBytes (Storage.indexSchema schema)) ∧
      NotCreated (L.medium w (L.loc o name)) (L.medium w' (L.loc o name))) := by
  unfold createMultiVector
  rcases createExternalVector_spec p e o (Storage.indexName name) (Storage.indexSchema schema) V.indexSize w ap.index hfI hfI' with
    ⟨iv, w1, h1, i1, o1⟩ | ⟨x, w1, h1, o1, m1⟩
  · have k1 : Keeps L w w1 (L.loc o name) := o1.keeps _ (ap.index_data (.inl rfl))
    have k1' : Keeps L w w1 (L.loc o (Storage.schemaName name)) := o1.keeps _ (ap.index_data (.inr rfl))
    have e2 : createDataHandle p e o name schema = createHandle B p e o name schema := rfl
    rw [Act.bind_ok h1, e2]
    have oo : ∀ {w2}, Only L w1 w2 (OwnLoc L o name) → Only L w w2 (MOwnLoc L o name) :=
      fun o2 => (o1.mono fun _ h => .inr h).trans (o2.mono fun _ h => .inl h)
    rcases createHandle_spec p e o name schema w1 ap.data (by rw [k1.medium]; exact hf) (by rw [k1'.medium]; exact hf') with
      ⟨h, w2, h2, i2, o2⟩ | ⟨x, w2, h2, o2, m2⟩
    · left
      refine ⟨MultiVec.new iv h, w2, ?_, ⟨?_, i2, rfl, rfl⟩, oo o2⟩
      · rw [Act.bind_ok (Act.attempt_ok h2)]; rfl
      · exact i1.keeps (o2.keeps _ fun h => ap.index_data h (.inl rfl)) (o2.keeps _ fun h => ap.index_data h (.inr rfl))
    · right; right
      have i2 := i1.keeps (w' := w2) (o2.keeps _ fun h => ap.index_data h (.inl rfl)) (o2.keeps _ fun h => ap.index_data h (.inr rfl))
      refine ⟨w2, ?_, oo o2, ?_, i2.writing.schemaStored, by rw [← k1.medium]; exact m2⟩
      · rw [Act.bind_ok (Act.attempt_err h2)]
        exact Act.bind_panic (dropOpen i1.writing.isOpen w2)
      · obtain ⟨s, _, a⟩ := i2.writing.stream
        simpa using a.medium
  · right; left
    exact ⟨x, w1, Act.bind_err h1, o1, m1⟩

end

end Flatdata
