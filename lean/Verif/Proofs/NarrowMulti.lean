import Verif.Proofs.NarrowWrite
import Verif.Proofs.MGrows
/-!
# Multivectors on hosts with another width of `usize`
-/
namespace Flatdata
open Spec

namespace Narrow
variable {m : Nat}

section
variable {B : Backend} {L : Laws B} {o : B.Obj} {name schema : String} {size : Nat} {w : B.W} {p : Profile} {e : Endian} {V : Variadic}

/-- The counters of an open vector, if the bytes can be counted. -/
theorem evInv_cut {v : ExtVec B} {pre buf : List Bytes} {c : Bytes} (i : EvInv L o name schema size w v pre buf c) (hs : 0 < size)
    (h : (pre ++ buf).length * size < m) : cut m v = v := by
  have hle := Nat.le_mul_of_pos_right (pre ++ buf).length hs
  have h1 := i.length
  have h2 := i.len
  have h3 := i.writing.size
  have h4 : (pre ++ buf).length = pre.length + buf.length := List.length_append
  exact cut_eq (by omega) (by omega)

/-- One `grow` of a vector that the narrow host can count. -/
theorem grow_same {v : ExtVec B} {pre buf : List Bytes} {c : Bytes} (i : EvInv L o name schema size w v pre buf c)
    (hne : L.loc o (Storage.schemaName name) ≠ L.loc o name) (hs : 0 < size) (h16 : 16 < m) (hS : 2 * size < m) (hd : 2 * v.data.length < m)
    (hb : ((pre ++ buf).length + 1) * size + 8 < 2 ^ 63) (hT : ((pre ++ buf).length + 1) * size < m) :
    ExtVec.grow m p size v w = v.grow p size w ∨
    (∃ w', ExtVec.grow m p size v w = (.panic, w') ∧ m ≤ 2 * (bufferLimit + size) ∧ m ≤ 2 * (((pre ++ buf).length + 1) * size + 8)) := by
  have hmul : ((pre ++ buf).length + 1) * size = (pre ++ buf).length * size + size := by rw [Nat.add_mul, Nat.one_mul]
  have hle := Nat.le_mul_of_pos_right ((pre ++ buf).length + 1) hs
  have hc := evInv_cut i hs (show (pre ++ buf).length * size < m by omega)
  rcases i.grow hne p hs hb with ⟨v2, pos, w', pre', buf', c', h1, i2, e2, -, -, h3, -⟩ | ⟨x, d', w', h1, -, -⟩
  · have hl : (pre' ++ (buf' ++ [zeros size])).length = (pre ++ buf).length + 1 := by
      rw [← List.append_assoc, e2]; simp only [List.length_append, List.length_cons, List.length_nil]
    have hc2 := evInv_cut i2 hs (show (pre' ++ (buf' ++ [zeros size])).length * size < m by rw [hl]; exact hT)
    rcases grow_cut_ok i hne h16 hS hd hb (by omega) h1 with ⟨h2, -⟩ | ⟨h2, h4 | ⟨-, h4 | h4⟩⟩
    · rw [hc, hc2] at h2
      exact .inl (h2.trans h1.symm)
    · rw [hc] at h2
      refine .inr ⟨_, h2, by omega, ?_⟩
      have h5 := i2.rep.length
      have h6 : (buf' ++ [zeros size]).length * size ≤ ((pre ++ buf).length + 1) * size := by
        rw [← hl]; exact Nat.mul_le_mul_right _ (by simp)
      omega
    · omega
    · omega
  · have h2 := grow_cut_err (m := m) i hne (by omega) h1
    rw [hc] at h2
    exact .inl (h2.trans h1.symm)

theorem write_same {h : Handle B} {d : Bytes} (hm : m ≤ 2 ^ 64) (hT : h.size + d.length < m) :
    Handle.write m p h d w = h.write p d w := by
  unfold Handle.write Flatdata.Handle.write
  rw [uadd_ok hT, Flatdata.uadd_ok (show h.size + d.length < usizeMod by unfold usizeMod; omega)]
  cases h.stream <;> rfl

variable {v : MultiVec B} {preI bufI : List Bytes} {cI pre body c : Bytes}

theorem mflush_same (i : MvInv L o name schema V w v preI bufI cI pre body c) (hm : m ≤ 2 ^ 64) (hT : pre.length + body.length < m) :
    MultiVec.flush m p v w = v.flush p w := by
  have hl := i.length
  have hsz := i.data.size
  have hfl := i.flushed
  have e2 : sliceRange v.data 0 body.length = .ok body := by
    unfold sliceRange
    rw [if_pos (by omega), i.buf]; simp
  have e1 : v.data.length - paddingSize = body.length := by rw [paddingSize_eq]; omega
  unfold MultiVec.flush Flatdata.MultiVec.flush
  rw [usub_ok (by rw [paddingSize_eq]; omega), Flatdata.usub_ok (by rw [paddingSize_eq]; omega), e1]
  change (Act.lift (sliceRange v.data 0 body.length) >>= _) w = (Act.lift (sliceRange v.data 0 body.length) >>= _) w
  rw [e2]
  change (Handle.write m p v.handle body >>= _) w = (v.handle.write p body >>= _) w
  rw [Act.bind_def, Act.bind_def, write_same hm (by omega), uadd_ok (show v.sizeFlushed + body.length < m by omega),
    Flatdata.uadd_ok (show v.sizeFlushed + body.length < usizeMod by unfold usizeMod; omega)]

theorem mflushIfFull_same (i : MvInv L o name schema V w v preI bufI cI pre body c) (hm : m ≤ 2 ^ 64) (hT : pre.length + body.length < m) :
    MultiVec.flushIfFull m p v w = v.flushIfFull p w := by
  unfold MultiVec.flushIfFull Flatdata.MultiVec.flushIfFull
  split
  · exact mflush_same i hm hT
  · rfl

/-- The host is too narrow for the buffer of an index with `n` elements. -/
def Tight (m : Nat) (V : Variadic) (n : Nat) : Prop := m ≤ 2 * (bufferLimit + V.indexSize) ∧ m ≤ 2 * (n * V.indexSize + 8)

theorem addToIndex_same (i : MvInv L o name schema V w v preI bufI cI pre body c) (ap : Apart L o name) (ok : IndexOK V) (hm : m ≤ 2 ^ 64)
    (h16 : 16 < m) (hS : 2 * V.indexSize < m) (hd : 2 * v.index.data.length < m) (hT : pre.length + body.length + 8 < m)
    (hb : ((preI ++ bufI).length + 1) * V.indexSize + 8 < 2 ^ 63) (hI : ((preI ++ bufI).length + 1) * V.indexSize < m) :
    MultiVec.addToIndex m p e V v w = v.addToIndex p e V w ∨
    (∃ w', MultiVec.addToIndex m p e V v w = (.panic, w') ∧ Tight m V ((preI ++ bufI).length + 1)) := by
  have hl := i.length
  have hfl := i.flushed
  unfold MultiVec.addToIndex Flatdata.MultiVec.addToIndex
  rcases grow_same (p := p) i.index ap.index ok.size_pos h16 hS hd hb hI with h | ⟨w', h, h1⟩
  · left
    rw [Act.bind_def, Act.bind_def, h, uadd_ok (show v.sizeFlushed + v.data.length < m by omega),
      Flatdata.uadd_ok (show v.sizeFlushed + v.data.length < usizeMod by unfold usizeMod; omega)]
    split
    · change (Act.lift (usub m p (v.sizeFlushed + v.data.length) paddingSize) >>= _) _ =
        (Act.lift (Flatdata.usub p (v.sizeFlushed + v.data.length) paddingSize) >>= _) _
      rw [usub_ok (by rw [paddingSize_eq]; omega), Flatdata.usub_ok (by rw [paddingSize_eq]; omega)]
    · rfl
    · rfl
    · rfl
  · exact .inr ⟨w', Act.bind_panic h, h1⟩

theorem attempt_congr {W E E' α : Type} {x y : Act W E α} {w : W} (h : x w = y w) : (x.attempt : Act W E' _) w = y.attempt w := by
  unfold Act.attempt
  rw [h]

theorem attempt_panic {W E E' α : Type} {x : Act W E α} {w w' : W} (h : x w = (.panic, w')) : (x.attempt : Act W E' _) w = (.panic, w') := by
  unfold Act.attempt
  rw [h]

theorem mgrow_same (i : MvInv L o name schema V w v preI bufI cI pre body c) (ap : Apart L o name) (ok : IndexOK V) (hm : m ≤ 2 ^ 64)
    (h16 : 16 < m) (hS : 2 * V.indexSize < m) (hd : 2 * v.index.data.length < m) (hT : pre.length + body.length + 8 < m)
    (hT' : pre.length + body.length + 8 < 2 ^ 63)
    (hb : ((preI ++ bufI).length + 1) * V.indexSize + 8 < 2 ^ 63) (hI : ((preI ++ bufI).length + 1) * V.indexSize < m) :
    MultiVec.grow m p e V v w = v.grow p e V w ∨
    (∃ w', MultiVec.grow m p e V v w = (.panic, w') ∧ Tight m V ((preI ++ bufI).length + 1)) := by
  have hf := mflushIfFull_same (p := p) i hm (by omega)
  unfold MultiVec.grow Flatdata.MultiVec.grow
  rcases i.flushIfFull ap p (by omega) with ⟨v1, w1, pre1, body1, c1, h1, i1, e1, -, hi1, -⟩ | ⟨x, d', w1, h1, -⟩
  · rw [h1] at hf
    rw [Act.bind_ok (Act.attempt_ok hf), Act.bind_ok (Act.attempt_ok h1)]
    have hlen : pre1.length + body1.length = pre.length + body.length := by
      rw [← List.length_append, ← List.length_append, e1]
    rcases addToIndex_same (p := p) (e := e) i1 ap ok hm h16 hS (by rw [hi1]; exact hd) (by omega) hb hI with h2 | ⟨w', h2, h3⟩
    · left
      change (Act.attempt _ >>= _) w1 = (Act.attempt _ >>= _) w1
      rw [Act.bind_def, Act.bind_def, attempt_congr h2]
      rfl
    · exact .inr ⟨w', Act.bind_panic (attempt_panic h2), h3⟩
  · rw [h1] at hf
    left
    rw [Act.bind_ok (Act.attempt_err hf), Act.bind_ok (Act.attempt_err h1)]

theorem builderAdd_same {t : BitVec 8} {size : Nat} {data : Bytes} (h8 : 8 ≤ data.length)
    (hT : data.length + 1 + size < m) (hb : data.length + 1 + size < 2 ^ 63) :
    MultiVec.builderAdd m p t size data = Flatdata.MultiVec.builderAdd p t size data ∨
    (MultiVec.builderAdd m p t size data = .panic ∧ m ≤ 2 * (data.length + 1 + size)) := by
  unfold MultiVec.builderAdd Flatdata.MultiVec.builderAdd
  rw [uadd_ok (show 1 + size < m by omega), Flatdata.uadd_ok (show 1 + size < usizeMod by unfold usizeMod; omega), Out.ok_bind, Out.ok_bind,
    uadd_ok (show data.length + (1 + size) < m by omega), Flatdata.uadd_ok (show data.length + (1 + size) < usizeMod by unfold usizeMod; omega),
    Out.ok_bind, Out.ok_bind, uadd_ok (show 1 + data.length < m by omega),
    Flatdata.uadd_ok (show 1 + data.length < usizeMod by unfold usizeMod; omega), usub_ok (by rw [paddingSize_eq]; exact h8),
    Flatdata.usub_ok (by rw [paddingSize_eq]; exact h8)]
  unfold alloc Flatdata.alloc
  rw [if_pos (show data.length + (1 + size) < 2 ^ 63 by omega)]
  by_cases h : 2 * (data.length + (1 + size)) < m
  · rw [if_pos h]
    left
    simp only [Out.ok_bind, usub_ok (m := m) (p := p) (show paddingSize ≤ 1 + data.length by rw [paddingSize_eq]; omega),
      Flatdata.usub_ok (p := p) (show paddingSize ≤ 1 + data.length by rw [paddingSize_eq]; omega)]
  · rw [if_neg h]
    exact .inr ⟨rfl, by omega⟩

/-- Closing a multivector that the narrow host can count is the same on both hosts, whatever fails. -/
theorem mclose_same [DiffLib] (i : MvInv L o name schema V w v preI bufI cI pre body c) (ap : Apart L o name) (ok : IndexOK V) (hm : m ≤ 2 ^ 64)
    (hu : Unseen L o name w) (huI : Unseen L o (Storage.indexName name) w)
    (hS : 2 * V.indexSize < m) (hd : 2 * v.index.data.length < m) (hT : pre.length + body.length + 16 < m)
    (hT' : pre.length + body.length + 8 < 2 ^ 63)
    (hb : ((preI ++ bufI).length + 1) * V.indexSize + 8 < 2 ^ 63) (hI : ((preI ++ bufI).length + 1) * V.indexSize + 16 < m) :
    MultiVec.close m p e V v w = v.close p e V w ∨
    (∃ w', MultiVec.close m p e V v w = (.panic, w') ∧ Tight m V ((preI ++ bufI).length + 1)) := by
  unfold MultiVec.close Flatdata.MultiVec.close
  rcases addToIndex_same (p := p) (e := e) i ap ok hm (by omega) hS hd (by omega) hb (by omega) with h0 | ⟨w', h0, h1⟩
  · left
    rcases i.addToIndex ap p e ok (by omega) hb with
      ⟨v1, w1, preI', bufI', cI', x, h1, i1, e1, -, -, -, -, o1⟩ | ⟨x, d', w1, h1, -⟩
    · rw [h1] at h0
      rw [Act.bind_ok (Act.attempt_ok h0), Act.bind_ok (Act.attempt_ok h1)]
      change MultiVec.closeFlush m p e v1 w1 = v1.closeFlush p e w1
      unfold MultiVec.closeFlush Flatdata.MultiVec.closeFlush
      have hf := mflush_same (p := p) i1 hm (by omega)
      rcases i1.flush ap p (by omega) with ⟨v2, w2, h2, i2, hi2, o2⟩ | ⟨x2, d', w2, h2, -⟩
      · rw [h2] at hf
        rw [Act.bind_ok (Act.attempt_ok hf), Act.bind_ok (Act.attempt_ok h2)]
        change MultiVec.closeIndex m p e v2 w2 = v2.closeIndex p e w2
        unfold MultiVec.closeIndex Flatdata.MultiVec.closeIndex
        have hall : preI' ++ (bufI' ++ [x]) = preI ++ bufI ++ [x] := by rw [← List.append_assoc, e1]
        have hlen : (preI' ++ (bufI' ++ [x])).length = (preI ++ bufI).length + 1 := by rw [hall]; simp; omega
        have hc := evInv_cut i2.index ok.size_pos (show (preI' ++ (bufI' ++ [x])).length * V.indexSize < m by rw [hlen]; omega)
        have hci := close_same i2.index ((huI.only o1).only o2) ap.index p e hm (by rw [hlen]; omega) (by rw [hlen]; exact hI) hc
        obtain ⟨r, w3, h3, -, o3, -⟩ := i2.index.close ((huI.only o1).only o2) ap.index p e (by rw [hlen]; omega)
        rw [h3] at hci
        cases r with
        | ok si =>
          rw [Act.bind_ok (Act.attempt_ok hci), Act.bind_ok (Act.attempt_ok h3)]
          change MultiVec.closeData m p e v2 si w3 = v2.closeData p e si w3
          have k3 : Keeps L w2 w3 (L.loc o name) := o3.keeps _ (ap.index_data (.inl rfl))
          have k3' : Keeps L w2 w3 (L.loc o (Storage.schemaName name)) := o3.keeps _ (ap.index_data (.inr rfl))
          have d3 := i2.data.keeps k3 k3'
          have key := handleClose_same d3 (((hu.only o1).only o2).keeps k3 k3') ap.data p e hm
            (by rw [d3.size, List.length_append]; omega)
          unfold MultiVec.closeData Flatdata.MultiVec.closeData
          rw [Act.bind_def, Act.bind_def]
          have : (Handle.close m p e v2.handle).mapErr (E' := RErr) Empty.elim w3 = (v2.handle.close p e).mapErr Empty.elim w3 := by
            unfold Act.mapErr
            rw [key]
          rw [this]
        | err y => rw [Act.bind_ok (Act.attempt_err hci), Act.bind_ok (Act.attempt_err h3)]
        | panic => rw [Act.bind_panic (attempt_panic hci), Act.bind_panic (attempt_panic h3)]
        | ub =>
          have a1 : (Act.attempt (ExtVec.close m p e v2.index) : Act B.W RErr _) w2 = (.ub, w3) := by unfold Act.attempt; rw [hci]
          have a2 : (Act.attempt (v2.index.close p e) : Act B.W RErr _) w2 = (.ub, w3) := by unfold Act.attempt; rw [h3]
          rw [Act.bind_def, Act.bind_def, a1, a2]
      · rw [h2] at hf
        rw [Act.bind_ok (Act.attempt_err hf), Act.bind_ok (Act.attempt_err h2)]
    · rw [h1] at h0
      rw [Act.bind_ok (Act.attempt_err h0), Act.bind_ok (Act.attempt_err h1)]
  · exact .inr ⟨w', Act.bind_panic (attempt_panic h0), h1⟩

end

/-! ## Beyond what the host can count -/

section
variable {B : Backend}

/-- What is true of a multivector of any size: `nI` entries have been added to the index and `nD` bytes to the data. -/
structure Loose (m : Nat) (L : Laws B) (o : B.Obj) (name schema : String) (V : Variadic) (w : B.W) (v : MultiVec B) (nI nD : Nat) : Prop where
  index : ∃ vi preI bufI cI, EvInv L o (Storage.indexName name) (Storage.indexSchema schema) V.indexSize w vi preI bufI cI ∧
    v.index = cut m vi ∧ 2 * vi.data.length < m ∧ (preI ++ bufI).length = nI
  data : ∃ h pre c body, Writing L o name schema w h pre c ∧ v.handle = cutH m h ∧ v.data = body ++ zeros 8 ∧ pre.length + body.length = nD
  buffer : 2 * v.data.length < m

variable {L : Laws B} {o : B.Obj} {name schema : String} {w w' : B.W} {p : Profile} {e : Endian} {V : Variadic} {v : MultiVec B} {nI nD : Nat}

theorem Loose.keeps (l : Loose m L o name schema V w v nI nD) (h : ∀ l, MOwnLoc L o name l → Keeps L w w' l) :
    Loose m L o name schema V w' v nI nD := by
  obtain ⟨⟨vi, preI, bufI, cI, i, a⟩, ⟨hh, pre, c, body, d, b⟩, hb⟩ := l
  exact ⟨⟨vi, preI, bufI, cI, i.keeps (h _ (.inr (.inl rfl))) (h _ (.inr (.inr rfl))), a⟩,
    ⟨hh, pre, c, body, d.keeps (h _ (.inl (.inl rfl))) (h _ (.inl (.inr rfl))), b⟩, hb⟩

theorem Loose.read (l : Loose m L o name schema V w v nI nD) {o' n r} (h : B.readResource o' n w = (r, w')) :
    Loose m L o name schema V w' v nI nD := by
  obtain ⟨⟨vi, preI, bufI, cI, i, a⟩, ⟨hh, pre, c, body, d, b⟩, hb⟩ := l
  exact ⟨⟨vi, preI, bufI, cI, ⟨i.writing.read h, i.rep, i.len, i.all⟩, a⟩, ⟨hh, pre, c, body, d.read h, b⟩, hb⟩

theorem Loose.flush (l : Loose m L o name schema V w v nI nD) (ap : Apart L o name) (h16 : 16 < m) (hD : nD < 2 ^ 63)
    {r : Res IoErr (MultiVec B)} (h : MultiVec.flush m p v w = (r, w')) :
    Only L w w' (· = L.loc o name) ∧
    (∀ v', r = .ok v' → Loose m L o name schema V w' v' nI nD ∧ v'.index = v.index ∧ v'.data = zeros 8) ∧
    ∀ x, r = .err x → Loose m L o name schema V w' v nI nD := by
  obtain ⟨⟨vi, preI, bufI, cI, i, a⟩, ⟨hh, pre, c, body, d, b1, b2, b3⟩, hb⟩ := l
  have hl : v.data.length = body.length + 8 := by rw [b2]; simp [zeros]
  have e2 : sliceRange v.data 0 body.length = .ok body := by
    unfold sliceRange
    rw [if_pos (by omega), b2]; simp
  have e1 : v.data.length - paddingSize = body.length := by rw [paddingSize_eq]; omega
  unfold MultiVec.flush at h
  rw [usub_ok (by rw [paddingSize_eq]; omega), e1] at h
  change (Act.lift (sliceRange v.data 0 body.length) >>= _) w = _ at h
  rw [e2] at h
  change (Handle.write m p v.handle body >>= _) w = _ at h
  rw [b1] at h
  have stay : ∀ {w'}, Only L w w' (· = L.loc o name) → ∃ vi preI bufI cI,
      EvInv L o (Storage.indexName name) (Storage.indexSchema schema) V.indexSize w' vi preI bufI cI ∧
      v.index = cut m vi ∧ 2 * vi.data.length < m ∧ (preI ++ bufI).length = nI :=
    fun ow => ⟨vi, preI, bufI, cI, i.keeps (ow.keeps _ ap.indexData) (ow.keeps _ ap.schemaData), a⟩
  have hz : (zeros 8).length = 8 := List.length_replicate
  rcases d.write ap.data p body (by omega) with ⟨h', w1, h1, i1, o1⟩ | ⟨x, d', w1, h1, i1, o1, -⟩
  · rcases (write_cut_ok (m := m) (by rw [d.size]; omega) h1).2 with ⟨h2, -⟩ | ⟨-, -, h2⟩
    · rw [Act.bind_ok h2] at h
      change (Act.lift (uadd m p v.sizeFlushed body.length) >>= _) w1 = _ at h
      cases hn : uadd m p v.sizeFlushed body.length with
      | ok n =>
        rw [hn] at h
        cases h
        refine ⟨o1, fun v' hv => ?_, nofun⟩
        cases hv
        refine ⟨⟨stay o1, ⟨h', _, _, [], i1, rfl, rfl, by simpa using b3⟩, ?_⟩, rfl, rfl⟩
        change 2 * (zeros 8).length < m
        omega
      | panic => rw [hn] at h; cases h; exact ⟨o1, nofun, nofun⟩
      | ub => rw [hn] at h; cases h; exact ⟨o1, nofun, nofun⟩
    · rw [Act.bind_panic h2] at h
      cases h
      exact ⟨o1, nofun, nofun⟩
  · rw [Act.bind_err (write_cut_err h1)] at h
    cases h
    exact ⟨o1, nofun, fun _ _ => ⟨stay o1, ⟨hh, _, _, body, i1, b1, b2, b3⟩, hb⟩⟩

theorem Loose.addToIndex (l : Loose m L o name schema V w v nI nD) (ap : Apart L o name) (ok : IndexOK V) (h16 : 16 < m)
    (hS : 2 * V.indexSize < m) (hI : (nI + 1) * V.indexSize + 8 < 2 ^ 63)
    {r : Res IoErr (MultiVec B)} (h : MultiVec.addToIndex m p e V v w = (r, w')) :
    Only L w w' (· = L.loc o (Storage.indexName name)) ∧
    (∀ v', r = .ok v' → Loose m L o name schema V w' v' (nI + 1) nD) ∧
    ∀ x, r = .err x → Loose m L o name schema V w' v nI nD := by
  obtain ⟨⟨vi, preI, bufI, cI, i, a1, a2, a3⟩, ⟨hh, pre, c, body, d, b⟩, hb⟩ := l
  have stay : ∀ {w'}, Only L w w' (· = L.loc o (Storage.indexName name)) → ∃ h pre c body, Writing L o name schema w' h pre c ∧
      v.handle = cutH m h ∧ v.data = body ++ zeros 8 ∧ pre.length + body.length = nD :=
    fun ow => ⟨hh, pre, c, body, d.keeps (ow.keeps _ ap.indexData.symm) (ow.keeps _ ap.indexSchema.symm), b⟩
  have hle := Nat.le_mul_of_pos_right (nI + 1) ok.size_pos
  unfold MultiVec.addToIndex at h
  rw [a1] at h
  rcases i.grow ap.index p ok.size_pos (by rw [a3]; exact hI) with
    ⟨v1, pos, w1, preI', bufI', cI', h1, i1, e1, hp, -, -, -, o1⟩ | ⟨x, d', w1, h1, i1, o1, -⟩
  · rcases grow_cut_ok i ap.index h16 hS a2 (by rw [a3]; exact hI) (by rw [a3]; omega) h1 with ⟨h2, h3, -⟩ | ⟨h2, -⟩
    · rw [Act.bind_ok h2] at h
      change (Act.lift (uadd m p v.sizeFlushed v.data.length) >>= _) w1 = _ at h
      cases hn : uadd m p v.sizeFlushed v.data.length with
      | ok n =>
        rw [hn] at h
        change (Act.lift (usub m p n paddingSize) >>= _) w1 = _ at h
        cases hn' : usub m p n paddingSize with
        | ok n' =>
          rw [hn'] at h
          change (Act.lift (Vector.writeAt p e V.indexStruct v1.data pos [.set (indexField V.indexBits) n']) >>= _) w1 = _ at h
          cases hw : Vector.writeAt p e V.indexStruct v1.data pos [.set (indexField V.indexBits) n'] with
          | ok d2 =>
            rw [hw] at h
            cases h
            refine ⟨o1, fun v' hv => ?_, nofun⟩
            cases hv
            rw [hp] at hw
            obtain ⟨x, -, i2⟩ := EvInv.writeAt (S := V.indexStruct) i1 hw
            refine ⟨⟨_, _, _, _, i2, rfl, ?_, ?_⟩, stay o1, hb⟩
            · change 2 * d2.length < m
              rw [writeAt_length hw]
              exact h3
            · rw [← List.append_assoc, e1, ← a3]
              simp only [List.length_append, List.length_cons, List.length_nil]
          | panic => rw [hw] at h; cases h; exact ⟨o1, nofun, nofun⟩
          | ub => rw [hw] at h; cases h; exact ⟨o1, nofun, nofun⟩
        | panic => rw [hn'] at h; cases h; exact ⟨o1, nofun, nofun⟩
        | ub => rw [hn'] at h; cases h; exact ⟨o1, nofun, nofun⟩
      | panic => rw [hn] at h; cases h; exact ⟨o1, nofun, nofun⟩
      | ub => rw [hn] at h; cases h; exact ⟨o1, nofun, nofun⟩
    · rw [Act.bind_panic h2] at h
      cases h
      exact ⟨o1, nofun, nofun⟩
  · rw [Act.bind_err (grow_cut_err i ap.index (by rw [a3]; rw [Nat.add_mul] at hI; omega) h1)] at h
    cases h
    exact ⟨o1, nofun, fun _ _ => ⟨⟨vi, preI, bufI, _, i1, a1, a2, a3⟩, stay o1, hb⟩⟩

theorem Loose.flushIfFull (l : Loose m L o name schema V w v nI nD) (ap : Apart L o name) (h16 : 16 < m) (hD : nD < 2 ^ 63)
    {r : Res IoErr (MultiVec B)} (h : MultiVec.flushIfFull m p v w = (r, w')) :
    Only L w w' (· = L.loc o name) ∧ (∀ v', r = .ok v' → Loose m L o name schema V w' v' nI nD) ∧
    ∀ x, r = .err x → Loose m L o name schema V w' v nI nD := by
  unfold MultiVec.flushIfFull at h
  split at h
  · obtain ⟨h1, h2, h3⟩ := l.flush ap h16 hD h
    exact ⟨h1, fun v' hv => (h2 v' hv).1, h3⟩
  · cases h
    refine ⟨.refl _ _, fun v' hv => ?_, nofun⟩
    cases hv
    exact l

theorem Loose.grow (l : Loose m L o name schema V w v nI nD) (ap : Apart L o name) (ok : IndexOK V) (h16 : 16 < m)
    (hS : 2 * V.indexSize < m) (hD : nD < 2 ^ 63) (hI : (nI + 1) * V.indexSize + 8 < 2 ^ 63)
    {r : Except IoErr Unit} {v' : MultiVec B} (h : MultiVec.grow m p e V v w = (.ok (r, v'), w')) :
    Only L w w' (MOwnLoc L o name) ∧ (r = .ok () → Loose m L o name schema V w' v' (nI + 1) nD) ∧
    ∀ x, r = .error x → Loose m L o name schema V w' v' nI nD := by
  have own : ∀ l, l = L.loc o name → MOwnLoc L o name l := fun _ h => .inl (.inl h)
  have ownI : ∀ l, l = L.loc o (Storage.indexName name) → MOwnLoc L o name l := fun _ h => .inr (.inl h)
  unfold MultiVec.grow at h
  cases hf : MultiVec.flushIfFull m p v w with
  | mk r1 w1 =>
    obtain ⟨o1, k1, k2⟩ := l.flushIfFull ap h16 hD hf
    cases r1 with
    | ok v1 =>
      rw [Act.bind_ok (Act.attempt_ok hf)] at h
      change (Act.attempt _ >>= _) w1 = _ at h
      cases ha : MultiVec.addToIndex m p e V v1 w1 with
      | mk r2 w2 =>
        obtain ⟨o2, k3, k4⟩ := (k1 v1 rfl).addToIndex ap ok h16 hS hI ha
        cases r2 with
        | ok v2 =>
          rw [Act.bind_ok (Act.attempt_ok ha)] at h
          cases h
          exact ⟨(o1.mono own).trans (o2.mono ownI), fun _ => k3 _ rfl, nofun⟩
        | err x =>
          rw [Act.bind_ok (Act.attempt_err ha)] at h
          cases h
          exact ⟨(o1.mono own).trans (o2.mono ownI), nofun, fun _ _ => k4 x rfl⟩
        | panic => rw [Act.bind_panic (attempt_panic ha)] at h; cases h
        | ub =>
          have a1 : (Act.attempt (MultiVec.addToIndex m p e V v1) : Act B.W Empty _) w1 = (.ub, w2) := by unfold Act.attempt; rw [ha]
          rw [Act.bind_def, a1] at h
          cases h
    | err x =>
      rw [Act.bind_ok (Act.attempt_err hf)] at h
      cases h
      exact ⟨o1.mono own, nofun, fun _ _ => k2 x rfl⟩
    | panic => rw [Act.bind_panic (attempt_panic hf)] at h; cases h
    | ub =>
      have a1 : (Act.attempt (MultiVec.flushIfFull m p v) : Act B.W Empty _) w = (.ub, w1) := by unfold Act.attempt; rw [hf]
      rw [Act.bind_def, a1] at h
      cases h

theorem builderAdd_ok {t : BitVec 8} {size pos : Nat} {d body : Bytes} (hs : 2 * (size + 1) ≤ m)
    (hd : 2 * (body.length + 8) < m)
    (h : MultiVec.builderAdd m p t size (body ++ zeros 8) = .ok (d, pos)) :
    d = body ++ t :: (zeros size ++ zeros 8) ∧ pos = body.length + 1 ∧ 2 * d.length < m := by
  have hl : (body ++ zeros 8).length = body.length + 8 := by simp [zeros]
  unfold MultiVec.builderAdd at h
  rw [hl, uadd_ok (show 1 + size < m by omega), Out.ok_bind, uadd_ok (show body.length + 8 + (1 + size) < m by omega), Out.ok_bind] at h
  unfold alloc at h
  by_cases ha : 2 * (body.length + 8 + (1 + size)) < m
  · rw [if_pos ha, Out.ok_bind, usub_ok (by rw [paddingSize_eq]; omega), Out.ok_bind, paddingSize_eq] at h
    have e5 : resize0 (body ++ zeros 8) (body.length + 8 + (1 + size)) = body ++ 0#8 :: (zeros size ++ zeros 8) := by
      unfold resize0
      rw [List.take_of_length_le (by omega)]
      simp only [List.append_assoc]
      congr 1
      simp only [zeros, List.length_append, List.length_replicate, List.replicate_append_replicate, ← List.replicate_succ]
      congr 1
      omega
    rw [e5, Nat.add_sub_cancel, if_pos (by simp), Out.ok_bind, uadd_ok (show 1 + (body.length + 8) < m by omega), Out.ok_bind, usub_ok (by omega),
      Out.ok_bind, show 1 + (body.length + 8) - 8 = body.length + 1 by omega] at h
    unfold sliceFrom at h
    rw [if_pos (by simp), Out.ok_bind, List.set_append_right _ _ (Nat.le_refl _)] at h
    simp only [Nat.sub_self, List.set_cons_zero] at h
    cases h
    refine ⟨rfl, rfl, ?_⟩
    simp only [List.length_append, List.length_cons, zeros, List.length_replicate]
    omega
  · rw [if_neg ha] at h
    cases h

theorem Loose.add (l : Loose m L o name schema V w v nI nD) {a : Add} {d d' : Bytes} {pos : Nat} (hs : 2 * (a.struct.size + 1) ≤ m)
    (h : MultiVec.builderAdd m p a.type a.struct.size v.data = .ok (d, pos)) (hw : Vector.writeAt p e a.struct d pos a.ops = .ok d') :
    Loose m L o name schema V w { v with data := d' } nI (nD + (1 + a.struct.size)) := by
  obtain ⟨hi, ⟨hh, pre, c, body, i, b1, b2, b3⟩, hb⟩ := l
  rw [b2] at h hb
  have hl : (body ++ zeros 8).length = body.length + 8 := by simp [zeros]
  obtain ⟨rfl, rfl, hd⟩ := builderAdd_ok hs (by omega) h
  have hlen := writeAt_length hw
  have hdrop : (body ++ a.type :: (zeros a.struct.size ++ zeros 8)).drop (body.length + 1) = zeros a.struct.size ++ zeros 8 := by
    rw [← List.drop_drop, List.drop_left]; rfl
  have htake : (body ++ a.type :: (zeros a.struct.size ++ zeros 8)).take (body.length + 1) = body ++ [a.type] := by
    rw [List.take_append]; simp [List.take_of_length_le]
  unfold Vector.writeAt at hw
  rw [hdrop, htake, runHandle_local a.ops _ (by simp [zeros])] at hw
  simp only [Out.bind_eq_ok] at hw
  obtain ⟨m', ⟨x, hx, hm⟩, hw⟩ := hw
  cases hm; cases hw
  have hxl := runHandle_length _ _ _ hx
  refine ⟨hi, ⟨hh, pre, c, body ++ a.type :: x, i, b1, by simp, ?_⟩, ?_⟩
  · simp only [List.length_append, List.length_cons, hxl, zeros, List.length_replicate]
    omega
  · rw [hlen]; exact hd

end

variable {k : Kind} {p : Profile} {e : Endian} {V : Variadic} {o : k.backend.Obj} {name schema : String} {w w1 : k.backend.W}
  {v v1 : MultiVec k.backend} {its : List (List Add)}

/-- Any history on the narrow host. -/
theorem nmgrows_loose (ok : IndexOK V) (h16 : 16 < m) (hS : 2 * V.indexSize < m) (hV : ∀ x ∈ V.types, 2 * (x.2.size + 1) ≤ m)
    (i : MvInv k.laws o name schema V w v [] [] [] [] [] []) (hu : MUnseen k.laws o name w)
    (g : NMGrows m k p e V o name w v its w1 v1) :
    (its.length + 1) * V.indexSize + 8 < 2 ^ 63 → dataSize its + 8 < 2 ^ 63 →
    Loose m k.laws o name schema V w1 v1 its.length (dataSize its) ∧ MUnseen k.laws o name w1 := by
  have ap := k.apart o name
  induction g with
  | start =>
    refine fun _ _ => ⟨⟨⟨v.index, [], [], [], i.index, ?_, ?_, rfl⟩, ⟨v.handle, [], [], [], i.data, ?_, i.buf, rfl⟩, ?_⟩, hu⟩
    · exact (evInv_cut i.index ok.size_pos (by simp; omega)).symm
    · have := i.index.rep.length
      simp at this; omega
    · have := i.data.size
      unfold cutH
      rw [Nat.mod_eq_of_lt (by rw [this]; simp; omega)]
    · have := i.length
      simp at this; omega
  | @grow its w1 v1 v2 w2 g h ih =>
    intro hbI hb
    have hbI' : (its.length + 1) * V.indexSize + 8 < 2 ^ 63 := by
      rw [List.length_append, Nat.add_right_comm, Nat.add_mul] at hbI; omega
    rw [dataSize_append, dataSize_singleton] at hb
    obtain ⟨l, u⟩ := ih hbI' (by omega)
    obtain ⟨o1, h1, -⟩ := l.grow ap ok h16 hS (by omega) hbI' h
    refine ⟨?_, u.only o1⟩
    rw [dataSize_append, List.length_append]
    exact h1 rfl
  | @add its as w1 v1 a d pos d' g hm h hw ih =>
    intro hbI hb
    rw [dataSize_append, dataSize_singleton, itemSize_append, itemSize_singleton] at hb
    obtain ⟨l, u⟩ := ih (by simpa using hbI) (by rw [dataSize_append, dataSize_singleton]; omega)
    have := l.add (hV _ hm) h hw
    refine ⟨?_, u⟩
    rw [dataSize_append, dataSize_singleton] at this ⊢
    rw [itemSize_append, itemSize_singleton, ← Nat.add_assoc]
    simpa using this
  | @failed its w1 v1 x v2 w2 g h ih =>
    intro hbI hb
    obtain ⟨l, u⟩ := ih hbI hb
    obtain ⟨o1, -, h1⟩ := l.grow ap ok h16 hS (by omega) hbI h
    exact ⟨h1 x rfl, u.only o1⟩
  | @other its w1 v1 w2 g h ih =>
    intro hbI hb
    obtain ⟨l, u⟩ := ih hbI hb
    obtain ⟨k1, -⟩ := Kind.away_mkeeps h
    exact ⟨l.keeps k1, u.keeps k1⟩
  | @elsewhere its w1 v1 o' n r w2 g ho hi h ih =>
    intro hbI hb
    obtain ⟨l, u⟩ := ih hbI hb
    exact ⟨l.read h, ⟨Kind.elsewhere_unseen hi h u.data, Kind.elsewhere_unseen hi h u.index⟩⟩

/-! ## Closing returns views only of what the host can count -/

section
variable {B : Backend} {L : Laws B} {o : B.Obj} {name schema : String} {w w' : B.W} {p : Profile} {e : Endian} {V : Variadic} {v : MultiVec B}
  {nI nD : Nat}

theorem handleClose_ok_small [DiffLib] {h h' : Handle B} {pre c : Bytes} {s : Slice B.Base} (i : Writing L o name schema w h pre c)
    (hu : Unseen L o name w) (hne : L.loc o (Storage.schemaName name) ≠ L.loc o name) (h16 : 16 ≤ m) (hm : m ≤ 2 ^ 64)
    (hc : Handle.close m p e (cutH m h) w = (.ok (.ok s, h'), w')) : pre.length + 16 < m := by
  obtain ⟨st, hs, -⟩ := i.stream
  have hn64 : h.size % m < 2 ^ 64 := Nat.lt_of_lt_of_le (Nat.mod_lt _ (by omega)) hm
  unfold Handle.close at hc
  rw [show (cutH m h).stream = some st from hs] at hc
  dsimp only at hc
  rcases finish_any i p e hn64 hs with ⟨w2, h2, o2, m2⟩ | ⟨x, w2, h2, nf⟩
  · have h2 : Flatdata.Handle.finish p e (cutH m h) st w = (.ok (), w2) := h2
    rw [Act.bind_ok (Act.attempt_ok h2)] at hc
    dsimp only at hc
    obtain ⟨r, w3, h3, h4⟩ := Act.bind_eq_ok hc
    cases h4
    rw [show (cutH m h).obj = o from i.obj, show (cutH m h).name = name from i.nameEq, show (cutH m h).schema = schema from i.schemaEq] at h3
    unfold Act.attempt at h3
    cases hr : read m B p e o name schema w2 with
    | mk r w4 =>
      rw [hr] at h3
      cases r <;> cases h3
      have := read_ok_small hne (hu.only o2) m2 h16 hr
      have h5 := i.le
      simp only [List.length_append, length_le64, zeros, List.length_replicate] at this
      omega
  · have h2 : Flatdata.Handle.finish p e (cutH m h) st w = (.err x, w2) := h2
    rw [Act.bind_ok (Act.attempt_err h2)] at hc
    cases hc

theorem attempt_eq_ok {W E E' α : Type} {x : Act W E α} {w w' : W} {a : α} (h : (x.attempt : Act W E' _) w = (.ok (.ok a), w')) :
    x w = (.ok a, w') := by
  unfold Act.attempt at h
  split at h <;> cases h
  assumption

theorem attempt_eq_error {W E E' α : Type} {x : Act W E α} {w w' : W} {a : E} (h : (x.attempt : Act W E' _) w = (.ok (.error a), w')) :
    x w = (.err a, w') := by
  unfold Act.attempt at h
  split at h <;> cases h
  assumption

theorem Loose.close [DiffLib] (l : Loose m L o name schema V w v nI nD) (hu : MUnseen L o name w) (ap : Apart L o name) (ok : IndexOK V)
    (h16 : 16 < m) (hm : m ≤ 2 ^ 64) (hS : 2 * V.indexSize < m) (hD : nD < 2 ^ 63) (hI : (nI + 1) * V.indexSize + 8 < 2 ^ 63)
    {r : Slice B.Base × Slice B.Base} (h : MultiVec.close m p e V v w = (.ok r, w')) :
    (nI + 1) * V.indexSize + 16 < m ∧ nD + 16 < m := by
  have own : ∀ l, l = L.loc o name → MOwnLoc L o name l := fun _ h => .inl (.inl h)
  have ownI : ∀ l, l = L.loc o (Storage.indexName name) → MOwnLoc L o name l := fun _ h => .inr (.inl h)
  unfold MultiVec.close at h
  obtain ⟨r1, w1, h1, h⟩ := Act.bind_eq_ok h
  cases r1 with
  | error x => obtain ⟨_, _, _, h⟩ := Act.bind_eq_ok h; cases h
  | ok v1 =>
    obtain ⟨o1, k1, -⟩ := l.addToIndex ap ok h16 hS hI (attempt_eq_ok h1)
    change MultiVec.closeFlush m p e v1 w1 = _ at h
    unfold MultiVec.closeFlush at h
    obtain ⟨r2, w2, h2, h⟩ := Act.bind_eq_ok h
    cases r2 with
    | error x => obtain ⟨_, _, _, h⟩ := Act.bind_eq_ok h; cases h
    | ok v2 =>
      obtain ⟨o2, k2, -⟩ := (k1 v1 rfl).flush ap h16 hD (attempt_eq_ok h2)
      obtain ⟨l2, -, hz⟩ := k2 v2 rfl
      have u2 := (hu.only (o1.mono ownI)).only (o2.mono own)
      change MultiVec.closeIndex m p e v2 w2 = _ at h
      unfold MultiVec.closeIndex at h
      obtain ⟨r3, w3, h3, h⟩ := Act.bind_eq_ok h
      cases r3 with
      | error x => obtain ⟨_, _, _, h⟩ := Act.bind_eq_ok h; cases h
      | ok si =>
        obtain ⟨⟨vi, preI, bufI, cI, i, a1, a2, a3⟩, ⟨hh, pre, c, body, d, b1, b2, b3⟩, hb⟩ := l2
        have hbody : body = [] := by
          have := congrArg List.length (b2.symm.trans hz)
          simp [zeros] at this
          exact this
        have h3 := attempt_eq_ok h3
        rw [a1] at h3
        change MultiVec.closeData m p e v2 si w3 = _ at h
        unfold MultiVec.closeData at h
        obtain ⟨r4, w4, h4, h⟩ := Act.bind_eq_ok h
        obtain ⟨_, w5, h5, h⟩ := Act.bind_eq_ok h
        obtain ⟨sd, w6, h6, h⟩ := Act.bind_eq_ok h
        have hsmall : (nI + 1) * V.indexSize + 16 < m := by
          rcases close_cut i u2.index ap.index p e (by omega) hm (by rw [a3]; omega) h3 with ⟨h, -⟩ | ⟨w3, j1, j2, -, j3, -⟩
          · cases h
          · have := read_ok_small ap.index j2 j1 (by omega) j3
            have j4 := i.writing.le
            have j5 := i.length
            rw [a3] at j5
            simp only [List.length_append, length_le64, zeros, List.length_replicate] at this j5
            omega
        have hcut := evInv_cut i ok.size_pos (show (preI ++ bufI).length * V.indexSize < m by rw [a3]; omega)
        rw [hcut, close_same i u2.index ap.index p e hm (by rw [a3]; omega) (by rw [a3]; exact hsmall) hcut] at h3
        obtain ⟨r3, w3', h3', -, o3, -⟩ := i.close u2.index ap.index p e (by rw [a3]; omega)
        rw [h3] at h3'
        cases h3'
        have k3 : Keeps L w2 w3 (L.loc o name) := o3.keeps _ (ap.index_data (.inl rfl))
        have k3' : Keeps L w2 w3 (L.loc o (Storage.schemaName name)) := o3.keeps _ (ap.index_data (.inr rfl))
        rw [b1] at h4
        obtain ⟨r5, h'⟩ := r4
        cases r5 with
        | error x => cases h6
        | ok sd' =>
          have h4 : Handle.close m p e (cutH m hh) w3 = (.ok (.ok sd', h'), w4) := by
            unfold Act.mapErr at h4
            split at h4 <;> cases h4
            assumption
          have := handleClose_ok_small (d.keeps k3 k3') (u2.data.keeps k3 k3') ap.data (by omega) hm h4
          rw [hbody] at b3
          simp at b3
          exact ⟨hsmall, by omega⟩

end

/-- A history whose bytes the narrow host can count is one of the 64-bit host. -/
theorem nmgrows_small (ok : IndexOK V) (hm : m ≤ 2 ^ 64) (hS : 2 * V.indexSize < m) (hV : ∀ x ∈ V.types, 2 * (x.2.size + 1) ≤ m)
    (i : MvInv k.laws o name schema V w v [] [] [] [] [] []) (hu : MUnseen k.laws o name w)
    (g : NMGrows m k p e V o name w v its w1 v1) :
    (its.length + 1) * V.indexSize + 8 < 2 ^ 63 → dataSize its + 8 < 2 ^ 63 → (its.length + 1) * V.indexSize + 16 < m → dataSize its + 16 < m →
    MGrows k p e V o name w v its w1 v1 := by
  have ap := k.apart o name
  have buffers : ∀ {its w1 v1}, 16 < m → NMGrows m k p e V o name w v its w1 v1 → (its.length + 1) * V.indexSize + 8 < 2 ^ 63 →
      dataSize its + 8 < 2 ^ 63 → 2 * v1.index.data.length < m := by
    intro its w1 v1 h16 g h1 h2
    obtain ⟨⟨⟨vi, _, _, _, _, a1, a2, _⟩, _, _⟩, _⟩ := nmgrows_loose ok h16 hS hV i hu g h1 h2
    rw [a1]; exact a2
  have key : ∀ {its w1 v1 r w2}, NMGrows m k p e V o name w v its w1 v1 → MGrows k p e V o name w v its w1 v1 →
      (its.length + 1) * V.indexSize + 8 < 2 ^ 63 → dataSize its + 8 < 2 ^ 63 → (its.length + 1) * V.indexSize + 16 < m →
      dataSize its + 16 < m → MultiVec.grow m p e V v1 w1 = (.ok r, w2) → v1.grow p e V w1 = (.ok r, w2) := by
    intro its w1 v1 r w2 g g' h1 h2 h3 h4 h
    obtain ⟨preI, bufI, cI, pre, body, c, xss, s⟩ := mgrows_inv ok i hu g' h1 h2
    obtain ⟨l1, l2⟩ := s.length
    rcases mgrow_same (p := p) (e := e) s.inv ap ok hm (by omega) hS (buffers (by omega) g h1 h2) (by omega) (by omega) (by rw [l2]; exact h1)
      (by rw [l2]; omega) with h5 | ⟨_, h5, _⟩
    · exact h5.symm.trans h
    · rw [h] at h5; cases h5
  induction g with
  | start => exact fun _ _ _ _ => .start
  | @grow its w1 v1 v2 w2 g h ih =>
    intro h1 h2 h3 h4
    rw [List.length_append, Nat.add_right_comm, Nat.add_mul] at h1 h3
    rw [dataSize_append] at h2 h4
    have g' := ih (by omega) (by omega) (by omega) (by omega)
    exact .grow g' (key g g' (by omega) (by omega) (by omega) (by omega) h)
  | @add its as w1 v1 a d pos d' g hv h hw ih =>
    intro h1 h2 h3 h4
    rw [dataSize_append, dataSize_singleton, itemSize_append, itemSize_singleton] at h2 h4
    have e1 : dataSize (its ++ [as]) = dataSize its + itemSize as := by rw [dataSize_append, dataSize_singleton]
    have h1' : ((its ++ [as]).length + 1) * V.indexSize + 8 < 2 ^ 63 := by simpa using h1
    have g' := ih h1' (by omega) (by simpa using h3) (by omega)
    obtain ⟨preI, bufI, cI, pre, body, c, xss, s⟩ := mgrows_inv ok i hu g' h1' (by omega)
    obtain ⟨l1, l2⟩ := s.length
    have hl := s.inv.length
    refine .add g' hv ?_ hw
    rcases builderAdd_same (p := p) (t := a.type) (size := a.struct.size) (data := v1.data) (by omega)
      (show v1.data.length + 1 + a.struct.size < m by omega) (by omega) with h5 | ⟨h5, _⟩
    · exact h5.symm.trans h
    · rw [h] at h5; cases h5
  | failed g h ih => exact fun h1 h2 h3 h4 => .failed (ih h1 h2 h3 h4) (key g (ih h1 h2 h3 h4) h1 h2 h3 h4 h)
  | other g h ih => exact fun h1 h2 h3 h4 => .other (ih h1 h2 h3 h4) h
  | elsewhere g ho hi h ih => exact fun h1 h2 h3 h4 => .elsewhere (ih h1 h2 h3 h4) ho hi h

/-- If closing returns views, the host can count the bytes, and a 64-bit host would have done the same. -/
theorem nmclose_ok [DiffLib] (ok : IndexOK V) (h16 : 16 < m) (hm : m ≤ 2 ^ 64) (hS : 2 * V.indexSize < m)
    (hV : ∀ x ∈ V.types, 2 * (x.2.size + 1) ≤ m)
    (i : MvInv k.laws o name schema V w v [] [] [] [] [] []) (hu : MUnseen k.laws o name w)
    (g : NMGrows m k p e V o name w v its w1 v1) (hbI : (its.length + 1) * V.indexSize + 8 < 2 ^ 63) (hb : dataSize its + 8 < 2 ^ 63)
    {w2 : k.backend.W} {r : Slice k.backend.Base × Slice k.backend.Base} (h : MultiVec.close m p e V v1 w1 = (.ok r, w2)) :
    (its.length + 1) * V.indexSize + 16 < m ∧ dataSize its + 16 < m ∧ MGrows k p e V o name w v its w1 v1 ∧
    v1.close p e V w1 = (.ok r, w2) := by
  have ap := k.apart o name
  obtain ⟨l, u⟩ := nmgrows_loose ok h16 hS hV i hu g hbI hb
  obtain ⟨h1, h2⟩ := l.close u ap ok h16 hm hS (by omega) hbI h
  have g' := nmgrows_small ok hm hS hV i hu g hbI hb h1 h2
  refine ⟨h1, h2, g', ?_⟩
  obtain ⟨⟨vi, _, _, _, _, a1, a2, _⟩, _, _⟩ := l
  obtain ⟨preI, bufI, cI, pre, body, c, xss, s⟩ := mgrows_inv ok i hu g' hbI hb
  obtain ⟨l1, l2⟩ := s.length
  rcases mclose_same (p := p) (e := e) s.inv ap ok hm s.unseen.data s.unseen.index hS (by rw [a1]; exact a2) (by omega) (by omega)
    (by rw [l2]; exact hbI) (by rw [l2]; exact h1) with h5 | ⟨_, h5, _⟩
  · exact h5.symm.trans h
  · rw [h] at h5; cases h5

end Narrow
end Flatdata
