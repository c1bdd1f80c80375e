import Verif.Spec.MDisturbed
import Verif.Proofs.Disturbed
import Verif.Proofs.MGrows
/-!
# Multivectors whose files are changed by others
-/
namespace Flatdata
open Spec FileSt

theorem builderAdd_eq {data body : Bytes} (hbuf : data = body ++ zeros 8) (p : Profile) (t : BitVec 8) (size : Nat)
    (hb : body.length + 1 + size + 8 < 2 ^ 63) :
    MultiVec.builderAdd p t size data = .ok (body ++ t :: (zeros size ++ zeros 8), body.length + 1) := by
  have hl : data.length = body.length + 8 := by rw [hbuf]; simp [zeros]
  have e1 : uadd p 1 size = .ok (1 + size) := uadd_ok (by unfold usizeMod; omega)
  have e2 : uadd p data.length (1 + size) = .ok (body.length + 8 + (1 + size)) := by
    rw [hl]; exact uadd_ok (by unfold usizeMod; omega)
  have e3 : alloc (body.length + 8 + (1 + size)) = .ok () := by unfold alloc; rw [if_pos (by omega)]
  have e4 : usub p data.length paddingSize = .ok body.length := by
    rw [paddingSize_eq, usub_ok (by omega), hl]; rfl
  have e5 : resize0 data (body.length + 8 + (1 + size)) = body ++ 0#8 :: (zeros size ++ zeros 8) := by
    unfold resize0
    rw [List.take_of_length_le (by omega), hbuf]
    simp only [List.append_assoc]
    congr 1
    simp only [zeros, List.length_append, List.length_replicate, List.replicate_append_replicate, ← List.replicate_succ]
    congr 1
    omega
  have e6 : uadd p 1 data.length = .ok (1 + (body.length + 8)) := by
    rw [hl]; exact uadd_ok (by unfold usizeMod; omega)
  have e7 : usub p (1 + (body.length + 8)) paddingSize = .ok (body.length + 1) := by
    rw [paddingSize_eq, usub_ok (by omega)]; congr 1; omega
  unfold MultiVec.builderAdd
  rw [e1, Out.ok_bind, e2, Out.ok_bind, e3, Out.ok_bind, e4, Out.ok_bind, e5,
    if_pos (by simp), Out.ok_bind, e6, Out.ok_bind, e7, Out.ok_bind]
  unfold sliceFrom
  rw [if_pos (by simp), Out.ok_bind, List.set_append_right _ _ (Nat.le_refl _)]
  simp

/-- `add_…` of the builder, and the operations through the returned handle. -/
theorem builderAdd_write {data body : Bytes} (hbuf : data = body ++ zeros 8) {p : Profile} {e : Endian} {a : Add} {d d' : Bytes}
    {pos : Nat} (h : MultiVec.builderAdd p a.type a.struct.size data = .ok (d, pos))
    (hw : Vector.writeAt p e a.struct d pos a.ops = .ok d') (hb : body.length + 1 + a.struct.size + 8 < 2 ^ 63) :
    ∃ x, runHandle p e a.struct a.ops (zeros a.struct.size) = .ok x ∧
      d' = body ++ (a.type :: x) ++ zeros 8 := by
  have hd := builderAdd_eq hbuf p a.type a.struct.size hb
  rw [hd] at h; cases h
  have hdrop : (body ++ a.type :: (zeros a.struct.size ++ zeros 8)).drop (body.length + 1) = zeros a.struct.size ++ zeros 8 := by
    rw [← List.drop_drop, List.drop_left]; rfl
  have htake : (body ++ a.type :: (zeros a.struct.size ++ zeros 8)).take (body.length + 1) = body ++ [a.type] := by
    rw [List.take_append]; simp [List.take_of_length_le]
  unfold Vector.writeAt at hw
  rw [hdrop, htake, runHandle_local a.ops _ (by simp [zeros])] at hw
  simp only [Out.bind_eq_ok] at hw
  obtain ⟨m, ⟨x, hx, hm⟩, hw⟩ := hw
  cases hm; cases hw
  exact ⟨x, hx, by simp⟩

/-- A byte string as elements of one byte. -/
def bits (l : Bytes) : List Bytes := l.map fun b => [b]

theorem flatten_bits (l : Bytes) : (bits l).flatten = l := by
  induction l with
  | nil => rfl
  | cons b l ih => change b :: (bits l).flatten = _; rw [ih]

theorem allSize_bits (l : Bytes) : AllSize 1 (bits l) := by
  intro x hx
  obtain ⟨b, _, rfl⟩ := List.mem_map.mp hx
  rfl

theorem length_bits (l : Bytes) : (bits l).length = l.length := List.length_map ..

/-- An open multivector of which nothing has been flushed. Nothing is known about the content of the files. -/
structure MMine (o : Obj) (name schema : String) (V : Variadic) (w : FileW) (v : MultiVec file) (bufI : List Bytes) (body : Bytes) :
    Prop where
  index : Mine o (Storage.indexName name) (Storage.indexSchema schema) V.indexSize w v.index [] bufI 0
  data : Mine o name schema 1 w ⟨v.data, body.length, v.handle⟩ [] (bits body) 0
  flushed : v.sizeFlushed = 0

section
variable {o : Obj} {name schema : String} {V : Variadic} {w w' : FileW} {v : MultiVec file} {bufI : List Bytes} {body : Bytes}

theorem MMine.buf (i : MMine o name schema V w v bufI body) : v.data = body ++ zeros 8 := by
  have := i.data.rep.eq
  rw [flatten_bits] at this
  exact this

theorem MMine.length (i : MMine o name schema V w v bufI body) : v.data.length = body.length + 8 := by
  rw [i.buf]; simp [zeros]

/-- The two streams are different. -/
theorem MMine.streams (i : MMine o name schema V w v bufI body) : ∃ sI sD, v.index.handle.stream = some sI ∧ v.handle.stream = some sD ∧
    sI ≠ sD := by
  obtain ⟨sI, h1, _, h2⟩ := i.index.stream
  obtain ⟨sD, h3, _, h4⟩ := i.data.stream
  refine ⟨sI, sD, h1, h3, ?_⟩
  rintro rfl
  rw [h2] at h4
  exact (Kind.apart .disk o name).indexData (Prod.mk.inj h4).1

theorem grow_world {size : Nat} {iv : ExtVec file} {p : Profile} {r} (hl : iv.data.length ≤ bufferLimit)
    (h : iv.grow p size w = (.ok r, w')) : w' = w ∧ r.1.handle = iv.handle := by
  unfold ExtVec.grow at h
  obtain ⟨_, wa, h1, h⟩ := Act.bind_eq_ok h
  obtain ⟨_, _, h2, h⟩ := Act.bind_eq_ok h
  obtain ⟨_, _, h3, h⟩ := Act.bind_eq_ok h
  obtain ⟨_, _, h4, h⟩ := Act.bind_eq_ok h
  obtain ⟨_, _, h5, h⟩ := Act.bind_eq_ok h
  obtain ⟨_, _, h6, h⟩ := Act.bind_eq_ok h
  cases h
  unfold ExtVec.flushIfFull at h1
  rw [if_neg (by omega)] at h1
  cases h1
  refine ⟨?_, rfl⟩
  rw [(Act.lift_eq_ok h6).2, (Act.lift_eq_ok h5).2, (Act.lift_eq_ok h4).2, (Act.lift_eq_ok h3).2, (Act.lift_eq_ok h2).2]

theorem MMine.addToIndex (i : MMine o name schema V w v bufI body) (p : Profile) (e : Endian) (ok : IndexOK V)
    (hb : body.length + 8 < 2 ^ 63) (hbI : bufI.length * V.indexSize + 8 ≤ bufferLimit) (hS : V.indexSize < 2 ^ 62) :
    ∃ v' x, v.addToIndex p e V w = (.ok v', w) ∧ MMine o name schema V w v' (bufI ++ [x]) body ∧ v'.data = v.data ∧
      v'.handle = v.handle ∧ v'.index.handle.stream = v.index.handle.stream ∧
      runHandle p e V.indexStruct (indexOps V body.length) (zeros V.indexSize) = .ok x := by
  have hlim : bufferLimit = 33554432 := by decide
  have hl := i.length
  have hlI := i.index.rep.length
  unfold MultiVec.addToIndex
  rcases i.index.grow p ok.size_pos (by rw [List.nil_append, Nat.add_mul, Nat.one_mul]; omega) with
    ⟨v', pos, w', pre', buf', q', h1, i1, e1, hp, hf⟩ | ⟨_, _, _, _, _, hlt⟩
  · have hw := grow_world (by omega) h1
    obtain rfl := hw.1
    have hpre : pre' = [] ∧ q' = 0 := by
      rcases hf with hf | hf
      · exact hf
      · exfalso
        have h2 : pre'.flatten.length ≤ bufI.length * V.indexSize := by
          have h3 : pre' ++ buf' = bufI := by simpa using e1
          have := i.index.rep.all.length_flatten
          rw [← h3, List.flatten_append, List.length_append] at this
          rw [← h3]; omega
        omega
    obtain ⟨rfl, rfl⟩ := hpre
    have e1 : buf' = bufI := by simpa using e1
    subst e1
    obtain ⟨x, hx⟩ := indexEntry (p := p) (e := e) ok body.length
    obtain ⟨d, hd, _⟩ := Rep.writeAt (S := V.indexStruct) i1.rep (i := buf'.length) (x := zeros V.indexSize) (by simp) hx
    obtain ⟨x', hx', i2⟩ := Mine.writeAt (S := V.indexStruct) i1 hd
    have := hx.symm.trans hx'
    cases this
    have e2 : uadd p v.sizeFlushed v.data.length = .ok (body.length + 8) := by
      rw [i.flushed, hl, uadd_ok (by unfold usizeMod; omega), Nat.zero_add]
    have e3 : usub p (body.length + 8) paddingSize = .ok body.length := by
      rw [paddingSize_eq, usub_ok (by omega)]; congr 1
    refine ⟨{ v with index := { v' with data := d } }, x, ?_, ⟨i2, i.data, i.flushed⟩, rfl, rfl, ?_, hx⟩
    · rw [Act.bind_ok h1, e2, Act.lift_bind, e3, Act.lift_bind]
      change (Act.lift (Vector.writeAt p e V.indexStruct v'.data pos (indexOps V body.length)) >>= _) w' = _
      have hd' : Vector.writeAt p e V.indexStruct v'.data pos (indexOps V body.length) = .ok d := by
        rw [hp]; exact hd
      rw [hd']
      rfl
    · exact congrArg Handle.stream hw.2
  · omega

theorem MMine.grow (i : MMine o name schema V w v bufI body) (p : Profile) (e : Endian) (ok : IndexOK V)
    (hb : body.length + 8 ≤ bufferLimit) (hbI : bufI.length * V.indexSize + 8 ≤ bufferLimit) (hS : V.indexSize < 2 ^ 62) :
    ∃ v' x, v.grow p e V w = (.ok (.ok (), v'), w) ∧ MMine o name schema V w v' (bufI ++ [x]) body ∧
      runHandle p e V.indexStruct (indexOps V body.length) (zeros V.indexSize) = .ok x := by
  have hlim : bufferLimit = 33554432 := by decide
  have hl := i.length
  obtain ⟨v', x, h1, i1, _, _, _, hx⟩ := i.addToIndex p e ok (by omega) hbI hS
  refine ⟨v', x, ?_, i1, hx⟩
  unfold MultiVec.grow
  have h0 : v.flushIfFull p w = (.ok v, w) := by
    unfold MultiVec.flushIfFull
    rw [if_neg (by omega)]; rfl
  rw [Act.bind_ok (Act.attempt_ok h0)]
  change (Act.attempt (v.addToIndex p e V) >>= _) w = _
  rw [Act.bind_ok (Act.attempt_ok h1)]
  rfl

end

/-- What is known about a small open multivector with the items `its`. -/
structure MdState (p : Profile) (e : Endian) (V : Variadic) (o : Obj) (name schema : String) (its : List (List Add)) (w1 : FileW)
    (v1 : MultiVec file) (bufI : List Bytes) (body : Bytes) (xss : List (List (BitVec 8 × Bytes))) : Prop where
  inv : MMine o name schema V w1 v1 bufI body
  contents : AllContents p e its xss
  data : body = encodeItems xss
  index : Elements p e V.indexStruct ((starts 0 its).map (indexOps V)) bufI

theorem MdState.length {p : Profile} {e : Endian} {V : Variadic} {o : Obj} {name schema : String} {w1 : FileW} {v1 : MultiVec file}
    {its : List (List Add)} {bufI : List Bytes} {body : Bytes} {xss : List (List (BitVec 8 × Bytes))}
    (s : MdState p e V o name schema its w1 v1 bufI body xss) : body.length = dataSize its ∧ bufI.length = its.length := by
  refine ⟨?_, ?_⟩
  · rw [s.data, s.contents.length.1]
  · rw [← s.index.length_eq, List.length_map, length_starts]

/-- The state after any disturbed history of a small multivector. -/
theorem mdisturbed_inv {p : Profile} {e : Endian} {V : Variadic} {o : Obj} {name schema : String} {w w1 : FileW} {v v1 : MultiVec file}
    {its : List (List Add)} (ok : IndexOK V) (hS : V.indexSize < 2 ^ 62) (i : MMine o name schema V w v [] [])
    (g : MDisturbed p e V w v its w1 v1) :
    its.length * V.indexSize + 8 ≤ bufferLimit → dataSize its + 8 ≤ bufferLimit →
    ∃ bufI body xss, MdState p e V o name schema its w1 v1 bufI body xss := by
  have hlim : bufferLimit = 33554432 := by decide
  induction g with
  | start => exact fun _ _ => ⟨[], [], [], i, trivial, rfl, trivial⟩
  | @grow its w1 v1 v2 w2 g h ih =>
    intro hbI hb
    rw [List.length_append, Nat.add_mul] at hbI
    rw [dataSize_append, dataSize_singleton] at hb
    obtain ⟨bufI, body, xss, s⟩ := ih (by omega) (by omega)
    obtain ⟨l1, l2⟩ := s.length
    obtain ⟨v', x, h1, i2, hx⟩ := s.inv.grow p e ok (by omega) (by rw [l2]; omega) hS
    rw [h] at h1; cases h1
    refine ⟨bufI ++ [x], body, xss ++ [[]], i2, AllContents.snoc (as := []) (xs := []) trivial s.contents, ?_, ?_⟩
    · rw [s.data, encodeItems_append, encodeItems_singleton]; simp [encodeItem]
    · rw [starts_snoc, List.map_append]
      refine s.index.snoc (ops := indexOps V (0 + dataSize its)) ?_
      rw [Nat.zero_add, ← l1]; exact hx
  | @add its as w1 v1 a d pos d' g hm h hw ih =>
    intro hbI hb
    rw [dataSize_append, dataSize_singleton, itemSize_append, itemSize_singleton] at hb
    obtain ⟨bufI, body, yss, s⟩ := ih (by simpa using hbI) (by rw [dataSize_append, dataSize_singleton]; omega)
    obtain ⟨l1, l2⟩ := s.length
    rw [dataSize_append, dataSize_singleton] at l1
    obtain ⟨x, hx, e1⟩ := builderAdd_write s.inv.buf h hw (by omega)
    obtain ⟨xss, xs, rfl, c1, c2⟩ := s.contents.of_snoc
    have hd := s.inv.data
    refine ⟨bufI, body ++ (a.type :: x), xss ++ [xs ++ [(a.type, x)]], ⟨s.inv.index, ⟨hd.obj, hd.nameEq, hd.schemaEq, hd.hsize, hd.stream, hd.le,
      hd.inv, ⟨allSize_bits _, ?_⟩, ?_, hd.all⟩, s.inv.flushed⟩, c1.snoc (c2.snoc hx), ?_, ?_⟩
    · rw [flatten_bits]; exact e1
    · rw [length_bits]; simp
    · rw [s.data, encodeItems_append, encodeItems_singleton, encodeItems_append, encodeItems_singleton, encodeItem_append]
      simp [encodeItem]
    · have := s.index
      rw [starts_snoc] at this ⊢; exact this
  | @failed its w1 v1 x v2 w2 g h ih =>
    intro hbI hb
    obtain ⟨bufI, body, xss, s⟩ := ih hbI hb
    obtain ⟨l1, l2⟩ := s.length
    obtain ⟨v', x, h1, _⟩ := s.inv.grow p e ok (by omega) (by rw [l2]; omega) hS
    rw [h] at h1; cases h1
  | @call its w1 v1 sI sD w2 g hI hD hcI hcD ih =>
    intro hbI hb
    obtain ⟨bufI, body, xss, s⟩ := ih hbI hb
    exact ⟨bufI, body, xss, ⟨s.inv.index.call hI hcI, s.inv.data.call hD hcD, s.inv.flushed⟩, s.contents, s.data, s.index⟩
  | @outside its w1 v1 w2 g h ih =>
    intro hbI hb
    obtain ⟨bufI, body, xss, s⟩ := ih hbI hb
    exact ⟨bufI, body, xss, ⟨s.inv.index.outside h, s.inv.data.outside h, s.inv.flushed⟩, s.contents, s.data, s.index⟩

/-- Closing a small multivector: what the returned view shows. -/
theorem MMine.close [DiffLib] {o : Obj} {name schema : String} {V : Variadic} {w w' : FileW} {v : MultiVec file} {bufI : List Bytes}
    {body : Bytes} (i : MMine o name schema V w v bufI body) {p : Profile} {e : Endian} (ok : IndexOK V)
    (hb : body.length + 8 < 2 ^ 63) (hbI : bufI.length * V.indexSize + 8 ≤ bufferLimit) (hS : V.indexSize < 2 ^ 62) {si sd : Slice Key}
    (h : v.close p e V w = (.ok (si, sd), w')) :
    ∃ x, runHandle p e V.indexStruct (indexOps V body.length) (zeros V.indexSize) = .ok x ∧
      file.deref w' si = .ok (bufI ++ [x]).flatten ∧ file.deref w' sd = .ok body := by
  have ap : key (join o.path (Storage.indexName name)) ≠ key (join o.path name) := (Kind.apart .disk o name).indexData
  have hlim : bufferLimit = 33554432 := by decide
  obtain ⟨sI, sD, hI, hD, hne⟩ := i.streams
  obtain ⟨v1, x, h1, i1, ed, eh, es, hx⟩ := i.addToIndex p e ok hb hbI hS
  refine ⟨x, hx, ?_⟩
  unfold MultiVec.close at h
  rw [Act.bind_ok (Act.attempt_ok h1)] at h
  change MultiVec.closeFlush p e v1 w = _ at h
  unfold MultiVec.closeFlush at h
  have hI1 : v1.index.handle.stream = some sI := es.trans hI
  have hD1 : v1.handle.stream = some sD := by rw [eh]; exact hD
  -- the data are flushed
  obtain ⟨e1, e2⟩ := i1.data.rep.body p
  have own := own_flush (o := o) (name := name) (w0 := w) (p := p) (v := (⟨v1.data, body.length, v1.handle⟩ : ExtVec file)) hD1 w
    (i1.data.own hD1)
  cases hwr : v1.handle.write p (bits body).flatten w with
  | mk r wb =>
  cases r with
  | err y =>
    have h2 : v1.flush p w = (.err y, wb) := by
      unfold MultiVec.flush
      rw [e1, Act.lift_bind, e2, Act.lift_bind, Act.bind_err hwr]
    rw [Act.bind_ok (Act.attempt_err h2)] at h
    change ((v1.drop : Act FileW RErr Unit) >>= _) wb = _ at h
    obtain ⟨_, _, _, h⟩ := Act.bind_eq_ok h
    cases h
  | panic =>
    have h2 : ExtVec.flush p (⟨v1.data, body.length, v1.handle⟩ : ExtVec file) w = (.panic, wb) := by
      unfold ExtVec.flush
      rw [e1, Act.lift_bind, e2, Act.lift_bind, Act.bind_panic hwr]
    rcases i1.data.flush p (by rw [List.nil_append, length_bits]; omega) with ⟨_, _, h3, _⟩ | ⟨_, _, _, h3, _⟩ <;> rw [h2] at h3 <;> cases h3
  | ub =>
    have h2 : ExtVec.flush p (⟨v1.data, body.length, v1.handle⟩ : ExtVec file) w = (.ub, wb) := by
      unfold ExtVec.flush
      rw [e1, Act.lift_bind, e2, Act.lift_bind, Act.bind_def, hwr]
    rcases i1.data.flush p (by rw [List.nil_append, length_bits]; omega) with ⟨_, _, h3, _⟩ | ⟨_, _, _, h3, _⟩ <;> rw [h2] at h3 <;> cases h3
  | ok hd =>
  have hfl : ExtVec.flush p (⟨v1.data, body.length, v1.handle⟩ : ExtVec file) w =
      (.ok ⟨List.replicate paddingSize 0#8, body.length, hd⟩, wb) := by
    unfold ExtVec.flush
    rw [e1, Act.lift_bind, e2, Act.lift_bind, Act.bind_ok hwr]
    rfl
  have h2 : v1.flush p w = (.ok { v1 with data := List.replicate paddingSize 0#8, handle := hd, sizeFlushed := body.length }, wb) := by
    unfold MultiVec.flush
    rw [e1, Act.lift_bind, e2, Act.lift_bind, Act.bind_ok hwr, i1.flushed, flatten_bits, uadd_ok (by unfold usizeMod; omega), Act.lift_bind,
      Nat.zero_add]
    rfl
  have hdst : hd.stream = some sD := by
    unfold Handle.write at hwr
    rw [hD1] at hwr
    obtain ⟨_, _, _, hwr⟩ := Act.bind_eq_ok hwr
    obtain ⟨_, _, _, hwr⟩ := Act.bind_eq_ok hwr
    cases hwr
    rfl
  rw [hfl] at own
  rcases i1.data.flush p (by rw [List.nil_append, length_bits]; omega) with ⟨dv, w1, h3, i2, m2, f2⟩ | ⟨_, _, _, h3, _⟩
  rotate_left
  · rw [hfl] at h3; cases h3
  rw [hfl] at h3; cases h3
  rw [Act.bind_ok (Act.attempt_ok h2)] at h
  change MultiVec.closeIndex p e _ wb = _ at h
  unfold MultiVec.closeIndex at h
  have iI : Mine o (Storage.indexName name) (Storage.indexSchema schema) V.indexSize wb v1.index [] (bufI ++ [x]) 0 :=
    i1.index.beside own.beside (by rw [hI1]; exact fun he => hne (Option.some.inj he))
  have exI : ∃ cI, wb.fs.files (key (join o.path (Storage.indexName name))) = some cI := by
    obtain ⟨s, _, hl, hf⟩ := iI.stream
    have := iI.inv.fds s hl
    rw [hf] at this
    exact Option.ne_none_iff_exists'.mp this
  obtain ⟨cI, hcI⟩ := exI
  have exD : ∃ c, w.fs.files (key (join o.path name)) = some c := by
    obtain ⟨s, _, hl, hf⟩ := i1.data.stream
    have := i1.data.inv.fds s hl
    rw [hf] at this
    exact Option.ne_none_iff_exists'.mp this
  obtain ⟨c, hc⟩ := exD
  obtain ⟨r, wc, h4, h⟩ := Act.bind_eq_ok h
  cases hcl : v1.index.close p e wb with
  | mk r4 wc4 =>
  cases r4 with
  | panic => unfold Act.attempt at h4; rw [hcl] at h4; cases h4
  | ub => unfold Act.attempt at h4; rw [hcl] at h4; cases h4
  | err y =>
    rw [Act.attempt_err hcl] at h4
    cases h4
    obtain ⟨_, _, _, h⟩ := Act.bind_eq_ok h
    cases h
  | ok si4 =>
  rw [Act.attempt_ok hcl] at h4
  cases h4
  obtain ⟨dI, bI, besI⟩ := iI.close_full (by
    rw [List.nil_append, List.length_append, Nat.add_mul]
    simp only [List.length_singleton, Nat.one_mul]; omega) hcI (.inl rfl) hI1 hcl
  change MultiVec.closeData p e _ si4 wc = _ at h
  unfold MultiVec.closeData at h
  obtain ⟨r, w5, h5, h⟩ := Act.bind_eq_ok h
  obtain ⟨u, w6, h6, h⟩ := Act.bind_eq_ok h
  obtain ⟨sd', w7, h7, h⟩ := Act.bind_eq_ok h
  cases h
  have hch : (⟨List.replicate paddingSize 0#8, body.length, hd⟩ : ExtVec file).closeHandle p e wc = (.ok sd, w') := by
    unfold ExtVec.closeHandle
    rw [Act.bind_ok h5, Act.bind_ok h6]
    exact h7
  have iD := i2.beside besI (by rw [hdst]; exact fun he => hne (Option.some.inj he).symm)
  obtain ⟨dD, bD, besD⟩ := iD.closeHandle (pre := []) (Nat.le_refl _) (c := c)
    (by rw [List.nil_append, flatten_bits]; omega)
    (by rw [besI.files _ ap.symm, f2, hc]; rfl) (.inl rfl) hdst hch
  refine ⟨?_, ?_⟩
  · have hcont : file.content w' si.base = file.content wc si.base := by
      rw [bI]
      change (w'.fs.files _).getD [] = (wc.fs.files _).getD []
      rw [besD.files _ ap]
    unfold Backend.deref at dI ⊢
    rw [hcont, dI]
    simp [dataOnDisk]
  · rw [dD, flatten_bits]
    simp [dataOnDisk]

end Flatdata
