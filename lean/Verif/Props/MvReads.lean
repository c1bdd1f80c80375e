import Verif.Props.MvClose
/-!
# Properties C25, C36, C37, C06 for multivectors: dropping, reads in between, other resources, fresh elements
-/
namespace Flatdata
open Spec StorageExample VecExample MvExample

/-! ## C25: dropping -/

/-- Dropping a multivector: it panics if one of its two handles is open, otherwise nothing happens. -/
theorem C25_multivec_drop_exact (B : Backend) (v : MultiVec B) (w : B.W) :
    (v.drop : Act B.W Empty Unit) w = (if v.index.isOpen || v.handle.isOpen then .panic else .ok (), w) := by
  unfold MultiVec.drop
  have h1 := C25_drop_exact B v.index w
  have h2 : (v.handle.drop : Act B.W Empty Unit) w = (if v.handle.isOpen then .panic else .ok (), w) := by
    unfold Handle.drop; split <;> rfl
  cases hi : v.index.isOpen with
  | true => rw [hi] at h1; exact Act.bind_panic h1
  | false =>
    rw [hi] at h1
    refine (Act.bind_ok h1).trans ?_
    exact h2

example : ((MultiVec.new (ExtVec.new (B := mem) ⟨none, 0, obj, "x_index", "index(s)"⟩) ⟨none, 0, obj, "x", "s"⟩).drop : Act MemW Empty Unit) mem0 =
    (.ok (), mem0) :=
  C25_multivec_drop_exact mem _ _

theorem mflushIfFull_open {B : Backend} {p : Profile} {v v' : MultiVec B} {w w' : B.W} (ho : v.handle.isOpen = true)
    (h : v.flushIfFull p w = (.ok v', w')) : v'.handle.isOpen = true ∧ v'.index = v.index := by
  unfold MultiVec.flushIfFull at h
  split at h
  · unfold MultiVec.flush at h
    obtain ⟨_, _, _, h⟩ := Act.bind_eq_ok h
    obtain ⟨_, _, _, h⟩ := Act.bind_eq_ok h
    obtain ⟨_, _, h1, h⟩ := Act.bind_eq_ok h
    obtain ⟨_, _, _, h⟩ := Act.bind_eq_ok h
    cases h
    exact ⟨write_open h1, rfl⟩
  · cases h; exact ⟨ho, rfl⟩

theorem addToIndex_open {B : Backend} {p : Profile} {e : Endian} {V : Variadic} {v v' : MultiVec B} {w w' : B.W}
    (ho : v.index.isOpen = true) (h : v.addToIndex p e V w = (.ok v', w')) : v'.index.isOpen = true ∧ v'.handle = v.handle := by
  unfold MultiVec.addToIndex at h
  obtain ⟨r, _, h1, h⟩ := Act.bind_eq_ok h
  obtain ⟨_, _, _, h⟩ := Act.bind_eq_ok h
  obtain ⟨_, _, _, h⟩ := Act.bind_eq_ok h
  obtain ⟨_, _, h2, h⟩ := Act.bind_eq_ok h
  cases h
  refine ⟨?_, rfl⟩
  obtain ⟨r1, r2⟩ := r
  have := grow_open ho h1
  exact this

theorem mgrow_open {B : Backend} {p : Profile} {e : Endian} {V : Variadic} {v v' : MultiVec B} {r : Except IoErr Unit} {w w' : B.W}
    (ho : v.index.isOpen = true ∧ v.handle.isOpen = true) (h : v.grow p e V w = (.ok (r, v'), w')) :
    v'.index.isOpen = true ∧ v'.handle.isOpen = true := by
  unfold MultiVec.grow at h
  obtain ⟨r1, w1, h1, h⟩ := Act.bind_eq_ok h
  unfold Act.attempt at h1
  split at h1
  · rename_i v1 w2 h2
    cases h1
    obtain ⟨a1, a2⟩ := mflushIfFull_open ho.2 h2
    change (Act.attempt (v1.addToIndex p e V) >>= _) w1 = _ at h
    obtain ⟨r2, w3, h3, h⟩ := Act.bind_eq_ok h
    unfold Act.attempt at h3
    split at h3
    · rename_i v2 w4 h4
      cases h3; cases h
      obtain ⟨b1, b2⟩ := addToIndex_open (by rw [a2]; exact ho.1) h4
      exact ⟨b1, by rw [b2]; exact a1⟩
    · cases h3; cases h
      exact ⟨by rw [a2]; exact ho.1, a1⟩
    · cases h3
    · cases h3
  · cases h1; cases h; exact ho
  · cases h1
  · cases h1

theorem createExternalVector_open {B : Backend} {p : Profile} {e : Endian} {o : B.Obj} {name schema : String} {v : ExtVec B} {w w' : B.W}
    (hc : createExternalVector p e o name schema w = (.ok v, w')) : v.isOpen = true := by
  unfold createExternalVector at hc
  obtain ⟨_, _, _, hc⟩ := Act.bind_eq_ok hc
  obtain ⟨_, _, _, hc⟩ := Act.bind_eq_ok hc
  obtain ⟨_, _, _, hc⟩ := Act.bind_eq_ok hc
  obtain ⟨_, _, h4, hc⟩ := Act.bind_eq_ok hc
  cases hc
  unfold Handle.tryNew at h4
  obtain ⟨_, _, _, h4⟩ := Act.bind_eq_ok h4
  cases h4; rfl

theorem createMultiVector_open {B : Backend} {p : Profile} {e : Endian} {o : B.Obj} {name schema : String} {v : MultiVec B} {w w' : B.W}
    (hc : createMultiVector p e o name schema w = (.ok v, w')) : v.index.isOpen = true ∧ v.handle.isOpen = true := by
  unfold createMultiVector at hc
  obtain ⟨iv, wi, hi, hc⟩ := Act.bind_eq_ok hc
  obtain ⟨r, wr, hr, hc⟩ := Act.bind_eq_ok hc
  cases r with
  | error x => obtain ⟨_, _, _, hc⟩ := Act.bind_eq_ok hc; cases hc
  | ok h =>
    cases hc
    refine ⟨createExternalVector_open hi, ?_⟩
    unfold Act.attempt at hr
    split at hr
    · rename_i hd
      cases hr
      unfold createDataHandle at hd
      obtain ⟨_, _, _, hd⟩ := Act.bind_eq_ok hd
      obtain ⟨_, _, _, hd⟩ := Act.bind_eq_ok hd
      obtain ⟨_, _, _, hd⟩ := Act.bind_eq_ok hd
      unfold Handle.tryNew at hd
      obtain ⟨_, _, _, hd⟩ := Act.bind_eq_ok hd
      cases hd; rfl
    · cases hr
    · cases hr
    · cases hr

/-- A multivector that has been created and not closed panics when dropped, whatever happened to it. -/
theorem C25_multivec_unclosed_panics (k : Kind) (p : Profile) (e : Endian) (V : Variadic) (o : k.backend.Obj) (name schema : String)
    (w0 w w1 : k.backend.W) (v v1 : MultiVec k.backend) (its : List (List Add))
    (hc : createMultiVector p e o name schema w0 = (.ok v, w)) (g : MGrows k p e V o name w v its w1 v1) :
    v1.index.isOpen = true ∧ v1.handle.isOpen = true ∧ (v1.drop : Act k.backend.W Empty Unit) w1 = (.panic, w1) := by
  have : v1.index.isOpen = true ∧ v1.handle.isOpen = true := by
    induction g with
    | start => exact createMultiVector_open hc
    | grow g h ih => exact mgrow_open ih h
    | add g hm h hw ih => exact ih
    | failed g h ih => exact mgrow_open ih h
    | other _ _ ih => exact ih
    | elsewhere _ _ _ _ ih => exact ih
  refine ⟨this.1, this.2, ?_⟩
  rw [C25_multivec_drop_exact, this.1]; rfl

/-- A multivector with three items, not closed. -/
example : ((do let v ← build (B := mem) Coappearances.VerticesData obj its
               v.drop : Act MemW IoErr Unit) mem0).1.isPanic = true := by decide +kernel

/-- If the handles of a multivector are closed (one made with `MultiVector::new`), closing it is an error without effect, and
so is growing it once a buffer is full; before, growing only buffers. -/
theorem C25_multivec_closed_errors_partial [DiffLib] (B : Backend) (p : Profile) (e : Endian) (V : Variadic) (v : MultiVec B) (w : B.W)
    (hl : 8 ≤ v.data.length) (ho : v.index.isOpen = false) (ho' : v.handle.isOpen = false) :
    (v.close p e V w).2 = w ∧ (∀ r, (v.close p e V w).1 ≠ .ok r) ∧
    (bufferLimit < v.data.length → v.grow p e V w = (.ok (.error .unexpectedEof, v), w)) ∧ (v.grow p e V w).2 = w := by
  have hs : v.handle.stream = none := by
    unfold Handle.isOpen at ho'
    cases h : v.handle.stream with
    | none => rfl
    | some s => rw [h] at ho'; cases ho'
  have hlift : ∀ {E α β : Type} (x : Out α) (f : α → Act B.W E β), (∀ a, (f a w).2 = w) → ((Act.lift x >>= f) w).2 = w := by
    intro E α β x f hf
    cases x with
    | ok a => exact hf a
    | panic => rfl
    | ub => rfl
  have hfl : ∀ (u : MultiVec B), u.handle = v.handle → 8 ≤ u.data.length → u.flush p w = (.err .unexpectedEof, w) := by
    intro u hu hl
    unfold MultiVec.flush
    have h1 : usub p u.data.length paddingSize = .ok (u.data.length - 8) := by
      unfold usub; rw [paddingSize_eq, if_pos hl]
    have h2 : sliceRange u.data 0 (u.data.length - 8) = .ok (u.data.take (u.data.length - 8)) := by
      unfold sliceRange; rw [if_pos (by omega)]; rfl
    rw [h1, Act.lift_bind, h2, Act.lift_bind]
    refine Act.bind_err ?_
    unfold Handle.write; rw [hu, hs]; rfl
  have hgw : (v.index.grow p V.indexSize w).2 = w := by
    by_cases h : bufferLimit < v.index.data.length
    · unfold ExtVec.grow ExtVec.flushIfFull
      rw [if_pos h]
      have hs' : v.index.handle.stream = none := by
        unfold ExtVec.isOpen Handle.isOpen at ho
        cases h : v.index.handle.stream with
        | none => rfl
        | some s => rw [h] at ho; cases ho
      have h8 : 8 ≤ v.index.data.length := by
        have : 8 ≤ bufferLimit := by decide
        omega
      have := (C25_closed_errors_partial B p e V.indexSize v.index w h8 ho).2.2.1
      rw [Act.bind_err this]
    · exact (grow_small (by omega)).1
  have hadd : (v.addToIndex p e V w).2 = w := by
    unfold MultiVec.addToIndex
    rw [Act.bind_def]
    cases hg : v.index.grow p V.indexSize w with
    | mk r w' =>
      rw [hg] at hgw
      change w' = w at hgw
      subst hgw
      cases r with
      | ok r =>
        apply hlift; intro n
        apply hlift; intro n
        apply hlift; intro d
        rfl
      | err x => rfl
      | panic => rfl
      | ub => rfl
  have hdrop : ∀ (u : MultiVec B), u.handle = v.handle → ((u.drop : Act B.W RErr Unit) w).2 = w := by
    intro u hu
    unfold MultiVec.drop ExtVec.drop Handle.drop
    split
    · rfl
    · split <;> rfl
  have hfail : ∀ (u : MultiVec B) (x : RErr), u.handle = v.handle →
      (((u.drop : Act B.W RErr Unit) >>= fun _ => (Act.fail x : Act B.W RErr (Slice B.Base × Slice B.Base))) w).2 = w ∧
      ∀ r, (((u.drop : Act B.W RErr Unit) >>= fun _ => (Act.fail x : Act B.W RErr (Slice B.Base × Slice B.Base))) w).1 ≠ .ok r := by
    intro u x hu
    have := hdrop u hu
    rw [Act.bind_def]
    cases hd : (u.drop : Act B.W RErr Unit) w with
    | mk r w' =>
      rw [hd] at this
      change w' = w at this
      subst this
      cases r <;> exact ⟨rfl, fun _ h => by cases h⟩
  have hclose : (v.close p e V w).2 = w ∧ ∀ r, (v.close p e V w).1 ≠ .ok r := by
    unfold MultiVec.close
    cases ha : v.addToIndex p e V w with
    | mk r w' =>
      have hw := hadd
      rw [ha] at hw
      change w' = w at hw
      subst hw
      cases r with
      | ok u =>
        rw [Act.bind_ok (Act.attempt_ok ha)]
        obtain ⟨a1, a2⟩ := addToIndex_length ha
        have hh : u.handle = v.handle := (Kind.addToIndex_obj ha).2
        change (u.closeFlush p e w').2 = w' ∧ ∀ r, (u.closeFlush p e w').1 ≠ .ok r
        unfold MultiVec.closeFlush
        rw [Act.bind_ok (Act.attempt_err (hfl u hh (by rw [a1]; exact hl)))]
        exact hfail u _ hh
      | err x =>
        rw [Act.bind_ok (Act.attempt_err ha)]
        exact hfail v _ rfl
      | panic =>
        rw [Act.bind_panic (by unfold Act.attempt; rw [ha])]
        exact ⟨rfl, fun _ h => by cases h⟩
      | ub =>
        have : (v.addToIndex p e V).attempt (E' := RErr) w' = (.ub, w') := by unfold Act.attempt; rw [ha]
        rw [Act.bind_def, this]
        exact ⟨rfl, fun _ h => by cases h⟩
  have hgrow : bufferLimit < v.data.length → v.grow p e V w = (.ok (.error .unexpectedEof, v), w) := by
    intro h
    unfold MultiVec.grow MultiVec.flushIfFull
    rw [if_pos h, Act.bind_ok (Act.attempt_err (hfl v rfl hl))]
    rfl
  refine ⟨hclose.1, hclose.2, hgrow, ?_⟩
  by_cases h : bufferLimit < v.data.length
  · rw [hgrow h]
  · unfold MultiVec.grow MultiVec.flushIfFull
    rw [if_neg h, Act.bind_ok (Act.attempt_ok (show (pure v : Act B.W IoErr (MultiVec B)) w = (.ok v, w) from rfl))]
    change ((Act.attempt (v.addToIndex p e V) >>= _) w).2 = w
    cases ha : v.addToIndex p e V w with
    | mk r w' =>
      have hw := hadd
      rw [ha] at hw
      change w' = w at hw
      subst hw
      cases r with
      | ok u => rw [Act.bind_ok (Act.attempt_ok ha)]; rfl
      | err x => rw [Act.bind_ok (Act.attempt_err ha)]; rfl
      | panic => rw [Act.bind_panic (by unfold Act.attempt; rw [ha])]
      | ub =>
        have : (v.addToIndex p e V).attempt (E' := Empty) w' = (.ub, w') := by unfold Act.attempt; rw [ha]
        rw [Act.bind_def, this]

/-- `MultiVector::new` on closed handles, empty. -/
example [DiffLib] (h : Handle mem) (hh : h.isOpen = false) (w : MemW) :
    ∀ r, ((MultiVec.new (ExtVec.new h) h).close .debug .little Coappearances.VerticesData w).1 ≠ .ok r :=
  (C25_multivec_closed_errors_partial mem .debug .little Coappearances.VerticesData (MultiVec.new (ExtVec.new h) h) w (by change 8 ≤ 8; decide) hh hh).2.1

/-! ## C36: reading what is being written -/

theorem reads_unwritten [DiffLib] {B : Backend} {L : Laws B} {o : B.Obj} {name schema : String} {w w2 : B.W} {h : Handle B} {pre : Bytes}
    {p : Profile} {e : Endian} {schema' : String} {r : Res RErr (Slice B.Base)} (i : Writing L o name schema w h pre pre) (u : Unseen L o name w)
    (hne : L.loc o (Storage.schemaName name) ≠ L.loc o name) (fl : pre = [] ∨ bufferLimit < pre.length + 8)
    (hr : Storage.read B p e o name schema' w = (r, w2)) : ∃ x, r = .err x := by
  obtain ⟨st, _, a⟩ := i.stream
  obtain ⟨r', w', h1, _, _, h2⟩ := read_cases p e (expected := schema') hne u.data u.schema (by
    intro d hd
    rw [a.medium] at hd; cases hd
    rw [take8_le64, le64_zero, leNat_zeros]; decide)
  rw [hr] at h1; cases h1
  rcases h2 with h2 | ⟨s, d, x, _, hd, _, hx, _⟩
  · exact h2
  · exfalso
    rw [a.medium] at hd; cases hd
    have h3 := hx.size
    rw [take8_le64, le64_zero, leNat_zeros] at h3
    have h4 := hx.length
    rw [List.length_append, length_le64, ← h3] at h4
    rcases fl with rfl | fl
    · simp at h4
    · have : bufferLimit = 33554432 := by decide
      omega

/-- C36, first half, for multivectors: reading the data or the index of a multivector that is being written fails. -/
theorem C36_multivec_read_fails_partial [DiffLib] (k : Kind) (p p' : Profile) (e e' : Endian) (V : Variadic) (ok : IndexOK V)
    (w0 w w1 w2 : k.backend.W) (o : k.backend.Obj) (name n schema schema' : String) (v v1 : MultiVec k.backend) (its : List (List Add))
    (r : Res RErr (Slice k.backend.Base)) (hu : k.MUnused w0 o name) (hn : k.noFault w0)
    (hc : createMultiVector p e o name schema w0 = (.ok v, w)) (g : MGrows k p e V o name w v its w1 v1)
    (hbI : (its.length + 1) * V.indexSize + 8 < 2 ^ 63) (hb : dataSize its + 8 < 2 ^ 63)
    (hnm : n = name ∨ n = name ++ "_index")
    (hr : Storage.read k.backend p' e' o n schema' w1 = (r, w2)) : ∃ x, r = .err x := by
  obtain ⟨i, u, nf⟩ := mcreated_inv V hu hc
  obtain ⟨preI, bufI, cI, pre, body, c, xss, s⟩ := mgrows_inv ok i u g hbI hb
  obtain ⟨_, h1, h2⟩ := s.fine (nf hn)
  have ap := k.apart o name
  rcases hnm with rfl | rfl
  · have := s.inv.data
    rw [h2] at this
    exact reads_unwritten this s.unseen.data ap.data s.flushed hr
  · have := s.inv.index.writing
    rw [h1] at this
    refine reads_unwritten this s.unseen.index ap.index ?_ hr
    rcases s.flushedI with h | h
    · left; rw [h]; rfl
    · exact .inr h

/-- Second half: a read through another storage object has no effect on the multivector. Such a read is one of the things that may
happen between the calls in all theorems about multivectors. -/
theorem C36_multivec_other_object_partial [DiffLib] (k : Kind) (p p' : Profile) (e e' : Endian) (V : Variadic) (w w1 w2 : k.backend.W)
    (o o' : k.backend.Obj) (name n schema' : String) (v v1 : MultiVec k.backend) (its : List (List Add))
    (r : Res RErr (Slice k.backend.Base)) (g : MGrows k p e V o name w v its w1 v1) (ho : k.alive w1 o') (hi : k.ident o' ≠ k.ident o)
    (hr : Storage.read k.backend p' e' o' n schema' w1 = (r, w2)) : MGrows k p e V o name w v its w2 v1 := by
  have := pres_storageRead (p := p') (e := e') (o := o') (name := n) (expected := schema')
    (P := fun w2 => MGrows k p e V o name w v its w2 v1 ∧ k.alive w2 o')
    (fun m w h => ⟨.elsewhere h.1 h.2 hi rfl, (Kind.Step.read (n := m) h.2 rfl).alive h.2⟩) w1 ⟨g, ho⟩
  rw [hr] at this; exact this.1

/-- The three items of the example, on disk; then the index is read. -/
example [DiffLib] : ∃ v1 w1 x w2, build (B := file) Coappearances.VerticesData objD its (disk0 []) = (.ok v1, w1) ∧
    Storage.read file .debug .little objD "x_index" "index(s)" w1 = (.err x, w2) := by
  have hb : (build (B := file) Coappearances.VerticesData objD its (disk0 [])).1.isOk = true := by decide +kernel
  obtain ⟨v1, w1, hb⟩ := isOk_run hb
  obtain ⟨v, w, hc, g⟩ := build_mgrows (k := .disk) its_variants hb
  cases hr : Storage.read file .debug .little objD "x_index" "index(s)" w1 with
  | mk r w2 =>
    obtain ⟨x, rfl⟩ := C36_multivec_read_fails_partial .disk .debug .debug .little .little Coappearances.VerticesData MultiExample.ok.index
      _ _ _ _ objD "x" "x_index" "s" "index(s)" v v1 its r (munused_disk0 ..) (disk0_noFault _) hc g (by decide) (by decide) (.inr rfl) hr
    exact ⟨v1, w1, x, w2, hb, hr⟩

/-- The same through another storage object: the vector is still the same. -/
example [DiffLib] (v v1 : MultiVec mem) (w w1 : MemW) (g : MGrows .memory .debug .little Coappearances.VerticesData obj "x" w v its w1 v1)
    (o' : mem.Obj) (h : Kind.alive .memory w1 o') (hi : Kind.ident .memory o' ≠ Kind.ident .memory obj) :
    MGrows .memory .debug .little Coappearances.VerticesData obj "x" w v its (Storage.read mem .debug .little o' "x" "s" w1).2 v1 :=
  C36_multivec_other_object_partial .memory .debug .debug .little .little Coappearances.VerticesData w w1 _ obj o' "x" "x" "s" v v1 its
    _ g h hi rfl

/-! ## C37: multivectors and other resources -/

theorem index_ne_schema (m n : String) : m ++ "_index" ≠ n ++ ".schema" := by
  intro h
  have := congrArg (fun s => s.toList.getLast?) h
  simp [String.toList_append] at this

/-- Creating, growing and closing a multivector `m` does not affect what is read from the resource `n`. -/
theorem C37_multivec_ops [DiffLib] (k : Kind) (p : Profile) (e : Endian) (V : Variadic) (ok : IndexOK V)
    (w0 w w1 : k.backend.W) (o : k.backend.Obj) (n m schema schema' : String) (v v1 : MultiVec k.backend) (its : List (List Add))
    (hr : k.Reachable w0) (ha : k.alive w0 o) (hu : k.MUnused w0 o m) (hf : k.noFault w0)
    (hc : createMultiVector p e o m schema' w0 = (.ok v, w)) (g : MGrows k p e V o m w v its w1 v1)
    (hbI : (its.length + 1) * V.indexSize + 8 < 2 ^ 63) (hb : dataSize its + 8 < 2 ^ 63)
    (hn : PlainName n) (hm : PlainName m) (h : n ≠ m) (h1 : n ≠ m ++ ".schema") (h2 : m ≠ n ++ ".schema")
    (h3 : n ≠ m ++ "_index") (h4 : n ≠ m ++ "_index.schema") :
    SameRead k.backend n (Storage.read k.backend p e o n schema w0) (Storage.read k.backend p e o n schema w) ∧
    SameRead k.backend n (Storage.read k.backend p e o n schema w1)
      (Storage.read k.backend p e o n schema (v1.grow p e V w1).2) ∧
    SameRead k.backend n (Storage.read k.backend p e o n schema w1)
      (Storage.read k.backend p e o n schema (v1.close p e V w1).2) := by
  have sx : Suffix ".schema".toList := by constructor <;> decide
  have sy : Suffix "_index".toList := by constructor <;> decide
  have hne := k.loc_schema_ne o n
  have ap := k.apart o m
  have hi : PlainName (Storage.indexName m) := hm.append sy
  have off1 : ¬ MOwnLoc k.laws o m (k.laws.loc o n) := by
    rintro ((he | he) | (he | he))
    · exact k.loc_plain_ne o hn hm h he
    · exact k.loc_plain_ne o hn (hm.append sx) h1 he
    · exact k.loc_plain_ne o hn hi h3 he
    · refine k.loc_plain_ne o hn (hi.append sx) (fun hx => h4 ?_) he
      rw [hx]; unfold Storage.indexName; rw [String.append_assoc]; rfl
  have off2 : ¬ MOwnLoc k.laws o m (k.laws.loc o (Storage.schemaName n)) := by
    rintro ((he | he) | (he | he))
    · exact k.loc_plain_ne o (hn.append sx) hm (Ne.symm h2) he
    · exact k.loc_plain_ne o (hn.append sx) (hm.append sx) (fun hx => h ((String.append_left_inj _).mp hx)) he
    · exact k.loc_plain_ne o (hn.append sx) hi (Ne.symm (index_ne_schema m n)) he
    · exact k.loc_plain_ne o (hn.append sx) (hi.append sx) (fun hx => h3 ((String.append_left_inj _).mp hx)) he
  have same : ∀ {a b : k.backend.W}, k.Reachable a → Kind.Steps k a b → k.noFault a → Off k.laws a b (MOwnLoc k.laws o m) →
      SameRead k.backend n (Storage.read k.backend p e o n schema a) (Storage.read k.backend p e o n schema b) := by
    intro a b ra st na ho
    refine read_same p e hne ra.inv (ra.steps st).inv ((k.noFault_iff _).mp na) (ho.noFault ((k.noFault_iff _).mp na))
      (ho.keeps _ off1).same (ho.keeps _ off2).same
  obtain ⟨i, u, nf0⟩ := mcreated_inv V hu hc
  obtain ⟨preI, bufI, cI, pre, body, c, xss, s⟩ := mgrows_inv ok i u g hbI hb
  obtain ⟨l1, l2⟩ := s.length
  have s1 : Kind.Steps k w0 w := Kind.steps_of (fun _ => Kind.pres_createMultiVector) ha hc
  have s2 : Kind.Steps k w w1 := g.steps (s1.alive ha)
  have r1 := (hr.steps s1).steps s2
  have n1 := (s.fine (nf0 hf)).1
  have a1 := s2.alive (s1.alive ha)
  refine ⟨?_, ?_, ?_⟩
  · obtain ⟨f1, f2, _⟩ := hu.data.fresh
    obtain ⟨f3, f4, _⟩ := hu.index.fresh
    rcases createMultiVector_spec (L := k.laws) p e o m schema' V w0 ap f1 f2 f3 f4 with
      ⟨v', w', h5, _, o1⟩ | ⟨_, _, h5, _⟩ | ⟨_, h5, _⟩
    · rw [hc] at h5; cases h5
      exact same hr s1 hf (o1.off fun _ h => h)
    · rw [hc] at h5; cases h5
    · rw [hc] at h5; cases h5
  · have st : Kind.Steps k w1 (v1.grow p e V w1).2 := Kind.steps_of (fun _ => Kind.pres_mgrow) a1 rfl
    rcases s.inv.grow ap p e ok (by omega) (by rw [l2]; exact hbI) with
      ⟨_, w', _, _, _, _, _, _, _, h5, _, _, _, _, _, _, _, _, o3⟩ | ⟨_, _, w', _, _, _, _, h5, _, _, _, o3, _⟩
    · rw [h5] at st ⊢; exact same r1 st n1 (o3.off fun _ h => h)
    · rw [h5] at st ⊢; exact same r1 st n1 (o3.off fun _ h => h)
  · have st : Kind.Steps k w1 (v1.close p e V w1).2 :=
      Kind.steps_of (fun _ => Kind.pres_mclose s.inv.index.writing.obj s.inv.data.obj) a1 rfl
    obtain ⟨_, r, w', _, h5, _, o3⟩ := s.inv.close ap p e ok s.unseen.data s.unseen.index (by omega) (by rw [l2]; exact hbI)
    rw [h5] at st ⊢; exact same r1 st n1 o3.off

/-- A multivector `x` beside a resource `y`. -/
example [DiffLib] : ∃ w1 v1, build (B := file) Coappearances.VerticesData objD its (disk0 [([['d'], ['y']], image [7#8])]) = (.ok v1, w1) ∧
    SameRead file "y" (Storage.read file .debug .little objD "y" "s" w1)
      (Storage.read file .debug .little objD "y" "s" (v1.close .debug .little Coappearances.VerticesData w1).2) := by
  have hb : (build (B := file) Coappearances.VerticesData objD its (disk0 [([['d'], ['y']], image [7#8])])).1.isOk = true := by
    decide +kernel
  obtain ⟨v1, w1, hb⟩ := isOk_run hb
  obtain ⟨v, w, hc, g⟩ := build_mgrows (k := .disk) its_variants hb
  exact ⟨w1, v1, hb, (C37_multivec_ops .disk .debug .little Coappearances.VerticesData MultiExample.ok.index _ w w1 objD "y" "x" "s" "s" v v1
    its (disk0_reachable _ _) (by change 0 < 1; decide) (munused_disk0 ..) (disk0_noFault _) hc g (by decide) (by decide) (by decide)
    (by decide) (by decide) (by decide) (by decide) (by decide) (by decide)).2.2⟩

/-! ## C06: fresh elements -/

/-- After any history, `add_…` of the item builder hands out zeroed memory and does not disturb the buffered items. -/
theorem C06_multivec_add (k : Kind) (p : Profile) (e : Endian) (V : Variadic) (ok : IndexOK V) (w0 w w1 : k.backend.W)
    (o : k.backend.Obj) (name schema : String) (v v1 : MultiVec k.backend) (its : List (List Add)) (t : BitVec 8) (size : Nat)
    (hu : k.MUnused w0 o name) (hc : createMultiVector p e o name schema w0 = (.ok v, w)) (g : MGrows k p e V o name w v its w1 v1)
    (hbI : (its.length + 1) * V.indexSize + 8 < 2 ^ 63) (hb : dataSize its + 1 + size + 8 < 2 ^ 63) :
    ∃ d pos, MultiVec.builderAdd p t size v1.data = .ok (d, pos) ∧ (d.drop pos).take size = zeros size ∧
      ∃ xss, AllContents p e its xss ∧ ∃ body, body <:+ encodeItems xss ∧ d.take pos = body ++ [t] := by
  obtain ⟨i, u, _⟩ := mcreated_inv V hu hc
  obtain ⟨preI, bufI, cI, pre, body, c, xss, s⟩ := mgrows_inv ok i u g hbI (by omega)
  obtain ⟨l1, _⟩ := s.length
  refine ⟨_, _, s.inv.builderAdd p t size (by omega), ?_, xss, s.contents, body, ⟨pre, s.data⟩, ?_⟩
  · rw [show body ++ t :: (zeros size ++ zeros 8) = (body ++ [t]) ++ (zeros size ++ zeros 8) by simp,
      List.drop_left' (by simp), List.take_left' (by simp [zeros])]
  · rw [show body ++ t :: (zeros size ++ zeros 8) = (body ++ [t]) ++ (zeros size ++ zeros 8) by simp, List.take_left' (by simp)]

/-- Non-vacuity: a further element of the third item, on disk. -/
example : ∃ v w v1 w1, createMultiVector (B := file) .debug .little objD "x" "s" (disk0 []) = (.ok v, w) ∧
    MGrows .disk .debug .little Coappearances.VerticesData objD "x" w v its w1 v1 ∧
    ∃ d pos, MultiVec.builderAdd .debug 1#8 4 v1.data = .ok (d, pos) ∧ (d.drop pos).take 4 = zeros 4 := by
  obtain ⟨v, w, v1, w1, hc, g⟩ := MvExample.run_disk
  obtain ⟨d, pos, h1, h2, _⟩ := C06_multivec_add .disk .debug .little Coappearances.VerticesData MultiExample.ok.index (disk0 []) w w1 objD "x" "s"
    v v1 its 1#8 4 (munused_disk0 ..) hc g (by decide) (by decide)
  exact ⟨v, w, v1, w1, hc, g, d, pos, h1, h2⟩

/-- C06 for multivectors: every field of a freshly added element reads as zero. -/
theorem C06_multivec_fields_partial (k : Kind) (p : Profile) (e : Endian) (V : Variadic) (ok : IndexOK V) (w0 w w1 : k.backend.W)
    (o : k.backend.Obj) (name schema : String) (v v1 : MultiVec k.backend) (its : List (List Add)) (t : BitVec 8) (S : StructDef) (wf : WF S)
    (hu : k.MUnused w0 o name) (hc : createMultiVector p e o name schema w0 = (.ok v, w)) (g : MGrows k p e V o name w v its w1 v1)
    (hbI : (its.length + 1) * V.indexSize + 8 < 2 ^ 63) (hb : dataSize its + 1 + S.size + 8 < 2 ^ 63)
    (d : Bytes) (pos : Nat) (hd : MultiVec.builderAdd p t S.size v1.data = .ok (d, pos))
    (f : Field) (hf : f ∈ S.fields) (hns : NoStraddle f.off f.bits) (hz : ZeroOK f) : f.get p e (d.drop pos) = .ok 0 := by
  obtain ⟨d', pos', h1, h, _⟩ := C06_multivec_add k p e V ok w0 w w1 o name schema v v1 its t S.size hu hc g hbI hb
  rw [hd] at h1; cases h1
  refine C06_zero_reads p e S.size f (wf.field f hf) hns hz _ ?_ h
  have := congrArg List.length h
  rw [List.length_take] at this
  simp only [zeros, List.length_replicate] at this
  omega

/-- A further element after the three items of the example. -/
example : ((do let v ← build (B := mem) Coappearances.VerticesData obj its
               let r ← Act.lift (MultiVec.builderAdd .debug 1#8 4 v.data)
               pure ((r.1.drop r.2).take 4, r.2) : Act MemW IoErr _) mem0).1 = .ok (zeros 4, 18) := by decide +kernel

end Flatdata
