import Verif.Props.MvCrashExact
import Verif.Proofs.WriteCalls
import Verif.Props.Errors
/-!
# Which of the calls of `close` decide how it ends
-/
namespace Flatdata
open Spec CrashExact MvCrashExact

/-- None of the next `n` system calls fails. -/
def AllWell (n : Nat) (w : FileW) : Prop := ∀ i, i < n → w.fs.fault (w.fs.tick + i) = none

/-- `n` system calls later. -/
def CallsLater (n : Nat) (w w' : FileW) : Prop := w'.fs.tick = w.fs.tick + n ∧ w'.fs.fault = w.fs.fault

theorem CallsLater.calm {m : Nat} {w w' : FileW} (h : CallsLater m w w') (n : Nat) : AllWell (m + n) w ↔ AllWell m w ∧ AllWell n w' := by
  obtain ⟨h1, h2⟩ := h
  unfold AllWell
  rw [h1, h2]
  constructor
  · exact fun h => ⟨fun i hi => h i (by omega), fun i hi => by rw [Nat.add_assoc]; exact h _ (by omega)⟩
  · rintro ⟨h1, h2⟩ i hi
    by_cases hm : i < m
    · exact h1 i hm
    · have := h2 (i - m) (by omega)
      rwa [show w.fs.tick + m + (i - m) = w.fs.tick + i from by omega] at this

theorem CallsLater.trans {m n : Nat} {a b c : FileW} (h : CallsLater m a b) (k : CallsLater n b c) : CallsLater (m + n) a c :=
  ⟨by rw [k.1, h.1]; omega, k.2.trans h.2⟩

theorem AllWell.mono {m n : Nat} {w : FileW} (h : AllWell n w) (hm : m ≤ n) : AllWell m w := fun i hi => h i (by omega)

/-- Code of `n` system calls that fails if and only if one of them does. -/
def Takes {E α : Type} (n : Nat) (x : Act FileW E α) : Prop := ∀ w,
  (¬ AllWell n w ∧ ∃ y w', x w = (.err y, w')) ∨ (AllWell n w ∧ ∃ a w', x w = (.ok a, w') ∧ CallsLater n w w')

namespace Takes
variable {E α β : Type} {m n : Nat}

theorem bind {x : Act FileW E α} {f : α → Act FileW E β} (hx : Takes m x) (hf : ∀ a, Takes n (f a)) : Takes (m + n) (x >>= f) := by
  intro w
  rcases hx w with ⟨h1, y, w', h2⟩ | ⟨h1, a, w', h2, h3⟩
  · exact .inl ⟨fun h => h1 (h.mono (by omega)), y, w', Act.bind_err h2⟩
  · rw [h3.calm, Act.bind_ok h2]
    rcases hf a w' with ⟨k1, y, w2, k2⟩ | ⟨k1, b, w2, k2, k3⟩
    · exact .inl ⟨fun h => k1 h.2, y, w2, k2⟩
    · exact .inr ⟨⟨h1, k1⟩, b, w2, k2, h3.trans k3⟩

theorem ok (a : α) : Takes 0 (Act.lift (.ok a) : Act FileW E α) := fun w =>
  .inr ⟨fun _ h => absurd h (by omega), a, w, rfl, rfl, rfl⟩

theorem syscall {normal : FS → Res IoErr α × FS} {faulty : Nat → FS → FS} (h : ∀ fs, ∃ a, (normal fs).1 = .ok a)
    (t1 : ∀ fs, (normal fs).2.tick = fs.tick ∧ (normal fs).2.fault = fs.fault) : Takes 1 (FileSt.syscall normal faulty) := by
  intro w
  have hc : AllWell 1 w ↔ w.fs.fault w.fs.tick = none :=
    ⟨fun h => h 0 (by omega), fun h i hi => by rw [show i = 0 from by omega]; exact h⟩
  rw [hc]
  unfold FileSt.syscall
  cases hf : w.fs.fault w.fs.tick with
  | none =>
    obtain ⟨a, ha⟩ := h { w.fs with tick := w.fs.tick + 1 }
    exact .inr ⟨rfl, a, { w with fs := (normal { w.fs with tick := w.fs.tick + 1 }).2 }, by dsimp only; rw [ha],
      (t1 _).1, (t1 _).2⟩
  | some k => exact .inl ⟨by simp, _, _, rfl⟩

theorem writeAll (s : Nat) (b : Bytes) : Takes 1 (FileSt.writeAll s b) := by
  unfold FileSt.writeAll
  exact syscall (fun _ => ⟨_, rfl⟩) fun _ => ⟨rfl, rfl⟩

theorem seekStart (s : Nat) : Takes 1 (FileSt.seekStart s) := by
  unfold FileSt.seekStart
  exact syscall (fun _ => ⟨_, rfl⟩) fun _ => ⟨rfl, rfl⟩

theorem finish (p : Profile) (e : Endian) (h : Handle file) (s : Nat) (hb : h.size < 2 ^ 63) : Takes 3 (h.finish p e s) := by
  unfold Handle.finish
  refine (writeAll s _).bind (n := 2) fun _ => (seekStart s).bind (n := 1) fun _ => ?_
  unfold Storage.writeSize
  obtain ⟨b, hb⟩ : ∃ b, writeBytes p e false h.size (List.replicate 8 0#8) 0 64 = .ok b := ⟨_, writeBytes_header p e (by omega)⟩
  rw [hb]
  exact (ok (E := IoErr) b).bind (m := 0) (n := 1) fun b => writeAll s b

end Takes

/-- Reading a resource for the first time. -/
theorem readResource_calls {o : Obj} {n : String} {w w' : FileW} {s : Slice Key} (hm : w.maps o.id (join o.path n) = none)
    (h : FileSt.readResource o n w = (.ok s, w')) :
    AllWell 3 w ∧ CallsLater 3 w w' ∧ ∀ q, q ≠ join o.path n → w'.maps o.id q = w.maps o.id q := by
  unfold FileSt.readResource at h
  obtain ⟨x, w1, h1, h⟩ := Act.bind_eq_ok h
  cases x with
  | false => cases h
  | true =>
    have c1 : AllWell 1 w ∧ CallsLater 1 w w1 ∧ w1.maps = w.maps := by
      unfold Act.mapErr FileSt.pathExists FileSt.syscall at h1
      dsimp only at h1
      cases hf : w.fs.fault w.fs.tick with
      | none =>
        rw [hf] at h1
        dsimp only at h1
        obtain ⟨_, rfl⟩ := Prod.mk.inj h1
        exact ⟨fun i hi => by rw [show i = 0 from by omega]; exact hf, ⟨rfl, rfl⟩, rfl⟩
      | some k => rw [hf] at h1; cases h1
    obtain ⟨c1, l1, e1⟩ := c1
    change FileSt.mapRead o (join o.path n) w1 = _ at h
    unfold FileSt.mapRead at h
    rw [e1, hm] at h
    change (FileSt.fileOpen (join o.path n) >>= _) w1 = _ at h
    obtain ⟨k, w2, h2, h⟩ := Act.bind_eq_ok h
    obtain ⟨m, w3, h3, h⟩ := Act.bind_eq_ok h
    have c2 : AllWell 1 w1 ∧ CallsLater 1 w1 w2 ∧ w2.maps = w1.maps := by
      unfold FileSt.fileOpen FileSt.syscall at h2
      dsimp only at h2
      cases hf : w1.fs.fault w1.fs.tick with
      | none =>
        rw [hf] at h2
        dsimp only at h2
        split at h2
        · cases h2
          exact ⟨fun i hi => by rw [show i = 0 from by omega]; exact hf, ⟨rfl, rfl⟩, rfl⟩
        · cases h2
      | some k => rw [hf] at h2; cases h2
    have c3 : AllWell 1 w2 ∧ CallsLater 1 w2 w3 ∧ w3.maps = w2.maps := by
      unfold FileSt.mmapLen FileSt.syscall at h3
      dsimp only at h3
      cases hf : w2.fs.fault w2.fs.tick with
      | none =>
        rw [hf] at h3
        dsimp only at h3
        split at h3
        · cases h3
        · split at h3
          · cases h3
          · cases h3
            exact ⟨fun i hi => by rw [show i = 0 from by omega]; exact hf, ⟨rfl, rfl⟩, rfl⟩
      | some k => rw [hf] at h3; cases h3
    obtain ⟨c2, l2, e2⟩ := c2
    obtain ⟨c3, l3, e3⟩ := c3
    cases h
    refine ⟨((l1.trans l2).calm 1).mpr ⟨(l1.calm 1).mpr ⟨c1, c2⟩, c3⟩, (l1.trans l2).trans l3, fun q hq => ?_⟩
    change upd w3.maps o.id (upd (w3.maps o.id) _ _) o.id q = _
    rw [upd_same, upd_other _ _ hq, e3, e2, e1]

theorem unseen_maps {o : Obj} {name : String} {w : FileW} (hu : Unseen fileLaws o name w) :
    w.maps o.id (join o.path name) = none ∧ w.maps o.id (join o.path (Storage.schemaName name)) = none :=
  ⟨Option.map_eq_none_iff.mp hu.data, Option.map_eq_none_iff.mp hu.schema⟩

theorem storageRead_calls [DiffLib] {p : Profile} {e : Endian} {o : Obj} {name schema : String} {w w' : FileW} {s : Slice Key}
    (hu : Unseen fileLaws o name w) (h : Storage.read file p e o name schema w = (.ok s, w')) : AllWell 6 w ∧ CallsLater 6 w w' := by
  obtain ⟨m1, m2⟩ := unseen_maps hu
  unfold Storage.read at h
  obtain ⟨d, w1, h1, h⟩ := Act.bind_eq_ok h
  obtain ⟨t, w2, h2, h⟩ := Act.bind_eq_ok h
  have hne : join o.path (Storage.schemaName name) ≠ join o.path name := fun hx => Kind.loc_schema_ne .disk o name (congrArg key hx)
  obtain ⟨c1, l1, e1⟩ := readResource_calls m1 (mapErr_eq_ok h1)
  obtain ⟨c2, l2, _⟩ := readResource_calls ((e1 _ hne).trans m2) (mapErr_eq_ok h2)
  have := (checkResource_same (B := file) p e name schema (w := w2) (w' := w2) (sd := d) (ss := t) rfl rfl).2.1
  rw [h] at this
  cases this
  exact ⟨(l1.calm 3).mpr ⟨c1, c2⟩, l1.trans l2⟩

/-- The same world in which nothing fails any more. -/
def spared (w : FileW) : FileW := faring w fun _ => none

theorem spared_noFault (w : FileW) : fileLaws.noFault (spared w) := fun _ _ => rfl

/-- Without failures among the calls it makes, code does what it does if nothing fails. -/
theorem Timely.calm {E α : Type} {x : Act FileW E α} {n : Nat} (ht : Timely x) (hc : Costs n x) {w : FileW} (h : AllWell n w) :
    (x w).1 = (x (spared w)).1 := by
  have := ht.same (spared w) w.fs.fault fun t h1 h2 => by
    have hx := hc (spared w)
    have h1' : w.fs.tick ≤ t := h1
    have hx' : (x (spared w)).2.fs.tick ≤ w.fs.tick + n := hx
    have := h (t - w.fs.tick) (by omega)
    rwa [show w.fs.tick + (t - w.fs.tick) = t from by omega] at this
  have e : faring (spared w) w.fs.fault = w := rfl
  rw [e] at this
  rw [this]

theorem faring_writing {o : Obj} {name schema : String} {w : FileW} {h : Handle file} {pre c : Bytes}
    (i : Writing fileLaws o name schema w h pre c) (f : Nat → Option Nat) : Writing fileLaws o name schema (faring w f) h pre c := by
  obtain ⟨s, hs, a⟩ := i.stream
  exact ⟨i.obj, i.nameEq, i.schemaEq, i.size, ⟨s, hs, a.live, a.sloc, a.medium, a.pos⟩, i.le, i.clean, i.schemaStored⟩

theorem faring_unseen {o : Obj} {name : String} {w : FileW} (hu : Unseen fileLaws o name w) (f : Nat → Option Nat) :
    Unseen fileLaws o name (faring w f) := ⟨hu.data, hu.schema⟩

/-- How closing a handle ends. -/
theorem Writing.close_calls [DiffLib] {o : Obj} {name schema : String} {w : FileW} {h : Handle file} {pre : Bytes}
    (i : Writing fileLaws o name schema w h pre pre) (hu : Unseen fileLaws o name w) (hs : schema ≠ "") (p : Profile) (e : Endian)
    (hb : pre.length < 2 ^ 63) :
    (¬ AllWell 3 w ∧ ∃ x w', h.close p e w = (.ok (.error x, h), w')) ∨
    (AllWell 3 w ∧ ¬ AllWell 9 w ∧ ∃ x w', h.close p e w = (.ok (.error x, { h with stream := none }), w')) ∨
    (AllWell 9 w ∧ ∃ s w', h.close p e w = (.ok (.ok s, { h with stream := none }), w') ∧ CallsLater 9 w w') := by
  have hne := Kind.loc_schema_ne .disk o name
  have calm : AllWell 9 w → ∃ s, (h.close p e w).1 = .ok (.ok s, { h with stream := none }) := by
    intro hc
    rw [(Timely.handleClose p e h).calm (Costs.handleClose p e h) hc]
    obtain ⟨r, w', h1, cl, _⟩ := (faring_writing i fun _ => none).close (faring_unseen hu _) hne p e hb
    change h.close p e (spared w) = _ at h1
    rw [h1]
    cases cl with
    | failed x nf => exact absurd (spared_noFault w) nf
    | unread x hm nf => exact absurd (spared_noFault w) (nf rfl (fileLaws.readable_of_ne _ fun h => hs (strBytes_eq_nil.mp h)))
    | ok s => exact ⟨s, rfl⟩
  obtain ⟨s, hst, _⟩ := i.stream
  obtain ⟨r, w', hcl, _⟩ := i.close hu hne p e hb
  have hh : h.close p e = (do
      let r ← Act.attempt (h.finish p e s)
      match r with
      | .error x => pure (.error (.io x h.name), h)
      | .ok () => do
        let r ← Act.attempt (Storage.read file p e h.obj h.name h.schema)
        pure (r, { h with stream := none }) : Act FileW Empty _) := by
    unfold Handle.close; rw [hst]; rfl
  rcases Takes.finish p e h s (by rw [i.size]; exact hb) w with ⟨c1, y, w1, h1⟩ | ⟨c1, a, w1, h1, l1⟩
  · exact .inl ⟨c1, .io y h.name, w1, by rw [hh, Act.bind_ok (Act.attempt_err h1)]; rfl⟩
  · right
    have hu1 : Unseen fileLaws o name w1 := by
      rcases i.finish p e hb hst with ⟨w1', h1', o1, _⟩ | ⟨_, _, _, h1', _⟩
      · rw [h1] at h1'; cases h1'; exact hu.only o1
      · rw [h1] at h1'; cases h1'
    cases hr : Storage.read file p e h.obj h.name h.schema w1 with
    | mk r w2 =>
      have hc : h.close p e w = ((Act.attempt (Storage.read file p e h.obj h.name h.schema) : Act FileW Empty _) >>=
          fun r => pure (r, { h with stream := none })) w1 := by
        rw [hh, Act.bind_ok (Act.attempt_ok h1)]
      cases r with
      | ok s' =>
        rw [Act.bind_ok (Act.attempt_ok hr)] at hc
        rw [i.obj, i.nameEq] at hr
        obtain ⟨c2, l2⟩ := storageRead_calls hu1 hr
        exact .inr ⟨(l1.calm 6).mpr ⟨c1, c2⟩, s', w2, hc, l1.trans l2⟩
      | err x =>
        rw [Act.bind_ok (Act.attempt_err hr)] at hc
        refine .inl ⟨c1, fun c => ?_, x, w2, hc⟩
        obtain ⟨s', hs'⟩ := calm c
        rw [hc] at hs'; cases hs'
      | panic =>
        rw [Act.bind_panic (by unfold Act.attempt; rw [hr])] at hc
        rw [hcl] at hc; cases hc
      | ub =>
        rw [Act.bind_def] at hc
        unfold Act.attempt at hc
        rw [hr] at hc
        rw [hcl] at hc; cases hc

theorem handleWrite_calls {p : Profile} {h : Handle file} {b : Bytes} {w : FileW} (ho : h.isOpen = true) :
    (∀ x w', h.write p b w = (.err x, w') → ¬ AllWell 1 w) ∧ (∀ h' w', h.write p b w = (.ok h', w') → AllWell 1 w ∧ CallsLater 1 w w') := by
  unfold Handle.write
  unfold Handle.isOpen at ho
  cases hs : h.stream with
  | none => rw [hs] at ho; cases ho
  | some s =>
    dsimp only
    rcases Takes.writeAll s b w with ⟨c1, y, w1, h1⟩ | ⟨c1, a, w1, h1, l1⟩
    · rw [Act.bind_err h1]
      exact ⟨fun _ _ _ => c1, fun _ _ h => by cases h⟩
    · rw [Act.bind_ok h1]
      cases hu : uadd p h.size b.length with
      | ok n => exact ⟨fun _ _ h => (by cases h), fun _ _ h => by cases h; exact ⟨c1, l1⟩⟩
      | panic => exact ⟨fun _ _ h => (by cases h), fun _ _ h => by cases h⟩
      | ub => exact ⟨fun _ _ h => (by cases h), fun _ _ h => by cases h⟩

theorem Act.lift_bind_cases {W E α β : Type} {x : Out α} {f : α → Act W E β} {w w' : W} {r} (h : (Act.lift x >>= f) w = (r, w'))
    (hr : r ≠ .panic) (hr' : r ≠ .ub) : ∃ a, x = .ok a ∧ f a w = (r, w') := by
  cases x with
  | ok a => exact ⟨a, rfl, h⟩
  | panic => cases h; exact absurd rfl hr
  | ub => cases h; exact absurd rfl hr'

theorem vecFlush_calls {p : Profile} {v : ExtVec file} {w : FileW} (ho : v.handle.isOpen = true) :
    (∀ x w', v.flush p w = (.err x, w') → ¬ AllWell 1 w) ∧ (∀ v' w', v.flush p w = (.ok v', w') → AllWell 1 w ∧ CallsLater 1 w w') := by
  unfold ExtVec.flush
  constructor
  · intro x w' h
    obtain ⟨n, _, h⟩ := Act.lift_bind_cases h (by simp) (by simp)
    obtain ⟨d, _, h⟩ := Act.lift_bind_cases h (by simp) (by simp)
    rcases Act.bind_eq_err h with h | ⟨_, _, _, h⟩
    · exact (handleWrite_calls ho).1 _ _ h
    · cases h
  · intro v' w' h
    obtain ⟨n, _, h⟩ := Act.lift_bind_cases h (by simp) (by simp)
    obtain ⟨d, _, h⟩ := Act.lift_bind_cases h (by simp) (by simp)
    obtain ⟨_, _, h1, h⟩ := Act.bind_eq_ok h
    cases h
    exact (handleWrite_calls ho).2 _ _ h1

/-- How closing an external vector ends. -/
theorem EvInv.close_calls [DiffLib] {o : Obj} {name schema : String} {size : Nat} {w : FileW} {v : ExtVec file} {pre buf : List Bytes}
    (i : EvInv fileLaws o name schema size w v pre buf pre.flatten) (hu : Unseen fileLaws o name w) (hs : schema ≠ "") (p : Profile)
    (e : Endian) (hb : (pre ++ buf).length * size < 2 ^ 63) :
    (¬ AllWell 4 w ∧ ∃ w', v.close p e w = (.panic, w')) ∨
    (AllWell 4 w ∧ ¬ AllWell 10 w ∧ ∃ x w', v.close p e w = (.err x, w')) ∨
    (AllWell 10 w ∧ ∃ s w', v.close p e w = (.ok s, w') ∧ CallsLater 10 w w') := by
  have hne := Kind.loc_schema_ne .disk o name
  have fc := vecFlush_calls (p := p) (w := w) i.writing.isOpen
  unfold ExtVec.close
  rcases i.flush hne p (by omega) with ⟨v', w1, h1, i1, o1⟩ | ⟨x, d', w1, h1, _, _, _⟩
  · obtain ⟨c1, l1⟩ := fc.2 _ _ h1
    rw [Act.bind_ok (Act.attempt_ok h1)]
    change (_ ∧ ∃ w', ExtVec.closeHandle p e v' w1 = _) ∨ (_ ∧ _ ∧ ∃ x w', ExtVec.closeHandle p e v' w1 = _) ∨
      (_ ∧ ∃ s w', ExtVec.closeHandle p e v' w1 = _ ∧ _)
    unfold ExtVec.closeHandle
    have hlen : (pre ++ buf).flatten.length < 2 ^ 63 := by rw [i.all'.length_flatten]; exact hb
    have i2 := i1.writing
    rw [← List.flatten_append] at i2
    rw [show (4 : Nat) = 1 + 3 from rfl, show (10 : Nat) = 1 + 9 from rfl, l1.calm 3, l1.calm 9]
    rcases i2.close_calls (hu.only o1) hs p e hlen with ⟨c2, x, w2, h2⟩ | ⟨c2, c3, x, w2, h2⟩ | ⟨c2, s, w2, h2, l2⟩
    · refine .inl ⟨fun h => c2 h.2, w2, ?_⟩
      rw [Act.bind_ok (Act.mapErr_ok h2)]
      exact Act.bind_panic (dropOpen i2.isOpen w2)
    · refine .inr (.inl ⟨⟨c1, c2⟩, fun h => c3 h.2, x, w2, ?_⟩)
      rw [Act.bind_ok (Act.mapErr_ok h2)]; rfl
    · refine .inr (.inr ⟨⟨c1, c2⟩, s, w2, ?_, l1.trans l2⟩)
      rw [Act.bind_ok (Act.mapErr_ok h2)]; rfl
  · refine .inl ⟨fun h => fc.1 _ _ h1 (h.mono (by omega)), w1, ?_⟩
    rw [Act.bind_ok (Act.attempt_err h1)]
    exact Act.bind_panic (dropOpen i.writing.isOpen w1)

/-- The number of calls of the index when a multivector is closed: one if its buffer is full. -/
def indexCalls (v : MultiVec file) : Nat := if bufferLimit < v.index.data.length then 1 else 0

theorem addToIndex_calls {p : Profile} {e : Endian} {V : Variadic} {v : MultiVec file} {w : FileW} (ho : v.index.handle.isOpen = true) :
    (∀ x w', v.addToIndex p e V w = (.err x, w') → ¬ AllWell (indexCalls v) w) ∧
    (∀ v' w', v.addToIndex p e V w = (.ok v', w') → AllWell (indexCalls v) w ∧ CallsLater (indexCalls v) w w') := by
  have hg : (∀ x w', v.index.grow p V.indexSize w = (.err x, w') → ¬ AllWell (indexCalls v) w) ∧
      (∀ r w', v.index.grow p V.indexSize w = (.ok r, w') → AllWell (indexCalls v) w ∧ CallsLater (indexCalls v) w w') := by
    unfold ExtVec.grow
    have hf : (∀ x w', v.index.flushIfFull p w = (.err x, w') → ¬ AllWell (indexCalls v) w) ∧
        (∀ r w', v.index.flushIfFull p w = (.ok r, w') → AllWell (indexCalls v) w ∧ CallsLater (indexCalls v) w w') := by
      unfold ExtVec.flushIfFull indexCalls
      split
      · exact vecFlush_calls ho
      · exact ⟨fun _ _ h => (by cases h), fun _ _ h => by cases h; exact ⟨fun _ h => absurd h (by omega), rfl, rfl⟩⟩
    constructor
    · intro x w' h
      rcases Act.bind_eq_err h with h | ⟨_, _, _, h⟩
      · exact hf.1 _ _ h
      · obtain ⟨_, _, h⟩ := Act.lift_bind_cases h (by simp) (by simp)
        obtain ⟨_, _, h⟩ := Act.lift_bind_cases h (by simp) (by simp)
        obtain ⟨_, _, h⟩ := Act.lift_bind_cases h (by simp) (by simp)
        obtain ⟨_, _, h⟩ := Act.lift_bind_cases h (by simp) (by simp)
        obtain ⟨_, _, h⟩ := Act.lift_bind_cases h (by simp) (by simp)
        cases h
    · intro r w' h
      obtain ⟨_, w1, h1, h⟩ := Act.bind_eq_ok h
      obtain ⟨_, _, h⟩ := Act.lift_bind_cases h (by simp) (by simp)
      obtain ⟨_, _, h⟩ := Act.lift_bind_cases h (by simp) (by simp)
      obtain ⟨_, _, h⟩ := Act.lift_bind_cases h (by simp) (by simp)
      obtain ⟨_, _, h⟩ := Act.lift_bind_cases h (by simp) (by simp)
      obtain ⟨_, _, h⟩ := Act.lift_bind_cases h (by simp) (by simp)
      cases h
      exact hf.2 _ _ h1
  unfold MultiVec.addToIndex
  constructor
  · intro x w' h
    rcases Act.bind_eq_err h with h | ⟨_, _, _, h⟩
    · exact hg.1 _ _ h
    · obtain ⟨_, _, h⟩ := Act.lift_bind_cases h (by simp) (by simp)
      obtain ⟨_, _, h⟩ := Act.lift_bind_cases h (by simp) (by simp)
      obtain ⟨_, _, h⟩ := Act.lift_bind_cases h (by simp) (by simp)
      cases h
  · intro r w' h
    obtain ⟨_, w1, h1, h⟩ := Act.bind_eq_ok h
    obtain ⟨_, _, h⟩ := Act.lift_bind_cases h (by simp) (by simp)
    obtain ⟨_, _, h⟩ := Act.lift_bind_cases h (by simp) (by simp)
    obtain ⟨_, _, h⟩ := Act.lift_bind_cases h (by simp) (by simp)
    cases h
    exact hg.2 _ _ h1

theorem multiFlush_calls {p : Profile} {v : MultiVec file} {w : FileW} (ho : v.handle.isOpen = true) :
    (∀ x w', v.flush p w = (.err x, w') → ¬ AllWell 1 w) ∧ (∀ v' w', v.flush p w = (.ok v', w') → AllWell 1 w ∧ CallsLater 1 w w') := by
  unfold MultiVec.flush
  constructor
  · intro x w' h
    obtain ⟨n, _, h⟩ := Act.lift_bind_cases h (by simp) (by simp)
    obtain ⟨d, _, h⟩ := Act.lift_bind_cases h (by simp) (by simp)
    rcases Act.bind_eq_err h with h | ⟨_, _, _, h⟩
    · exact (handleWrite_calls ho).1 _ _ h
    · obtain ⟨_, _, h⟩ := Act.lift_bind_cases h (by simp) (by simp)
      cases h
  · intro v' w' h
    obtain ⟨n, _, h⟩ := Act.lift_bind_cases h (by simp) (by simp)
    obtain ⟨d, _, h⟩ := Act.lift_bind_cases h (by simp) (by simp)
    obtain ⟨_, _, h1, h⟩ := Act.bind_eq_ok h
    obtain ⟨_, _, h⟩ := Act.lift_bind_cases h (by simp) (by simp)
    cases h
    exact (handleWrite_calls ho).2 _ _ h1

/-- How closing a multivector ends. -/
theorem MvInv.close_calls [DiffLib] {o : Obj} {name schema : String} {V : Variadic} {w : FileW} {v : MultiVec file} {preI bufI : List Bytes}
    {pre body : Bytes} (i : MvInv fileLaws o name schema V w v preI bufI preI.flatten pre body pre) (p : Profile) (e : Endian)
    (ok : IndexOK V) (hu : MUnseen fileLaws o name w) (hs : schema ≠ "")
    (hb : pre.length + body.length + 8 < 2 ^ 63) (hbI : ((preI ++ bufI).length + 1) * V.indexSize + 8 < 2 ^ 63) :
    (¬ AllWell (indexCalls v + 14) w ∧ ∃ w', v.close p e V w = (.panic, w')) ∨
    (AllWell (indexCalls v + 14) w ∧ ¬ AllWell (indexCalls v + 20) w ∧ ∃ x w', v.close p e V w = (.err x, w')) ∨
    (AllWell (indexCalls v + 20) w ∧ ∃ s w', v.close p e V w = (.ok s, w') ∧ CallsLater (indexCalls v + 20) w w') := by
  have ap : Apart fileLaws o name := Kind.apart .disk o name
  have hsI : Storage.indexSchema schema ≠ "" := fun h => by
    have h2 := congrArg String.length h
    simp [Storage.indexSchema] at h2
  have fa := addToIndex_calls (p := p) (e := e) (V := V) (w := w) i.index.writing.isOpen
  unfold MultiVec.close
  rcases i.addToIndex ap p e ok hb hbI with
    ⟨v1, w1, preI', bufI', cI', x, h1, i1, e1, hx, hc1, hd1, hf1, o1⟩ | ⟨x, d', w1, h1, i1, o1, nf⟩
  · obtain ⟨c1, l1⟩ := fa.2 _ _ h1
    rw [Act.bind_ok (Act.attempt_ok h1)]
    rw [hc1 rfl] at i1
    change (_ ∧ ∃ w', MultiVec.closeFlush p e v1 w1 = _) ∨ (_ ∧ _ ∧ ∃ x w', MultiVec.closeFlush p e v1 w1 = _) ∨
      (_ ∧ ∃ s w', MultiVec.closeFlush p e v1 w1 = _ ∧ _)
    unfold MultiVec.closeFlush
    have fb := multiFlush_calls (p := p) (w := w1) i1.data.isOpen
    rcases i1.flush ap p hb with ⟨v2, w2, h2, i2, hi2, o2⟩ | ⟨x2, d', w2, h2, i2, o2, nf⟩
    · obtain ⟨c2, l2⟩ := fb.2 _ _ h2
      have l2 := l1.trans l2
      have c2 : AllWell (indexCalls v + 1) w := (l1.calm 1).mpr ⟨c1, c2⟩
      rw [Act.bind_ok (Act.attempt_ok h2)]
      change (_ ∧ ∃ w', MultiVec.closeIndex p e v2 w2 = _) ∨ (_ ∧ _ ∧ ∃ x w', MultiVec.closeIndex p e v2 w2 = _) ∨
        (_ ∧ ∃ s w', MultiVec.closeIndex p e v2 w2 = _ ∧ _)
      unfold MultiVec.closeIndex
      have hlen : (preI' ++ (bufI' ++ [x])).length = (preI ++ bufI).length + 1 := by
        rw [← List.append_assoc, e1]; simp; omega
      have huI := (Unseen.only (name := Storage.indexName name) (Unseen.only (name := Storage.indexName name) hu.index o1) o2)
      obtain ⟨_, w3', h3', _, o3, _⟩ := i2.index.close huI ap.index p e (by rw [hlen]; omega)
      rcases i2.index.close_calls huI hsI p e (by rw [hlen]; omega) with ⟨c3, w3, h3⟩ | ⟨c3, c4, y, w3, h3⟩ | ⟨c3, si, w3, h3, l3⟩
      · refine .inl ⟨fun h => c3 ((l2.calm 4).mp (h.mono (by omega))).2, w3, ?_⟩
        exact Act.bind_panic (by unfold Act.attempt; rw [h3])
      · have hopen : v2.handle.isOpen = true := i2.data.isOpen
        refine .inl ⟨fun h => c4 ((l2.calm 10).mp (h.mono (by omega))).2, w3, ?_⟩
        rw [Act.bind_ok (Act.attempt_err h3)]
        exact Act.bind_panic (dropOpen hopen w3)
      · rw [h3] at h3'
        have e3 := (Prod.mk.inj h3').2
        subst e3
        have k3 : Keeps fileLaws w2 w3 (fileLaws.loc o name) := o3.keeps _ (ap.index_data (.inl rfl))
        have k3' : Keeps fileLaws w2 w3 (fileLaws.loc o (Storage.schemaName name)) := o3.keeps _ (ap.index_data (.inr rfl))
        have d3 := i2.data.keeps k3 k3'
        have hu3 : Unseen fileLaws o name w3 := ((hu.data.only o1).only o2).keeps k3 k3'
        have l3 := l2.trans l3
        have c3 : AllWell (indexCalls v + 1 + 10) w := (l2.calm 10).mpr ⟨c2, c3⟩
        rw [Act.bind_ok (Act.attempt_ok h3)]
        change (_ ∧ ∃ w', MultiVec.closeData p e v2 si w3 = _) ∨ (_ ∧ _ ∧ ∃ x w', MultiVec.closeData p e v2 si w3 = _) ∨
          (_ ∧ ∃ s w', MultiVec.closeData p e v2 si w3 = _ ∧ _)
        unfold MultiVec.closeData
        rw [show indexCalls v + 14 = indexCalls v + 1 + 10 + 3 from by omega, show indexCalls v + 20 = indexCalls v + 1 + 10 + 9 from by omega,
          l3.calm 3, l3.calm 9]
        rcases d3.close_calls hu3 hs p e (by simp; omega) with ⟨c4, y, w4, h4⟩ | ⟨c4, c5, y, w4, h4⟩ | ⟨c4, sd, w4, h4, l4⟩
        · refine .inl ⟨fun h => c4 h.2, w4, ?_⟩
          rw [Act.bind_ok (Act.mapErr_ok h4)]
          exact Act.bind_panic (dropOpen d3.isOpen w4)
        · refine .inr (.inl ⟨⟨c3, c4⟩, fun h => c5 h.2, y, w4, ?_⟩)
          rw [Act.bind_ok (Act.mapErr_ok h4)]; rfl
        · refine .inr (.inr ⟨⟨c3, c4⟩, (si, sd), w4, ?_, l3.trans l4⟩)
          rw [Act.bind_ok (Act.mapErr_ok h4)]; rfl
    · refine .inl ⟨fun h => fb.1 _ _ h2 ((l1.calm 1).mp (h.mono (by omega))).2, w2, ?_⟩
      rw [Act.bind_ok (Act.attempt_err h2)]
      exact Act.bind_panic (by unfold MultiVec.drop; exact Act.bind_panic (dropOpen i1.index.writing.isOpen w2))
  · refine .inl ⟨fun h => fa.1 _ _ h1 (h.mono (by omega)), w1, ?_⟩
    rw [Act.bind_ok (Act.attempt_err h1)]
    exact Act.bind_panic (by unfold MultiVec.drop; exact Act.bind_panic (dropOpen i.index.writing.isOpen w1))

end Flatdata
