import Verif.Spec.Reports
import Verif.Proofs.MGrows
import Verif.Model.Archive
/-!
# Functions that tell of failures
-/
namespace Flatdata
open Spec

variable {B : Backend} {α β : Type}

theorem Spec.AllSucceed.trans {w w1 w2 : B.W} (h1 : AllSucceed w w1) (h2 : AllSucceed w1 w2) : AllSucceed w w2 := by
  induction h2 with
  | none => exact h1
  | call _ hc ih => exact .call ih hc

theorem Spec.Reported.after {w w1 w2 : B.W} {r : Res IoErr α} (h1 : AllSucceed w w1) (h2 : Reported w1 r w2) : Reported w r w2 := by
  cases h2 with
  | ok h => exact .ok (h1.trans h)
  | err h hc => exact .err (h1.trans h) hc
  | panic h hc => exact .panic (h1.trans h) hc
  | ub h hc => exact .ub (h1.trans h) hc

/-- Sequences. -/
theorem Spec.Reports.bind {x : Act B.W IoErr α} {f : α → Act B.W IoErr β} (hx : Reports x) (hf : ∀ a, Reports (f a)) : Reports (x >>= f) := by
  intro w r w' h
  cases h1 : x w with
  | mk r1 w1 =>
    have := hx _ _ _ h1
    cases r1 with
    | ok a =>
      rw [Act.bind_ok h1] at h
      cases this with
      | ok hs => exact (hf a _ _ _ h).after hs
    | err y =>
      rw [Act.bind_err h1] at h
      cases h
      cases this with
      | err hs hc => exact .err hs hc
    | panic =>
      rw [Act.bind_panic h1] at h
      cases h
      cases this with
      | panic hs hc => exact .panic hs hc
    | ub =>
      rw [Act.bind_def, h1] at h
      cases h
      cases this with
      | ub hs hc => exact .ub hs hc

theorem Spec.Reports.pure (a : α) : Reports (pure a : Act B.W IoErr α) := by
  intro w r w' h
  cases h
  exact .ok .none

theorem Spec.Reports.of_eq {x y : Act B.W IoErr α} (h : ∀ w, x w = y w) (hy : Reports y) : Reports x :=
  fun w r w' hr => hy w r w' ((h w).symm.trans hr)

/-- One call. -/
theorem Spec.Reports.one {x : Act B.W IoErr α} (c : Io B) (h : ∀ w, c.run w = (x >>= fun _ => Pure.pure ()) w) : Reports x := by
  intro w r w' hr
  have h := h w
  cases r with
  | ok a => rw [Act.bind_ok hr] at h; exact .ok (.call .none h)
  | err y => rw [Act.bind_err hr] at h; exact .err .none h
  | panic => rw [Act.bind_panic hr] at h; exact .panic .none h
  | ub => rw [Act.bind_def, hr] at h; exact .ub .none h

theorem bind_unit (x : Act B.W IoErr Unit) (w : B.W) : x w = (x >>= fun _ => Pure.pure ()) w := by
  rw [Act.bind_def]
  cases h : x w with
  | mk r w' => cases r <;> rfl

theorem reports_create (o : B.Obj) (n : String) : Reports (B.createOutputStream o n) := .one (.create o n) fun _ => rfl
theorem reports_readResource (o : B.Obj) (n : String) : Reports (B.readResource o n) := .one (.read o n) fun _ => rfl
theorem reports_writeAll (s : B.Strm) (d : Bytes) : Reports (B.writeAll s d) := .one (.write s d) fun w => bind_unit _ w
theorem reports_exists (o : B.Obj) (n : String) : Reports ((B.existsRes o n).mapErr Empty.elim) := .one (.exists' o n) fun _ => rfl
theorem reports_subdir (o : B.Obj) (n : String) : Reports ((B.subdir o n).mapErr Empty.elim) := .one (.subdir o n) fun _ => rfl

theorem reports_writeSize (p : Profile) (e : Endian) (s : B.Strm) {n : Nat} (h : n < 2 ^ 64) : Reports (Storage.writeSize B p e n s) :=
  .of_eq (fun w => writeSize_eq p e s h w) (reports_writeAll _ _)

theorem reports_write (p : Profile) (e : Endian) (o : B.Obj) (name schema : String) (data : Bytes) (h : data.length < 2 ^ 64) :
    Reports (Storage.write B p e o name schema data) :=
  (reports_create _ _).bind fun s => ((reports_writeSize p e s h).bind fun _ => (reports_writeAll _ _).bind fun _ => reports_writeAll _ _).bind
    fun _ => (reports_create _ _).bind fun _ => reports_writeAll _ _

theorem reports_tryNew (p : Profile) (e : Endian) (o : B.Obj) (name schema : String) (s : B.Strm) :
    Reports (Handle.tryNew p e o name schema s) :=
  (reports_writeSize p e s (by decide)).bind fun _ => .pure _

theorem reports_createExternalVector (p : Profile) (e : Endian) (o : B.Obj) (name schema : String) :
    Reports (createExternalVector p e o name schema) :=
  (reports_create _ _).bind fun _ => (reports_writeAll _ _).bind fun _ => (reports_create _ _).bind fun _ =>
    (reports_tryNew p e o name schema _).bind fun _ => .pure _

theorem reports_createDataHandle (p : Profile) (e : Endian) (o : B.Obj) (name schema : String) :
    Reports (createDataHandle p e o name schema) :=
  (reports_create _ _).bind fun _ => (reports_writeAll _ _).bind fun _ => (reports_create _ _).bind fun _ => reports_tryNew p e o name schema _

theorem reports_handleWrite (p : Profile) (h : Handle B) (d : Bytes) (ho : h.isOpen = true) (hb : h.size + d.length < 2 ^ 64) :
    Reports (h.write p d) := by
  unfold Handle.write
  unfold Handle.isOpen at ho
  cases hs : h.stream with
  | none => rw [hs] at ho; cases ho
  | some s =>
    refine (reports_writeAll s d).bind fun _ => ?_
    rw [uadd_ok (by unfold usizeMod; omega)]
    exact fun w r w' h => by cases h; exact .ok .none

/-! ## Functions that may panic -/

theorem Spec.Reports.tells {x : Act B.W IoErr α} (h : Reports x) : Tells x := by
  intro w r w' hr
  have := h w r w' hr
  refine ⟨fun a ha => ?_, fun y _ => this⟩
  subst ha
  cases this with
  | ok h => exact h

theorem Spec.Tells.bind {x : Act B.W IoErr α} {f : α → Act B.W IoErr β} (hx : Tells x) (hf : ∀ a, Tells (f a)) : Tells (x >>= f) := by
  intro w r w' h
  cases h1 : x w with
  | mk r1 w1 =>
    have hx := hx _ _ _ h1
    cases r1 with
    | ok a =>
      rw [Act.bind_ok h1] at h
      have hs := hx.1 a rfl
      obtain ⟨i, j⟩ := hf a _ _ _ h
      exact ⟨fun b hb => hs.trans (i b hb), fun y hy => (j y hy).after hs⟩
    | err y =>
      rw [Act.bind_err h1] at h
      cases h
      refine ⟨fun _ h => (nomatch h), fun z hz => ?_⟩
      cases hx.2 y rfl with
      | err hs hc => exact .err hs hc
    | panic =>
      rw [Act.bind_panic h1] at h
      cases h
      exact ⟨fun _ h => (nomatch h), fun _ h => (nomatch h)⟩
    | ub =>
      rw [Act.bind_def, h1] at h
      cases h
      exact ⟨fun _ h => (nomatch h), fun _ h => (nomatch h)⟩

theorem Spec.Tells.pure (a : α) : Tells (pure a : Act B.W IoErr α) := (Reports.pure a).tells

theorem Spec.Tells.lift (x : Out α) : Tells (Act.lift x : Act B.W IoErr α) := by
  intro w r w' h
  cases x <;> cases h
  · exact ⟨fun _ _ => .none, fun _ h => (nomatch h)⟩
  · exact ⟨fun _ h => (nomatch h), fun _ h => (nomatch h)⟩
  · exact ⟨fun _ h => (nomatch h), fun _ h => (nomatch h)⟩

theorem tells_handleWrite (p : Profile) (h : Handle B) (d : Bytes) (ho : h.isOpen = true) : Tells (h.write p d) := by
  unfold Handle.write
  unfold Handle.isOpen at ho
  cases hs : h.stream with
  | none => rw [hs] at ho; cases ho
  | some s => exact (reports_writeAll s d).tells.bind fun _ => (Tells.lift _).bind fun _ => .pure _

theorem tells_flush (p : Profile) (v : ExtVec B) (ho : v.isOpen = true) : Tells (v.flush p) :=
  (Tells.lift _).bind fun _ => (Tells.lift _).bind fun _ => (tells_handleWrite p _ _ ho).bind fun _ => .pure _

theorem tells_grow (p : Profile) (size : Nat) (v : ExtVec B) (ho : v.isOpen = true) : Tells (v.grow p size) := by
  refine Tells.bind ?_ fun _ => (Tells.lift _).bind fun _ => (Tells.lift _).bind fun _ => (Tells.lift _).bind fun _ =>
    (Tells.lift _).bind fun _ => (Tells.lift _).bind fun _ => .pure _
  unfold ExtVec.flushIfFull
  split
  · exact tells_flush p v ho
  · exact .pure _

theorem tells_mflush (p : Profile) (v : MultiVec B) (ho : v.handle.isOpen = true) : Tells (v.flush p) :=
  (Tells.lift _).bind fun _ => (Tells.lift _).bind fun _ => (tells_handleWrite p _ _ ho).bind fun _ => (Tells.lift _).bind fun _ => .pure _

theorem tells_mflushIfFull (p : Profile) (v : MultiVec B) (ho : v.handle.isOpen = true) : Tells (v.flushIfFull p) := by
  unfold MultiVec.flushIfFull
  split
  · exact tells_mflush p v ho
  · exact .pure _

theorem tells_addToIndex (p : Profile) (e : Endian) (V : Variadic) (v : MultiVec B) (ho : v.index.isOpen = true) :
    Tells (v.addToIndex p e V) :=
  (tells_grow p _ _ ho).bind fun _ => (Tells.lift _).bind fun _ => (Tells.lift _).bind fun _ => (Tells.lift _).bind fun _ => .pure _

theorem mflush_index {p : Profile} {v v' : MultiVec B} {w w' : B.W} (h : v.flushIfFull p w = (.ok v', w')) : v'.index = v.index := by
  unfold MultiVec.flushIfFull at h
  split at h
  · obtain ⟨_, _, _, h⟩ := Act.bind_eq_ok h
    obtain ⟨_, _, _, h⟩ := Act.bind_eq_ok h
    obtain ⟨_, _, _, h⟩ := Act.bind_eq_ok h
    obtain ⟨_, _, _, h⟩ := Act.bind_eq_ok h
    cases h
    rfl
  · cases h
    rfl

/-- `MultiVector::grow` holds its `Result` in a value. -/
theorem tells_mgrow (p : Profile) (e : Endian) (V : Variadic) (v : MultiVec B) (hi : v.index.isOpen = true) (ho : v.handle.isOpen = true)
    {w w' : B.W} {r : Except IoErr Unit} {v' : MultiVec B} (h : v.grow p e V w = (.ok (r, v'), w')) :
    (r = .ok () → AllSucceed w w') ∧ ∀ y, r = .error y → Reported (α := Unit) w (.err y) w' := by
  obtain ⟨r1, w1, h1, h⟩ := Act.bind_eq_ok h
  cases hf : v.flushIfFull p w with
  | mk rf wf =>
    obtain ⟨t1, t2⟩ := tells_mflushIfFull p v ho _ _ _ hf
    cases rf with
    | ok v1 =>
      rw [Act.attempt_ok hf] at h1
      cases h1
      obtain ⟨r2, w2, h2, h⟩ := Act.bind_eq_ok h
      have s := t1 v1 rfl
      cases ha : v1.addToIndex p e V w1 with
      | mk ra wa =>
        obtain ⟨u1, u2⟩ := tells_addToIndex p e V v1 (by rw [mflush_index hf]; exact hi) _ _ _ ha
        cases ra with
        | ok v2 =>
          rw [Act.attempt_ok ha] at h2
          cases h2; cases h
          exact ⟨fun _ => s.trans (u1 _ rfl), fun _ h => (nomatch h)⟩
        | err y =>
          rw [Act.attempt_err ha] at h2
          cases h2; cases h
          refine ⟨fun h => (nomatch h), fun z hz => ?_⟩
          cases hz
          cases u2 y rfl with
          | err hs hc => exact .err (s.trans hs) hc
        | panic => unfold Act.attempt at h2; rw [ha] at h2; cases h2
        | ub => unfold Act.attempt at h2; rw [ha] at h2; cases h2
    | err y =>
      rw [Act.attempt_err hf] at h1
      cases h1; cases h
      refine ⟨fun h => (nomatch h), fun z hz => ?_⟩
      cases hz
      cases t2 y rfl with
      | err hs hc => exact .err hs hc
    | panic => unfold Act.attempt at h1; rw [hf] at h1; cases h1
    | ub => unfold Act.attempt at h1; rw [hf] at h1; cases h1

/-! ## Creating a multivector -/

theorem createExternalVector_data (p : Profile) (e : Endian) (o : B.Obj) (name schema : String) (w : B.W) :
    createExternalVector p e o name schema w = (createDataHandle p e o name schema >>= fun h => Pure.pure (ExtVec.new h)) w := by
  unfold createExternalVector createDataHandle
  simp only [Act.bind_def]
  split <;> rename_i h1
  · split <;> rename_i h2
    · split <;> rename_i h3
      · rfl
      all_goals simp_all
    all_goals simp_all
  all_goals simp_all

theorem handle_tryNew_open {p : Profile} {e : Endian} {o : B.Obj} {name schema : String} {s : B.Strm} {h : Handle B} {w w' : B.W}
    (hh : Handle.tryNew p e o name schema s w = (.ok h, w')) : h.isOpen = true := by
  obtain ⟨_, _, _, hh⟩ := Act.bind_eq_ok hh
  cases hh
  rfl

theorem createExternalVector_open {p : Profile} {e : Endian} {o : B.Obj} {name schema : String} {v : ExtVec B} {w w' : B.W}
    (h : createExternalVector p e o name schema w = (.ok v, w')) : v.isOpen = true := by
  obtain ⟨_, _, _, h⟩ := Act.bind_eq_ok h
  obtain ⟨_, _, _, h⟩ := Act.bind_eq_ok h
  obtain ⟨_, _, _, h⟩ := Act.bind_eq_ok h
  obtain ⟨_, _, h1, h⟩ := Act.bind_eq_ok h
  cases h
  exact handle_tryNew_open h1

/-- Creating a multivector, from the outcomes of creating two vectors. -/
theorem createMultiVector_cases (p : Profile) (e : Endian) (o : B.Obj) (name schema : String) {w w' : B.W} {r : Res IoErr (MultiVec B)}
    (h : createMultiVector p e o name schema w = (r, w')) :
    (∃ y, createExternalVector p e o (name ++ "_index") ("index(" ++ schema ++ ")") w = (.err y, w') ∧ r = .err y) ∨
    (createExternalVector p e o (name ++ "_index") ("index(" ++ schema ++ ")") w = (.panic, w') ∧ r = .panic) ∨
    (createExternalVector p e o (name ++ "_index") ("index(" ++ schema ++ ")") w = (.ub, w') ∧ r = .ub) ∨
    (∃ v w1, createExternalVector p e o (name ++ "_index") ("index(" ++ schema ++ ")") w = (.ok v, w1) ∧
      ((∃ v' m, createExternalVector p e o name schema w1 = (.ok v', w') ∧ r = .ok m) ∨
       (∃ y, createExternalVector p e o name schema w1 = (.err y, w') ∧ r = .panic) ∨
       (createExternalVector p e o name schema w1 = (.panic, w') ∧ r = .panic) ∨
       (createExternalVector p e o name schema w1 = (.ub, w') ∧ r = .ub))) := by
  unfold createMultiVector at h
  change (createExternalVector p e o (name ++ "_index") ("index(" ++ schema ++ ")") >>= _) w = _ at h
  cases hi : createExternalVector p e o (name ++ "_index") ("index(" ++ schema ++ ")") w with
  | mk ri wi =>
    cases ri with
    | err y => rw [Act.bind_err hi] at h; cases h; exact .inl ⟨y, rfl, rfl⟩
    | panic => rw [Act.bind_panic hi] at h; cases h; exact .inr (.inl ⟨rfl, rfl⟩)
    | ub => rw [Act.bind_def, hi] at h; cases h; exact .inr (.inr (.inl ⟨rfl, rfl⟩))
    | ok v =>
      refine .inr (.inr (.inr ⟨v, wi, rfl, ?_⟩))
      rw [Act.bind_ok hi] at h
      rw [createExternalVector_data]
      cases hd : createDataHandle p e o name schema wi with
      | mk rd wd =>
        cases rd with
        | ok hh =>
          rw [Act.bind_ok (Act.attempt_ok hd)] at h
          cases h
          exact .inl ⟨_, _, Act.bind_ok hd, rfl⟩
        | err y =>
          rw [Act.bind_ok (Act.attempt_err hd)] at h
          have ho := createExternalVector_open hi
          change (v.handle.drop >>= fun _ => Act.fail y) wd = _ at h
          unfold Handle.drop at h
          rw [if_pos (show v.handle.isOpen = true from ho)] at h
          cases h
          exact .inr (.inl ⟨y, Act.bind_err hd, rfl⟩)
        | panic =>
          have : (Act.attempt (createDataHandle p e o name schema) : Act B.W IoErr _) wi = (.panic, wd) := by unfold Act.attempt; rw [hd]
          rw [Act.bind_panic this] at h
          cases h
          exact .inr (.inr (.inl ⟨Act.bind_panic hd, rfl⟩))
        | ub =>
          have : (Act.attempt (createDataHandle p e o name schema) : Act B.W IoErr _) wi = (.ub, wd) := by unfold Act.attempt; rw [hd]
          rw [Act.bind_def, this] at h
          cases h
          exact .inr (.inr (.inr ⟨by rw [Act.bind_def, hd], rfl⟩))

/-! ## Functions that name the resource -/

theorem mapErr_named {x : Act B.W IoErr α} {n : String} {w w' : B.W} {r : Res RErr α} (h : (x.mapErr (RErr.io · n)) w = (r, w')) :
    ∃ s, x w = (s, w') ∧ r = named n s := by
  unfold Act.mapErr at h
  cases hx : x w with
  | mk s w1 =>
    rw [hx] at h
    cases s <;> cases h <;> exact ⟨_, rfl, rfl⟩

theorem Spec.Reported.value {w w' : B.W} {s : Res IoErr α} (f : α → β) (h : Reported w s w') :
    Reported w (match s with | .ok a => .ok (f a) | .err y => .err y | .panic => .panic | .ub => .ub) w' := by
  cases h with
  | ok h => exact .ok h
  | err h hc => exact .err h hc
  | panic h hc => exact .panic h hc
  | ub h hc => exact .ub h hc

theorem createArchive_cases (p : Profile) (e : Endian) (o : B.Obj) (sig schema : String) {w w' : B.W} {r : Res RErr Unit}
    (h : Storage.createArchive B p e o sig schema w = (r, w')) :
    (∃ s, r = named sig s ∧ Reported w s w') ∨ (r = .err (.io .alreadyExists sig) ∧ B.existsRes o sig w = (.ok true, w')) := by
  unfold Storage.createArchive at h
  have hr := reports_exists o sig w
  unfold Act.mapErr at hr
  cases hx : B.existsRes o sig w with
  | mk rx wx =>
    rw [hx] at hr
    have h1 : ∀ s : Res RErr Bool, (match (generalizing := false) (rx, wx) with
        | (.ok a, w) => (Res.ok a, w) | (.err y, w) => (.err y.elim, w) | (.panic, w) => (.panic, w) | (.ub, w) => (.ub, w)) = (s, wx) →
        ((B.existsRes o sig).mapErr Empty.elim : Act B.W RErr Bool) w = (s, wx) := by
      intro s hs
      unfold Act.mapErr
      rw [hx]
      cases rx with
      | err y => exact y.elim
      | ok a => exact hs
      | panic => exact hs
      | ub => exact hs
    cases rx with
    | err y => exact y.elim
    | panic =>
      rw [Act.bind_panic (h1 _ rfl)] at h
      cases h
      refine .inl ⟨.panic, rfl, ?_⟩
      cases hr .panic _ rfl with
      | panic hs hc => exact .panic hs hc
    | ub =>
      rw [Act.bind_def, h1 _ rfl] at h
      cases h
      refine .inl ⟨.ub, rfl, ?_⟩
      cases hr .ub _ rfl with
      | ub hs hc => exact .ub hs hc
    | ok b =>
      rw [Act.bind_ok (h1 _ rfl)] at h
      have hs : AllSucceed w wx := by
        cases hr (.ok b) _ rfl with
        | ok hs => exact hs
      cases b with
      | true => cases h; exact .inr ⟨rfl, rfl⟩
      | false =>
        obtain ⟨s, h2, h3⟩ := mapErr_named (x := Storage.write B p e o sig schema []) h
        exact .inl ⟨s, h3, (reports_write p e o sig schema [] (by decide) _ _ _ h2).after hs⟩

theorem builderNew_cases (p : Profile) (e : Endian) (o : B.Obj) (D : ArchiveDef) {w w' : B.W} {r : Res RErr B.Obj}
    (h : builderNew B p e o D w = (r, w')) :
    (∃ s : Res IoErr B.Obj, r = named (D.name ++ ".archive") s ∧ Reported w s w') ∨
    (r = .err (.io .alreadyExists (D.name ++ ".archive")) ∧ B.existsRes o (D.name ++ ".archive") w = (.ok true, w')) := by
  unfold builderNew at h
  cases hc : Storage.createArchive B p e o D.signature D.schema w with
  | mk rc wc =>
    rcases createArchive_cases p e o _ _ hc with ⟨s, rfl, h2⟩ | ⟨rfl, h2⟩
    · left
      have := h2.value fun _ => o
      cases s with
      | ok a => rw [Act.bind_ok hc] at h; cases h; exact ⟨_, rfl, this⟩
      | err y => rw [Act.bind_err hc] at h; cases h; exact ⟨_, rfl, this⟩
      | panic => rw [Act.bind_panic hc] at h; cases h; exact ⟨_, rfl, this⟩
      | ub => rw [Act.bind_def, hc] at h; cases h; exact ⟨_, rfl, this⟩
    · right
      rw [Act.bind_err hc] at h
      cases h
      exact ⟨rfl, h2⟩

/-- Reading: the last part makes no call. -/
theorem checkResource_still [DiffLib] (p : Profile) (e : Endian) (name schema : String) (d x : Slice B.Base) {w w' : B.W}
    {r : Res RErr (Slice B.Base)} (h : Storage.checkResource B p e name schema d x w = (r, w')) :
    w' = w ∧ ∀ y n, r ≠ .err (.io y n) := by
  have lift : ∀ {α : Type} (z : Out α) (w : B.W), ((Act.lift z : Act B.W RErr α) w).2 = w ∧ ∀ y, ((Act.lift z : Act B.W RErr α) w).1 ≠ .err y := by
    intro α z w
    cases z <;> exact ⟨rfl, fun _ h => (nomatch h)⟩
  have load : ∀ (s : Slice B.Base) (w : B.W), ((B.load s : Act B.W RErr Bytes) w).2 = w ∧ ∀ y, ((B.load s : Act B.W RErr Bytes) w).1 ≠ .err y :=
    fun s w => lift (B.deref w s) w
  have bind : ∀ {α : Type} (z : Act B.W RErr α) (f : α → Act B.W RErr (Slice B.Base)) (w : B.W), ((z w).2 = w ∧ ∀ y, (z w).1 ≠ .err y) →
      (∀ a, (f a w).2 = w ∧ ∀ y n, (f a w).1 ≠ .err (.io y n)) → ((z >>= f) w).2 = w ∧ ∀ y n, ((z >>= f) w).1 ≠ .err (.io y n) := by
    intro α z f w hz hf
    rw [Act.bind_def]
    cases h : z w with
    | mk s w1 =>
      rw [h] at hz
      obtain ⟨rfl, hz⟩ := hz
      cases s with
      | ok a => exact hf a
      | err y => exact absurd rfl (hz y)
      | panic => exact ⟨rfl, fun _ _ h => (nomatch h)⟩
      | ub => exact ⟨rfl, fun _ _ h => (nomatch h)⟩
  suffices hh : (Storage.checkResource B p e name schema d x w).2 = w ∧ ∀ y n, (Storage.checkResource B p e name schema d x w).1 ≠ .err (.io y n) by
    rw [h] at hh
    exact hh
  unfold Storage.checkResource
  split
  · exact ⟨rfl, fun _ _ h => (nomatch h)⟩
  · refine bind _ _ w (load _ w) fun _ => bind _ _ w (lift _ w) fun _ => bind _ _ w (lift _ w) fun _ => bind _ _ w (lift _ w) fun _ => ?_
    split
    · exact ⟨rfl, fun _ _ h => (nomatch h)⟩
    · refine bind _ _ w (load _ w) fun st => ?_
      unfold Storage.checkSchema
      cases fromUtf8 st with
      | none => exact ⟨rfl, fun _ _ h => (nomatch h)⟩
      | some t =>
        dsimp only
        by_cases hq : t ≠ schema
        · rw [if_pos hq]; exact ⟨rfl, fun _ _ h => (nomatch h)⟩
        · rw [if_neg hq]; exact ⟨(lift _ w).1, fun y n => (lift _ w).2 _⟩

theorem read_tells [DiffLib] (p : Profile) (e : Endian) (o : B.Obj) (name schema : String) {w w' : B.W} {r : Res RErr (Slice B.Base)}
    (h : Storage.read B p e o name schema w = (r, w')) :
    (∀ y n, r = .err (.io y n) → n = name ∧ Reported (α := Unit) w (.err y) w') ∧ ((∀ y n, r ≠ .err (.io y n)) → r ≠ .panic → r ≠ .ub → AllSucceed w w') := by
  unfold Storage.read at h
  have one : ∀ (n : String) (w1 w2 : B.W) (s : Res RErr (Slice B.Base)), AllSucceed w w1 →
      ((B.readResource o n).mapErr (RErr.io · name)) w1 = (s, w2) →
      (∃ a, s = .ok a ∧ AllSucceed w w2) ∨ (∃ y, s = .err (.io y name) ∧ Reported (α := Unit) w (.err y) w2) ∨ s = .panic ∨ s = .ub := by
    intro n w1 w2 s hs h1
    obtain ⟨t, h2, rfl⟩ := mapErr_named h1
    have := reports_readResource o n _ _ _ h2
    cases t with
    | ok a =>
      cases this with
      | ok h => exact .inl ⟨a, rfl, hs.trans h⟩
    | err y =>
      cases this with
      | err h hc => exact .inr (.inl ⟨y, rfl, .err (hs.trans h) hc⟩)
    | panic => exact .inr (.inr (.inl rfl))
    | ub => exact .inr (.inr (.inr rfl))
  cases h1 : ((B.readResource o name).mapErr (RErr.io · name)) w with
  | mk s1 w1 =>
    rcases one _ _ _ _ .none h1 with ⟨a, rfl, hs⟩ | ⟨y, rfl, hr⟩ | rfl | rfl
    · rw [Act.bind_ok h1] at h
      cases h2 : ((B.readResource o (Storage.schemaName name)).mapErr (RErr.io · name)) w1 with
      | mk s2 w2 =>
        rcases one _ _ _ _ hs h2 with ⟨b, rfl, hs⟩ | ⟨y, rfl, hr⟩ | rfl | rfl
        · rw [Act.bind_ok h2] at h
          obtain ⟨rfl, h3⟩ := checkResource_still p e name schema a b h
          exact ⟨fun y n h => absurd h (h3 y n), fun _ _ _ => hs⟩
        · rw [Act.bind_err h2] at h; cases h
          exact ⟨fun z n h => by cases h; exact ⟨rfl, hr⟩, fun h => absurd rfl (h y name)⟩
        · rw [Act.bind_panic h2] at h; cases h
          exact ⟨fun _ _ h => (nomatch h), fun _ h => absurd rfl h⟩
        · rw [Act.bind_def, h2] at h; cases h
          exact ⟨fun _ _ h => (nomatch h), fun _ _ h => absurd rfl h⟩
    · rw [Act.bind_err h1] at h; cases h
      exact ⟨fun z n h => by cases h; exact ⟨rfl, hr⟩, fun h => absurd rfl (h y name)⟩
    · rw [Act.bind_panic h1] at h; cases h
      exact ⟨fun _ _ h => (nomatch h), fun _ h => absurd rfl h⟩
    · rw [Act.bind_def, h1] at h; cases h
      exact ⟨fun _ _ h => (nomatch h), fun _ _ h => absurd rfl h⟩

end Flatdata
