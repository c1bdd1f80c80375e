import Verif.Proofs.Blind
import Verif.Proofs.NarrowWrite
/-!
# How many calls to the operating system writing takes
-/
namespace Flatdata
open Spec
section
variable {p : Profile} {e : Endian} {V : Variadic} {w w1 w2 : FileW} {v v1 v2 : MultiVec file} {n b : Nat}

/-- Writing to a handle is one call. -/
theorem Costs.handleWrite (p : Profile) (h : Handle file) (d : Bytes) : Costs 1 (h.write p d) := by
  have hw : ∀ s b, Costs 1 (FileSt.writeAll s b) := fun s b => Costs.syscall (fun _ => rfl) fun _ _ => rfl
  unfold Handle.write
  cases h.stream with
  | none => exact (Costs.fail _).mono (Nat.zero_le _)
  | some s => exact (hw s d).bind (n := 0) fun _ => (Costs.lift _).bind (n := 0) fun _ => Costs.pure _

theorem MultiVec.flushIfFull_calls (h : v1.flushIfFull p w1 = (.ok v2, w2)) :
    v2.index = v1.index ∧ ((v1.data.length ≤ bufferLimit ∧ v2 = v1 ∧ w2 = w1) ∨
      (bufferLimit < v1.data.length ∧ v2.data.length = 8 ∧ w2.fs.tick ≤ w1.fs.tick + 1)) := by
  unfold MultiVec.flushIfFull at h
  by_cases hb : v1.data.length > bufferLimit
  · rw [if_pos hb] at h
    have hi : v2.index = v1.index ∧ v2.data.length = 8 := by
      unfold MultiVec.flush at h
      obtain ⟨_, _, _, h⟩ := Act.bind_eq_ok h
      obtain ⟨_, _, _, h⟩ := Act.bind_eq_ok h
      obtain ⟨_, _, _, h⟩ := Act.bind_eq_ok h
      obtain ⟨_, _, _, h⟩ := Act.bind_eq_ok h
      cases h
      exact ⟨rfl, List.length_replicate⟩
    refine ⟨hi.1, .inr ⟨hb, hi.2, ?_⟩⟩
    unfold MultiVec.flush at h
    obtain ⟨_, wb, h1, h⟩ := Act.bind_eq_ok h
    obtain ⟨d, wc, h2, h⟩ := Act.bind_eq_ok h
    obtain ⟨_, wa, h3, h⟩ := Act.bind_eq_ok h
    obtain ⟨_, _, h4, h⟩ := Act.bind_eq_ok h
    cases h
    have e1 := (Act.lift_eq_ok h1).2
    have e2 := (Act.lift_eq_ok h2).2
    have e4 := (Act.lift_eq_ok h4).2
    have e3 := Costs.handleWrite p v1.handle d wc
    rw [h3] at e3
    rw [e4, ← e1, ← e2]
    exact e3
  · rw [if_neg hb] at h
    cases h
    exact ⟨rfl, .inl ⟨by omega, rfl, rfl⟩⟩

theorem MultiVec.addToIndex_calls (h : v1.addToIndex p e V w1 = (.ok v2, w2)) :
    v2.data = v1.data ∧ ((v1.index.data.length ≤ bufferLimit ∧ v2.index.data.length ≤ v1.index.data.length + V.indexSize ∧ w2.fs.tick = w1.fs.tick) ∨
      (bufferLimit < v1.index.data.length ∧ v2.index.data.length ≤ 8 + V.indexSize ∧ w2.fs.tick ≤ w1.fs.tick + 1)) := by
  unfold MultiVec.addToIndex at h
  obtain ⟨⟨i, pos⟩, wa, h1, h⟩ := Act.bind_eq_ok h
  obtain ⟨_, wb, h2, h⟩ := Act.bind_eq_ok h
  obtain ⟨_, wc, h3, h⟩ := Act.bind_eq_ok h
  obtain ⟨d, wd, h4, h⟩ := Act.bind_eq_ok h
  have e2 := (Act.lift_eq_ok h2).2
  have e3 := (Act.lift_eq_ok h3).2
  have e4 := (Act.lift_eq_ok h4).2
  have hd : d.length = i.data.length := Narrow.writeAt_length (Act.lift_eq_ok h4).1
  cases h
  have := grow_calls (S := V.indexStruct) h1
  refine ⟨rfl, ?_⟩
  dsimp only
  rw [hd, e4, e3, e2]
  exact this

theorem Act.attempt_inv {W E E' α : Type} {x : Act W E α} {w w' : W} {a : α} (h : (x.attempt : Act W E' _) w = (.ok (.ok a), w')) :
    x w = (.ok a, w') := by
  unfold Act.attempt at h
  split at h <;> cases h
  assumption

theorem MultiVec.builderAdd_calls {t : BitVec 8} {size pos : Nat} {data d : Bytes} (h : MultiVec.builderAdd p t size data = .ok (d, pos)) :
    d.length ≤ data.length + (1 + size) := by
  have hu : ∀ {a b c : Nat}, uadd p a b = .ok c → c ≤ a + b := by
    intro a b c hm
    unfold uadd at hm
    split at hm
    · cases hm; exact Nat.le_refl _
    · cases p with
      | debug => cases hm
      | release => cases hm; exact Nat.mod_le _ _
  unfold MultiVec.builderAdd at h
  obtain ⟨i, h1, h⟩ := Out.bind_eq_ok.mp h
  obtain ⟨m, h2, h⟩ := Out.bind_eq_ok.mp h
  obtain ⟨_, _, h⟩ := Out.bind_eq_ok.mp h
  obtain ⟨_, _, h⟩ := Out.bind_eq_ok.mp h
  obtain ⟨d1, h3, h⟩ := Out.bind_eq_ok.mp h
  obtain ⟨_, _, h⟩ := Out.bind_eq_ok.mp h
  obtain ⟨_, _, h⟩ := Out.bind_eq_ok.mp h
  obtain ⟨_, _, h⟩ := Out.bind_eq_ok.mp h
  cases h
  have h1 := hu h1
  have h2 := hu h2
  have hl : (resize0 data m).length = m := by
    unfold resize0
    rw [List.length_append, List.length_take, List.length_replicate]
    omega
  split at h3
  · cases h3
    rw [List.length_set, hl]
    omega
  · cases h3

theorem MultiVec.grow_calls (h : v1.grow p e V w1 = (.ok (.ok (), v2), w2)) :
    ∃ va wa, v1.flushIfFull p w1 = (.ok va, wa) ∧ va.addToIndex p e V wa = (.ok v2, w2) := by
  unfold MultiVec.grow at h
  obtain ⟨r, wa, h1, h⟩ := Act.bind_eq_ok h
  cases r with
  | error x => cases h
  | ok va =>
    dsimp only at h
    obtain ⟨r, wb, h2, h⟩ := Act.bind_eq_ok h
    cases r with
    | error x => cases h
    | ok vb =>
      cases h
      exact ⟨va, wa, Act.attempt_inv h1, Act.attempt_inv h2⟩

theorem mappends_calls (g : MAppends p e V w v n b w1 v1) (hi : v.index.data.length = 8) (hv : v.data.length = 8) :
    ∃ x y, w1.fs.tick - w.fs.tick ≤ x + y ∧
      ((bufferLimit - 7) * x + v1.index.data.length ≤ n * V.indexSize + 8 ∧ (bufferLimit - 7) * x ≤ n * V.indexSize) ∧
      (bufferLimit - 7) * y + v1.data.length ≤ b + 8 ∧ (bufferLimit - 7) * y ≤ b := by
  have hlim : bufferLimit = 33554432 := by decide
  induction g with
  | start => exact ⟨0, 0, by omega, by omega, by omega⟩
  | @grow n b w1 v1 v2 w2 g h ih =>
    obtain ⟨x, y, h1, h2, h3⟩ := ih
    obtain ⟨va, wa, ha, hb⟩ := MultiVec.grow_calls h
    obtain ⟨ei, ca⟩ := MultiVec.flushIfFull_calls ha
    obtain ⟨ed, cb⟩ := MultiVec.addToIndex_calls hb
    rw [ed, Nat.add_mul, Nat.one_mul]
    rw [ei] at cb
    have hA : ∃ y', wa.fs.tick - w.fs.tick ≤ x + y' ∧ (bufferLimit - 7) * y' + va.data.length ≤ b + 8 ∧ (bufferLimit - 7) * y' ≤ b := by
      rcases ca with ⟨_, rfl, rfl⟩ | ⟨c1, c2, c3⟩
      · exact ⟨y, h1, h3⟩
      · refine ⟨y + 1, by omega, ?_⟩
        rw [Nat.mul_add, Nat.mul_one]
        omega
    obtain ⟨y', k1, k2⟩ := hA
    rcases cb with ⟨c1, c2, c3⟩ | ⟨c1, c2, c3⟩
    · exact ⟨x, y', by omega, by omega, k2⟩
    · refine ⟨x + 1, y', by omega, ?_, k2⟩
      rw [Nat.mul_add, Nat.mul_one]
      omega
  | @add n b w1 v1 t d pos S g h d' hd ih =>
    obtain ⟨x, y, h1, h2, h3⟩ := ih
    have hl : d.length ≤ v1.data.length + (1 + S.size) := MultiVec.builderAdd_calls h
    exact ⟨x, y, h1, h2, by dsimp only; omega, by omega⟩

end

namespace Costs

theorem writeAll (s : Nat) (b : Bytes) : Costs 1 (FileSt.writeAll s b) := syscall (fun _ => rfl) fun _ _ => rfl

theorem seekStart (s : Nat) : Costs 1 (FileSt.seekStart s) :=
  syscall (fun _ => rfl) fun k fs => by split <;> rfl

theorem createOutputStream (o : Obj) (name : String) : Costs 3 (FileSt.createOutputStream o name) := by
  have h1 : Costs 1 (FileSt.createDirAll o.path) :=
    syscall (fun fs => by split <;> rfl) fun k fs => by split <;> rfl
  have h2 : Costs 1 (FileSt.fileCreate (join o.path name)) :=
    syscall (fun fs => by split <;> rfl) fun k fs => by split <;> rfl
  unfold FileSt.createOutputStream
  exact ((pathExists _).mapErr _).bind (n := 2) fun x => .ite (h1.bind fun _ => h2) (h2.mono (by omega))

variable (p : Profile) (e : Endian)

theorem writeSize (n : Nat) (s : Nat) : Costs 1 (Storage.writeSize file p e n s) := by
  unfold Storage.writeSize
  exact ((lift _).bind fun b => writeAll s b).mono (by omega)

theorem storageWrite (o : Obj) (name schema : String) (d : Bytes) : Costs 10 (Storage.write file p e o name schema d) := by
  have h : ∀ s, Costs 3 (Storage.writeToStream file p e d s) := by
    intro s
    unfold Storage.writeToStream
    exact (writeSize p e _ s).bind (n := 2) fun _ => (writeAll s d).bind (n := 1) fun _ => writeAll s _
  unfold Storage.write
  exact (createOutputStream o name).bind (n := 7) fun s => (h s).bind (n := 4) fun _ =>
    (createOutputStream o _).bind (n := 1) fun s => writeAll s _

theorem builderNew (o : Obj) (D : ArchiveDef) : Costs 11 (Flatdata.builderNew file p e o D) := by
  unfold Flatdata.builderNew Storage.createArchive
  refine Costs.bind (m := 11) (n := 0) (Costs.bind (m := 1) (n := 10) ((pathExists _).mapErr _) fun x => ?_) fun _ => pure _
  exact .ite ((fail _).mono (Nat.zero_le _)) ((storageWrite p e o _ _ _).mapErr _)

theorem createDataHandle (o : Obj) (name schema : String) : Costs 8 (Flatdata.createDataHandle (B := file) p e o name schema) := by
  unfold Flatdata.createDataHandle Handle.tryNew
  exact (createOutputStream o _).bind (n := 5) fun s => (writeAll s _).bind (n := 4) fun _ =>
    (createOutputStream o _).bind (n := 1) fun s => (writeSize p e _ s).bind (n := 0) fun _ => pure _

theorem createVector (o : Obj) (name schema : String) : Costs 8 (createExternalVector (B := file) p e o name schema) := by
  unfold createExternalVector Handle.tryNew
  exact (createOutputStream o _).bind (n := 5) fun s => (writeAll s _).bind (n := 4) fun _ =>
    (createOutputStream o _).bind (n := 1) fun s => ((writeSize p e _ s).bind (n := 0) fun _ => pure _).bind (n := 0) fun _ => pure _

theorem handleDrop (h : Handle file) : Costs 0 (h.drop : Act FileW E Unit) := by
  unfold Handle.drop
  exact .ite (lift _) (pure _)

theorem createMulti (o : Obj) (name schema : String) : Costs 16 (createMultiVector (B := file) p e o name schema) := by
  unfold createMultiVector
  refine (createVector p e o _ _).bind (n := 8) fun i => (createDataHandle p e o _ _).attempt.bind (n := 0) fun r => ?_
  cases r with
  | error x => exact (handleDrop _).bind (n := 0) fun _ => fail _
  | ok h => exact pure _

variable [DiffLib]

omit [DiffLib] in
theorem ofExcept (x : Except E' α) : Costs 0 (Act.ofExcept x : Act FileW E' α) := by
  intro w
  cases x <;> exact Nat.le_refl _

theorem handleClose (h : Handle file) : Costs 9 (h.close p e) := by
  unfold Handle.close
  cases h.stream with
  | none => exact (pure _).mono (Nat.zero_le _)
  | some s =>
    have hf : Costs 3 (h.finish p e s) := by
      unfold Handle.finish
      exact (writeAll s _).bind (n := 2) fun _ => (seekStart s).bind (n := 1) fun _ => writeSize p e _ s
    refine hf.attempt.bind (n := 6) fun r => ?_
    cases r with
    | error x => exact (pure _).mono (Nat.zero_le _)
    | ok u => exact (storageRead p e _ _ _).attempt.bind (n := 0) fun _ => pure _

theorem vecClose (v : ExtVec file) : Costs 10 (v.close p e) := by
  unfold ExtVec.close
  refine (flush p v).attempt.bind (n := 9) fun r => ?_
  cases r with
  | error x => exact ((handleDrop _).bind (n := 0) fun _ => fail _).mono (Nat.zero_le _)
  | ok v =>
    change Costs 9 (v.closeHandle p e)
    unfold ExtVec.closeHandle
    exact ((handleClose p e _).mapErr _).bind (n := 0) fun r => (handleDrop _).bind (n := 0) fun _ => ofExcept _

omit [DiffLib] in
theorem multiFlush (v : MultiVec file) : Costs 1 (v.flush p) := by
  unfold MultiVec.flush
  exact ((lift _).bind (n := 1) fun n => (lift _).bind (n := 1) fun d => (handleWrite p _ d).bind (n := 0) fun h =>
    (lift _).bind (n := 0) fun _ => pure _).mono (by omega)

omit [DiffLib] in
theorem vecGrow (v : ExtVec file) (size : Nat) : Costs 1 (v.grow p size) := by
  unfold ExtVec.grow ExtVec.flushIfFull
  exact ((Costs.ite (flush p v) ((pure _).mono (by omega))).bind (n := 0) fun v => (lift _).bind (n := 0) fun _ =>
    (lift _).bind (n := 0) fun _ => (lift _).bind (n := 0) fun _ => (lift _).bind (n := 0) fun _ =>
    (lift _).bind (n := 0) fun _ => pure _)

omit [DiffLib] in
theorem addToIndex (V : Variadic) (v : MultiVec file) : Costs 1 (v.addToIndex p e V) := by
  unfold MultiVec.addToIndex
  exact (vecGrow p _ _).bind (n := 0) fun _ => (lift _).bind (n := 0) fun _ =>
    (lift _).bind (n := 0) fun _ => (lift _).bind (n := 0) fun _ => pure _

omit [DiffLib] in
theorem multiDrop (v : MultiVec file) : Costs 0 (v.drop : Act FileW E Unit) := by
  unfold MultiVec.drop
  exact (handleDrop _).bind (n := 0) fun _ => handleDrop _

theorem multiClose (V : Variadic) (v : MultiVec file) : Costs 21 (v.close p e V) := by
  unfold MultiVec.close
  refine (addToIndex p e V v).attempt.bind (n := 20) fun r => ?_
  cases r with
  | error x => exact ((multiDrop _).bind (n := 0) fun _ => fail _).mono (Nat.zero_le _)
  | ok v =>
    change Costs 20 (v.closeFlush p e)
    unfold MultiVec.closeFlush
    refine (multiFlush p v).attempt.bind (n := 19) fun r => ?_
    cases r with
    | error x => exact ((multiDrop _).bind (n := 0) fun _ => fail _).mono (Nat.zero_le _)
    | ok v =>
      change Costs 19 (v.closeIndex p e)
      unfold MultiVec.closeIndex
      refine (vecClose p e _).attempt.bind (n := 9) fun r => ?_
      cases r with
      | error x => exact ((handleDrop _).bind (n := 0) fun _ => fail _).mono (Nat.zero_le _)
      | ok i =>
        change Costs 9 (v.closeData p e i)
        unfold MultiVec.closeData
        exact ((handleClose p e _).mapErr _).bind (n := 0) fun r => (handleDrop _).bind (n := 0) fun _ => (ofExcept _).bind (n := 0) fun _ => pure _

end Costs
end Flatdata
