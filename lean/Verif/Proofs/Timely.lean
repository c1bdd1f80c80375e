import Verif.Proofs.ExtVector
import Verif.Proofs.LawsFile
import Verif.Model.MultiVector
/-!
# What happens does not depend on failures in the future
-/
namespace Flatdata

/-- The world in which further system calls fare as `f` says. -/
def faring (w : FileW) (f : Nat → Option Nat) : FileW := { w with fs := { w.fs with fault := f } }

/-- Code that makes system calls in the order of time: what it does depends on how the calls fare that it makes. -/
structure Timely {E α : Type} (x : Act FileW E α) : Prop where
  same : ∀ w g, (∀ t, w.fs.tick ≤ t → t < (x w).2.fs.tick → g t = w.fs.fault t) → x (faring w g) = ((x w).1, faring (x w).2 g)
  later : ∀ w, w.fs.tick ≤ (x w).2.fs.tick
  fault : ∀ w, (x w).2.fs.fault = w.fs.fault

namespace Timely
variable {E E' α β : Type}

theorem pure (a : α) : Timely (Pure.pure a : Act FileW E α) := ⟨fun _ _ _ => rfl, fun _ => Nat.le_refl _, fun _ => rfl⟩
theorem fail (a : E) : Timely (Act.fail a : Act FileW E α) := ⟨fun _ _ _ => rfl, fun _ => Nat.le_refl _, fun _ => rfl⟩
theorem lift (a : Out α) : Timely (Act.lift a : Act FileW E α) := by
  cases a <;> exact ⟨fun _ _ _ => rfl, fun _ => Nat.le_refl _, fun _ => rfl⟩

theorem bind {x : Act FileW E α} {f : α → Act FileW E β} (hx : Timely x) (hf : ∀ a, Timely (f a)) : Timely (x >>= f) := by
  have key : ∀ w, (∃ a w1, x w = (.ok a, w1) ∧ (x >>= f) w = f a w1) ∨
      ∃ r w1, (x >>= f) w = (r, w1) ∧ (x w).2 = w1 ∧ ∀ g, x (faring w g) = ((x w).1, faring (x w).2 g) → (x >>= f) (faring w g) = (r, faring w1 g) := by
    intro w
    cases h : x w with
    | mk r w1 =>
      cases r with
      | ok a => exact .inl ⟨a, w1, rfl, Act.bind_ok h⟩
      | err e => exact .inr ⟨.err e, w1, Act.bind_err h, rfl, fun g hg => Act.bind_err hg⟩
      | panic => exact .inr ⟨.panic, w1, Act.bind_panic h, rfl, fun g hg => Act.bind_panic hg⟩
      | ub => exact .inr ⟨.ub, w1, by rw [Act.bind_def, h], rfl, fun g hg => by rw [Act.bind_def, hg]⟩
  refine ⟨fun w g hg => ?_, fun w => ?_, fun w => ?_⟩
  · rcases key w with ⟨a, w1, h1, h2⟩ | ⟨r, w1, h1, h2, h3⟩
    · rw [h2] at hg ⊢
      have l1 := hx.later w
      have f1 := hx.fault w
      have s1 := hx.same w g
      rw [h1] at l1 f1 s1
      have l2 := (hf a).later w1
      rw [Act.bind_ok (s1 fun t h h' => hg t h (Nat.lt_of_lt_of_le h' l2))]
      exact (hf a).same w1 g fun t h h' => by rw [hg t (Nat.le_trans l1 h) h']; exact (congrFun f1 t).symm
    · rw [h1] at hg ⊢
      exact h3 g (hx.same w g (by rw [h2]; exact hg))
  · rcases key w with ⟨a, w1, h1, h2⟩ | ⟨r, w1, h1, h2, _⟩
    · rw [h2]
      have l1 := hx.later w
      rw [h1] at l1
      exact Nat.le_trans l1 ((hf a).later w1)
    · rw [h1]; exact h2 ▸ hx.later w
  · rcases key w with ⟨a, w1, h1, h2⟩ | ⟨r, w1, h1, h2, _⟩
    · rw [h2]
      have f1 := hx.fault w
      rw [h1] at f1
      exact ((hf a).fault w1).trans f1
    · rw [h1]; exact h2 ▸ hx.fault w

theorem mapErr {x : Act FileW E α} (f : E → E') (h : Timely x) : Timely (x.mapErr f) := by
  have key : ∀ w, ((x.mapErr f) w).2 = (x w).2 := fun w => by unfold Act.mapErr; cases x w with | mk r w1 => cases r <;> rfl
  refine ⟨fun w g hg => ?_, fun w => key w ▸ h.later w, fun w => key w ▸ h.fault w⟩
  rw [key] at hg ⊢
  unfold Act.mapErr
  rw [h.same w g hg]
  cases x w with | mk r w1 => cases r <;> rfl

theorem attempt {x : Act FileW E α} (h : Timely x) : Timely (Act.attempt x : Act FileW E' (Except E α)) := by
  have key : ∀ w, ((Act.attempt x : Act FileW E' (Except E α)) w).2 = (x w).2 := fun w => by
    unfold Act.attempt; cases x w with | mk r w1 => cases r <;> rfl
  refine ⟨fun w g hg => ?_, fun w => key w ▸ h.later w, fun w => key w ▸ h.fault w⟩
  rw [key] at hg ⊢
  unfold Act.attempt
  rw [h.same w g hg]
  cases x w with | mk r w1 => cases r <;> rfl

/-- One system call that does not look at the future. -/
theorem syscall {normal : FS → Res IoErr α × FS} {faulty : Nat → FS → FS}
    (h1 : ∀ fs g, normal { fs with fault := g } = ((normal fs).1, { (normal fs).2 with fault := g }))
    (h2 : ∀ k fs g, faulty k { fs with fault := g } = { faulty k fs with fault := g })
    (t1 : ∀ fs, (normal fs).2.tick = fs.tick ∧ (normal fs).2.fault = fs.fault)
    (t2 : ∀ k fs, (faulty k fs).tick = fs.tick ∧ (faulty k fs).fault = fs.fault) : Timely (FileSt.syscall normal faulty) := by
  have tick : ∀ w, (FileSt.syscall normal faulty w).2.fs.tick = w.fs.tick + 1 := by
    intro w
    unfold FileSt.syscall
    cases w.fs.fault w.fs.tick with
    | none => exact (t1 _).1
    | some k => exact (t2 k _).1
  refine ⟨fun w g hg => ?_, fun w => by rw [tick]; omega, fun w => ?_⟩
  · have hg := hg w.fs.tick (Nat.le_refl _) (by rw [tick]; omega)
    unfold FileSt.syscall
    change (match g w.fs.tick with
      | none => _
      | some k => _) = _
    rw [hg]
    cases w.fs.fault w.fs.tick with
    | none =>
      have := h1 { w.fs with tick := w.fs.tick + 1 } g
      change ((normal { { w.fs with tick := w.fs.tick + 1 } with fault := g }).1,
        { w with fs := (normal { { w.fs with tick := w.fs.tick + 1 } with fault := g }).2 }) = _
      rw [this]; rfl
    | some k =>
      have := h2 k { w.fs with tick := w.fs.tick + 1 } g
      change (Res.err IoErr.other, { w with fs := faulty k { { w.fs with tick := w.fs.tick + 1 } with fault := g } }) = _
      rw [this]; rfl
  · unfold FileSt.syscall
    cases w.fs.fault w.fs.tick with
    | none => exact (t1 _).2
    | some k => exact (t2 k _).2

theorem writeAll (s : Nat) (b : Bytes) : Timely (FileSt.writeAll s b) := by
  unfold FileSt.writeAll
  exact syscall (fun _ _ => rfl) (fun _ _ _ => rfl) (fun _ => ⟨rfl, rfl⟩) fun _ _ => ⟨rfl, rfl⟩

theorem seekStart (s : Nat) : Timely (FileSt.seekStart s) := by
  unfold FileSt.seekStart
  refine syscall (fun _ _ => rfl) (fun k fs g => ?_) (fun _ => ⟨rfl, rfl⟩) fun k fs => ?_
  · dsimp only; split <;> rfl
  · dsimp only; split <;> exact ⟨rfl, rfl⟩

theorem fileOpen (q : Path) : Timely (FileSt.fileOpen q) := by
  refine syscall (fun fs g => ?_) (fun _ _ _ => rfl) (fun fs => ?_) fun _ _ => ⟨rfl, rfl⟩
  · by_cases h : ((fs.files (key q)).isSome || FileSt.dirOK fs (key q)) = true
    · have h' : (({ fs with fault := g } : FS).files (key q)).isSome || FileSt.dirOK { fs with fault := g } (key q) := h
      rw [if_pos h, if_pos h']
    · have h' : ¬ ((({ fs with fault := g } : FS).files (key q)).isSome || FileSt.dirOK { fs with fault := g } (key q)) = true := h
      rw [if_neg h, if_neg h']
  · split <;> exact ⟨rfl, rfl⟩

theorem mmapLen (k : Key) : Timely (FileSt.mmapLen k) := by
  refine syscall (fun fs g => ?_) (fun _ _ _ => rfl) (fun fs => ?_) fun _ _ => ⟨rfl, rfl⟩
  · dsimp only
    cases fs.files k with
    | none => rfl
    | some d => dsimp only; split <;> rfl
  · cases fs.files k with
    | none => exact ⟨rfl, rfl⟩
    | some d => dsimp only; split <;> exact ⟨rfl, rfl⟩

theorem pathExists (q : Path) : Timely (FileSt.pathExists q) := by
  have h : Timely (FileSt.syscall (fun fs => ((.ok ((fs.files (key q)).isSome || (q ≠ [] && FileSt.dirOK fs (key q))) : Res IoErr Bool), fs))
      (fun _ fs => fs)) := syscall (fun _ _ => rfl) (fun _ _ _ => rfl) (fun _ => ⟨rfl, rfl⟩) fun _ _ => ⟨rfl, rfl⟩
  have key : ∀ w, (FileSt.pathExists q w).2 = (FileSt.syscall (fun fs => ((.ok ((fs.files (key q)).isSome ||
      (q ≠ [] && FileSt.dirOK fs (key q))) : Res IoErr Bool), fs)) (fun _ fs => fs) w).2 := by
    intro w
    unfold FileSt.pathExists
    split
    · rename_i heq; rw [heq]
    · rename_i heq; rw [heq]
  refine ⟨fun w g hg => ?_, fun w => key w ▸ h.later w, fun w => key w ▸ h.fault w⟩
  rw [key] at hg ⊢
  have := h.same w g hg
  unfold FileSt.pathExists
  rw [this]
  cases FileSt.syscall (fun fs => ((.ok ((fs.files (Flatdata.key q)).isSome || (q ≠ [] && FileSt.dirOK fs (Flatdata.key q))) : Res IoErr Bool), fs))
      (fun _ fs => fs) w with
  | mk r w1 => cases r <;> rfl

theorem readResource (o : Obj) (n : String) : Timely (FileSt.readResource o n) := by
  unfold FileSt.readResource
  refine .bind ((pathExists _).mapErr _) fun x => ?_
  split
  · exact fail _
  · have hi : ∀ q k m, Timely (FileSt.insertMap o q k m) := fun q k m => ⟨fun _ _ _ => rfl, fun _ => Nat.le_refl _, fun _ => rfl⟩
    have hm : Timely (do
        let k ← FileSt.fileOpen (join o.path n)
        let m ← FileSt.mmapLen k
        FileSt.insertMap o (join o.path n) k m : Act FileW IoErr (Slice Key)) :=
      .bind (fileOpen _) fun k => .bind (mmapLen k) fun m => hi _ k m
    have key : ∀ w, w.maps o.id (join o.path n) = none → FileSt.mapRead o (join o.path n) w = (do
        let k ← FileSt.fileOpen (join o.path n)
        let m ← FileSt.mmapLen k
        FileSt.insertMap o (join o.path n) k m : Act FileW IoErr (Slice Key)) w := by
      intro w h; unfold FileSt.mapRead; rw [h]
    have hit : ∀ w k m, w.maps o.id (join o.path n) = some (k, m) → FileSt.mapRead o (join o.path n) w = (.ok ⟨k, 0, m⟩, w) := by
      intro w k m h; unfold FileSt.mapRead; rw [h]
    refine ⟨fun w g hg => ?_, fun w => ?_, fun w => ?_⟩ <;> cases h : w.maps o.id (join o.path n) with
      | none => first
        | (rw [key w h] at hg ⊢; rw [key (faring w g) h]; exact hm.same w g hg)
        | (rw [key w h]; exact hm.later w)
        | (rw [key w h]; exact hm.fault w)
      | some km => first
        | (rw [hit w _ _ h, hit (faring w g) _ _ h])
        | (rw [hit w _ _ h]; exact Nat.le_refl _)
        | (rw [hit w _ _ h])

theorem load (s : Slice Key) : Timely (file.load s : Act FileW E Bytes) :=
  ⟨fun w g hg => (lift (E := E) (file.deref w s)).same w g hg, fun w => (lift (E := E) (file.deref w s)).later w,
    fun w => (lift (E := E) (file.deref w s)).fault w⟩

theorem storageRead [DiffLib] (p : Profile) (e : Endian) (o : Obj) (name expected : String) :
    Timely (Storage.read file p e o name expected) := by
  unfold Storage.read
  refine .bind ((readResource o _).mapErr _) fun d => .bind ((readResource o _).mapErr _) fun s => ?_
  unfold Storage.checkResource
  split
  · exact fail _
  · refine .bind (load _) fun _ => .bind (lift _) fun _ => .bind (lift _) fun _ => .bind (lift _) fun _ => ?_
    split
    · exact fail _
    · refine .bind (load _) fun _ => ?_
      unfold Storage.checkSchema
      split
      · exact fail _
      · split
        · exact fail _
        · exact lift _

theorem handleWrite (p : Profile) (h : Handle file) (b : Bytes) : Timely (h.write p b) := by
  unfold Handle.write
  split
  · exact fail _
  · exact .bind (writeAll _ b) fun _ => .bind (lift _) fun _ => pure _

theorem drop (h : Handle file) : Timely (h.drop (E := E)) := by
  unfold Handle.drop
  split
  · exact lift _
  · exact pure _

theorem handleClose [DiffLib] (p : Profile) (e : Endian) (h : Handle file) : Timely (h.close p e) := by
  unfold Handle.close
  split
  · exact pure _
  · refine .bind (.attempt ?_) fun r => ?_
    · unfold Handle.finish Storage.writeSize
      exact .bind (writeAll _ _) fun _ => .bind (seekStart _) fun _ => .bind (lift _) fun _ => writeAll _ _
    · split
      · exact pure _
      · exact .bind (.attempt (storageRead p e _ _ _)) fun _ => pure _

theorem flush (p : Profile) (v : ExtVec file) : Timely (v.flush p) := by
  unfold ExtVec.flush
  exact .bind (lift _) fun _ => .bind (lift _) fun _ => .bind (handleWrite p _ _) fun _ => pure _

theorem close [DiffLib] (p : Profile) (e : Endian) (v : ExtVec file) : Timely (v.close p e) := by
  unfold ExtVec.close
  refine .bind (.attempt (flush p v)) fun r => ?_
  split
  · exact .bind (drop _) fun _ => fail _
  · unfold ExtVec.closeHandle
    refine .bind ((handleClose p e _).mapErr _) fun r => .bind (drop _) fun _ => ?_
    unfold Act.ofExcept
    split
    · exact pure _
    · exact fail _

theorem grow (p : Profile) (size : Nat) (v : ExtVec file) : Timely (v.grow p size) := by
  unfold ExtVec.grow
  refine .bind ?_ fun _ => .bind (lift _) fun _ => .bind (lift _) fun _ => .bind (lift _) fun _ => .bind (lift _) fun _ =>
    .bind (lift _) fun _ => pure _
  unfold ExtVec.flushIfFull
  split
  · exact flush p v
  · exact pure _

theorem addToIndex (p : Profile) (e : Endian) (V : Variadic) (v : MultiVec file) : Timely (v.addToIndex p e V) := by
  unfold MultiVec.addToIndex
  exact .bind (grow p _ _) fun _ => .bind (lift _) fun _ => .bind (lift _) fun _ => .bind (lift _) fun _ => pure _

theorem multiFlush (p : Profile) (v : MultiVec file) : Timely (v.flush p) := by
  unfold MultiVec.flush
  exact .bind (lift _) fun _ => .bind (lift _) fun _ => .bind (handleWrite p _ _) fun _ => .bind (lift _) fun _ => pure _

/-- Replaying a run with another future. -/
theorem replay {x : Act FileW E α} (h : Timely x) {w w' : FileW} {r} (hx : x w = (r, w')) {g : Nat → Option Nat}
    (hg : ∀ t, t < w'.fs.tick → g t = w.fs.fault t) : x (faring w g) = (r, faring w' g) := by
  have := h.same w g (by rw [hx]; exact fun t _ ht => hg t ht)
  rw [hx] at this; exact this

end Timely
end Flatdata
