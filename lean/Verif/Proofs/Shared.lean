import Verif.Spec.Shared
import Verif.Proofs.InterruptRun
/-!
# The moments of a process: how files change from one to the next
-/
namespace Flatdata
open Spec

/-- The same world with other faults. -/
def withFault (g : Nat → Option Nat) (w : FileW) : FileW := { w with fs := { w.fs with fault := g } }

/-- From now on system calls do nothing. -/
def Frozen (w : FileW) : Prop := ∀ t, w.fs.tick ≤ t → w.fs.fault t = some 0

/-- Code that touches the file system by system calls only. -/
structure Tame {E α : Type} (x : Act FileW E α) : Prop where
  tick : ∀ w, w.fs.tick ≤ (x w).2.fs.tick
  loc : ∀ w g, (∀ t, w.fs.tick ≤ t → t < (x w).2.fs.tick → g t = w.fs.fault t) → x (withFault g w) = ((x w).1, withFault g (x w).2)
  still : ∀ w, Frozen w → (x w).2.fs.files = w.fs.files

namespace Tame
variable {E E' α β : Type}

theorem fault {x : Act FileW E α} (h : Tame x) (w : FileW) : (x w).2.fs.fault = w.fs.fault := by
  have := h.loc w w.fs.fault fun _ _ _ => rfl
  rw [show withFault w.fs.fault w = w from rfl] at this
  have := congrArg (fun y => y.2.fs.fault) this
  exact this

theorem frozen {x : Act FileW E α} (h : Tame x) {w : FileW} (hf : Frozen w) : Frozen (x w).2 := by
  intro t ht
  rw [h.fault]
  exact hf t (Nat.le_trans (h.tick w) ht)

theorem pure (a : α) : Tame (Pure.pure a : Act FileW E α) := ⟨fun _ => Nat.le_refl _, fun _ _ _ => rfl, fun _ _ => rfl⟩
theorem fail (e : E) : Tame (Act.fail e : Act FileW E α) := ⟨fun _ => Nat.le_refl _, fun _ _ _ => rfl, fun _ _ => rfl⟩
theorem lift (x : Out α) : Tame (Act.lift x : Act FileW E α) := by
  cases x <;> exact ⟨fun _ => Nat.le_refl _, fun _ _ _ => rfl, fun _ _ => rfl⟩

theorem bind {x : Act FileW E α} {f : α → Act FileW E β} (hx : Tame x) (hf : ∀ a, Tame (f a)) : Tame (x >>= f) := by
  refine ⟨fun w => ?_, fun w g hg => ?_, fun w hw => ?_⟩
  · have h1 := hx.tick w
    rw [Act.bind_def]
    split
    · rename_i a w1 h
      rw [h] at h1
      exact Nat.le_trans h1 ((hf a).tick w1)
    all_goals (rename_i w1 h; rw [h] at h1; exact h1)
  · have h1 := hx.tick w
    have h2 : ∀ t, w.fs.tick ≤ t → t < (x w).2.fs.tick → g t = w.fs.fault t := by
      intro t h3 h4
      refine hg t h3 (Nat.lt_of_lt_of_le h4 ?_)
      rw [Act.bind_def]
      split
      · rename_i a w1 h
        rw [h]; exact (hf a).tick w1
      all_goals (rename_i w1 h; rw [h]; exact Nat.le_refl _)
    have h3 := hx.loc w g h2
    have h4 := hx.fault w
    rw [Act.bind_def, Act.bind_def] at *
    rw [h3]
    cases h : x w with
    | mk r w1 =>
      rw [h] at hg h1 h4
      cases r with
      | ok a =>
        refine (hf a).loc w1 g fun t h5 h6 => ?_
        rw [hg t (Nat.le_trans h1 h5) h6]
        exact (congrFun h4 t).symm
      | err x => rfl
      | panic => rfl
      | ub => rfl
  · have h1 := hx.still w hw
    have h2 := hx.frozen hw
    rw [Act.bind_def]
    split
    · rename_i a w1 h
      rw [h] at h1 h2
      exact ((hf a).still w1 h2).trans h1
    all_goals (rename_i w1 h; rw [h] at h1; exact h1)

theorem mapErr {x : Act FileW E α} {f : E → E'} (h : Tame x) : Tame (x.mapErr f) := by
  have e : ∀ w, (x.mapErr f w).2 = (x w).2 := fun w => by unfold Act.mapErr; split <;> rename_i h <;> rw [h]
  refine ⟨fun w => by rw [e]; exact h.tick w, fun w g hg => ?_, fun w hw => by rw [e]; exact h.still w hw⟩
  rw [e] at hg
  have := h.loc w g hg
  unfold Act.mapErr
  rw [this]
  cases hx : x w with
  | mk r w1 => cases r <;> rfl

theorem attempt {x : Act FileW E α} (h : Tame x) : Tame (x.attempt : Act FileW E' (Except E α)) := by
  have e : ∀ w, ((x.attempt : Act FileW E' (Except E α)) w).2 = (x w).2 := fun w => by unfold Act.attempt; split <;> rename_i h <;> rw [h]
  refine ⟨fun w => by rw [e]; exact h.tick w, fun w g hg => ?_, fun w hw => by rw [e]; exact h.still w hw⟩
  rw [e] at hg
  have := h.loc w g hg
  unfold Act.attempt
  rw [this]
  cases hx : x w with
  | mk r w1 => cases r <;> rfl

theorem ofExcept (x : Except E α) : Tame (Act.ofExcept x : Act FileW E α) := by
  cases x
  · exact .fail _
  · exact .pure _

theorem foldlM {f : β → α → Act FileW E β} (h : ∀ b a, Tame (f b a)) : ∀ (l : List α) (b : β), Tame (l.foldlM f b)
  | [], b => .pure b
  | a :: l, b => by rw [List.foldlM_cons]; exact .bind (h b a) fun b' => foldlM h l b'

/-- A system call. -/
theorem syscall {normal : FS → Res IoErr α × FS} {faulty : Nat → FS → FS}
    (h1 : ∀ fs g, normal { fs with fault := g } = ((normal fs).1, { (normal fs).2 with fault := g }))
    (h2 : ∀ k fs g, faulty k { fs with fault := g } = { faulty k fs with fault := g })
    (h3 : ∀ fs, (normal fs).2.tick = fs.tick) (h4 : ∀ k fs, (faulty k fs).tick = fs.tick)
    (h5 : ∀ fs, (faulty 0 fs).files = fs.files) : Tame (FileSt.syscall normal faulty) := by
  have ht : ∀ w, (FileSt.syscall normal faulty w).2.fs.tick = w.fs.tick + 1 := by
    intro w
    unfold FileSt.syscall
    split
    · exact h3 _
    · exact h4 _ _
  refine ⟨fun w => by rw [ht]; omega, fun w g hg => ?_, fun w hw => ?_⟩
  · have := hg w.fs.tick (Nat.le_refl _) (by rw [ht]; omega)
    unfold FileSt.syscall
    simp only [withFault, this]
    split
    · have := h1 { w.fs with tick := w.fs.tick + 1 } g
      simp only at this
      simp only [this]
    · have := h2 ‹_› { w.fs with tick := w.fs.tick + 1 } g
      simp only at this
      simp only [this]
  · unfold FileSt.syscall
    rw [hw _ (Nat.le_refl _)]
    exact h5 _

end Tame

/-! ## the storage -/

namespace FileSt

theorem tame_pathExists (p : Path) : Tame (pathExists p) := by
  have h := Tame.syscall (α := Bool) (normal := fun fs => (.ok ((fs.files (key p)).isSome || (p ≠ [] && dirOK fs (key p))), fs))
    (faulty := fun _ fs => fs) (fun _ _ => rfl) (fun _ _ _ => rfl) (fun _ => rfl) (fun _ _ => rfl) (fun _ => rfl)
  have e : ∀ w, (pathExists p w).2 = (syscall (α := Bool) (fun fs => (.ok ((fs.files (key p)).isSome || (p ≠ [] && dirOK fs (key p))), fs))
    (fun _ fs => fs) w).2 := fun w => by unfold pathExists; split <;> rename_i h <;> rw [h]
  refine ⟨fun w => by rw [e]; exact h.tick w, fun w g hg => ?_, fun w hw => by rw [e]; exact h.still w hw⟩
  rw [e] at hg
  have := h.loc w g hg
  unfold pathExists
  rw [this]
  generalize syscall (α := Bool) (fun fs => (.ok ((fs.files (key p)).isSome || (p ≠ [] && dirOK fs (key p))), fs))
    (fun _ fs => fs) w = y
  obtain ⟨r, w1⟩ := y
  cases r <;> rfl

theorem tame_createDirAll (p : Path) : Tame (createDirAll p) := by
  unfold createDirAll
  have hb : ∀ fs g, blocked { fs with fault := g } (key p) = blocked fs (key p) := fun _ _ => rfl
  refine .syscall (fun fs g => ?_) (fun k fs g => ?_) (fun fs => ?_) (fun k fs => ?_) (fun fs => ?_)
  · simp only [hb]; split <;> rfl
  · simp only [hb]; split <;> rfl
  · split <;> rfl
  · split <;> rfl
  · split <;> rfl

theorem tame_fileCreate (p : Path) : Tame (fileCreate p) := by
  unfold fileCreate
  have hb : ∀ fs g, canCreate { fs with fault := g } (key p) = canCreate fs (key p) := fun _ _ => rfl
  refine .syscall (fun fs g => ?_) (fun k fs g => ?_) (fun fs => ?_) (fun k fs => ?_) (fun fs => ?_)
  · simp only [hb]; split <;> rfl
  · simp only [hb]; split <;> rfl
  · split <;> rfl
  · split <;> rfl
  · rw [if_neg (by omega)]

theorem tame_fileOpen (p : Path) : Tame (fileOpen p) := by
  unfold fileOpen
  have hb : ∀ fs g, dirOK { fs with fault := g } (key p) = dirOK fs (key p) := fun _ _ => rfl
  refine .syscall (fun fs g => ?_) (fun k fs g => rfl) (fun fs => ?_) (fun k fs => rfl) (fun fs => rfl)
  · simp only [hb]; split <;> rfl
  · split <;> rfl

theorem tame_mmapLen (k : Key) : Tame (mmapLen k) := by
  unfold mmapLen
  refine .syscall (fun fs g => ?_) (fun k fs g => rfl) (fun fs => ?_) (fun k fs => rfl) (fun fs => rfl)
  · simp only
    split
    · rfl
    · split <;> rfl
  · split
    · rfl
    · split <;> rfl

theorem putAt_nil (c : Bytes) (n : Nat) : putAt c n [] = c := by unfold putAt; rw [if_pos rfl]

theorem tame_writeAll (s : Nat) (b : Bytes) : Tame (writeAll s b) := by
  unfold writeAll
  refine .syscall (fun fs g => rfl) (fun k fs g => rfl) (fun fs => rfl) (fun k fs => rfl) (fun fs => ?_)
  funext k
  simp only [List.take_zero, putAt_nil, Option.map_id_fun', id_eq]
  unfold upd
  split
  · rename_i h; rw [h]
  · rfl

theorem tame_seekStart (s : Nat) : Tame (seekStart s) := by
  unfold seekStart
  refine .syscall (fun fs g => rfl) (fun k fs g => ?_) (fun fs => rfl) (fun k fs => ?_) (fun fs => ?_)
  · simp only; split <;> rfl
  · split <;> rfl
  · rw [if_neg (by omega)]

theorem tame_subdir (o : Obj) (d : String) : Tame (subdir o d) := ⟨fun _ => Nat.le_refl _, fun _ _ _ => rfl, fun _ _ => rfl⟩

theorem tame_mapRead (o : Obj) (p : Path) : Tame (mapRead o p) := by
  have h : Tame (do
    let k ← fileOpen p
    let n ← mmapLen k
    insertMap o p k n : Act FileW IoErr (Slice Key)) :=
    .bind (tame_fileOpen p) fun k => .bind (tame_mmapLen k) fun n => ⟨fun _ => Nat.le_refl _, fun _ _ _ => rfl, fun _ _ => rfl⟩
  refine ⟨fun w => ?_, fun w g hg => ?_, fun w hw => ?_⟩
  · unfold mapRead
    split
    · exact Nat.le_refl _
    · exact h.tick w
  · unfold mapRead at hg ⊢
    cases hm : w.maps o.id p with
    | some x =>
      have : (withFault g w).maps o.id p = some x := hm
      simp only [this]
    | none =>
      have : (withFault g w).maps o.id p = none := hm
      simp only [hm] at hg
      simp only [this]
      exact h.loc w g hg
  · unfold mapRead
    split
    · rfl
    · exact h.still w hw

theorem tame_readResource (o : Obj) (n : String) : Tame (readResource o n) := by
  unfold readResource
  refine .bind (.mapErr (tame_pathExists _)) fun x => ?_
  split
  · exact .fail _
  · exact tame_mapRead _ _

theorem tame_createOutputStream (o : Obj) (n : String) : Tame (createOutputStream o n) := by
  unfold createOutputStream
  refine .bind (.mapErr (tame_pathExists _)) fun x => ?_
  split
  · exact .bind (tame_createDirAll _) fun _ => tame_fileCreate _
  · exact tame_fileCreate _

end FileSt

/-! ## the code above it -/

section
variable {p : Profile} {e : Endian}

theorem tame_writeSize (n : Nat) (s : Nat) : Tame (Storage.writeSize file p e n s) := .bind (.lift _) fun _ => FileSt.tame_writeAll _ _

theorem tame_write (o : Obj) (name schema : String) (b : Bytes) : Tame (Storage.write file p e o name schema b) := by
  unfold Storage.write Storage.writeToStream
  exact .bind (FileSt.tame_createOutputStream _ _) fun _ => .bind (.bind (tame_writeSize _ _) fun _ =>
    .bind (FileSt.tame_writeAll _ _) fun _ => FileSt.tame_writeAll _ _) fun _ => .bind (FileSt.tame_createOutputStream _ _) fun _ =>
    FileSt.tame_writeAll _ _

theorem tame_load {E : Type} (s : Slice Key) : Tame (file.load s : Act FileW E Bytes) := by
  have : ∀ g w, file.deref (withFault g w) s = file.deref w s := fun _ _ => rfl
  refine ⟨fun w => ?_, fun w g _ => ?_, fun w _ => ?_⟩
  · unfold Backend.load
    exact (Tame.lift (E := E) (file.deref w s)).tick w
  · unfold Backend.load
    rw [this]
    cases file.deref w s <;> rfl
  · unfold Backend.load
    cases file.deref w s <;> rfl

variable [DiffLib]

theorem tame_checkResource (name expected : String) (d t : Slice Key) : Tame (Storage.checkResource file p e name expected d t) := by
  unfold Storage.checkResource
  split
  · exact .fail _
  · refine .bind (tame_load _) fun _ => .bind (.lift _) fun _ => .bind (.lift _) fun _ => .bind (.lift _) fun _ => ?_
    split
    · exact .fail _
    · refine .bind (tame_load _) fun _ => ?_
      unfold Storage.checkSchema
      split
      · exact .fail _
      · split
        · exact .fail _
        · exact .lift _

theorem tame_read (o : Obj) (name schema : String) : Tame (Storage.read file p e o name schema) :=
  .bind (.mapErr (FileSt.tame_readResource _ _)) fun _ => .bind (.mapErr (FileSt.tame_readResource _ _)) fun _ => tame_checkResource _ _ _ _

omit [DiffLib] in
theorem tame_builderNew (o : Obj) (D : ArchiveDef) : Tame (builderNew file p e o D) := by
  unfold builderNew Storage.createArchive
  refine .bind (.bind (.mapErr (FileSt.tame_pathExists _)) fun x => ?_) fun _ => .pure _
  split
  · exact .fail _
  · exact .mapErr (tame_write _ _ _ _)

omit [DiffLib] in
theorem tame_builderSub (o : Obj) (name : String) (D : ArchiveDef) : Tame (builderSub file p e o name D) :=
  .bind (.mapErr (FileSt.tame_subdir _ _)) fun _ => tame_builderNew _ _

omit [DiffLib] in
theorem tame_createHandle (o : Obj) (name schema : String) : Tame (createHandle file p e o name schema) :=
  .bind (FileSt.tame_createOutputStream _ _) fun _ => .bind (FileSt.tame_writeAll _ _) fun _ =>
    .bind (FileSt.tame_createOutputStream _ _) fun _ => .bind (tame_writeSize _ _) fun _ => .pure _

omit [DiffLib] in
theorem tame_createExternalVector (o : Obj) (name schema : String) : Tame (createExternalVector (B := file) p e o name schema) := by
  rw [createExternalVector_eq]
  exact .bind (tame_createHandle _ _ _) fun _ => .pure _

omit [DiffLib] in
theorem tame_handleWrite (h : Handle file) (d : Bytes) : Tame (h.write p d) := by
  unfold Handle.write
  split
  · exact .fail _
  · exact .bind (FileSt.tame_writeAll _ _) fun _ => .bind (.lift _) fun _ => .pure _

omit [DiffLib] in
theorem tame_drop {E : Type} (h : Handle file) : Tame (h.drop : Act FileW E Unit) := by
  unfold Handle.drop
  split
  · exact .lift _
  · exact .pure _

omit [DiffLib] in
theorem tame_finish (h : Handle file) (s : Nat) : Tame (h.finish p e s) :=
  .bind (FileSt.tame_writeAll _ _) fun _ => .bind (FileSt.tame_seekStart _) fun _ => tame_writeSize _ _

theorem tame_handleClose (h : Handle file) : Tame (h.close p e) := by
  unfold Handle.close
  split
  · exact .pure _
  · refine .bind (.attempt (tame_finish _ _)) fun r => ?_
    split
    · exact .pure _
    · exact .bind (.attempt (tame_read _ _ _)) fun _ => .pure _

omit [DiffLib] in
theorem tame_flush (v : ExtVec file) : Tame (v.flush p) :=
  .bind (.lift _) fun _ => .bind (.lift _) fun _ => .bind (tame_handleWrite _ _) fun _ => .pure _

omit [DiffLib] in
theorem tame_grow (size : Nat) (v : ExtVec file) : Tame (v.grow p size) := by
  unfold ExtVec.grow ExtVec.flushIfFull
  refine .bind ?_ fun _ => .bind (.lift _) fun _ => .bind (.lift _) fun _ => .bind (.lift _) fun _ => .bind (.lift _) fun _ =>
    .bind (.lift _) fun _ => .pure _
  split
  · exact tame_flush _
  · exact .pure _

theorem tame_closeHandle (v : ExtVec file) : Tame (v.closeHandle p e) :=
  .bind (.mapErr (tame_handleClose _)) fun _ => .bind (tame_drop _) fun _ => .ofExcept _

theorem tame_close (v : ExtVec file) : Tame (v.close p e) := by
  unfold ExtVec.close
  refine .bind (.attempt (tame_flush _)) fun r => ?_
  split
  · exact .bind (tame_drop _) fun _ => .fail _
  · exact tame_closeHandle _

omit [DiffLib] in
theorem tame_createMultiVector (o : Obj) (name schema : String) : Tame (createMultiVector (B := file) p e o name schema) := by
  unfold createMultiVector
  refine .bind (tame_createExternalVector _ _ _) fun i => .bind (.attempt (tame_createHandle o name schema)) fun r => ?_
  split
  · exact .bind (tame_drop _) fun _ => .fail _
  · exact .pure _

omit [DiffLib] in
theorem tame_mvFlush (v : MultiVec file) : Tame (v.flush p) :=
  .bind (.lift _) fun _ => .bind (.lift _) fun _ => .bind (tame_handleWrite _ _) fun _ => .bind (.lift _) fun _ => .pure _

omit [DiffLib] in
theorem tame_mvFlushIfFull (v : MultiVec file) : Tame (v.flushIfFull p) := by
  unfold MultiVec.flushIfFull
  split
  · exact tame_mvFlush _
  · exact .pure _

omit [DiffLib] in
theorem tame_addToIndex (V : Variadic) (v : MultiVec file) : Tame (v.addToIndex p e V) :=
  .bind (tame_grow _ _) fun _ => .bind (.lift _) fun _ => .bind (.lift _) fun _ => .bind (.lift _) fun _ => .pure _

omit [DiffLib] in
theorem tame_mvGrow (V : Variadic) (v : MultiVec file) : Tame (v.grow p e V) := by
  unfold MultiVec.grow
  refine .bind (.attempt (tame_mvFlushIfFull _)) fun r => ?_
  split
  · exact .pure _
  · refine .bind (.attempt (tame_addToIndex _ _)) fun r => ?_
    split <;> exact .pure _

theorem tame_closeData (v : MultiVec file) (i : Slice Key) : Tame (v.closeData p e i) :=
  .bind (.mapErr (tame_handleClose _)) fun _ => .bind (tame_drop _) fun _ => .bind (.ofExcept _) fun _ => .pure _

theorem tame_closeIndex (v : MultiVec file) : Tame (v.closeIndex p e) := by
  unfold MultiVec.closeIndex
  refine .bind (.attempt (tame_close _)) fun r => ?_
  split
  · exact .bind (tame_drop _) fun _ => .fail _
  · exact tame_closeData _ _

omit [DiffLib] in
theorem tame_mvDrop {E : Type} (v : MultiVec file) : Tame (v.drop : Act FileW E Unit) := .bind (tame_drop _) fun _ => tame_drop _

theorem tame_closeFlush (v : MultiVec file) : Tame (v.closeFlush p e) := by
  unfold MultiVec.closeFlush
  refine .bind (.attempt (tame_mvFlush _)) fun r => ?_
  split
  · exact .bind (tame_mvDrop _) fun _ => .fail _
  · exact tame_closeIndex _

theorem tame_mvClose (V : Variadic) (v : MultiVec file) : Tame (v.close p e V) := by
  unfold MultiVec.close
  refine .bind (.attempt (tame_addToIndex _ _)) fun r => ?_
  split
  · exact .bind (tame_mvDrop _) fun _ => .fail _
  · exact tame_closeFlush _

omit [DiffLib] in
theorem tame_growOne (S : StructDef) (v : ExtVec file) (ops : List HandleOp) : Tame (growOne file p e S v ops) :=
  .bind (tame_grow _ _) fun _ => .bind (.lift _) fun _ => .pure _

omit [DiffLib] in
theorem tame_growItem (V : Variadic) (v : MultiVec file) (as : List Add) : Tame (growItem file p e V v as) :=
  .bind (.mapErr (tame_mvGrow _ _)) fun _ => .bind (.ofExcept _) fun _ => .foldlM (fun _ _ => .bind (.lift _) fun _ =>
    .bind (.lift _) fun _ => .pure _) _ _

theorem tame_writeResource (o : Obj) (r : ResDecl) (s : Source) : Tame (writeResource file p e o r s) := by
  unfold writeResource
  split
  · unfold setStruct
    refine .mapErr ?_
    split
    · exact .lift _
    · exact tame_write _ _ _ _
  · exact .mapErr (tame_write _ _ _ _)
  · exact .mapErr (tame_write _ _ _ _)
  · exact .bind (.mapErr (tame_createExternalVector _ _ _)) fun _ => .bind (.mapErr (.foldlM (fun _ _ => tame_growOne _ _ _) _ _)) fun _ =>
      .bind (tame_close _) fun _ => .pure _
  · exact .bind (.mapErr (tame_createMultiVector _ _ _)) fun _ => .bind (.mapErr (.foldlM (fun _ _ => tame_growItem _ _ _) _ _)) fun _ =>
      .bind (tame_mvClose _ _) fun _ => .pure _
  · exact .lift _

theorem tame_run : ∀ (prog : Prog) (o : Obj), Tame (prog.run file p e o)
  | .done, _ => .pure _
  | .res r s rest, o => .bind (tame_writeResource o r s) fun _ => tame_run rest o
  | .sub name D inner rest, o => .bind (tame_builderSub o name D) fun o' => .bind (tame_run inner o') fun _ => tame_run rest o

theorem tame_build (o : Obj) (D : ArchiveDef) (prog : Prog) : Tame (buildArchive file p e o D prog) :=
  .bind (tame_builderNew o D) fun o => tame_run prog o

end
end Flatdata
