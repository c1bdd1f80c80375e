import Verif.Proofs.Reports
import Verif.Props.MvClose
import Verif.Props.Builder
/-!
# Property C63: the caller is told of every failure

For every backend, that is for every implementation of the trait `ResourceStorage`, whatever its calls return.
-/
namespace Flatdata
open Spec StorageExample

/-- C63 in full: every function that writes resources or starts to ends with the first call that fails, and with its error. -/
def C63_claim : Prop :=
  ∀ (B : Backend) (p : Profile) (e : Endian) (o : B.Obj) (name schema : String),
    (∀ data : Bytes, data.length < 2 ^ 64 → Reports (Storage.write B p e o name schema data)) ∧
    Reports (createExternalVector p e o name schema) ∧ Reports (createMultiVector p e o name schema)

namespace ReportsExample

/-- Call number `n` of the operating system fails. -/
def late (n : Nat) : FileW := disk0 [] fun t => if t = n then some 0 else none

def lateMulti (n : Nat) : Res IoErr Unit := ((createMultiVector (B := file) .debug .little objD "m" "s" >>= fun _ => pure ()) (late n)).1
def lateVector (n : Nat) : Res IoErr Unit := ((createExternalVector (B := file) .debug .little objD "m" "s" >>= fun _ => pure ()) (late n)).1
def lateWrite (n : Nat) : Res IoErr Unit := (Storage.write file .debug .little objD "m" "s" [1#8] (late n)).1

/-- The file of the data cannot be created (call 10): the panic of the dropped index is all the caller gets. -/
theorem lateMulti_10 : lateMulti 10 = .panic := by decide +kernel

end ReportsExample
open ReportsExample

/-- Files never panic. -/
theorem calm_file : Calm file := by
  have sys : ∀ {α : Type} (f : FS → Res IoErr α × FS) (g : Nat → FS → FS) (w w' : FileW), (∀ fs, (f fs).1 ≠ .panic ∧ (f fs).1 ≠ .ub) →
      FileSt.syscall f g w ≠ (.panic, w') ∧ FileSt.syscall f g w ≠ (.ub, w') := by
    intro α f g w w' h
    unfold FileSt.syscall
    dsimp only
    split
    · refine ⟨fun h1 => (h _).1 (congrArg Prod.fst h1), fun h1 => (h _).2 (congrArg Prod.fst h1)⟩
    · exact ⟨fun h => (nomatch h), fun h => (nomatch h)⟩
  have bind : ∀ {α β : Type} (x : Act FileW IoErr α) (f : α → Act FileW IoErr β) (w w' : FileW),
      (∀ w w', x w ≠ (.panic, w') ∧ x w ≠ (.ub, w')) → (∀ a w w', f a w ≠ (.panic, w') ∧ f a w ≠ (.ub, w')) →
      (x >>= f) w ≠ (.panic, w') ∧ (x >>= f) w ≠ (.ub, w') := by
    intro α β x f w w' hx hf
    cases h : x w with
    | mk r w1 =>
      cases r with
      | ok a => rw [Act.bind_ok h]; exact hf a _ _
      | err y => rw [Act.bind_err h]; exact ⟨fun h => (nomatch h), fun h => (nomatch h)⟩
      | panic => exact absurd h (hx _ _).1
      | ub => exact absurd h (hx _ _).2
  have pure' : ∀ {α : Type} (a : α) (w w' : FileW), (pure a : Act FileW IoErr α) w ≠ (.panic, w') ∧ (pure a : Act FileW IoErr α) w ≠ (.ub, w') :=
    fun _ _ _ => ⟨fun h => (nomatch h), fun h => (nomatch h)⟩
  have ex : ∀ (q : Path) (w w' : FileW), ((FileSt.pathExists q).mapErr Empty.elim : Act FileW IoErr Bool) w ≠ (.panic, w') ∧
      ((FileSt.pathExists q).mapErr Empty.elim : Act FileW IoErr Bool) w ≠ (.ub, w') := by
    intro q w w'
    unfold Act.mapErr FileSt.pathExists
    split <;> rename_i h
    · exact ⟨fun h => (nomatch h), fun h => (nomatch h)⟩
    · exact ⟨fun h => (nomatch h), fun h => (nomatch h)⟩
    · split at h <;> cases h
    · split at h <;> cases h
  have cr : ∀ (q : Path) (w w' : FileW), FileSt.fileCreate q w ≠ (.panic, w') ∧ FileSt.fileCreate q w ≠ (.ub, w') := by
    intro q w w'
    refine sys _ _ w w' fun fs => ?_
    split <;> exact ⟨fun h => (nomatch h), fun h => (nomatch h)⟩
  intro c w w'
  cases c with
  | subdir o n => exact ⟨fun h => (nomatch h), fun h => (nomatch h)⟩
  | exists' o n => exact bind _ _ w w' (ex _) fun _ => pure' _
  | read o n =>
    refine bind _ _ w w' (fun w w' => bind _ _ w w' (ex _) fun x w w' => ?_) fun _ => pure' _
    split
    · exact ⟨fun h => (nomatch h), fun h => (nomatch h)⟩
    · unfold FileSt.mapRead
      split
      · exact ⟨fun h => (nomatch h), fun h => (nomatch h)⟩
      · refine bind _ _ w w' (fun w w' => sys _ _ w w' fun fs => ?_) fun k w w' => bind _ _ w w' (fun w w' => sys _ _ w w' fun fs => ?_) fun _ _ _ => ?_
        · split <;> exact ⟨fun h => (nomatch h), fun h => (nomatch h)⟩
        · split
          · exact ⟨fun h => (nomatch h), fun h => (nomatch h)⟩
          · split <;> exact ⟨fun h => (nomatch h), fun h => (nomatch h)⟩
        · exact ⟨fun h => (nomatch h), fun h => (nomatch h)⟩
  | create o n =>
    refine bind _ _ w w' (fun w w' => bind _ _ w w' (ex _) fun x w w' => ?_) fun _ => pure' _
    split
    · refine bind _ _ w w' (fun w w' => sys _ _ w w' fun fs => ?_) fun _ => cr _
      split <;> exact ⟨fun h => (nomatch h), fun h => (nomatch h)⟩
    · exact cr _ w w'
  | write s d =>
    change FileSt.writeAll s d w ≠ _ ∧ FileSt.writeAll s d w ≠ _
    unfold FileSt.writeAll
    refine sys _ _ w w' (fun _ => ?_)
    exact ⟨fun h => (nomatch h), fun h => (nomatch h)⟩
  | seek s =>
    change FileSt.seekStart s w ≠ _ ∧ FileSt.seekStart s w ≠ _
    unfold FileSt.seekStart
    refine sys _ _ w w' (fun _ => ?_)
    exact ⟨fun h => (nomatch h), fun h => (nomatch h)⟩

/-- Starting a multivector does not: if its second file cannot be created, the process panics. -/
theorem C63_refuted : ¬ C63_claim := by
  intro h
  have h := (h file .debug .little objD "m" "s").2.2
  have hp := lateMulti_10
  unfold lateMulti at hp
  cases hm : createMultiVector (B := file) .debug .little objD "m" "s" (late 10) with
  | mk r w' =>
    cases r with
    | ok v => rw [Act.bind_ok hm] at hp; cases hp
    | err y => rw [Act.bind_err hm] at hp; cases hp
    | panic =>
      cases h _ _ _ hm with
      | panic _ hc => exact (calm_file _ _ _).1 hc
    | ub => rw [Act.bind_def, hm] at hp; cases hp

/-- Everything else that writes resources or starts to does, for every storage: the first call that fails ends the function, and its error is
the result. -/
theorem C63_write_partial (B : Backend) (p : Profile) (e : Endian) (o : B.Obj) (name schema : String) :
    (∀ data : Bytes, data.length < 2 ^ 64 → Reports (Storage.write B p e o name schema data)) ∧
    Reports (createExternalVector p e o name schema) ∧ ∀ s, Reports (Handle.tryNew p e o name schema s) :=
  ⟨fun d hd => reports_write p e o name schema d hd, reports_createExternalVector p e o name schema, reports_tryNew p e o name schema⟩

/-- On disk, whichever of the calls fails (`3` looks for the directory, which the storage does not tell apart from a missing one). -/
example : [lateVector 1, lateVector 2, lateVector 4, lateVector 5] = List.replicate 4 (.err .other) ∧
    [lateWrite 1, lateWrite 2, lateWrite 3, lateWrite 4, lateWrite 6, lateWrite 7] = List.replicate 6 (.err .other) := by decide +kernel

/-- Setters of builders, and `start_…` of vectors. -/
theorem C63_setters (B : Backend) (p : Profile) (e : Endian) (o : B.Obj) (r : ResDecl) :
    (∀ S item, S.size ≤ item.length → S.size < 2 ^ 64 → Reports (setStruct B p e o r S item)) ∧
    (∀ view, view.length < 2 ^ 64 → Reports (setVector B p e o r view)) ∧
    (∀ data, data.length < 2 ^ 64 → Reports (setRaw B p e o r data)) ∧
    Reports (startVector B p e o r) := by
  refine ⟨fun S item h hs => ?_, fun v h => reports_write p e o _ _ v h, fun d h => reports_write p e o _ _ d h,
    reports_createExternalVector p e o _ _⟩
  unfold setStruct
  rw [if_neg (by omega)]
  refine reports_write p e o _ _ _ ?_
  rw [List.length_take]
  omega

/-- Creating an archive: the error is that of the first call that fails, with the name of the signature, or the archive is
already there. -/
theorem C63_archive (B : Backend) (p : Profile) (e : Endian) (o : B.Obj) (D : ArchiveDef) (w w' : B.W) (r : Res RErr B.Obj)
    (h : builderNew B p e o D w = (r, w')) :
    (∃ s : Res IoErr B.Obj, r = named (D.name ++ ".archive") s ∧ Reported w s w') ∨
    (r = .err (.io .alreadyExists (D.name ++ ".archive")) ∧ B.existsRes o (D.name ++ ".archive") w = (.ok true, w')) :=
  builderNew_cases p e o D h

example : (builderNew file .debug .little objD Coappearances.Graph (late 5)).1 = .err (.io .other "Graph.archive") := by decide +kernel

/-- The same for subarchives. -/
theorem C63_subarchive (B : Backend) (p : Profile) (e : Endian) (o : B.Obj) (name : String) (D : ArchiveDef) (w w' : B.W) (r : Res RErr B.Obj)
    (h : builderSub B p e o name D w = (r, w')) :
    (∃ s : Res IoErr B.Obj, r = named (D.name ++ ".archive") s ∧ Reported w s w') ∨
    (r = .err (.io .alreadyExists (D.name ++ ".archive")) ∧
      ∃ o' w1, B.subdir o name w = (.ok o', w1) ∧ B.existsRes o' (D.name ++ ".archive") w1 = (.ok true, w')) := by
  unfold builderSub at h
  have hr := reports_subdir o name w
  unfold Act.mapErr at hr
  cases hx : B.subdir o name w with
  | mk rx wx =>
    rw [hx] at hr
    cases rx with
    | err y => exact y.elim
    | panic =>
      have h1 : ((B.subdir o name).mapErr Empty.elim : Act B.W RErr B.Obj) w = (.panic, wx) := by unfold Act.mapErr; rw [hx]
      rw [Act.bind_panic h1] at h
      cases h
      exact .inl ⟨.panic, rfl, hr .panic _ rfl⟩
    | ub =>
      have h1 : ((B.subdir o name).mapErr Empty.elim : Act B.W RErr B.Obj) w = (.ub, wx) := by unfold Act.mapErr; rw [hx]
      rw [Act.bind_def, h1] at h
      cases h
      exact .inl ⟨.ub, rfl, hr .ub _ rfl⟩
    | ok o' =>
      rw [Act.bind_ok (Act.mapErr_ok hx)] at h
      have hs : AllSucceed w wx := by
        cases hr (.ok o') _ rfl with
        | ok hs => exact hs
      rcases builderNew_cases p e o' D h with ⟨s, h1, h2⟩ | ⟨h1, h2⟩
      · exact .inl ⟨s, h1, h2.after hs⟩
      · exact .inr ⟨h1, o', wx, rfl, h2⟩

example : (builderSub file .debug .little objD "statistics" Coappearances.Statistics (late 2)).1 = .err (.io .other "Statistics.archive") := by
  decide +kernel

/-- Reading a resource: an I/O error is that of the first of the two calls of the storage that fails, with the name of the resource; with
another outcome both have succeeded (the other errors are those of C49). -/
theorem C63_read [DiffLib] (B : Backend) (p : Profile) (e : Endian) (o : B.Obj) (name schema : String) (w w' : B.W)
    (r : Res RErr (Slice B.Base)) (h : Storage.read B p e o name schema w = (r, w')) :
    (∀ y n, r = .err (.io y n) → n = name ∧ Reported (α := Unit) w (.err y) w') ∧
    ((∀ y n, r ≠ .err (.io y n)) → r ≠ .panic → r ≠ .ub → AllSucceed w w') := read_tells p e o name schema h

example : (@Storage.read file .debug .little naiveDiff objD "m" "s" (disk0 [([['d'], ['m']], [1#8])] fun t => if t = 1 then some 0 else none)).1 =
    .err (.io .other "m") := by decide +kernel

/-- Growing a vector: if it succeeds, so have all calls; an error is that of the first call that fails. -/
theorem C63_grow (B : Backend) (p : Profile) (size : Nat) (v : ExtVec B) (ho : v.isOpen = true) : Tells (v.grow p size) := tells_grow p size v ho

/-- The buffer is full and the disk does not take it. -/
example (d : Bytes) (hd : d.length = bufferLimit + 1) :
    ∃ w', (⟨d, 7, ⟨some 0, 0, objD, "v", "s"⟩⟩ : ExtVec file).grow .debug 4 (late 0) = (.err .other, w') := by
  have h1 : usub .debug d.length paddingSize = .ok (d.length - 8) := usub_ok (by rw [hd]; decide)
  have h2 : sliceRange d 0 (d.length - 8) = .ok (d.take (d.length - 8)) := by
    unfold sliceRange
    rw [if_pos ⟨by omega, by omega⟩]
    simp
  obtain ⟨w', hw⟩ : ∃ w', file.writeAll 0 (d.take (d.length - 8)) (late 0) = (.err .other, w') := ⟨_, rfl⟩
  have h3 : Handle.write .debug (⟨some 0, 0, objD, "v", "s"⟩ : Handle file) (d.take (d.length - 8)) (late 0) = (.err .other, w') := Act.bind_err hw
  have h4 : (⟨d, 7, ⟨some 0, 0, objD, "v", "s"⟩⟩ : ExtVec file).flush .debug (late 0) = (.err .other, w') := by
    unfold ExtVec.flush
    rw [Act.bind_ok (a := d.length - 8) (w' := late 0) (by rw [h1]; rfl), Act.bind_ok (a := d.take (d.length - 8)) (w' := late 0) (by rw [h2]; rfl)]
    exact Act.bind_err h3
  refine ⟨w', ?_⟩
  unfold ExtVec.grow ExtVec.flushIfFull
  rw [if_pos (by change bufferLimit < d.length; omega)]
  exact Act.bind_err h4

/-- The same for multivectors. -/
theorem C63_multi_grow (B : Backend) (p : Profile) (e : Endian) (V : Variadic) (v v' : MultiVec B) (hi : v.index.isOpen = true)
    (ho : v.handle.isOpen = true) (w w' : B.W) (r : Except IoErr Unit) (h : v.grow p e V w = (.ok (r, v'), w')) :
    (r = .ok () → AllSucceed w w') ∧ ∀ y, r = .error y → Reported (α := Unit) w (.err y) w' := tells_mgrow p e V v hi ho h

example (d : Bytes) (hd : d.length = bufferLimit + 1) (V : Variadic) (i : ExtVec file) :
    ∃ v' w', (⟨i, d, ⟨some 0, 0, objD, "v", "s"⟩, 0⟩ : MultiVec file).grow .debug .little V (late 0) = (.ok (.error .other, v'), w') := by
  have h1 : usub .debug d.length paddingSize = .ok (d.length - 8) := usub_ok (by rw [hd]; decide)
  have h2 : sliceRange d 0 (d.length - 8) = .ok (d.take (d.length - 8)) := by
    unfold sliceRange
    rw [if_pos ⟨by omega, by omega⟩]
    simp
  obtain ⟨w', hw⟩ : ∃ w', file.writeAll 0 (d.take (d.length - 8)) (late 0) = (.err .other, w') := ⟨_, rfl⟩
  have h3 : Handle.write .debug (⟨some 0, 0, objD, "v", "s"⟩ : Handle file) (d.take (d.length - 8)) (late 0) = (.err .other, w') := Act.bind_err hw
  have h4 : (⟨i, d, ⟨some 0, 0, objD, "v", "s"⟩, 0⟩ : MultiVec file).flushIfFull .debug (late 0) = (.err .other, w') := by
    unfold MultiVec.flushIfFull MultiVec.flush
    rw [if_pos (by change bufferLimit < d.length; omega)]
    rw [Act.bind_ok (a := d.length - 8) (w' := late 0) (by rw [h1]; rfl), Act.bind_ok (a := d.take (d.length - 8)) (w' := late 0) (by rw [h2]; rfl)]
    exact Act.bind_err h3
  refine ⟨⟨i, d, ⟨some 0, 0, objD, "v", "s"⟩, 0⟩, w', ?_⟩
  unfold MultiVec.grow
  rw [Act.bind_ok (Act.attempt_err h4)]
  rfl

/-- Exactly when starting a multivector returns an error, and when it panics, for a storage whose calls do not: the error is that of creating
the vector of the index. If then the vector of the data cannot be created, the error is lost and the function panics. -/
theorem C63_multi_exact (B : Backend) (hB : Calm B) (p : Profile) (e : Endian) (o : B.Obj) (name schema : String) (w w' : B.W)
    (r : Res IoErr (MultiVec B)) (h : createMultiVector p e o name schema w = (r, w')) :
    ((∃ m, r = .ok m) ↔ ∃ v w1 v', createExternalVector p e o (name ++ "_index") ("index(" ++ schema ++ ")") w = (.ok v, w1) ∧
      createExternalVector p e o name schema w1 = (.ok v', w')) ∧
    (∀ y, r = .err y ↔ createExternalVector p e o (name ++ "_index") ("index(" ++ schema ++ ")") w = (.err y, w')) ∧
    (r = .panic ↔ ∃ v w1 y, createExternalVector p e o (name ++ "_index") ("index(" ++ schema ++ ")") w = (.ok v, w1) ∧
      createExternalVector p e o name schema w1 = (.err y, w')) ∧ r ≠ .ub ∧ ((∃ m, r = .ok m) → AllSucceed w w') := by
  have calm : ∀ n s w1 w2, createExternalVector p e o n s w1 ≠ (.panic, w2) ∧ createExternalVector p e o n s w1 ≠ (.ub, w2) := by
    intro n s w1 w2
    constructor
    · intro hh
      cases reports_createExternalVector p e o n s _ _ _ hh with
      | panic _ hc => exact (hB _ _ _).1 hc
    · intro hh
      cases reports_createExternalVector p e o n s _ _ _ hh with
      | ub _ hc => exact (hB _ _ _).2 hc
  rcases createMultiVector_cases p e o name schema h with ⟨y, h1, rfl⟩ | ⟨h1, _⟩ | ⟨h1, _⟩ | ⟨v, w1, h1, ⟨v', m, h2, rfl⟩ | ⟨y, h2, rfl⟩ | ⟨h2, _⟩ | ⟨h2, _⟩⟩
  · rw [h1]
    refine ⟨⟨fun ⟨_, h⟩ => (nomatch h), fun ⟨_, _, _, h, _⟩ => (nomatch h)⟩, fun z => ⟨fun h => by cases h; rfl, fun h => by cases h; rfl⟩,
      ⟨fun h => (nomatch h), fun ⟨_, _, _, h, _⟩ => (nomatch h)⟩, fun h => (nomatch h), fun ⟨_, h⟩ => (nomatch h)⟩
  · exact absurd h1 (calm _ _ _ _).1
  · exact absurd h1 (calm _ _ _ _).2
  · refine ⟨⟨fun _ => ⟨v, w1, v', h1, h2⟩, fun _ => ⟨m, rfl⟩⟩, fun z => ⟨fun h => (nomatch h), fun h => ?_⟩, ⟨fun h => (nomatch h), ?_⟩,
      fun h => (nomatch h), fun _ => ?_⟩
    · rw [h1] at h; cases h
    · rintro ⟨_, _, _, h3, h4⟩
      rw [h1] at h3; cases h3
      rw [h2] at h4; cases h4
    · cases reports_createExternalVector p e o _ _ _ _ _ h1 with
      | ok hs =>
        cases reports_createExternalVector p e o _ _ _ _ _ h2 with
        | ok hs' => exact hs.trans hs'
  · refine ⟨⟨fun ⟨_, h⟩ => (nomatch h), ?_⟩, fun z => ⟨fun h => (nomatch h), fun h => ?_⟩, ⟨fun _ => ⟨v, w1, y, h1, h2⟩, fun _ => rfl⟩,
      fun h => (nomatch h), fun ⟨_, h⟩ => (nomatch h)⟩
    · rintro ⟨_, _, _, h3, h4⟩
      rw [h1] at h3; cases h3
      rw [h2] at h4; cases h4
    · rw [h1] at h; cases h
  · exact absurd h2 (calm _ _ _ _).1
  · exact absurd h2 (calm _ _ _ _).2

/-- The calls of the first half are reported, those of the second half are not. -/
example : [lateMulti 1, lateMulti 2, lateMulti 4, lateMulti 5] = List.replicate 4 (.err .other) ∧
    [lateMulti 7, lateMulti 8, lateMulti 10, lateMulti 11] = List.replicate 4 .panic ∧ lateMulti 12 = .ok () := by decide +kernel

end Flatdata
