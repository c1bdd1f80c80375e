import Verif.Proofs.Looks
import Verif.Props.Moved
/-!
# Property C56: opening and reading change nothing and can be repeated
-/
namespace Flatdata
open Spec

variable {k : Kind}

/-- C56: opening an archive, whatever comes out of it, only makes calls that read ... -/
theorem C56_open [DiffLib] (p : Profile) (e : Endian) (D : ArchiveDef) (w : k.backend.W) (o : k.backend.Obj) (ho : k.alive w o) :
    Looks k w (openArchive k.backend p e o D w).2 := looks_openArchive D o w ho

/-- ... and so does reading a resource. -/
theorem C56_read [DiffLib] (p : Profile) (e : Endian) (n schema : String) (w : k.backend.W) (o : k.backend.Obj) (ho : k.alive w o) :
    Looks k w (Storage.read k.backend p e o n schema w).2 := looks_read w ho

/-- C56: such calls, any number of them and even if they fail, write nothing: whatever is stored and all streams that are being written
are as before, and the data seen so far remain. -/
theorem C56_harmless (w w' : k.backend.W) (h : Looks k w w') :
    Untouched k w w' ∧ (∀ o n, k.alive w o → k.stored w' o n = k.stored w o n) ∧
    (k.unborn w → ∀ s x, k.backend.deref w s = .ok x → k.backend.deref w' s = .ok x) := by
  have g := h.grown
  cases k
  · have g : MemGrown w w' := g
    refine ⟨g.streams, fun o n ho => congrArg (Option.map Prod.fst) (g.streams _ ho), fun hu s x hx => ?_⟩
    have hu : ∀ l : MemLoc, MemW.next w ≤ l.1 → MemW.streams w l = none ∧ MemW.resources w l = none := hu
    change (if _ ≤ ((MemW.resources w s.base).getD []).length then Out.ok ((((MemW.resources w s.base).getD []).drop s.off).take s.len) else .ub) = _ at hx
    change (if _ ≤ ((MemW.resources w' s.base).getD []).length then Out.ok ((((MemW.resources w' s.base).getD []).drop s.off).take s.len) else .ub) = _
    rcases hr : MemW.resources w s.base with _ | b
    · rw [hr] at hx
      change (if s.off + s.len ≤ 0 then Out.ok (List.take s.len (List.drop s.off [])) else Out.ub) = Out.ok x at hx
      have h0 : s.off + s.len ≤ 0 := by
        refine Decidable.byContradiction fun hc => ?_
        rw [if_neg hc] at hx; cases hx
      have h1 : s.off = 0 := by omega
      have h2 : s.len = 0 := by omega
      rw [h1, h2] at hx ⊢
      rw [if_pos (Nat.zero_le _)] at hx ⊢
      rw [← hx]
      simp
    · have hl : (s.base : MemLoc).1 < MemW.next w := by
        refine Decidable.byContradiction fun hc => ?_
        have := (hu s.base (by omega)).2
        rw [hr] at this; cases this
      have : MemW.resources w' s.base = some b := by
        rcases g.resources s.base hl with e | ⟨e, _⟩
        · rw [e, hr]
        · rw [hr] at e; cases e
      rw [this]
      rw [hr] at hx
      exact hx
  · have g : DiskGrown w w' := g
    refine ⟨⟨g.files, g.dirs, g.fds, g.nextFd⟩, fun o n _ => congrFun g.files _, fun _ s x hx => ?_⟩
    rw [← hx]
    unfold Backend.deref
    change (if _ ≤ (((FileW.fs w').files s.base).getD []).length then Out.ok (((((FileW.fs w').files s.base).getD []).drop s.off).take s.len) else .ub) = _
    rw [g.files]

/-- C56: `exists` answers as before (without I/O errors). -/
theorem C56_exists (w w' : k.backend.W) (h : Looks k w w') (hn : k.noFault w) (o : k.backend.Obj) (ho : k.alive w o) (n : String) :
    (k.backend.existsRes o n w').1 = (k.backend.existsRes o n w).1 := by
  have g := h.grown
  cases k
  · have g : MemGrown w w' := g
    change Res.ok ((MemW.resources w' _).isSome || (MemW.streams w' _).isSome) = Res.ok ((MemW.resources w _).isSome || (MemW.streams w _).isSome)
    rw [g.streams (MemSt.loc o n) ho]
    rcases g.resources (MemSt.loc o n) ho with e | ⟨e, b, m, h1, h2⟩
    · rw [e]
    · rw [e, h1, h2]; rfl
  · have g : DiskGrown w w' := g
    have hn : ∀ t, (FileW.fs w).tick ≤ t → (FileW.fs w).fault t = none := hn
    change (FileSt.pathExists (join (o : Obj).path n) w').1 = (FileSt.pathExists (join (o : Obj).path n) w).1
    rw [pathExists_quiet _ (hn _ (Nat.le_refl _)), pathExists_quiet _ (by rw [g.fault]; exact hn _ g.tick)]
    unfold FileSt.dirOK
    rw [g.files, g.dirs]

/-- C56: after any such calls, opening an archive gives the same: the same error, or an archive that shows the same data; through the same
storage object. -/
theorem C56_repeat [DiffLib] (p : Profile) (e : Endian) (D : ArchiveDef) (w w' : k.backend.W) (o : k.backend.Obj) (hn : k.noFault w) (hu : k.unborn w)
    (ho : k.alive w o) (h : Looks k w w') :
    outcome (B := k.backend) (openArchive k.backend p e o D w') = outcome (B := k.backend) (openArchive k.backend p e o D w) :=
  (reads_same (n := "") (schema := "") (.inl ⟨rfl, hn⟩) (noFault_grown h.grown hn) hu ho h.grown).1

/-- C56: ... and so does reading a resource. -/
theorem C56_repeat_read [DiffLib] (p : Profile) (e : Endian) (n schema : String) (w w' : k.backend.W) (o : k.backend.Obj) (hn : k.noFault w) (hu : k.unborn w)
    (ho : k.alive w o) (h : Looks k w w') :
    readOutcome (B := k.backend) (Storage.read k.backend p e o n schema w') = readOutcome (B := k.backend) (Storage.read k.backend p e o n schema w) :=
  (reads_same (D := .mk "" "" [] .nil) (.inl ⟨rfl, hn⟩) (noFault_grown h.grown hn) hu ho h.grown).2

/-- C56: opening again, through the same storage object. -/
theorem C56_open_again [DiffLib] (p : Profile) (e : Endian) (D : ArchiveDef) (w : k.backend.W) (o : k.backend.Obj) (hn : k.noFault w) (hu : k.unborn w)
    (ho : k.alive w o) :
    outcome (B := k.backend) (openArchive k.backend p e o D (openArchive k.backend p e o D w).2) = outcome (B := k.backend) (openArchive k.backend p e o D w) :=
  C56_repeat p e D w _ o hn hu ho (C56_open p e D w o ho)

/-- C56: if I/O operations failed in between and do not any more, opening gives what it would have given without the failures. -/
theorem C56_retry [DiffLib] (p : Profile) (e : Endian) (D : ArchiveDef) (w w' : k.backend.W) (o : k.backend.Obj) (hn : k.noFault w') (hu : k.unborn w)
    (ho : k.alive w o) (h : Looks k w w') :
    outcome (B := k.backend) (openArchive k.backend p e o D w') = outcome (B := k.backend) (openArchive k.backend p e o D (calm k w)) :=
  (reads_same (n := "") (schema := "") (.inr rfl) hn hu ho h.grown).1

/-- C56: ... and so does reading a resource. -/
theorem C56_retry_read [DiffLib] (p : Profile) (e : Endian) (n schema : String) (w w' : k.backend.W) (o : k.backend.Obj) (hn : k.noFault w') (hu : k.unborn w)
    (ho : k.alive w o) (h : Looks k w w') :
    readOutcome (B := k.backend) (Storage.read k.backend p e o n schema w') = readOutcome (B := k.backend) (Storage.read k.backend p e o n schema (calm k w)) :=
  (reads_same (D := .mk "" "" [] .nil) (.inr rfl) hn hu ho h.grown).2

/-! ### Example -/
namespace LooksExample
open Coappearances StorageExample MvExample BuildExample NeighboursExample MovedExample

/-- The first call fails. -/
def firstFails (t : Nat) : Option Nat := if t = 0 then some 0 else none

/-- A process that opens `Graph` on any disk while the first call fails gets an error. -/
theorem first_fails (x : Disk) : @openArchive file naiveDiff .debug .little (directory ['d']) Graph (started x firstFails) =
    (.err (.io .notFound "Graph.archive"), tock 1 (started x firstFails)) := rfl

/-- ... and if it tries again, the same as without the failure. -/
theorem second_try (x : Disk) : outcome (B := file) (@openArchive file naiveDiff .debug .little (directory ['d']) Graph (tock 1 (started x firstFails))) =
    outcome (B := file) (@openArchive file naiveDiff .debug .little (directory ['d']) Graph (started x)) := by
  have hl := @C56_open .disk naiveDiff .debug .little Graph (started x firstFails) (directory ['d']) Nat.zero_lt_one
  have e : (@openArchive (Kind.backend .disk) naiveDiff .debug .little (directory ['d']) Graph (started x firstFails)) = _ := first_fails x
  rw [e] at hl
  exact @C56_retry .disk naiveDiff .debug .little Graph (started x firstFails) (tock 1 (started x firstFails)) (directory ['d'])
    (fun t ht => if_neg (by have : 1 ≤ t := ht; omega)) (fun _ _ _ => rfl) Nat.zero_lt_one hl

/-- Here it gets an archive that shows what was written. -/
example : ∃ r w a w' b w'', @openArchive file naiveDiff .debug .little (directory ['d']) Graph (started there firstFails) = (.err r, w) ∧
    @openArchive file naiveDiff .debug .little (directory ['d']) Graph w = (.ok a, w') ∧
    @openArchive file naiveDiff .debug .little (directory ['d']) Graph (started there) = (.ok b, w'') ∧
    ArchiveYields file w'' Graph b graphContent ∧ Archive.shown file w' a = Archive.shown file w'' b := by
  obtain ⟨w, hb, ht⟩ := there_built
  obtain ⟨b, w'', ho, hy⟩ := @build_reopen naiveDiff .debug .debug .little .little Graph ['d'] graphProg graphContent ParallelExample.empty w
    graph_separate (graph_schemas .disk) graph_prepares (disk_vacant _) hb
  rw [← ht] at ho
  clear hb ht
  generalize there = x at *
  have hr := second_try x
  rw [ho] at hr
  rcases hq : @openArchive file naiveDiff .debug .little (directory ['d']) Graph (tock 1 (started x firstFails)) with ⟨r, w'⟩
  rw [hq] at hr
  cases r with
  | ok a => exact ⟨_, _, a, w', b, w'', first_fails x, hq, ho, hy, by injection hr⟩
  | err _ => cases hr
  | panic => cases hr
  | ub => cases hr

/-- A storage in memory with a resource that has not been read. -/
def inMemory : MemW := ⟨fun l => if l = (0, [['x']]) then some ([1#8, 2#8], 2) else if l = (0, [['x', '.', 's', 'c', 'h', 'e', 'm', 'a']]) then some ([115#8], 1) else none,
  fun _ => none, 1⟩

/-- Reading it fails since the data are too short; and the same happens when it is read again. -/
example : (@Storage.read mem .debug .little naiveDiff ⟨0, []⟩ "x" "s" inMemory).1 = .err .unexpectedDataSize ∧
    readOutcome (B := mem) (@Storage.read mem .debug .little naiveDiff ⟨0, []⟩ "x" "s" (@Storage.read mem .debug .little naiveDiff ⟨0, []⟩ "x" "s" inMemory).2) =
      .err .unexpectedDataSize := by
  have h1 : (@Storage.read mem .debug .little naiveDiff ⟨0, []⟩ "x" "s" inMemory).1 = .err .unexpectedDataSize := by decide +kernel
  refine ⟨h1, ?_⟩
  refine (@C56_repeat_read .memory naiveDiff .debug .little "x" "s" inMemory _ ⟨0, []⟩ trivial (fun l hl => ⟨?_, rfl⟩) Nat.zero_lt_one
    (@C56_read .memory naiveDiff .debug .little "x" "s" inMemory ⟨0, []⟩ Nat.zero_lt_one)).trans ?_
  · have hl : 1 ≤ l.1 := hl
    change (if _ then _ else _) = _
    rw [if_neg (by rintro rfl; exact absurd hl (by decide)), if_neg (by rintro rfl; exact absurd hl (by decide))]
  · change readOutcome (B := mem) (@Storage.read mem .debug .little naiveDiff ⟨0, []⟩ "x" "s" inMemory) = _
    rcases hq : @Storage.read mem .debug .little naiveDiff ⟨0, []⟩ "x" "s" inMemory with ⟨r, w⟩
    rw [hq] at h1
    cases h1
    rfl

end LooksExample
end Flatdata
