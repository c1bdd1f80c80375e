import Verif.Proofs.OpenFiles
import Verif.Props.Build
/-!
# Files that are open at the same time (C70)
-/
namespace Flatdata
open Spec Limited

/-- **C70.** However large an archive is, building it takes at most three files that are open at the same time, and opening it one: with
so many to spare, a program does what it does without a limit. In any case, also when the program runs out of files, fails or panics,
all are closed in the end; an opened archive keeps no file open. -/
def C70_claim : Prop := ∀ (_ : DiffLib) (p : Profile) (e : Endian) (o : Obj) (D : ArchiveDef) (prog : Prog) (w : FileW) (n : Nat),
  (3 ≤ n → buildLimited p e o D prog (w, n) = ((buildArchive file p e o D prog w).1, (buildArchive file p e o D prog w).2, n)) ∧
  (1 ≤ n → openArchive limited p e o D (w, n) = ((openArchive file p e o D w).1, (openArchive file p e o D w).2, n)) ∧
  (buildLimited p e o D prog (w, n)).2.2 = n ∧ (openArchive limited p e o D (w, n)).2.2 = n

theorem Spec.Balanced.total {E α : Type} {k : Nat} {x : Act LimW E α} {y : Act FileW E α} (h : Balanced k 0 (fun _ => 0) x y) (w : FileW) (n : Nat) :
    (k ≤ n → x (w, n) = ((y w).1, (y w).2, n)) ∧ (x (w, n)).2.2 = n := by
  obtain ⟨h1, h2, h3⟩ := h w n
  have h4 : (x (w, n)).2.2 = n := by
    cases hr : (x (w, n)).1 with
    | ok a => have := h2 a hr; dsimp only at this; omega
    | err a => exact h3 (by rw [hr]; rfl)
    | panic => exact h3 (by rw [hr]; rfl)
    | ub => exact h3 (by rw [hr]; rfl)
  refine ⟨fun hn => ?_, h4⟩
  rw [← (h1 hn).1, ← (h1 hn).2]
  exact Prod.ext rfl (Prod.ext rfl h4)

theorem C70_archives : C70_claim := by
  intro _ p e o D prog w n
  have h1 := (Balanced.build p e o D prog).total w n
  have h2 := (Balanced.openArchive p e o D).total w n
  exact ⟨h1.1, h2.1, h1.2, h2.2⟩

/-- The same for one call: a setter takes at most two files, reading a resource one. -/
theorem C70_calls [DiffLib] (p : Profile) (e : Endian) (o : Obj) (name schema : String) (data : Bytes) (w : FileW) (n : Nat) :
    (2 ≤ n → Limited.write p e o name schema data (w, n) =
      ((Storage.write file p e o name schema data w).1, (Storage.write file p e o name schema data w).2, n)) ∧
    (1 ≤ n → Storage.read limited p e o name schema (w, n) =
      ((Storage.read file p e o name schema w).1, (Storage.read file p e o name schema w).2, n)) ∧
    (Limited.write p e o name schema data (w, n)).2.2 = n ∧ (Storage.read limited p e o name schema (w, n)).2.2 = n := by
  have h1 := (Balanced.write p e o name schema data).total w n
  have h2 := (Balanced.read p e o name schema).total w n
  exact ⟨h1.1, h2.1, h1.2, h2.2⟩

/-- An open vector keeps one file open, an open multivector two, whatever has been written to it; `close` takes no further ones, and
closes them in any case. -/
theorem C70_vectors [DiffLib] (p : Profile) (e : Endian) (V : Variadic) (o : Obj) (name schema : String) :
    Balanced 2 0 (fun _ => 1) (Limited.createExternalVector p e o name schema) (createExternalVector (B := file) p e o name schema) ∧
    Balanced 3 0 (fun _ => 2) (Limited.createMultiVector p e o name schema) (createMultiVector (B := file) p e o name schema) ∧
    (∀ v : ExtVec file, v.isOpen = true → Balanced 0 1 (fun _ => 0) (Limited.close p e v) (v.close p e)) ∧
    ∀ v : MultiVec file, v.index.isOpen = true → v.handle.isOpen = true → Balanced 0 2 (fun _ => 0) (Limited.closeMulti p e V v) (v.close p e V) := by
  refine ⟨fun w n => ?_, fun w n => ?_, fun v h => ?_, fun v h1 h2 => ?_⟩
  · obtain ⟨h1, h2, h3⟩ := Balanced.createExternalVector p e o name schema w n
    refine ⟨h1, fun v hv => ?_, h3⟩
    rw [← h2 v hv, ← Balanced.new_held (Prod.ext hv rfl)]
  · obtain ⟨h1, h2, h3⟩ := Balanced.createMultiVector p e o name schema w n
    refine ⟨h1, fun v hv => ?_, h3⟩
    rw [← h2 v hv, ← Balanced.mnew_held (Prod.ext hv rfl)]
  · have e1 : v.held = 1 := by exact if_pos h
    rw [← e1]
    exact Balanced.close p e v
  · have e1 : v.held = 2 := by
      have a1 : v.index.held = 1 := if_pos h1
      have a2 : v.handle.held = 1 := if_pos h2
      unfold MultiVec.held
      omega
    rw [← e1]
    exact Balanced.closeMulti p e V v

/-! ## Not with fewer -/

theorem inner_ok {E α : Type} {y : Act FileW E α} {w w' : FileW} {a : α} (h : y w = (.ok a, w')) (n : Nat) :
    Limited.inner y (w, n) = (.ok a, (w', n)) := by unfold Limited.inner; rw [h]

theorem scope_eq {E α : Type} {x : Act LimW E α} {v : LimW} {r : Res E α} {u : LimW} (h : x v = (r, u)) :
    Limited.scope x v = (r, (u.1, u.2 + 1)) := by unfold Limited.scope; rw [h]

/-- A file cannot be created without a descriptor. -/
theorem stream_none {o : Obj} {name : String} {w w' : FileW} {s : Nat} (h : FileSt.createOutputStream o name w = (.ok s, w')) :
    ∃ v, Limited.createOutputStream o name (w, 0) = (.err .other, (v, 0)) := by
  unfold FileSt.createOutputStream at h
  unfold Limited.createOutputStream
  obtain ⟨x, w1, h1, h⟩ := Act.bind_eq_ok h
  rw [Act.bind_ok (inner_ok h1 0)]
  split at h
  · rename_i hx
    rw [if_pos hx]
    obtain ⟨_, w2, h2, h⟩ := Act.bind_eq_ok h
    rw [Act.bind_ok (inner_ok h2 0)]
    exact ⟨w2, rfl⟩
  · rename_i hx
    rw [if_neg hx]
    exact ⟨w1, rfl⟩

theorem stream_some {o : Obj} {name : String} {w w' : FileW} {s n : Nat} (h : FileSt.createOutputStream o name w = (.ok s, w')) (hn : 1 ≤ n) :
    Limited.createOutputStream o name (w, n) = (.ok s, (w', n - 1)) := by
  obtain ⟨h1, h2, -⟩ := Balanced.createOutputStream o name w n
  obtain ⟨g1, g2⟩ := h1 hn
  rw [h] at g1 g2
  have := h2 s g1
  dsimp only at this
  exact Prod.ext g1 (Prod.ext g2 (by dsimp only; omega))

/-- **C70, exact.** A setter that would succeed succeeds if and only if two files can be opened; else it is an error of no particular
kind. -/
theorem C70_write_exact (p : Profile) (e : Endian) (o : Obj) (name schema : String) (data : Bytes) (w w' : FileW) (n : Nat)
    (h : Storage.write file p e o name schema data w = (.ok (), w')) :
    (Limited.write p e o name schema data (w, n)).1 = if 2 ≤ n then .ok () else .err .other := by
  split
  · rename_i hn
    rw [((Balanced.write p e o name schema data).total w n).1 hn, h]
  · rename_i hn
    unfold Storage.write at h
    obtain ⟨s, w1, h1, h⟩ := Act.bind_eq_ok h
    obtain ⟨_, w2, h2, h⟩ := Act.bind_eq_ok h
    obtain ⟨s', w3, h3, h⟩ := Act.bind_eq_ok h
    unfold Limited.write
    rcases (by omega : n = 0 ∨ n = 1) with rfl | rfl
    · obtain ⟨v, hv⟩ := stream_none h1
      rw [Act.bind_err hv]
    · rw [Act.bind_ok (stream_some h1 (by omega))]
      obtain ⟨v, hv⟩ := stream_none h3
      rw [scope_eq (((Act.bind_ok (inner_ok h2 0)).trans (Act.bind_err hv)))]

theorem handle_none {p : Profile} {e : Endian} {o : Obj} {name schema : String} {w w' : FileW} {h : Handle file} {n : Nat} (hn : n < 2)
    (hh : createDataHandle (B := file) p e o name schema w = (.ok h, w')) :
    ∃ v, Limited.createHandle p e o name schema (w, n) = (.err .other, (v, n)) := by
  unfold createDataHandle at hh
  obtain ⟨s, w1, h1, hh⟩ := Act.bind_eq_ok hh
  obtain ⟨_, w2, h2, hh⟩ := Act.bind_eq_ok hh
  obtain ⟨s', w3, h3, hh⟩ := Act.bind_eq_ok hh
  unfold Limited.createHandle
  rcases (by omega : n = 0 ∨ n = 1) with rfl | rfl
  · obtain ⟨v, hv⟩ := stream_none h1
    exact ⟨v, Act.bind_err hv⟩
  · rw [Act.bind_ok (stream_some h1 (by omega))]
    obtain ⟨v, hv⟩ := stream_none h3
    rw [scope_eq (((Act.bind_ok (inner_ok h2 0)).trans (Act.bind_err hv)))]
    exact ⟨v, rfl⟩

theorem handle_some {p : Profile} {e : Endian} {o : Obj} {name schema : String} {w w' : FileW} {h : Handle file} {n : Nat} (hn : 2 ≤ n)
    (hh : createDataHandle (B := file) p e o name schema w = (.ok h, w')) :
    Limited.createHandle p e o name schema (w, n) = (.ok h, (w', n - 1)) := by
  obtain ⟨h1, h2, -⟩ := Balanced.createHandle p e o name schema w n
  obtain ⟨g1, g2⟩ := h1 hn
  rw [hh] at g1 g2
  have := h2 h g1
  dsimp only at this
  exact Prod.ext g1 (Prod.ext g2 (by dsimp only; omega))

theorem external_eq (p : Profile) (e : Endian) (o : Obj) (name schema : String) : createExternalVector (B := file) p e o name schema =
    (createDataHandle (B := file) p e o name schema >>= fun h => pure (ExtVec.new h)) := by
  unfold createExternalVector createDataHandle
  simp only [Act.bind_assoc]

/-- **C70, exact.** Creating a vector that would succeed succeeds if and only if two files can be opened; else it is an error. -/
theorem C70_vector_exact (p : Profile) (e : Endian) (o : Obj) (name schema : String) (w w' : FileW) (v : ExtVec file) (n : Nat)
    (h : createExternalVector (B := file) p e o name schema w = (.ok v, w')) :
    (Limited.createExternalVector p e o name schema (w, n)).1 = if 2 ≤ n then .ok v else .err .other := by
  split
  · rename_i hn
    rw [((Balanced.createExternalVector p e o name schema w n).1 hn).1, h]
  · rename_i hn
    rw [external_eq] at h
    obtain ⟨x, w1, h1, h⟩ := Act.bind_eq_ok h
    obtain ⟨u, hu⟩ := handle_none (n := n) (by omega) h1
    unfold Limited.createExternalVector
    rw [Act.bind_err hu]

/-- **C70, exact.** Creating a multivector that would succeed succeeds if and only if three files can be opened. With two the index has
been created when the files run out, and `create_multi_vector` panics instead of returning the error, because the index is dropped
open; with fewer it is an error. -/
theorem C70_multi_exact (p : Profile) (e : Endian) (o : Obj) (name schema : String) (w w' : FileW) (v : MultiVec file) (n : Nat)
    (h : createMultiVector (B := file) p e o name schema w = (.ok v, w')) :
    (Limited.createMultiVector p e o name schema (w, n)).1 = if 3 ≤ n then .ok v else if n = 2 then .panic else .err .other := by
  split
  · rename_i hn
    rw [((Balanced.createMultiVector p e o name schema w n).1 hn).1, h]
  · rename_i hn
    unfold createMultiVector at h
    obtain ⟨i, w1, h1, h⟩ := Act.bind_eq_ok h
    obtain ⟨r, w2, h2, h⟩ := Act.bind_eq_ok h
    obtain ⟨x, rfl, h3⟩ : ∃ x, r = .ok x ∧ createDataHandle (B := file) p e o name schema w1 = (.ok x, w2) := by
      rcases Balanced.attempt_cases h2 with h3 | ⟨y, rfl⟩
      · exact h3
      · exfalso
        obtain ⟨_, _, _, h⟩ := Act.bind_eq_ok h
        cases h
    rw [external_eq] at h1
    obtain ⟨j, w3, h4, h5⟩ := Act.bind_eq_ok h1
    cases h5
    unfold Limited.createMultiVector
    split
    · rename_i h2
      subst h2
      have h6 : Limited.createExternalVector p e o (Storage.indexName name) (Storage.indexSchema schema) (w, 2) = (.ok (ExtVec.new j), (w1, 1)) := by
        unfold Limited.createExternalVector
        rw [Act.bind_ok (handle_some (by omega) h4)]
        rfl
      have h7 : (ExtVec.new j).held = 1 := Balanced.new_held h6
      have h8 : j.isOpen = true := by
        cases hj : j.isOpen with
        | true => rfl
        | false => rw [show (ExtVec.new j).held = if j.isOpen then 1 else 0 from rfl, hj] at h7; cases h7
      rw [Act.bind_ok h6, h7]
      obtain ⟨u, hu⟩ := handle_none (n := 1) (by omega) h3
      have h9 : Limited.passing 1 (Act.attempt (Limited.createHandle p e o name schema)) (w1, 1) =
          ((.ok (.error .other) : Res IoErr (Except IoErr (Handle file))), (u, 1)) := by
        unfold Limited.passing
        rw [Act.attempt_err hu]
      rw [Act.bind_ok h9]
      have h10 : Limited.inner (E := IoErr) (ExtVec.new j).drop (u, 1 + 1) = (.panic, (u, 1 + 1)) := by
        unfold Limited.inner ExtVec.drop Handle.drop
        rw [show (ExtVec.new j).handle.isOpen = true from h8]
        rfl
      have h11 : (Limited.release 1 : Act LimW IoErr Unit) (u, 1) = (.ok (), (u, 1 + 1)) := rfl
      dsimp only
      rw [Act.bind_ok h11, Act.bind_panic h10]
    · obtain ⟨u, hu⟩ := handle_none (n := n) (by omega) h4
      have h6 : Limited.createExternalVector p e o (Storage.indexName name) (Storage.indexSchema schema) (w, n) = (.err .other, (u, n)) := by
        unfold Limited.createExternalVector
        exact Act.bind_err hu
      rw [Act.bind_err h6]

/-! ## Non-vacuity -/

namespace OpenExample
open BuildExample Coappearances StorageExample

/-- Building `Graph` with some number of files. -/
def run (n : Nat) : Res RErr Unit × LimW := @buildLimited naiveDiff .debug .little objD Graph graphProg (disk0 [], n)

theorem three : (run 3).1.isOk = true := by decide +kernel

theorem two : (run 2).1 = .panic := by
  have h : (match (run 2).1 with | .panic => true | _ => false) = true := by decide +kernel
  revert h
  generalize (run 2).1 = r
  cases r <;> simp

/-- With three files the archive is built, opening it then takes one; with two the program panics, and both are closed. -/
example : ∃ w, run 3 = (.ok (), w, 3) ∧ @buildArchive file naiveDiff .debug .little objD Graph graphProg (disk0 []) = (.ok (), w) ∧
    (@openArchive limited naiveDiff .debug .little objD Graph (w, 1)).1 = (@openArchive file naiveDiff .debug .little objD Graph w).1 ∧
    (run 2).1 = .panic ∧ (run 2).2.2 = 2 := by
  obtain ⟨_, w, h⟩ := VecExample.isOk_run graph_runs
  have h1 := C70_archives naiveDiff .debug .little objD Graph graphProg (disk0 []) 3
  have h2 := C70_archives naiveDiff .debug .little objD Graph graphProg w 1
  have h3 := C70_archives naiveDiff .debug .little objD Graph graphProg (disk0 []) 2
  have e3 : (run 2).2.2 = 2 := by unfold run; exact h3.2.2.1
  have e1 := h1.1 (by omega)
  rw [h] at e1
  have e2 : run 3 = (.ok (), w, 3) := by unfold run; exact e1
  have e4 := congrArg Prod.fst (h2.2.1 (by omega))
  exact ⟨w, e2, h, e4, two, e3⟩

/-- A setter, a vector and a multivector on an empty disk succeed, so that the exact numbers apply. -/
theorem runs : (Storage.write file .debug .little objD "x" "s" [1#8] (disk0 [])).1.isOk = true ∧
    (createExternalVector (B := file) .debug .little objD "x" "s" (disk0 [])).1.isOk = true ∧
    (createMultiVector (B := file) .debug .little objD "x" "s" (disk0 [])).1.isOk = true := by decide +kernel

example : (Limited.write .debug .little objD "x" "s" [1#8] (disk0 [], 1)).1 = .err .other ∧
    (Limited.createExternalVector .debug .little objD "x" "s" (disk0 [], 1)).1 = .err .other ∧
    (Limited.createMultiVector .debug .little objD "x" "s" (disk0 [], 2)).1 = .panic := by
  obtain ⟨_, w1, h1⟩ := VecExample.isOk_run runs.1
  obtain ⟨v2, w2, h2⟩ := VecExample.isOk_run runs.2.1
  obtain ⟨v3, w3, h3⟩ := VecExample.isOk_run runs.2.2
  have e1 := C70_write_exact _ _ _ _ _ _ _ _ 1 h1
  have e2 := C70_vector_exact _ _ _ _ _ _ _ _ 1 h2
  have e3 := C70_multi_exact _ _ _ _ _ _ _ _ 2 h3
  rw [if_neg (by omega)] at e1 e2
  rw [if_neg (by omega), if_pos rfl] at e3
  exact ⟨e1, e2, e3⟩

/-- `C70_vectors`: a created vector is open. -/
example [DiffLib] : ∃ v w, createExternalVector (B := file) .debug .little objD "x" "s" (disk0 []) = (.ok v, w) ∧ v.isOpen = true ∧
    (Limited.close .debug .little v (w, 0)).2.2 = 1 := by
  obtain ⟨v, w, h⟩ := VecExample.isOk_run runs.2.1
  have ho : v.isOpen = true := by
    have h1 : (match (createExternalVector (B := file) .debug .little objD "x" "s" (disk0 [])).1 with
      | .ok v => v.isOpen
      | _ => false) = true := by decide +kernel
    rw [h] at h1
    exact h1
  refine ⟨v, w, h, ho, ?_⟩
  obtain ⟨-, h2, h3⟩ := (C70_vectors .debug .little ⟨"V", 4, 32, []⟩ objD "x" "s").2.2.1 v ho w 0
  cases hr : (Limited.close .debug .little v (w, 0)).1 with
  | ok a => have := h2 a hr; dsimp only at this; omega
  | err a => exact h3 (by rw [hr]; rfl)
  | panic => exact h3 (by rw [hr]; rfl)
  | ub => exact h3 (by rw [hr]; rfl)

end OpenExample
end Flatdata
