import Verif.Proofs.WriteCalls
import Verif.Props.Blind
import Verif.Props.MultiVectors
/-!
# C58: how many calls to the operating system writing takes
-/
namespace Flatdata
open Spec StorageExample VecExample MvExample BlindExample ArchiveExample

/-- Writing a resource, creating an archive, and creating and closing a vector or multivector takes a bounded number of
calls, whatever the data and whether or not they fail. -/
theorem C58_write_calls [DiffLib] (p : Profile) (e : Endian) (o : Obj) (D : ArchiveDef) (V : Variadic) (name schema : String)
    (data : Bytes) (v : ExtVec file) (m : MultiVec file) (w : FileW) :
    (Storage.write file p e o name schema data w).2.fs.tick ≤ w.fs.tick + 10 ∧
    (builderNew file p e o D w).2.fs.tick ≤ w.fs.tick + 11 ∧
    (createExternalVector (B := file) p e o name schema w).2.fs.tick ≤ w.fs.tick + 8 ∧
    (v.close p e w).2.fs.tick ≤ w.fs.tick + 10 ∧
    (createMultiVector (B := file) p e o name schema w).2.fs.tick ≤ w.fs.tick + 16 ∧
    (m.close p e V w).2.fs.tick ≤ w.fs.tick + 21 :=
  ⟨Costs.storageWrite p e o name schema data w, Costs.builderNew p e o D w, Costs.createVector p e o name schema w,
    Costs.vecClose p e v w, Costs.createMulti p e o name schema w, Costs.multiClose p e V m w⟩

namespace WriteCallsExample

/-- A disk without the directory. -/
def bare : FileW where
  fs := ⟨fun _ => none, fun _ => false, fun _ => ([], 0), 0, fun _ => none, 0⟩
  maps _ _ := none
  next := 1

theorem writes : (Storage.write file .debug .little objD "x" "s" [1#8] bare).1 = .ok () ∧
    (Storage.write file .debug .little objD "x" "s" [1#8] bare).2.fs.tick = 9 := by decide +kernel

end WriteCallsExample
open WriteCallsExample

/-- Non-vacuity: writing to a new directory succeeds with nine calls. -/
example : (Storage.write file .debug .little objD "x" "s" [1#8] bare).1 = .ok () ∧
    (Storage.write file .debug .little objD "x" "s" [1#8] bare).2.fs.tick = 9 ∧
    (Storage.write file .debug .little objD "x" "s" [1#8] bare).2.fs.tick ≤ bare.fs.tick + 10 :=
  letI := naiveDiff
  ⟨writes.1, writes.2, (C58_write_calls .debug .little objD Small Coappearances.VerticesData "x" "s" [1#8] ⟨[], 0, ⟨none, 0, objD, "", ""⟩⟩
    ⟨⟨[], 0, ⟨none, 0, objD, "", ""⟩⟩, [], ⟨none, 0, objD, "", ""⟩, 0⟩ bare).1⟩

/-- Appending to a multivector: at most one call of the operating system for each 32 MiB (less seven bytes) of index and
data, from the creation on. -/
theorem C58_multi_append_calls (p : Profile) (e : Endian) (V : Variadic) (o : Obj) (name schema : String) (w0 w w1 : FileW)
    (v v1 : MultiVec file) (n b : Nat) (hc : createMultiVector (B := file) p e o name schema w0 = (.ok v, w))
    (g : MAppends p e V w v n b w1 v1) : (32 * 1024 * 1024 - 7) * (w1.fs.tick - w.fs.tick) ≤ n * V.indexSize + b := by
  have hv : v.index.data.length = 8 ∧ v.data.length = 8 := by
    unfold createMultiVector at hc
    obtain ⟨i, wi, h1, hc⟩ := Act.bind_eq_ok hc
    obtain ⟨r, wr, h2, hc⟩ := Act.bind_eq_ok hc
    cases r with
    | error x =>
      obtain ⟨_, _, _, hc⟩ := Act.bind_eq_ok hc
      cases hc
    | ok h =>
      cases hc
      refine ⟨?_, List.length_replicate⟩
      unfold createExternalVector at h1
      obtain ⟨_, _, _, h1⟩ := Act.bind_eq_ok h1
      obtain ⟨_, _, _, h1⟩ := Act.bind_eq_ok h1
      obtain ⟨_, _, _, h1⟩ := Act.bind_eq_ok h1
      obtain ⟨_, _, _, h1⟩ := Act.bind_eq_ok h1
      cases h1
      exact List.length_replicate
  obtain ⟨x, y, h1, h2, h3⟩ := mappends_calls g hv.1 hv.2
  have hlim : bufferLimit = 33554432 := by decide
  have h4 := Nat.mul_le_mul_left (bufferLimit - 7) h1
  rw [Nat.mul_add] at h4
  rw [hlim] at h2 h3 h4
  omega

/-- Non-vacuity: two items, the first with an element of 32 MiB, so that the second flushes the buffer. -/
theorem WriteCallsExample.two_items (V : Variadic) (ok : IndexOK V) (hV : V.indexSize < 2 ^ 32) (S : StructDef) (hS : S.size = 2 ^ 25) :
    ∃ v w v1 w1, createMultiVector (B := file) .debug .little objD "x" "s" (disk0 []) = (.ok v, w) ∧
    MAppends .debug .little V w v 2 (0 + (1 + S.size)) w1 v1 ∧ v1.data.length = 8 ∧
    (32 * 1024 * 1024 - 7) * (w1.fs.tick - w.fs.tick) ≤ 2 * V.indexSize + (1 + S.size) := by
  have ap : Apart fileLaws objD "x" := Kind.apart .disk objD "x"
  have h0 : (createMultiVector (B := file) .debug .little objD "x" "s" (disk0 [])).1.isOk = true := by decide +kernel
  obtain ⟨v, w, hc⟩ := isOk_run h0
  obtain ⟨i, _, nf⟩ := mcreated_inv (k := .disk) V (munused_disk0 _ _ _) hc
  have nf := nf (disk0_noFault _)
  rcases i.grow ap .debug .little ok (by simp only [List.length_nil]; omega) (by simp only [List.append_nil, List.length_nil]; omega) with
    ⟨va, wa, preI', bufI', cI', pre', body', c', x, h1, i1, e1, e2, _, _, _, _, _, o1⟩ | ⟨_, _, _, _, _, _, _, _, _, _, _, _, n1⟩
  case inr => exact absurd nf n1
  have epb : pre' = [] ∧ body' = [] := by simpa using e2
  have ei : preI' = [] ∧ bufI' = [] := by simpa using e1
  obtain ⟨rfl, rfl⟩ := epb
  obtain ⟨rfl, rfl⟩ := ei
  have hb := i1.builderAdd .debug 0#8 S.size (by rw [hS, List.length_nil]; omega)
  have hlen : (0#8 :: (zeros S.size ++ zeros 8)).length = 2 ^ 25 + 9 := by
    unfold zeros
    rw [List.length_cons, List.length_append, List.length_replicate, List.length_replicate, hS]
  have i2 : MvInv fileLaws objD "x" "s" V wa { va with data := 0#8 :: (zeros S.size ++ zeros 8) } [] ([] ++ [x]) cI' [] (0#8 :: zeros S.size) c' :=
    ⟨i1.index, i1.data, rfl, i1.flushed⟩
  rcases i2.grow ap .debug .little ok (by unfold zeros; rw [List.length_cons, List.length_nil, List.length_replicate, hS]; omega) (by simp only [List.nil_append, List.length_cons, List.length_nil]; omega) with
    ⟨vb, wb, _, _, _, _, _, _, _, h2, _⟩ | ⟨_, _, _, _, _, _, _, _, _, _, _, _, n2⟩
  case inr => exact absurd (o1.noFault nf) n2
  have g : MAppends .debug .little V w v 2 (0 + (1 + S.size)) wb vb := .grow (.add S (.grow .start h1) hb _ rfl) h2
  refine ⟨v, w, vb, wb, hc, g, ?_, ?_⟩
  · obtain ⟨vc, wc, hf, ha⟩ := MultiVec.grow_calls h2
    rw [(MultiVec.addToIndex_calls ha).1]
    rcases (MultiVec.flushIfFull_calls hf).2 with ⟨h3, _⟩ | ⟨_, h3, _⟩
    · dsimp only at h3
      rw [hlen] at h3
      have hlim : bufferLimit = 2 ^ 25 := by decide
      omega
    · exact h3
  · have := C58_multi_append_calls _ _ _ _ _ _ _ _ _ _ _ _ _ hc g
    rwa [Nat.zero_add] at this

example : ∃ (v : MultiVec file) (w : FileW) (v1 : MultiVec file) (w1 : FileW),
    createMultiVector (B := file) .debug .little objD "x" "s" (disk0 []) = (.ok v, w) ∧ v1.data.length = 8 ∧
    (32 * 1024 * 1024 - 7) * (w1.fs.tick - w.fs.tick) ≤ 2 * Coappearances.VerticesData.indexSize + (1 + Big.size) :=
  have ⟨v, w, v1, w1, h1, _, h2, h3⟩ := two_items Coappearances.VerticesData MultiExample.ok.index (by decide) Big rfl
  ⟨v, w, v1, w1, h1, h2, h3⟩

end Flatdata
