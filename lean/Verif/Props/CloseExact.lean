import Verif.Proofs.CloseCalls
/-!
# Property C23, exactly: which failing call makes `close` panic, and which makes it return an error
-/
namespace Flatdata
open Spec StorageExample VecExample MvExample CrashExact MvCrashExact

/-- Three possible ends that exclude each other. -/
theorem ends_exactly {α : Type} {r : Res RErr α} {a b : Prop} (h : (¬ a ∧ r = .panic) ∨ (a ∧ ¬ b ∧ ∃ x, r = .err x) ∨ (b ∧ ∃ s, r = .ok s))
    (hab : b → a) : (r = .panic ↔ ¬ a) ∧ ((∃ x, r = .err x) ↔ a ∧ ¬ b) ∧ ((∃ s, r = .ok s) ↔ b) := by
  rcases h with ⟨h1, rfl⟩ | ⟨h1, h2, x, rfl⟩ | ⟨h1, s, rfl⟩
  · exact ⟨⟨fun _ => h1, fun _ => rfl⟩, ⟨fun ⟨_, h⟩ => (by cases h), fun h => absurd h.1 h1⟩,
      ⟨fun ⟨_, h⟩ => (by cases h), fun h => absurd (hab h) h1⟩⟩
  · exact ⟨⟨fun h => (by cases h), fun h => absurd h1 h⟩, ⟨fun _ => ⟨h1, h2⟩, fun _ => ⟨x, rfl⟩⟩,
      ⟨fun ⟨_, h⟩ => (by cases h), fun h => absurd h h2⟩⟩
  · exact ⟨⟨fun h => (by cases h), fun h => absurd (hab h1) h⟩, ⟨fun ⟨_, h⟩ => (by cases h), fun h => absurd h1 h.2⟩,
      ⟨fun _ => h1, fun _ => ⟨s, rfl⟩⟩⟩

/-- Closing an external vector on disk of which nothing failed before. If one of the next four calls fails (writing the
buffer, the padding, seeking, writing the size), `close` panics. Otherwise, if one of the six calls after them fails, it
returns an error. Otherwise, it succeeds. (`faring w1 f`: the calls fare as `f` says.) -/
theorem C23_extvec_exact [DiffLib] (p : Profile) (e : Endian) (S : StructDef) (hs : 0 < S.size) (w0 w w1 : FileW)
    (o : Obj) (name schema : String) (v v1 : ExtVec file) (es : List (List HandleOp)) (f : Nat → Option Nat)
    (hu : Kind.Unused .disk w0 o name) (hn : Kind.noFault .disk w0) (hm : schema ≠ "")
    (hc : createExternalVector (B := file) p e o name schema w0 = (.ok v, w)) (g : Grows .disk p e S o name w v es w1 v1)
    (hb : es.length * S.size + 8 < 2 ^ 63) :
    ((v1.close p e (faring w1 f)).1 = .panic ↔ ¬ ∀ i, i < 4 → f (w1.fs.tick + i) = none) ∧
    ((∃ x, (v1.close p e (faring w1 f)).1 = .err x) ↔
      (∀ i, i < 4 → f (w1.fs.tick + i) = none) ∧ ¬ ∀ i, i < 10 → f (w1.fs.tick + i) = none) ∧
    ((∃ s, (v1.close p e (faring w1 f)).1 = .ok s) ↔ ∀ i, i < 10 → f (w1.fs.tick + i) = none) := by
  obtain ⟨i0, u0, n0⟩ := created_inv (k := .disk) S.size hu hc
  obtain ⟨pre, buf, c, i1, el, u1, nf, _⟩ := grows_inv (k := .disk) i0 u0 hs g hb
  obtain ⟨_, hcl⟩ := nf (n0 hn)
  rw [hcl] at i1
  refine ends_exactly ?_ fun h i hi => h i (by omega)
  rcases (faring_inv i1 f).close_calls (faring_unseen u1 f) hm p e (by rw [← el.length_eq]; omega) with
    ⟨c1, w2, h2⟩ | ⟨c1, c2, x, w2, h2⟩ | ⟨c1, s, w2, h2, _⟩
  · exact .inl ⟨c1, congrArg Prod.fst h2⟩
  · exact .inr (.inl ⟨c1, c2, x, congrArg Prod.fst h2⟩)
  · exact .inr (.inr ⟨c1, s, congrArg Prod.fst h2⟩)

/-- Two elements written to disk: `close` panics if its fourth call fails, returns an error if its fifth call fails. -/
example [DiffLib] : ∃ v w v1 w1, createExternalVector (B := file) .debug .little objD "x" "s" (disk0 []) = (.ok v, w) ∧
    Grows .disk .debug .little S objD "x" w v es w1 v1 ∧
    (v1.close .debug .little (faring w1 fun t => if t = w1.fs.tick + 3 then some 0 else none)).1 = .panic ∧
    (∃ x, (v1.close .debug .little (faring w1 fun t => if t = w1.fs.tick + 4 then some 0 else none)).1 = .err x) := by
  obtain ⟨v, w, v1, w1, hc, g⟩ := VecExample.run_disk
  have h := fun f => C23_extvec_exact .debug .little S (by decide) (disk0 []) w w1 objD "x" "s" v v1 es f
    (unused_disk0 ..) (disk0_noFault _) (by decide) hc g (by decide)
  refine ⟨v, w, v1, w1, hc, g, (h _).1.mpr fun h => ?_, (h _).2.1.mpr ⟨fun i hi => ?_, fun h => ?_⟩⟩
  · have := h 3 (by omega); simp at this
  · exact if_neg (by omega)
  · have := h 4 (by omega); simp at this

/-- Closing a multivector on disk of which nothing failed before: writing the index if its buffer is full, then writing the data,
closing the index, and completing the data are 14 calls, or 15. If one of them fails (also if the index cannot be read back),
`close` panics. If one of the six calls to read the data back fails, it returns an error. -/
theorem C23_multivec_exact [DiffLib] (p : Profile) (e : Endian) (V : Variadic) (ok : IndexOK V) (w0 w w1 : FileW)
    (o : Obj) (name schema : String) (v v1 : MultiVec file) (its : List (List Add)) (f : Nat → Option Nat) (n : Nat)
    (hu : Kind.MUnused .disk w0 o name) (hn : Kind.noFault .disk w0) (hm : schema ≠ "")
    (hc : createMultiVector (B := file) p e o name schema w0 = (.ok v, w)) (g : MGrows .disk p e V o name w v its w1 v1)
    (hbI : (its.length + 1) * V.indexSize + 8 < 2 ^ 63) (hb : dataSize its + 8 < 2 ^ 63)
    (hk : n = if 32 * 1024 * 1024 < v1.index.data.length then 1 else 0) :
    ((v1.close p e V (faring w1 f)).1 = .panic ↔ ¬ ∀ i, i < n + 14 → f (w1.fs.tick + i) = none) ∧
    ((∃ x, (v1.close p e V (faring w1 f)).1 = .err x) ↔
      (∀ i, i < n + 14 → f (w1.fs.tick + i) = none) ∧ ¬ ∀ i, i < n + 20 → f (w1.fs.tick + i) = none) ∧
    ((∃ s, (v1.close p e V (faring w1 f)).1 = .ok s) ↔ ∀ i, i < n + 20 → f (w1.fs.tick + i) = none) := by
  obtain ⟨i0, u0, n0⟩ := mcreated_inv (k := .disk) V hu hc
  obtain ⟨preI, bufI, cI, pre, body, c, xss, s⟩ := mgrows_inv (k := .disk) ok i0 u0 g hbI hb
  obtain ⟨_, hcI, hcD⟩ := s.fine (n0 hn)
  obtain ⟨hl1, hl2⟩ := s.length
  have i1 := s.inv
  rw [hcI, hcD] at i1
  have hlim : indexCalls v1 = n := by
    rw [hk]; unfold indexCalls; rw [show bufferLimit = 32 * 1024 * 1024 from by decide]
  have uf : MUnseen fileLaws o name (faring w1 f) := ⟨⟨s.unseen.data.1, s.unseen.data.2⟩, ⟨s.unseen.index.1, s.unseen.index.2⟩⟩
  refine ends_exactly ?_ fun h i hi => h i (by omega)
  have h := (faring_minv i1 f).close_calls p e ok uf hm (by omega) (by rw [hl2]; omega)
  rw [hlim] at h
  rcases h with ⟨c1, w2, h2⟩ | ⟨c1, c2, x, w2, h2⟩ | ⟨c1, s, w2, h2, _⟩
  · exact .inl ⟨c1, congrArg Prod.fst h2⟩
  · exact .inr (.inl ⟨c1, c2, x, congrArg Prod.fst h2⟩)
  · exact .inr (.inr ⟨c1, s, congrArg Prod.fst h2⟩)

namespace CloseExactExample

theorem small : ∃ v w v1 w1, createMultiVector (B := file) .debug .little objD "x" "s" (disk0 []) = (.ok v, w) ∧
    MGrows .disk .debug .little V7 objD "x" w v its7 w1 v1 ∧ ¬ 32 * 1024 * 1024 < v1.index.data.length := by
  have hb : (build (B := file) V7 objD its7 (disk0 [])).1.isOk = true := by decide +kernel
  obtain ⟨v1, w1, hb⟩ := isOk_run hb
  obtain ⟨v, w, hc, g⟩ := build_mgrows (k := .disk) its7_variants hb
  obtain ⟨i0, u0, n0⟩ := mcreated_inv (k := .disk) V7 (munused_disk0 ..) hc
  obtain ⟨preI, bufI, cI, pre, body, c, xss, s⟩ := mgrows_inv (k := .disk) v7_ok.index i0 u0 g (by decide) (by decide)
  have hl := s.inv.index.rep.length
  have hl2 := s.length.2
  have h7 : its7.length = 1 := by decide
  have hz : V7.indexSize = 4 := by decide
  refine ⟨v, w, v1, w1, hc, g, ?_⟩
  rw [hl, hz]
  rw [h7, List.length_append] at hl2
  omega

end CloseExactExample

/-- A multivector on disk: `close` panics if its 14th call fails (the size of the data), and also if its 11th call fails, with
which the index is read back, and returns an error if its 15th call fails. -/
example [DiffLib] : ∃ v w v1 w1, createMultiVector (B := file) .debug .little objD "x" "s" (disk0 []) = (.ok v, w) ∧
    MGrows .disk .debug .little V7 objD "x" w v its7 w1 v1 ∧
    (v1.close .debug .little V7 (faring w1 fun t => if t = w1.fs.tick + 13 then some 0 else none)).1 = .panic ∧
    (v1.close .debug .little V7 (faring w1 fun t => if t = w1.fs.tick + 10 then some 0 else none)).1 = .panic ∧
    (∃ x, (v1.close .debug .little V7 (faring w1 fun t => if t = w1.fs.tick + 14 then some 0 else none)).1 = .err x) := by
  obtain ⟨v, w, v1, w1, hc, g, hlt⟩ := CloseExactExample.small
  have h := fun f => C23_multivec_exact .debug .little V7 v7_ok.index (disk0 []) w w1 objD "x" "s" v v1 its7 f 0
    (munused_disk0 ..) (disk0_noFault _) (by decide) hc g (by decide) (by decide) (if_neg hlt).symm
  refine ⟨v, w, v1, w1, hc, g, (h _).1.mpr fun h => ?_, (h _).1.mpr fun h => ?_, (h _).2.1.mpr ⟨fun i hi => ?_, fun h => ?_⟩⟩
  · have := h 13 (by omega); simp at this
  · have := h 10 (by omega); simp at this
  · exact if_neg (by omega)
  · have := h 14 (by omega); simp at this

end Flatdata
