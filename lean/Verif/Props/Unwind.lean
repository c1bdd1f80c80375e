import Verif.Proofs.Unwind
import Verif.Props.MvClose
/-!
# Property C67: a panic does not abort the process
-/
namespace Flatdata
open Spec StorageExample VecExample MvExample

/-- Whatever handles and vectors the functions on the stack own, in whatever state, and whenever a panic happens: no execution reaches an
abort. -/
theorem C67_no_abort (B : Backend) (s : List (List (Owned B))) (c : Stack B) (h : Stack.Steps ⟨.running, s⟩ c) : c.thread ≠ .aborted := by
  suffices ∀ c0 : Stack B, c0.thread ≠ .aborted → Stack.Steps c0 c → c.thread ≠ .aborted from this _ (by simp) h
  intro c0 h0 h
  induction h with
  | refl => exact h0
  | step _ s ih =>
    cases s with
    | calls => simp
    | panics => simp [Thread.panic]
    | drops t v vs s ht =>
      change v.dropIn t ≠ .aborted
      cases t with
      | running => rcases v.dropIn_running with ⟨_, h⟩ | ⟨_, h⟩ <;> rw [h] <;> simp
      | unwinding => rw [v.dropIn_unwinding]; simp
      | aborted => exact absurd rfl ht
    | left t s ht => exact ht
    | caught => simp

/-- At the end of a scope the thread starts to unwind exactly if one of the values of the scope is still open; the remaining values
are dropped without a second panic. -/
theorem C67_leave_exact (B : Backend) (vs : List (Owned B)) :
    (dropAll vs .running = .unwinding ↔ ∃ v ∈ vs, Open v) ∧ (dropAll vs .running = .running ↔ ∀ v ∈ vs, ¬ Open v) := by
  rcases dropAll_running vs with ⟨⟨v, hv, ho⟩, h⟩ | ⟨hn, h⟩
  · refine ⟨⟨fun _ => ⟨v, hv, ho⟩, fun _ => h⟩, fun h' => ?_, fun h' => absurd ho (h' v hv)⟩
    rw [h] at h'; cases h'
  · refine ⟨⟨fun h' => ?_, fun ⟨v, hv, ho⟩ => absurd ho (hn v hv)⟩, fun _ => hn, fun _ => h⟩
    rw [h] at h'; cases h'

/-- While the thread unwinds, no destructor of the crate panics. -/
theorem C67_unwind (B : Backend) (vs : List (Owned B)) : dropAll vs .unwinding = .unwinding := dropAll_unwinding vs

/-- Two vectors in nested scopes, a panic: both are dropped and the thread ends unwinding. -/
example (v v' : Owned mem) :
    Stack.Steps (B := mem) ⟨.running, []⟩ ⟨.unwinding, []⟩ ∧ Stack.Steps (B := mem) ⟨.running, [[v], [v']]⟩ ⟨.unwinding, []⟩ := by
  have h : Stack.Steps (B := mem) ⟨.running, [[v], [v']]⟩ ⟨.unwinding, []⟩ := by
    have h1 := Stack.Steps.step (.refl _) (Stack.Step.panics (B := mem) [[v], [v']])
    have h2 := h1.step (.drops .unwinding v [] [[v']] (by decide))
    rw [v.dropIn_unwinding] at h2
    have h3 := (h2.step (.left .unwinding [[v']] (by decide))).step (.drops .unwinding v' [] [] (by decide))
    rw [v'.dropIn_unwinding] at h3
    exact h3.step (.left .unwinding [] (by decide))
  exact ⟨.step (.refl _) (.panics []), h⟩

/-- An open multivector is dropped: both of its handles are open, one panic. -/
example (h : Handle mem) (ho : h.isOpen = true) :
    dropAll [.multi (MultiVec.new (ExtVec.new h) h), .handle h] .running = .unwinding :=
  (C67_leave_exact mem _).1.mpr ⟨.handle h, by simp, ho⟩

/-- Functions of the crate that drop values, in a running thread, from any state: `close` of external vectors. The outcome is the one of
the other properties, and the thread unwinds exactly after a panic. -/
theorem C67_close_ext [DiffLib] (B : Backend) (p : Profile) (e : Endian) (v : ExtVec B) (w : B.W) :
    v.closeIn p e .running w =
      ((v.close p e w).1, if (v.close p e w).1.isPanic then .unwinding else .running, (v.close p e w).2) :=
  AsRunning.extClose p e v w

/-- `close` of multivectors: also when closing the index panics while the data handle is open. -/
theorem C67_close_multi [DiffLib] (B : Backend) (p : Profile) (e : Endian) (V : Variadic) (v : MultiVec B) (w : B.W) :
    v.closeIn p e V .running w =
      ((v.close p e V w).1, if (v.close p e V w).1.isPanic then .unwinding else .running, (v.close p e V w).2) :=
  AsRunning.multiClose p e V v w

/-- `create_multi_vector`. -/
theorem C67_create_multi (B : Backend) (p : Profile) (e : Endian) (o : B.Obj) (name schema : String) (w : B.W) :
    createMultiVectorIn p e o name schema .running w =
      ((createMultiVector p e o name schema w).1,
        if (createMultiVector p e o name schema w).1.isPanic then .unwinding else .running, (createMultiVector p e o name schema w).2) :=
  AsRunning.createMulti p e o name schema w

/-- A vector closed while the thread unwinds (in a destructor of the client): whatever I/O fails, `close` returns a value or an error. This
is what C23 asks for, and what a running thread does not get. -/
theorem C67_guard_ext [DiffLib] (k : Kind) (p : Profile) (e : Endian) (S : StructDef) (hs : 0 < S.size) (w0 w w1 : k.backend.W)
    (o : k.backend.Obj) (name schema : String) (v v1 : ExtVec k.backend) (es : List (List HandleOp))
    (hu : k.Unused w0 o name) (hc : createExternalVector p e o name schema w0 = (.ok v, w))
    (g : Grows k p e S o name w v es w1 v1) (hb : es.length * S.size + 8 < 2 ^ 63) :
    (∃ s w2, v1.closeIn p e .unwinding w1 = (.ok s, .unwinding, w2)) ∨ ∃ x w2, v1.closeIn p e .unwinding w1 = (.err x, .unwinding, w2) := by
  obtain ⟨i, u, n⟩ := created_inv S.size hu hc
  obtain ⟨pre, buf, c, i1, el, u1, nf, _⟩ := grows_inv i u hs g hb
  obtain ⟨r, w2, h, hr, _⟩ := i1.closeIn u1 (k.loc_schema_ne o name) p e (by rw [← el.length_eq]; omega)
  rw [h]
  exact hr

/-- The same for multivectors. -/
theorem C67_guard_multi [DiffLib] (k : Kind) (p : Profile) (e : Endian) (V : Variadic) (ok : IndexOK V) (w0 w w1 : k.backend.W)
    (o : k.backend.Obj) (name schema : String) (v v1 : MultiVec k.backend) (its : List (List Add)) (hu : k.MUnused w0 o name)
    (hc : createMultiVector p e o name schema w0 = (.ok v, w)) (g : MGrows k p e V o name w v its w1 v1)
    (hbI : (its.length + 1) * V.indexSize + 8 < 2 ^ 63) (hb : dataSize its + 8 < 2 ^ 63) :
    (∃ s w2, v1.closeIn p e V .unwinding w1 = (.ok s, .unwinding, w2)) ∨
      ∃ x w2, v1.closeIn p e V .unwinding w1 = (.err x, .unwinding, w2) := by
  obtain ⟨i, u, n⟩ := mcreated_inv V hu hc
  obtain ⟨preI, bufI, cI, pre, body, c, xss, s⟩ := mgrows_inv ok i u g hbI hb
  obtain ⟨l1, l2⟩ := s.length
  exact s.inv.closeIn (k.apart o name) p e ok s.unseen.data s.unseen.index (by omega) (by rw [l2]; exact hbI)

/-- Where `close` of a running thread returns, `close` of a thread that unwinds returns the same and has the same effects, from any
state. -/
theorem C67_guard_same [DiffLib] (B : Backend) (p : Profile) (e : Endian) (V : Variadic) (v : ExtVec B) (m : MultiVec B) (w : B.W) :
    ((v.close p e w).1 ≠ .panic → v.closeIn p e .unwinding w = ((v.close p e w).1, .unwinding, (v.close p e w).2)) ∧
    ((m.close p e V w).1 ≠ .panic → m.closeIn p e V .unwinding w = ((m.close p e V w).1, .unwinding, (m.close p e V w).2)) := by
  have h : ∀ {E α : Type} (r : Res E α), r ≠ .panic → r.isPanic = false := by
    intro E α r hr
    cases r with
    | panic => exact absurd rfl hr
    | _ => rfl
  exact ⟨fun hp => AsUnwinding.extClose p e v w (h _ hp), fun hp => AsUnwinding.multiClose p e V m w (h _ hp)⟩

/-- A multivector created while the thread unwinds: an error is returned, also when the index has been created and is dropped. -/
theorem C67_guard_create (k : Kind) (p : Profile) (e : Endian) (w0 : k.backend.W) (o : k.backend.Obj) (name schema : String)
    (hu : k.MUnused w0 o name) :
    (∃ v w, createMultiVectorIn p e o name schema .unwinding w0 = (.ok v, .unwinding, w)) ∨
      ∃ x w, createMultiVectorIn p e o name schema .unwinding w0 = (.err x, .unwinding, w) := by
  obtain ⟨f1, f2, u⟩ := hu.data.fresh
  obtain ⟨f3, f4, u'⟩ := hu.index.fresh
  exact createMultiVectorIn_returns (L := k.laws) p e (k.apart o name) 1 f1 f2 f3 f4

namespace UnwindExample

/-- Disk full while the padding is written, as in `C23_extvec_refuted`. -/
def full1 : FileW := disk0 [] fun t => if t = 7 then some 0 else none

/-- Builds the vector of `VecExample`, closes it in a thread in state `t`. -/
def closed (t : Thread) : Res RErr (Slice Key) × Thread × FileW :=
  (TAct.call ((VecExample.build (B := file) objD es).mapErr (RErr.io · "x")) >>= fun v =>
    @ExtVec.closeIn file .debug .little naiveDiff v) t full1

/-- Running, the thread panics; unwinding, the error is returned. -/
theorem closed_run : (closed .running).1.isPanic = true ∧ (closed .running).2.1 = .unwinding ∧ (closed .unwinding).1.isErr = true ∧
    (closed .unwinding).2.1 = .unwinding := by decide +kernel

/-- A vector whose handle is closed: closing it returns an error in both states of the thread. -/
example (w : MemW) :
    (@ExtVec.close mem .debug .little naiveDiff (ExtVec.new ⟨none, 0, obj, "x", "s"⟩) w).1 ≠ .panic := by
  have h : (@ExtVec.close mem .debug .little naiveDiff (ExtVec.new ⟨none, 0, obj, "x", "s"⟩) w).1 = .err (.io .unexpectedEof "x") := rfl
  rw [h]; simp

/-- The run meets the hypotheses of `C67_guard_ext`. -/
example : ∃ v1 w1, (∃ s w2, @ExtVec.closeIn file .debug .little naiveDiff v1 .unwinding w1 = (.ok s, .unwinding, w2)) ∨
    ∃ x w2, @ExtVec.closeIn file .debug .little naiveDiff v1 .unwinding w1 = (.err x, .unwinding, w2) := by
  have hb : (VecExample.build (B := file) objD es full1).1.isOk = true := by decide +kernel
  obtain ⟨v1, w1, hb⟩ := isOk_run hb
  obtain ⟨v, w, hc, g⟩ := build_grows (k := .disk) hb
  exact ⟨v1, w1, @C67_guard_ext naiveDiff .disk .debug .little S (by decide) full1 w w1 objD "x" "s" v v1 es (unused_disk0 ..) hc g
    (by decide)⟩

/-- The multivector of `C23_multivec_refuted`, closed while the thread unwinds. -/
example : ∃ v1 w1, (∃ s w2, @MultiVec.closeIn file .debug .little naiveDiff V7 v1 .unwinding w1 = (.ok s, .unwinding, w2)) ∨
    ∃ x w2, @MultiVec.closeIn file .debug .little naiveDiff V7 v1 .unwinding w1 = (.err x, .unwinding, w2) := by
  have hb : (MvExample.build (B := file) V7 objD its7 full).1.isOk = true := by decide +kernel
  obtain ⟨v1, w1, hb⟩ := isOk_run hb
  obtain ⟨v, w, hc, g⟩ := build_mgrows (k := .disk) its7_variants hb
  exact ⟨v1, w1, @C67_guard_multi naiveDiff .disk .debug .little V7 ⟨by decide, by decide, by decide⟩ full w w1 objD "x" "s" v v1 its7
    (munused_disk0 ..) hc g (by decide) (by decide)⟩

/-- A disk that is full while a multivector is created. -/
example (s : String) : (∃ v w, createMultiVectorIn (B := file) .debug .little objD "x" s .unwinding full = (.ok v, .unwinding, w)) ∨
    ∃ x w, createMultiVectorIn (B := file) .debug .little objD "x" s .unwinding full = (.err x, .unwinding, w) :=
  C67_guard_create .disk .debug .little full objD "x" s (munused_disk0 ..)

end UnwindExample
end Flatdata
