import Verif.Proofs.NarrowMulti
import Verif.Props.MvClose
/-!
# Property C62 for multivectors
-/
namespace Flatdata
open Spec StorageExample VecExample MvExample

section
variable {k : Kind} {p : Profile} {e : Endian} {m : Nat} {V : Variadic} {w0 w w1 : k.backend.W} {o : k.backend.Obj}
  {name schema : String} {v v1 : MultiVec k.backend} {its : List (List Add)}

theorem Spec.MFits.init {as : List Add} (f : MFits m V (its ++ [as])) : MFits m V its := by
  obtain ⟨a, b, c, d⟩ := f
  rw [dataSize_append] at a c
  rw [List.length_append, Nat.add_right_comm, Nat.add_mul] at b d
  refine ⟨by omega, by omega, ?_, by omega⟩
  rcases c with c | c
  · exact .inl fun x hx => c x (by simp [hx])
  · exact .inr (by omega)

theorem Spec.MFits.less {as : List Add} {a : Add} (f : MFits m V (its ++ [as ++ [a]])) : MFits m V (its ++ [as]) := by
  obtain ⟨h1, h2, h3, h4⟩ := f
  rw [dataSize_append, dataSize_singleton, itemSize_append] at h1 h3
  refine ⟨?_, by simpa using h2, ?_, by simpa using h4⟩
  · rw [dataSize_append, dataSize_singleton]; omega
  · rcases h3 with h3 | h3
    · refine .inl fun x hx => ?_
      rcases List.mem_append.mp hx with hx | hx
      · exact h3 x (by simp [hx])
      · simp at hx
        subst hx
        have := h3 _ (List.mem_append.mpr (.inr (List.mem_singleton.mpr rfl)))
        rw [itemSize_append] at this
        omega
    · refine .inr ?_
      rw [dataSize_append, dataSize_singleton]; omega

/-- What a host that can count a multivector does with it. -/
theorem msame (ok : IndexOK V) (hm : m ≤ 2 ^ 64) (hu : k.MUnused w0 o name) (hc : createMultiVector p e o name schema w0 = (.ok v, w))
    (g : MGrows k p e V o name w v its w1 v1) (hbI : (its.length + 1) * V.indexSize + 8 < 2 ^ 63) (hb : dataSize its + 8 < 2 ^ 63)
    (f : MFits m V its) :
    Narrow.MultiVec.grow m p e V v1 w1 = v1.grow p e V w1 ∧
    (∀ _ : DiffLib, Narrow.MultiVec.close m p e V v1 w1 = v1.close p e V w1) ∧
    ∀ its' as (a : Add), its = its' ++ [as] → MFits m V (its' ++ [as ++ [a]]) → dataSize (its' ++ [as ++ [a]]) + 8 < 2 ^ 63 →
      Narrow.MultiVec.builderAdd m p a.type a.struct.size v1.data = MultiVec.builderAdd p a.type a.struct.size v1.data := by
  obtain ⟨i, u, -⟩ := mcreated_inv V hu hc
  obtain ⟨preI, bufI, cI, pre, body, c, xss, s⟩ := mgrows_inv ok i u g hbI hb
  obtain ⟨l1, l2⟩ := s.length
  obtain ⟨b1, b2⟩ := C24_multivec k p e V o name schema w0 w w1 v v1 its hc g
  obtain ⟨f1, f2, f3, f4⟩ := f
  have hlim : bufferLimit = 32 * 1024 * 1024 := by decide
  have hmul : (its.length + 1) * V.indexSize = its.length * V.indexSize + V.indexSize := by rw [Nat.add_mul, Nat.one_mul]
  have hrep := s.inv.index.rep.length
  have hle : bufI.length * V.indexSize ≤ its.length * V.indexSize := by
    rw [← l2]; exact Nat.mul_le_mul_right _ (by simp)
  have hd : 2 * v1.index.data.length < m := by omega
  have hS : 2 * V.indexSize < m := by omega
  have ht : ¬ Narrow.Tight m V ((preI ++ bufI).length + 1) := by
    unfold Narrow.Tight
    rw [l2, hlim]
    omega
  refine ⟨?_, fun _ => ?_, fun its' as a hits f' hb' => ?_⟩
  · rcases Narrow.mgrow_same (p := p) (e := e) s.inv (k.apart o name) ok hm (by omega) hS hd (by omega) (by omega) (by rw [l2]; exact hbI)
      (by rw [l2]; omega) with h | ⟨_, _, h⟩
    · exact h
    · exact absurd h ht
  · rcases Narrow.mclose_same (p := p) (e := e) s.inv (k.apart o name) ok hm s.unseen.data s.unseen.index hS hd (by omega) (by omega)
      (by rw [l2]; exact hbI) (by rw [l2]; exact f2) with h | ⟨_, _, h⟩
    · exact h
    · exact absurd h ht
  · have hl := s.inv.length
    subst hits
    obtain ⟨g1, -, g3, -⟩ := f'
    rw [dataSize_append, dataSize_singleton, itemSize_append, itemSize_singleton] at g1 hb' g3
    rw [dataSize_append, dataSize_singleton] at l1
    rcases Narrow.builderAdd_same (p := p) (t := a.type) (size := a.struct.size) (data := v1.data) (by omega)
      (show v1.data.length + 1 + a.struct.size < m by omega) (by omega) with h | ⟨_, h⟩
    · exact h
    · rcases g3 with g3 | g3
      · have := g3 _ (List.mem_append.mpr (.inr (List.mem_singleton.mpr rfl)))
        rw [itemSize_append, itemSize_singleton] at this
        simp only [List.getLastD_concat] at b1
        omega
      · omega

end

/-- C62 for multivectors: on a host that can count the bytes of data and index and hold the buffers, a multivector has the same histories
as on a 64-bit host, and closing it does the same, whatever I/O fails. -/
theorem C62_multi_same_partial [DiffLib] (k : Kind) (p : Profile) (e : Endian) (m : Nat) (hm : m ≤ 2 ^ 64) (V : Variadic) (ok : IndexOK V)
    (w0 w w1 : k.backend.W) (o : k.backend.Obj) (name schema : String) (v v1 : MultiVec k.backend) (its : List (List Add))
    (hu : k.MUnused w0 o name) (hc : createMultiVector p e o name schema w0 = (.ok v, w))
    (hbI : (its.length + 1) * V.indexSize + 8 < 2 ^ 63) (hb : dataSize its + 8 < 2 ^ 63) (f : MFits m V its) :
    (NMGrows m k p e V o name w v its w1 v1 ↔ MGrows k p e V o name w v its w1 v1) ∧
    (MGrows k p e V o name w v its w1 v1 → Narrow.MultiVec.close m p e V v1 w1 = v1.close p e V w1) := by
  refine ⟨⟨fun g => ?_, fun g => ?_⟩, fun g => (msame ok hm hu hc g hbI hb f).2.1 _⟩
  · induction g with
    | start => exact .start
    | @grow its w1 v1 v2 w2 g h ih =>
      have hbI' : (its.length + 1) * V.indexSize + 8 < 2 ^ 63 := by
        rw [List.length_append, Nat.add_right_comm, Nat.add_mul] at hbI; omega
      rw [dataSize_append] at hb
      have g' := ih hbI' (by omega) f.init
      exact .grow g' ((msame ok hm hu hc g' hbI' (by omega) f.init).1.symm.trans h)
    | @add its as w1 v1 a d pos d' g hv h hw ih =>
      have hb' : dataSize (its ++ [as]) + 8 < 2 ^ 63 := by
        rw [dataSize_append, dataSize_singleton, itemSize_append] at hb
        rw [dataSize_append, dataSize_singleton]; omega
      have g' := ih (by simpa using hbI) hb' f.less
      exact .add g' hv (((msame ok hm hu hc g' (by simpa using hbI) hb' f.less).2.2 _ _ a rfl f hb).symm.trans h) hw
    | failed g h ih => exact .failed (ih hbI hb f) ((msame ok hm hu hc (ih hbI hb f) hbI hb f).1.symm.trans h)
    | other g h ih => exact .other (ih hbI hb f) h
    | elsewhere g ho hi h ih => exact .elsewhere (ih hbI hb f) ho hi h
  · induction g with
    | start => exact .start
    | @grow its w1 v1 v2 w2 g h ih =>
      have hbI' : (its.length + 1) * V.indexSize + 8 < 2 ^ 63 := by
        rw [List.length_append, Nat.add_right_comm, Nat.add_mul] at hbI; omega
      rw [dataSize_append] at hb
      exact .grow (ih hbI' (by omega) f.init) ((msame ok hm hu hc g hbI' (by omega) f.init).1.trans h)
    | @add its as w1 v1 a d pos d' g hv h hw ih =>
      have hb' : dataSize (its ++ [as]) + 8 < 2 ^ 63 := by
        rw [dataSize_append, dataSize_singleton, itemSize_append] at hb
        rw [dataSize_append, dataSize_singleton]; omega
      exact .add (ih (by simpa using hbI) hb' f.less) hv (((msame ok hm hu hc g (by simpa using hbI) hb' f.less).2.2 _ _ a rfl f hb).trans h) hw
    | failed g h ih => exact .failed (ih hbI hb f) ((msame ok hm hu hc g hbI hb f).1.trans h)
    | other g h ih => exact .other (ih hbI hb f) h
    | elsewhere g ho hi h ih => exact .elsewhere (ih hbI hb f) ho hi h

/-- C62 for multivectors, in every build, whatever I/O fails and whatever has been added: if closing returns views, the host can count data
and index, a 64-bit host would have done the same, and the views show exactly the items. -/
theorem C62_multi_close_ok [DiffLib] (k : Kind) (p : Profile) (e : Endian) (m : Nat) (h16 : 16 < m) (hm : m ≤ 2 ^ 64) (V : Variadic)
    (ok : VariadicOK V) (hS : 2 * V.indexSize < m) (hV : ∀ x ∈ V.types, 2 * (x.2.size + 1) ≤ m) (w0 w w1 w2 : k.backend.W)
    (o : k.backend.Obj) (name schema : String) (v v1 : MultiVec k.backend) (its : List (List Add)) (si sd : Slice k.backend.Base)
    (hu : k.MUnused w0 o name) (hc : createMultiVector p e o name schema w0 = (.ok v, w)) (g : NMGrows m k p e V o name w v its w1 v1)
    (hbI : (its.length + 1) * V.indexSize + 8 < 2 ^ 63) (hb : dataSize its + 8 < 2 ^ 63)
    (hcl : Narrow.MultiVec.close m p e V v1 w1 = (.ok (si, sd), w2)) :
    dataSize its + 16 < m ∧ (its.length + 1) * V.indexSize + 16 < m ∧ MGrows k p e V o name w v its w1 v1 ∧
    v1.close p e V w1 = (.ok (si, sd), w2) ∧
    (dataSize its < 2 ^ V.indexBits → ∃ xss ib db, AllContents p e its xss ∧ k.backend.deref w2 si = .ok ib ∧
      k.backend.deref w2 sd = .ok db ∧ Shows V ⟨ib, db⟩ xss) := by
  obtain ⟨i, u, -⟩ := mcreated_inv V hu hc
  obtain ⟨h1, h2, g', h3⟩ := Narrow.nmclose_ok ok.index h16 hm hS hV i u g hbI hb hcl
  exact ⟨h2, h1, g', h3, fun hbits => C26_faults_partial k p e V ok w0 w w1 w2 o name schema v v1 its si sd hu hc g' hbI hb hbits h3⟩

/-- Non-vacuity of `C62_multi_same_partial` and `C62_multi_close_ok`: the three items on a 16-bit host. -/
example [DiffLib] : ∃ v w v1 w1 si sd w2 ib db, createMultiVector (B := file) .debug .little objD "x" "s" (disk0 []) = (.ok v, w) ∧
    NMGrows (2 ^ 16) .disk .debug .little Coappearances.VerticesData objD "x" w v its w1 v1 ∧
    Narrow.MultiVec.close (2 ^ 16) .debug .little Coappearances.VerticesData v1 w1 = (.ok (si, sd), w2) ∧
    file.deref w2 si = .ok ib ∧ file.deref w2 sd = .ok db ∧ Shows Coappearances.VerticesData ⟨ib, db⟩ MultiExample.contents := by
  obtain ⟨v, w, v1, w1, hc, g⟩ := MvExample.run_disk
  obtain ⟨h1, h2⟩ := C62_multi_same_partial .disk .debug .little (2 ^ 16) (by decide) Coappearances.VerticesData MultiExample.ok.index (disk0 []) w w1
    objD "x" "s" v v1 its (munused_disk0 ..) hc (by decide) (by decide) ⟨by decide, by decide, .inr (by decide), .inr (by decide)⟩
  obtain ⟨xss, si, sd, w2, ib, db, -, h3, -⟩ := C26_roundtrip_partial .disk .debug .little Coappearances.VerticesData MultiExample.ok
    (disk0 []) w w1 objD "x" "s" v v1 its (munused_disk0 ..) (disk0_noFault _) (by change strBytes "s" ≠ []; decide) hc g
    (by decide) (by decide) (by decide)
  have h4 := (h2 g).trans h3
  obtain ⟨-, -, -, -, h5⟩ := C62_multi_close_ok .disk .debug .little (2 ^ 16) (by decide) (by decide) Coappearances.VerticesData MultiExample.ok
    (by decide) (by decide) (disk0 []) w w1 w2 objD "x" "s" v v1 its si sd (munused_disk0 ..) hc (h1.mpr g) (by decide) (by decide) h4
  obtain ⟨xss, ib, db, h6, h7, h8, h9⟩ := h5 (by decide)
  rw [h6.unique its_contents] at h9
  exact ⟨v, w, v1, w1, si, sd, w2, ib, db, hc, h1.mpr g, h4, h7, h8, h9⟩

end Flatdata
