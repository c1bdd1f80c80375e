import Verif.Spec.MPeeked
import Verif.Props.Rewrite
/-!
# Property C36 exactly, for multivectors
-/
namespace Flatdata
open Spec StorageExample

section
variable [DiffLib] {k : Kind} {p : Profile} {e : Endian} {V : Variadic} {o : k.backend.Obj} {name schema : String}
  {w w1 : k.backend.W} {v v1 : MultiVec k.backend} {its : List (List Add)} {bI bD : Bool}

theorem Spec.MPeeked.unread (g : MPeeked k p e V o name w v bI bD its w1 v1) (hI : bI = false) (hD : bD = false) :
    MGrows k p e V o name w v its w1 v1 := by
  induction g with
  | start => exact .start
  | grow _ h ih => exact .grow (ih hI hD) h
  | add _ hm h hw ih => exact .add (ih hI hD) hm h hw
  | failed _ h ih => exact .failed (ih hI hD) h
  | other _ h ih => exact .other (ih hI hD) h
  | elsewhere _ ho hi h ih => exact .elsewhere (ih hI hD) ho hi h
  | readIndex => cases hI
  | readData => cases hD

theorem Spec.MPeeked.ofGrows (g : MGrows k p e V o name w v its w1 v1) : MPeeked k p e V o name w v false false its w1 v1 := by
  induction g with
  | start => exact .start
  | grow _ h ih => exact .grow ih h
  | add _ hm h hw ih => exact .add ih hm h hw
  | failed _ h ih => exact .failed ih h
  | other _ h ih => exact .other ih h
  | elsewhere _ ho hi h ih => exact .elsewhere ih ho hi h

/-- The storage object has mapped the unfinished resource, when at most `total` bytes had been written to it. -/
def Stale (k : Kind) (o : k.backend.Obj) (n : String) (w1 : k.backend.W) (total : Nat) : Prop :=
  ∃ wb s c, k.Reachable wb ∧ Kind.Steps k wb w1 ∧ k.laws.cache wb o n = some s ∧ s.off = 0 ∧ s.len = 8 + c.length ∧
    k.backend.content wb s.base = le64 0 ++ c ∧ c.length ≠ 8 ∧ c.length ≤ total

omit [DiffLib] in
theorem Stale.mono {n : String} {w2 : k.backend.W} {t t' : Nat} (h : Stale k o n w1 t) (s : Kind.Steps k w1 w2) (ht : t ≤ t') :
    Stale k o n w2 t' := by
  obtain ⟨wb, sl, c, h1, h2, h3, h4, h5, h6, h7, h8⟩ := h
  exact ⟨wb, sl, c, h1, h2.trans s, h3, h4, h5, h6, h7, by omega⟩

/-- What is known about an open multivector that may have been read. -/
structure MvPeek (k : Kind) (V : Variadic) (o : k.backend.Obj) (name schema : String) (w : k.backend.W) (bI bD : Bool)
    (its : List (List Add)) (w1 : k.backend.W) (v1 : MultiVec k.backend) (preI bufI : List Bytes) (pre body : Bytes) : Prop where
  inv : MvInv k.laws o name schema V w1 v1 preI bufI preI.flatten pre body pre
  steps : Kind.Steps k w w1
  fine : k.noFault w1
  lenI : (preI ++ bufI).length = its.length
  len : pre.length + body.length = dataSize its
  flushedI : preI = [] ∨ bufferLimit < preI.flatten.length + 8
  flushed : pre = [] ∨ bufferLimit < pre.length + 8
  unseenI : bI = false → Unseen k.laws o (Storage.indexName name) w1
  unseen : bD = false → Unseen k.laws o name w1
  staleI : bI = true → Stale k o (Storage.indexName name) w1 (its.length * V.indexSize)
  stale : bD = true → Stale k o name w1 (dataSize its)

theorem mpeeked_inv (ok : IndexOK V) (hr : k.Reachable w) (ho : k.alive w o) (hn : k.noFault w)
    (i : MvInv k.laws o name schema V w v [] [] [] [] [] []) (hu : MUnseen k.laws o name w)
    (g : MPeeked k p e V o name w v bI bD its w1 v1) :
    (its.length + 1) * V.indexSize + 8 < 2 ^ 63 → dataSize its + 8 < 2 ^ 63 →
    ∃ preI bufI pre body, MvPeek k V o name schema w bI bD its w1 v1 preI bufI pre body := by
  have ap := k.apart o name
  have hlim : bufferLimit = 33554432 := by decide
  induction g with
  | start =>
    exact fun _ _ => ⟨[], [], [], [], i, .refl _, hn, rfl, rfl, .inl rfl, .inl rfl, fun _ => hu.index, fun _ => hu.data,
      (fun h => by cases h), (fun h => by cases h)⟩
  | @grow bI bD its w1 v1 v2 w2 g h ih =>
    intro hbI hb
    have hbI' : (its.length + 1) * V.indexSize + 8 < 2 ^ 63 := by
      rw [List.length_append, Nat.add_right_comm, Nat.add_mul] at hbI; omega
    rw [dataSize_append, dataSize_singleton] at hb
    obtain ⟨preI, bufI, pre, body, s⟩ := ih hbI' (by omega)
    have l1 := s.len
    rcases s.inv.grow ap p e ok (by omega) (by rw [s.lenI]; exact hbI') with
      ⟨v', w', preI', bufI', cI', pre', body', c', x, h1, i2, e2, e3, hx, hcI, hc, hfI, hf, o2⟩ | ⟨_, _, _, _, _, _, _, h1, _⟩
    · rw [h] at h1; cases h1
      rw [hcI rfl, hc rfl] at i2
      have st : Kind.Steps k w1 w2 := Kind.steps_of (fun _ => Kind.pres_mgrow) (s.steps.alive ho) h
      refine ⟨preI', bufI' ++ [x], pre', body', i2, s.steps.trans st, st.noFault s.fine, ?_, ?_, ?_, ?_,
        fun h => (s.unseenI h).only o2, fun h => (s.unseen h).only o2, fun h => (s.staleI h).mono st ?_, fun h => (s.stale h).mono st ?_⟩
      · rw [← List.append_assoc, e2, List.length_append, List.length_append (as := its), s.lenI]; rfl
      · rw [← List.length_append, e3, List.length_append, l1, dataSize_append, dataSize_singleton]; simp [itemSize]
      · rcases hfI with hf | hf
        · rw [hf]; exact s.flushedI
        · exact .inr hf
      · rcases hf with hf | hf
        · rw [hf]; exact s.flushed
        · exact .inr hf
      · exact Nat.mul_le_mul_right _ (by simp)
      · rw [dataSize_append]; omega
    · rw [h] at h1; cases h1
  | @add bI bD its as w1 v1 a d pos d' g hm h hw ih =>
    intro hbI hb
    rw [dataSize_append, dataSize_singleton, itemSize_append, itemSize_singleton] at hb
    obtain ⟨preI, bufI, pre, body, s⟩ := ih (by simpa using hbI) (by rw [dataSize_append, dataSize_singleton]; omega)
    have l1 := s.len
    rw [dataSize_append, dataSize_singleton] at l1
    obtain ⟨x, hx, i2⟩ := s.inv.add h hw (by omega)
    refine ⟨preI, bufI, pre, _, i2, s.steps, s.fine, by simpa using s.lenI, ?_, s.flushedI, s.flushed, s.unseenI, s.unseen,
      fun h => (s.staleI h).mono (.refl _) (Nat.mul_le_mul_right _ (by simp)), fun h => (s.stale h).mono (.refl _) ?_⟩
    · have := runHandle_length _ _ _ hx
      rw [dataSize_append, dataSize_singleton, itemSize_append, itemSize_singleton]
      simp [this, zeros]; omega
    · rw [dataSize_append, dataSize_append, dataSize_singleton, dataSize_singleton, itemSize_append]; omega
  | @failed bI bD its w1 v1 x v2 w2 g h ih =>
    intro hbI hb
    obtain ⟨preI, bufI, pre, body, s⟩ := ih hbI hb
    have l1 := s.len
    rcases s.inv.grow ap p e ok (by omega) (by rw [s.lenI]; exact hbI) with
      ⟨_, _, _, _, _, _, _, _, _, h1, _⟩ | ⟨_, _, _, _, _, _, _, _, _, _, _, _, nf2⟩
    · rw [h] at h1; cases h1
    · exact absurd ((k.noFault_iff _).mp s.fine) nf2
  | @other bI bD its w1 v1 w2 g h ih =>
    intro hbI hb
    obtain ⟨preI, bufI, pre, body, s⟩ := ih hbI hb
    obtain ⟨k1, k2⟩ := Kind.away_mkeeps h
    have st : Kind.Steps k w1 w2 := .step (.refl _) h.step
    exact ⟨preI, bufI, pre, body, s.inv.keeps k1, s.steps.trans st, k2 s.fine, s.lenI, s.len, s.flushedI, s.flushed,
      fun h => (s.unseenI h).keeps (k1 _ (.inr (.inl rfl))) (k1 _ (.inr (.inr rfl))),
      fun h => (s.unseen h).keeps (k1 _ (.inl (.inl rfl))) (k1 _ (.inl (.inr rfl))),
      fun h => (s.staleI h).mono st (Nat.le_refl _), fun h => (s.stale h).mono st (Nat.le_refl _)⟩
  | @elsewhere bI bD its w1 v1 o' n r w2 g ho' hi h ih =>
    intro hbI hb
    obtain ⟨preI, bufI, pre, body, s⟩ := ih hbI hb
    have st : Kind.Steps k w1 w2 := .step (.refl _) (.read ho' h)
    exact ⟨preI, bufI, pre, body, s.inv.read h, s.steps.trans st, st.noFault s.fine, s.lenI, s.len, s.flushedI, s.flushed,
      fun hb => Kind.elsewhere_unseen hi h (s.unseenI hb), fun hb => Kind.elsewhere_unseen hi h (s.unseen hb),
      fun h => (s.staleI h).mono st (Nat.le_refl _), fun h => (s.stale h).mono st (Nat.le_refl _)⟩
  | @readIndex bI bD its w1 v1 w2 r p' e' s' g h ih =>
    intro hbI hb
    obtain ⟨preI, bufI, pre, body, s⟩ := ih hbI hb
    have st : Kind.Steps k w1 w2 := Kind.steps_of (fun _ => Kind.pres_storageRead) (s.steps.alive ho) h
    refine ⟨preI, bufI, pre, body, s.inv.storageRead h, s.steps.trans st, st.noFault s.fine, s.lenI, s.len, s.flushedI, s.flushed,
      (fun hb => by cases hb), fun hb => ?_, fun _ => ?_, fun h => (s.stale h).mono st (Nat.le_refl _)⟩
    · exact unseen_storageRead ap.indexData ap.schemaData ap.indexSchema ap.schemaSchema h (s.unseen hb)
    · cases bI with
      | true => exact (s.staleI rfl).mono st (Nat.le_refl _)
      | false =>
        obtain ⟨m, hs1, hs2, hs3, hs4⟩ := read_unfinished s.inv.index.writing (s.unseenI rfl).data s.fine h
        have e1 := s.inv.index.length
        have e2 := s.lenI
        refine ⟨w2, m, _, (hr.steps s.steps).steps st, .refl _, hs1, hs2, hs3, hs4, ?_, ?_⟩
        · rcases s.flushedI with rfl | fl
          · simp
          · omega
        · rw [← e2]; omega
  | @readData bI bD its w1 v1 w2 r p' e' s' g h ih =>
    intro hbI hb
    obtain ⟨preI, bufI, pre, body, s⟩ := ih hbI hb
    have st : Kind.Steps k w1 w2 := Kind.steps_of (fun _ => Kind.pres_storageRead) (s.steps.alive ho) h
    refine ⟨preI, bufI, pre, body, s.inv.storageRead h, s.steps.trans st, st.noFault s.fine, s.lenI, s.len, s.flushedI, s.flushed,
      fun hb => ?_, (fun hb => by cases hb), fun h => (s.staleI h).mono st (Nat.le_refl _), fun _ => ?_⟩
    · exact unseen_storageRead ap.indexData.symm ap.indexSchema.symm ap.schemaData.symm ap.schemaSchema.symm h (s.unseenI hb)
    · cases bD with
      | true => exact (s.stale rfl).mono st (Nat.le_refl _)
      | false =>
        obtain ⟨m, hs1, hs2, hs3, hs4⟩ := read_unfinished s.inv.data (s.unseen rfl).data s.fine h
        have e2 := s.len
        refine ⟨w2, m, _, (hr.steps s.steps).steps st, .refl _, hs1, hs2, hs3, hs4, ?_, by omega⟩
        rcases s.flushed with rfl | fl
        · simp
        · omega

end

/-- C36 for multivectors exactly: as long as nothing fails, a multivector can be closed if and only if neither its index nor its data
have been read through its own storage object since it was created; the data resource then consists of the items. If the index was read,
`close` panics, whether or not the data were read; if only the data were read, it returns an error. -/
theorem C36_multivec_exact [DiffLib] (k : Kind) (p : Profile) (e : Endian) (V : Variadic) (ok : IndexOK V) (w0 w w1 : k.backend.W)
    (o : k.backend.Obj) (name schema : String) (v v1 : MultiVec k.backend) (its : List (List Add)) (bI bD : Bool) (hr : k.Reachable w0)
    (ho : k.alive w0 o) (hu : k.MUnused w0 o name) (hn : k.noFault w0) (hm : k.mappable (strBytes schema))
    (hc : createMultiVector p e o name schema w0 = (.ok v, w)) (g : MPeeked k p e V o name w v bI bD its w1 v1)
    (hbI : (its.length + 1) * V.indexSize + 8 < 2 ^ 63) (hb : dataSize its + 8 < 2 ^ 63) :
    ((∃ s w2, v1.close p e V w1 = (.ok s, w2)) ↔ bI = false ∧ bD = false) ∧
    ((∃ w2, v1.close p e V w1 = (.panic, w2)) ↔ bI = true) ∧
    ((∃ x w2, v1.close p e V w1 = (.err x, w2)) ↔ bI = false ∧ bD = true) ∧
    (bI = false → bD = false → ∃ xss si sd w2, AllContents p e its xss ∧ v1.close p e V w1 = (.ok (si, sd), w2) ∧
      k.backend.deref w2 sd = .ok (encodeItems xss)) := by
  obtain ⟨i, u, nf0⟩ := mcreated_inv V hu hc
  have s0 : Kind.Steps k w0 w := Kind.steps_of (fun _ => Kind.pres_createMultiVector) ho hc
  obtain ⟨preI, bufI, pre, body, s⟩ := mpeeked_inv ok (hr.steps s0) (s0.alive ho) (nf0 hn) i u g hbI hb
  have hl := s.len
  have hlI := s.lenI
  have hrw := (hr.steps s0).steps s.steps
  have how := (s0.trans s.steps).alive ho
  have hle : its.length * V.indexSize ≤ (its.length + 1) * V.indexSize := Nat.mul_le_mul_right _ (by omega)
  have hgood : bI = false → bD = false → ∃ xss si sd w2, AllContents p e its xss ∧ v1.close p e V w1 = (.ok (si, sd), w2) ∧
      k.backend.deref w2 sd = .ok (encodeItems xss) := by
    intro h1 h2
    obtain ⟨xs, xss, cleanI, cleanD, r, w2, hx, hxss, hv, hcl, cl, st, fine, _⟩ := mclose_inv ok hu hc (g.unread h1 h2) hbI hb
    obtain ⟨n1, n2, n3⟩ := fine hn
    have n1 := (k.noFault_iff _).mp n1
    have hI : k.laws.readable (strBytes (Storage.indexSchema schema)) := k.laws.readable_of_ne _ fun h => by
      have h1 := strBytes_eq_nil.mp h
      have h2 := congrArg String.length h1
      simp [Storage.indexSchema] at h2
    cases cl with
    | failed nf => exact absurd n1 (nf n2 hI)
    | unread _ _ _ _ _ _ nf => exact absurd n1 (nf n3 ((k.mappable_iff _).mp hm))
    | ok si sd hI hD hsI hsD => exact ⟨xss, si, sd, w2, hxss, hcl, hsD⟩
  have hI : bI = true → ∃ w2, v1.close p e V w1 = (.panic, w2) := by
    intro h
    obtain ⟨wb, sl, c, h1, h2, h3, h4, h5, h6, h7, h8⟩ := s.staleI h
    refine s.inv.close_misfit_index p e ok (by omega) (by rw [hlI]; exact hbI) s.fine hrw how (cache_steps h1 h2 h3)
      fun w4 n rest s4 hn1 hn2 m4 => ?_
    rw [hlI] at hn1
    exact unfinished_misfit h1 (h2.trans s4) h3 h4 h5 h6 m4 h7 (by omega) (by omega)
  have hD : bI = false → bD = true → ∃ x w2, v1.close p e V w1 = (.err x, w2) := by
    intro h h'
    obtain ⟨wb, sl, c, h1, h2, h3, h4, h5, h6, h7, h8⟩ := s.stale h'
    refine s.inv.close_misfit_data p e ok (by omega) (by rw [hlI]; exact hbI) s.fine hrw how (cache_steps h1 h2 h3) (s.unseenI h)
      fun w4 rest s4 m4 => ?_
    exact unfinished_misfit h1 (h2.trans s4) h3 h4 h5 h6 m4 h7 (by omega) (by omega)
  cases bI with
  | true =>
    obtain ⟨w2, h⟩ := hI rfl
    rw [h]
    exact ⟨⟨(fun ⟨_, _, h⟩ => by cases h), (fun h => by cases h.1)⟩, ⟨fun _ => rfl, fun _ => ⟨w2, rfl⟩⟩,
      ⟨(fun ⟨_, _, h⟩ => by cases h), (fun h => by cases h.1)⟩, (fun h => by cases h)⟩
  | false =>
    cases bD with
    | true =>
      obtain ⟨x, w2, h⟩ := hD rfl rfl
      rw [h]
      exact ⟨⟨(fun ⟨_, _, h⟩ => by cases h), (fun h => by cases h.2)⟩, ⟨(fun ⟨_, h⟩ => by cases h), (fun h => by cases h)⟩,
        ⟨fun _ => ⟨rfl, rfl⟩, fun _ => ⟨x, w2, rfl⟩⟩, (fun _ h => by cases h)⟩
    | false =>
      have hg := hgood rfl rfl
      obtain ⟨xss, si, sd, w2, _, h, _⟩ := hgood rfl rfl
      refine ⟨⟨fun _ => ⟨rfl, rfl⟩, fun _ => ⟨_, _, h⟩⟩, ⟨?_, (fun h => by cases h)⟩, ⟨?_, (fun h => by cases h.2)⟩, fun _ _ => hg⟩
      · rintro ⟨_, h'⟩; rw [h] at h'; cases h'
      · rintro ⟨_, _, h'⟩; rw [h] at h'; cases h'

/-- Non-vacuity: the three items of the example, not read, with the data read, and with data and index read. -/
example [DiffLib] : ∃ v w v1 w1, createMultiVector (B := file) .debug .little objD "x" "s" (disk0 []) = (.ok v, w) ∧
    MPeeked .disk .debug .little Coappearances.VerticesData objD "x" w v false false MvExample.its w1 v1 ∧
    (∃ s w2, v1.close .debug .little Coappearances.VerticesData w1 = (.ok s, w2)) ∧
    (∃ w3, MPeeked .disk .debug .little Coappearances.VerticesData objD "x" w v false true MvExample.its w3 v1 ∧
      ∃ x w2, v1.close .debug .little Coappearances.VerticesData w3 = (.err x, w2)) ∧
    ∃ w3, MPeeked .disk .debug .little Coappearances.VerticesData objD "x" w v true true MvExample.its w3 v1 ∧
      ∃ w2, v1.close .debug .little Coappearances.VerticesData w3 = (.panic, w2) := by
  obtain ⟨v, w, v1, w1, hc, g⟩ := MvExample.run_disk
  have g0 : MPeeked .disk .debug .little Coappearances.VerticesData objD "x" w v false false MvExample.its w1 v1 := .ofGrows g
  have g1 : MPeeked .disk .debug .little Coappearances.VerticesData objD "x" w v false true MvExample.its _ v1 :=
    .readData .debug .little "s" g0 rfl
  have g2 : MPeeked .disk .debug .little Coappearances.VerticesData objD "x" w v true true MvExample.its _ v1 :=
    .readIndex .debug .little "index(s)" g1 rfl
  have ex : ∀ bI bD w', MPeeked .disk .debug .little Coappearances.VerticesData objD "x" w v bI bD MvExample.its w' v1 → _ :=
    fun bI bD w' g => C36_multivec_exact .disk .debug .little Coappearances.VerticesData MultiExample.ok.index (disk0 []) w w' objD "x" "s"
      v v1 MvExample.its bI bD (disk0_reachable _ _) Nat.zero_lt_one (MvExample.munused_disk0 ..) (disk0_noFault _)
      (by change strBytes "s" ≠ []; decide) hc g (by decide) (by decide)
  exact ⟨v, w, v1, w1, hc, g0, (ex _ _ _ g0).1.mpr ⟨rfl, rfl⟩, ⟨_, g1, (ex _ _ _ g1).2.2.1.mpr ⟨rfl, rfl⟩⟩,
    _, g2, (ex _ _ _ g2).2.1.mpr rfl⟩

end Flatdata
