import Verif.Props.CrashExact
import Verif.Props.MvClose
/-!
# Property C20, exactly: which multivectors a crash may turn into others

If nothing failed before `close`, these are the multivectors with one to eight bytes of data.
-/
namespace Flatdata
open Spec StorageExample VecExample MvExample CrashExact

/-- Some failure of system calls from now on makes `close` leave behind resources that another process, for which nothing fails,
reads, but which do not show the items `xss`. -/
def MayShowOther [DiffLib] (p p' : Profile) (e e' : Endian) (V : Variadic) (name schema : String) (v : MultiVec file) (w : FileW)
    (o' : Obj) (xss : List (List (BitVec 8 × Bytes))) : Prop :=
  ∃ f : Nat → Option Nat, (∀ t, t < w.fs.tick → f t = w.fs.fault t) ∧
    ∃ w2 w3 w4 si sd ib db, NewProcess (v.close p e V (faring w f)).2 w2 ∧ Kind.noFault .disk w2 ∧
      Storage.read file p' e' o' (name ++ "_index") ("index(" ++ schema ++ ")") w2 = (.ok si, w3) ∧
      Storage.read file p' e' o' name schema w3 = (.ok sd, w4) ∧ file.deref w4 si = .ok ib ∧ file.deref w4 sd = .ok db ∧
      ¬ Shows V ⟨ib, db⟩ xss

namespace MvCrashExact
variable {o : Obj} {name schema : String} {V : Variadic} {w : FileW} {v : MultiVec file} {preI bufI : List Bytes} {cI pre body c : Bytes}

theorem faring_minv (i : MvInv fileLaws o name schema V w v preI bufI cI pre body c) (f : Nat → Option Nat) :
    MvInv fileLaws o name schema V (faring w f) v preI bufI cI pre body c := by
  obtain ⟨s, hs, a⟩ := i.data.stream
  exact ⟨faring_inv i.index f, ⟨i.data.obj, i.data.nameEq, i.data.schemaEq, i.data.size, ⟨s, hs, a.live, a.sloc, a.medium, a.pos⟩,
    i.data.le, i.data.clean, i.data.schemaStored⟩, i.buf, i.flushed⟩

/-- What `close` can leave behind, whatever fails. -/
inductive Left (D I : Option Bytes) (allI allD : Bytes) : Prop
  | short (d : Bytes) (h : D = some d) (hl : d.length < 16)
  | long (d : Bytes) (h : D = some (le64 0 ++ d)) (hl : 8 < d.length)
  | index (d : Bytes) (h : I = some (le64 0 ++ d)) (hl : d.length ≠ 8)
  | flushed (h : D = some (le64 0 ++ allD))
  | indexed (d : Bytes) (h : I = some (image allI)) (h' : D = some d) (hl : 8 + allD.length ≤ d.length)

theorem close_left [DiffLib] (i : MvInv fileLaws o name schema V w v preI bufI cI pre body c) (p : Profile) (e : Endian)
    (ok : IndexOK V) (hu : MUnseen fileLaws o name w)
    (hb : pre.length + body.length + 8 < 2 ^ 63) (hbI : ((preI ++ bufI).length + 1) * V.indexSize + 8 < 2 ^ 63)
    (hcI : cI = preI.flatten) (hc : c = pre) (fI : preI = [] ∨ bufferLimit < preI.flatten.length + 8)
    (fD : pre = [] ∨ bufferLimit < pre.length + 8) :
    ∃ x, runHandle p e V.indexStruct (indexOps V (pre.length + body.length)) (zeros V.indexSize) = .ok x ∧
      Left ((v.close p e V w).2.fs.files (key (join o.path name)))
        ((v.close p e V w).2.fs.files (key (join o.path (Storage.indexName name)))) (preI ++ bufI ++ [x]).flatten (pre ++ body) := by
  have ap : Apart fileLaws o name := Kind.apart .disk o name
  unfold MultiVec.close
  rcases i.addToIndex ap p e ok hb hbI with
    ⟨v1, w1, preI', bufI', cI', x, h1, i1, e1, hx, hc1, hd1, hf1, o1⟩ | ⟨x, d', w1, h1, i1, o1, nf⟩
  · refine ⟨x, hx, ?_⟩
    have fI' : preI' = [] ∨ bufferLimit < preI'.flatten.length + 8 := by
      rcases hf1 with h | h
      · rw [h]; exact fI
      · exact .inr h
    have hcI' := hc1 hcI
    rw [Act.bind_ok (Act.attempt_ok h1)]
    dsimp only
    unfold MultiVec.closeFlush
    rcases i1.flush ap p hb with ⟨v2, w2, h2, i2, hi2, o2⟩ | ⟨x2, d', w2, h2, i2, o2, nf⟩
    · rw [Act.bind_ok (Act.attempt_ok h2)]
      dsimp only
      unfold MultiVec.closeIndex
      have hall : preI' ++ (bufI' ++ [x]) = preI ++ bufI ++ [x] := by rw [← List.append_assoc, e1]
      have hlen : (preI' ++ (bufI' ++ [x])).length = (preI ++ bufI).length + 1 := by rw [hall]; simp; omega
      obtain ⟨r, w3, h3, cl, o3, s3, an3⟩ := i2.index.close ((hu.index.only o1).only o2) ap.index p e (by rw [hlen]; omega)
      rw [hall] at cl
      have k3 : Keeps fileLaws w2 w3 (fileLaws.loc o name) := o3.keeps _ (ap.index_data (.inl rfl))
      have k3' : Keeps fileLaws w2 w3 (fileLaws.loc o (Storage.schemaName name)) := o3.keeps _ (ap.index_data (.inr rfl))
      have d3 := i2.data.keeps k3 k3'
      obtain ⟨s', _, a3⟩ := d3.stream
      have m3 : w3.fs.files (key (join o.path name)) = some (le64 0 ++ (pre ++ body)) := by
        have : w3.fs.files (key (join o.path name)) = some (le64 0 ++ (c ++ body)) := a3.medium
        rw [hc] at this; exact this
      cases cl with
      | failed nf =>
        have : (Act.attempt (v2.index.close p e) : Act FileW RErr _) w2 = (.panic, w3) := by unfold Act.attempt; rw [h3]
        rw [Act.bind_panic this]
        exact .flushed m3
      | unread y c' _ _ _ nf =>
        rw [Act.bind_ok (Act.attempt_err h3)]
        dsimp only
        rw [Act.bind_panic (dropOpen d3.isOpen w3)]
        exact .flushed m3
      | ok si hmI hsI hrI hbI =>
        rw [Act.bind_ok (Act.attempt_ok h3)]
        dsimp only
        have hu3 : Unseen fileLaws o name w3 := ((hu.data.only o1).only o2).keeps k3 k3'
        obtain ⟨r, w4, h4, cl, o4, s4, an4⟩ := d3.close hu3 ap.data p e (by simp; omega)
        have kI : Keeps fileLaws w3 w4 (fileLaws.loc o (Storage.indexName name)) := o4.keeps _ fun h => ap.index_data h (.inl rfl)
        have hfin : (v2.closeData p e si w3).2 = w4 := by
          unfold MultiVec.closeData
          rw [Act.bind_ok (Act.mapErr_ok h4)]
          cases cl with
          | failed y nf => rw [Act.bind_panic (dropOpen d3.isOpen w4)]
          | unread y hm nf => rfl
          | ok sd hm hc hs hr hb' => rfl
        rw [hfin]
        obtain ⟨d, g1, g2⟩ := long_handleClose (key (join o.path name)) (8 + (pre ++ body).length) p e v2.handle w3
          ⟨_, m3, Nat.le_of_eq (by rw [List.length_append (as := le64 0), length_le64])⟩
        rw [h4] at g1
        exact .indexed d (kI.medium.trans hmI) g1 g2
    · rw [Act.bind_ok (Act.attempt_err h2)]
      dsimp only
      have : (v1.drop : Act FileW RErr Unit) w2 = (.panic, w2) := by
        unfold MultiVec.drop
        exact Act.bind_panic (dropOpen i2.index.writing.isOpen w2)
      rw [Act.bind_panic this]
      obtain ⟨s', _, a⟩ := i2.index.writing.stream
      refine .index cI' a.medium ?_
      rw [hcI']
      rcases fI' with h | h
      · rw [h]; decide
      · unfold bufferLimit at h; omega
  · obtain ⟨y, hy⟩ := indexEntry (p := p) (e := e) ok (pre.length + body.length)
    refine ⟨y, hy, ?_⟩
    rw [Act.bind_ok (Act.attempt_err h1)]
    dsimp only
    have : (v.drop : Act FileW RErr Unit) w1 = (.panic, w1) := by
      unfold MultiVec.drop
      exact Act.bind_panic (dropOpen i1.index.writing.isOpen w1)
    rw [Act.bind_panic this]
    obtain ⟨s', _, a⟩ := i1.data.stream
    rw [hc] at a
    rcases fD with h | h
    · rw [h] at a
      exact .short _ a.medium (by rw [List.append_nil, length_le64]; decide)
    · exact .long pre a.medium (by unfold bufferLimit at h; omega)

/-- `close` dies while the padding of the data is written, after the index has been completed. -/
theorem dies_in_padding [DiffLib] (i : MvInv fileLaws o name schema V w v preI bufI cI pre body c) (p : Profile) (e : Endian)
    (ok : IndexOK V) (hu : MUnseen fileLaws o name w) (hn : FileSt.NoFault w)
    (hb : pre.length + body.length + 8 < 2 ^ 63) (hbI : ((preI ++ bufI).length + 1) * V.indexSize + 8 < 2 ^ 63)
    (hcI : cI = preI.flatten) (hc : c = pre) (k : Nat) (hk : k ≤ 8) :
    ∃ x f w', runHandle p e V.indexStruct (indexOps V (pre.length + body.length)) (zeros V.indexSize) = .ok x ∧
      (∀ t, t < w.fs.tick → f t = w.fs.fault t) ∧ (v.close p e V (faring w f)).2 = w' ∧
      w'.fs.files (key (join o.path name)) = some (le64 0 ++ (pre ++ body ++ zeros k)) ∧
      w'.fs.files (key (join o.path (Storage.schemaName name))) = some (strBytes schema) ∧
      w'.fs.files (key (join o.path (Storage.indexName name))) = some (image (preI ++ bufI ++ [x]).flatten) ∧
      w'.fs.files (key (join o.path (Storage.schemaName (Storage.indexName name)))) = some (strBytes (Storage.indexSchema schema)) := by
  have ap : Apart fileLaws o name := Kind.apart .disk o name
  have hn : fileLaws.noFault w := hn
  rcases i.addToIndex ap p e ok hb hbI with
    ⟨v1, w1, preI', bufI', cI', x, h1, i1, e1, hx, hc1, hd1, hf1, o1⟩ | ⟨x, d', w1, h1, i1, o1, nf⟩
  case inr => exact absurd hn nf
  have n1 := o1.noFault hn
  rcases i1.flush ap p hb with ⟨v2, w2, h2, i2, hi2, o2⟩ | ⟨x2, d', w2, h2, i2, o2, nf⟩
  case inr => exact absurd n1 nf
  have n2 := o2.noFault n1
  have hall : preI' ++ (bufI' ++ [x]) = preI ++ bufI ++ [x] := by rw [← List.append_assoc, e1]
  have hlen : (preI' ++ (bufI' ++ [x])).length = (preI ++ bufI).length + 1 := by rw [hall]; simp; omega
  obtain ⟨r, w3, h3, cl, o3, s3, an3⟩ := i2.index.close ((hu.index.only o1).only o2) ap.index p e (by rw [hlen]; omega)
  rw [hall] at cl
  have hsch : fileLaws.readable (strBytes (Storage.indexSchema schema)) := by
    refine fileLaws.readable_of_ne _ fun h => ?_
    have h2 := congrArg String.length (strBytes_eq_nil.mp h)
    simp [Storage.indexSchema] at h2
  cases cl with
  | failed nf => exact absurd n2 nf
  | unread y c' _ _ _ nf => exact absurd n2 (nf (hc1 hcI) hsch)
  | ok si hmI hsI hrI hbI =>
    have k3 : Keeps fileLaws w2 w3 (fileLaws.loc o name) := o3.keeps _ (ap.index_data (.inl rfl))
    have k3' : Keeps fileLaws w2 w3 (fileLaws.loc o (Storage.schemaName name)) := o3.keeps _ (ap.index_data (.inr rfl))
    have d3 := i2.data.keeps k3 k3'
    obtain ⟨s, hs, a⟩ := d3.stream
    have T1 := Timely.addToIndex p e V v
    have T2 := Timely.multiFlush p v1
    have T3 := Timely.close p e v2.index
    have t1 : w.fs.tick ≤ w1.fs.tick := by have := T1.later w; rw [h1] at this; exact this
    have t2 : w1.fs.tick ≤ w2.fs.tick := by have := T2.later w1; rw [h2] at this; exact this
    have t3 : w2.fs.tick ≤ w3.fs.tick := by have := T3.later w2; rw [h3] at this; exact this
    have f1 : w1.fs.fault = w.fs.fault := by have := T1.fault w; rw [h1] at this; exact this
    have f2 : w2.fs.fault = w.fs.fault := by have := T2.fault w1; rw [h2] at this; exact this.trans f1
    let f : Nat → Option Nat := fun t => if t = w3.fs.tick then some k else w.fs.fault t
    have hf : ∀ t, t < w3.fs.tick → f t = w.fs.fault t := fun t ht => if_neg (by omega)
    have r1 := T1.replay h1 (g := f) fun t ht => hf t (by omega)
    have r2 := T2.replay h2 (g := f) fun t ht => by rw [f1]; exact hf t (by omega)
    have r3 := T3.replay h3 (g := f) fun t ht => by rw [f2]; exact hf t (by omega)
    have a' : Appending fileLaws (faring w3 f) s (fileLaws.loc o name) (le64 0 ++ (c ++ body)) := ⟨a.live, a.sloc, a.medium, a.pos⟩
    obtain ⟨w4, g1, g2, g3⟩ := append_fault a' (List.replicate paddingSize 0#8) (k := k) (if_pos rfl)
    refine ⟨x, f, w4, hx, fun t ht => hf t (by omega), ?_, ?_, ?_, ?_, ?_⟩
    · unfold MultiVec.close
      rw [Act.bind_ok (Act.attempt_ok r1)]
      dsimp only
      unfold MultiVec.closeFlush
      rw [Act.bind_ok (Act.attempt_ok r2)]
      dsimp only
      unfold MultiVec.closeIndex
      rw [Act.bind_ok (Act.attempt_ok r3)]
      dsimp only
      have hopen : v2.handle.isOpen = true := d3.isOpen
      have hcl : v2.handle.close p e (faring w3 f) = (.ok (.error (.io .other v2.handle.name), v2.handle), w4) := by
        have hfin : v2.handle.finish p e s (faring w3 f) = (.err .other, w4) := by
          unfold Handle.finish
          exact Act.bind_err g1
        unfold Handle.close
        rw [hs]
        dsimp only
        rw [Act.bind_ok (Act.attempt_err hfin)]
        rfl
      unfold MultiVec.closeData
      rw [Act.bind_ok (Act.mapErr_ok hcl)]
      dsimp only
      rw [Act.bind_panic (dropOpen hopen w4)]
    · rw [hc] at g2
      refine g2.trans ?_
      simp only [paddingSize, List.take_replicate, List.append_assoc, zeros]
      rw [Nat.min_eq_left hk]
    · exact (g3 _ ap.data).trans d3.schemaStored
    · exact (g3 _ ap.indexData).trans hmI
    · exact (g3 _ (fun h => ap.index_data (.inl h) (.inr rfl))).trans s3

theorem holds_le64_zero {d x : Bytes} (h : Holds (le64 0 ++ d) x) : d.length = 8 := by
  have h1 := h.size
  have h2 := h.length
  rw [take8_le64, leNat_le64 (by decide)] at h1
  rw [List.length_append, length_le64] at h2
  omega

end MvCrashExact

open MvCrashExact

/-- Exactly when a multivector may be read as another one after a crash in `close`, if nothing failed before: if there are one to
eight bytes of data. (An index may be read as empty too, but the data, written before and completed after it, cannot be read then
unless they have eight bytes.) -/
theorem C20_multivec_exact [DiffLib] (p p' : Profile) (e e' : Endian) (V : Variadic) (ok : VariadicOK V) (w0 w w1 : FileW)
    (o o' : Obj) (name schema : String) (v v1 : MultiVec file) (its : List (List Add)) (xss : List (List (BitVec 8 × Bytes)))
    (hu : Kind.MUnused .disk w0 o name) (hn : Kind.noFault .disk w0) (hm : Kind.mappable .disk (strBytes schema))
    (hc : createMultiVector (B := file) p e o name schema w0 = (.ok v, w)) (g : MGrows .disk p e V o name w v its w1 v1)
    (hbI : (its.length + 1) * V.indexSize + 8 < 2 ^ 63) (hb : dataSize its + 8 < 2 ^ 63) (hbits : dataSize its < 2 ^ V.indexBits)
    (hx : AllContents p e its xss) (ho : o'.path = o.path) :
    MayShowOther p p' e e' V name schema v1 w1 o' xss ↔ 0 < dataSize its ∧ dataSize its ≤ 8 := by
  obtain ⟨i0, u0, n0⟩ := mcreated_inv (k := .disk) V hu hc
  obtain ⟨preI, bufI, cI, pre, body, c, xss', s⟩ := mgrows_inv (k := .disk) ok.index i0 u0 g hbI hb
  cases hx.unique s.contents
  obtain ⟨n1, hcI, hcD⟩ := s.fine (n0 hn)
  obtain ⟨hl1, hl2⟩ := s.length
  have hl : ∀ n, key (join o'.path n) = key (join o.path n) := fun n => by rw [ho]
  have ap := Kind.apart .disk o' name
  constructor
  · rintro ⟨f, _, w2, w3, w4, si, sd, ib, db, hp, _, hrI, hrD, hI, hD, hns⟩
    have uf : MUnseen fileLaws o name (faring w1 f) := ⟨⟨s.unseen.data.1, s.unseen.data.2⟩, ⟨s.unseen.index.1, s.unseen.index.2⟩⟩
    obtain ⟨x, hxx, hleft⟩ := close_left (faring_minv s.inv f) p e ok.index uf (by omega) (by rw [hl2]; omega) hcI hcD s.flushedI s.flushed
    obtain ⟨x', r', wc, hxx', hcl, _, st⟩ := (faring_minv s.inv f).close (Kind.apart .disk o name) p e ok.index uf.data uf.index
      (by omega) (by rw [hl2]; omega)
    rw [hxx] at hxx'; cases hxx'
    rw [hcl] at hleft hp
    rw [s.data] at hleft st
    rw [hl1] at hxx
    have el : Elements p e V.indexStruct ((indexNumbers its).map (indexOps V)) (preI ++ bufI ++ [x]) := by
      rw [indexNumbers, List.map_append]
      exact s.index.snoc (ops := indexOps V (dataSize its)) hxx
    obtain ⟨_, _, v3⟩ := written_view ok el hx s.variants hbits (by omega)
    have hlenD : (encodeItems xss).length = dataSize its := hx.length.1
    have hlenI : (preI ++ bufI ++ [x]).flatten.length = (its.length + 1) * V.indexSize := by
      have hall : AllSize V.indexSize (preI ++ bufI ++ [x]) := el.allSize
      rw [hall.length_flatten, ← el.length_eq, List.length_map, length_indexNumbers]
    have hcache : ∀ n, fileLaws.cache w2 o' n = none := by
      intro n; change Option.map _ (w2.maps _ _) = none; rw [hp.initial.1]; rfl
    obtain ⟨o3, m3⟩ := storageRead_off (L := fileLaws) hrI
    obtain ⟨o4, m4⟩ := storageRead_off (L := fileLaws) hrD
    obtain ⟨d1, x1, h1, _, hx1, e1⟩ := read_ok_inv (L := fileLaws) (Kind.loc_schema_ne .disk o' _) (hcache _) (hcache _) hrI
    have b1 := read_ok_bloc (L := fileLaws) (Kind.loc_schema_ne .disk o' _) (hcache _) (hcache _) hrI
    have hc3 : ∀ n, ¬ OwnLoc fileLaws o' (name ++ "_index") (fileLaws.loc o' n) → fileLaws.cache w3 o' n = none := by
      intro n hn; rw [(o3.keeps _ hn).cache _ _ rfl]; exact hcache n
    obtain ⟨d2, x2, h2, _, hx2, e2⟩ := read_ok_inv (L := fileLaws) (Kind.loc_schema_ne .disk o' _)
      (hc3 _ (ap.index_data (.inl rfl))) (hc3 _ (ap.index_data (.inr rfl))) hrD
    rw [m3] at h2
    have h1' : wc.fs.files (key (join o.path (Storage.indexName name))) = some d1 := by rw [← hl, ← hp.files]; exact h1
    have h2' : wc.fs.files (key (join o.path name)) = some d2 := by rw [← hl, ← hp.files]; exact h2
    rw [hD] at e2; cases e2
    have k1 : file.deref w4 si = file.deref w3 si := by
      refine deref_keeps ((o4.keeps _ ?_).content _ b1)
      rintro (hx | hx)
      · exact ap.indexData hx
      · exact ap.indexSchema hx
    rw [k1, e1] at hI; cases hI
    obtain ⟨d, g1, aD⟩ := st.data
    cases h2'.symm.trans g1
    cases hleft with
    | short d h hs =>
      cases h2'.symm.trans h
      have := hx2.length; omega
    | long d h hs =>
      cases h2'.symm.trans h
      have := holds_le64_zero hx2; omega
    | index d h hs =>
      cases h1'.symm.trans h
      exact absurd (holds_le64_zero hx1) hs
    | flushed h =>
      cases h2'.symm.trans h
      have := holds_le64_zero hx2; omega
    | indexed d h h' hs =>
      cases h1'.symm.trans h
      cases h2'.symm.trans h'
      cases Holds.unique hx1 (holds_image _ (by omega))
      rcases aD.reads _ hx2 with rfl | ⟨rfl, hd⟩
      · exact absurd v3 hns
      · refine ⟨?_, by omega⟩
        rcases Nat.eq_zero_or_pos (dataSize its) with h0 | h0
        · rw [List.length_eq_zero_iff.mp (hlenD.trans h0)] at v3
          exact absurd v3 hns
        · exact h0
  · rintro ⟨hpos, hle⟩
    obtain ⟨x, f, w2, hxx, hf, hcl, m1, m2, m3, m4⟩ := dies_in_padding s.inv p e ok.index s.unseen n1 (by omega) (by rw [hl2]; omega)
      hcI hcD (8 - dataSize its) (by omega)
    rw [hl1] at hxx
    have el : Elements p e V.indexStruct ((indexNumbers its).map (indexOps V)) (preI ++ bufI ++ [x]) := by
      rw [indexNumbers, List.map_append]
      exact s.index.snoc (ops := indexOps V (dataSize its)) hxx
    obtain ⟨v3, _, _⟩ := written_view ok el hx s.variants hbits (by omega)
    have hlenI : (preI ++ bufI ++ [x]).flatten.length = (its.length + 1) * V.indexSize := by
      have hall : AllSize V.indexSize (preI ++ bufI ++ [x]) := el.allSize
      rw [hall.length_flatten, ← el.length_eq, List.length_map, length_indexNumbers]
    have hh : Holds (le64 0 ++ (pre ++ body ++ zeros (8 - dataSize its))) [] := by
      refine ⟨?_, rfl, ?_⟩
      · rw [take8_le64, leNat_le64 (by decide)]; rfl
      · simp only [List.length_append, length_le64, zeros, List.length_replicate, List.length_nil]; omega
    have rI : fileLaws.readable (strBytes (Storage.indexSchema schema)) := by
      refine fileLaws.readable_of_ne _ fun h => ?_
      have h2 := congrArg String.length (strBytes_eq_nil.mp h)
      simp [Storage.indexSchema] at h2
    have hp := restart_new w2
    have hcache : ∀ n, fileLaws.cache (restart w2) o' n = none := fun n => rfl
    obtain ⟨si, w3, h3, d3⟩ := read_new_ok (L := fileLaws) p' e' (o := o') (name := Storage.indexName name)
      (schema := Storage.indexSchema schema) (w := restart w2)
      (Kind.loc_schema_ne .disk o' _) (fun _ _ => rfl) (show w2.fs.files (key (join o'.path _)) = _ by rw [hl]; exact m3)
      (show w2.fs.files (key (join o'.path _)) = _ by rw [hl]; exact m4) (holds_image _ (by omega)) (by omega) rI rfl rfl
    obtain ⟨o3, k3⟩ := storageRead_off (L := fileLaws) h3
    have b1 := read_ok_bloc (L := fileLaws) (Kind.loc_schema_ne .disk o' _) (hcache _) (hcache _) h3
    have hc3 : ∀ n, ¬ OwnLoc fileLaws o' (Storage.indexName name) (fileLaws.loc o' n) → fileLaws.cache w3 o' n = none := by
      intro n hn; rw [(o3.keeps _ hn).cache _ _ rfl]; exact hcache n
    obtain ⟨sd, w4, h4, d4⟩ := read_new_ok (L := fileLaws) p' e' (o := o') (name := name) (schema := schema) (w := w3)
      (Kind.loc_schema_ne .disk o' _) (o3.noFault fun _ _ => rfl)
      ((k3 _).trans (show w2.fs.files (key (join o'.path _)) = _ by rw [hl]; exact m1))
      ((k3 _).trans (show w2.fs.files (key (join o'.path _)) = _ by rw [hl]; exact m2)) hh (by decide) hm
      (hc3 _ (ap.index_data (.inl rfl))) (hc3 _ (ap.index_data (.inr rfl)))
    obtain ⟨o4, _⟩ := storageRead_off (L := fileLaws) h4
    have k1 : file.deref w4 si = file.deref w3 si := by
      refine deref_keeps ((o4.keeps _ ?_).content _ b1)
      rintro (hx | hx)
      · exact ap.indexData hx
      · exact ap.indexSchema hx
    refine ⟨f, hf, restart w2, w3, w4, si, sd, _, [], by rw [hcl]; exact hp, fun _ _ => rfl, h3, h4, k1.trans d3, d4, fun sh => ?_⟩
    have := sh.1.inside (dataSize its) (by
      change _ ∈ offsets V (preI ++ bufI ++ [x]).flatten
      rw [v3, indexNumbers]; simp)
    simp at this
    omega

/-- A multivector with one item of eight bytes is in danger, one with 15 bytes is not. -/
example [DiffLib] : (∃ v w v1 w1, createMultiVector (B := file) .debug .little objD "x" "s" (disk0 []) = (.ok v, w) ∧
    MGrows .disk .debug .little V7 objD "x" w v its7 w1 v1 ∧
    MayShowOther .debug .release .little .big V7 "x" "s" v1 w1 objD [[(0#8, zeros 7)]]) ∧
    ∃ v w v1 w1 xss, createMultiVector (B := file) .debug .little objD "x" "s" (disk0 []) = (.ok v, w) ∧
    MGrows .disk .debug .little Coappearances.VerticesData objD "x" w v its w1 v1 ∧
    ¬ MayShowOther .debug .release .little .big Coappearances.VerticesData "x" "s" v1 w1 objD xss := by
  refine ⟨?_, ?_⟩
  · have hb : (build (B := file) V7 objD its7 (disk0 [])).1.isOk = true := by decide +kernel
    obtain ⟨v1, w1, hb⟩ := isOk_run hb
    obtain ⟨v, w, hc, g⟩ := build_mgrows (k := .disk) its7_variants hb
    refine ⟨v, w, v1, w1, hc, g, (C20_multivec_exact .debug .release .little .big V7 v7_ok (disk0 []) w w1 objD objD "x" "s" v v1 its7
      [[(0#8, zeros 7)]] (munused_disk0 ..) (disk0_noFault _) (by change strBytes "s" ≠ []; decide) hc g (by decide) (by decide)
      (by decide) ⟨⟨rfl, by decide, trivial⟩, trivial⟩ rfl).mpr (by decide)⟩
  · obtain ⟨v, w, v1, w1, hc, g⟩ := MvExample.run_disk
    obtain ⟨i0, u0, n0⟩ := mcreated_inv (k := .disk) Coappearances.VerticesData (munused_disk0 ..) hc
    obtain ⟨_, _, _, _, _, _, xss, s⟩ := mgrows_inv (k := .disk) MultiExample.ok.index i0 u0 g (by decide) (by decide)
    refine ⟨v, w, v1, w1, xss, hc, g, fun h => ?_⟩
    have := (C20_multivec_exact .debug .release .little .big Coappearances.VerticesData MultiExample.ok (disk0 []) w w1 objD objD "x" "s"
      v v1 its xss (munused_disk0 ..) (disk0_noFault _) (by change strBytes "s" ≠ []; decide) hc g (by decide) (by decide)
      (by decide) s.contents rfl).mp h
    revert this
    decide

end Flatdata
