import Verif.Proofs.Stale
import Verif.Proofs.Looks
import Verif.Proofs.Program
import Verif.Props.MvReads
import Verif.Props.StorageExact
/-!
# Properties C34, C35, C36: what a storage object has read and is then written
-/
namespace Flatdata
open Spec StorageExample

/-! ## C36: a read through the same object makes `close` fail -/

theorem noFault_storageRead [DiffLib] {k : Kind} {p : Profile} {e : Endian} {o : k.backend.Obj} {n schema : String} {w w' : k.backend.W} {r}
    (h : Storage.read k.backend p e o n schema w = (r, w')) (hn : k.noFault w) : k.noFault w' := by
  rw [Kind.noFault_iff] at hn ⊢
  have := pres_storageRead (B := k.backend) (p := p) (e := e) (o := o) (name := n) (expected := schema)
    (P := k.laws.noFault) (fun m w h => (k.laws.read_keeps rfl).2.2.2.2 h) w hn
  rw [h] at this; exact this

/-- As long as nothing fails: a vector that was read through its own storage object while it was being written cannot be closed
successfully, however it grows afterwards. (On disk the data are complete nevertheless: `C36_disk_not_lost`.) -/
theorem C36_close_fails [DiffLib] (k : Kind) (p p' : Profile) (e e' : Endian) (S : StructDef) (hs : 0 < S.size)
    (w0 w w1 w2 w3 : k.backend.W) (o : k.backend.Obj) (name schema schema' : String) (v v1 v2 : ExtVec k.backend)
    (es es' : List (List HandleOp)) (r : Res RErr (Slice k.backend.Base)) (hr : k.Reachable w0) (ho : k.alive w0 o)
    (hu : k.Unused w0 o name) (hn : k.noFault w0)
    (hc : createExternalVector p e o name schema w0 = (.ok v, w)) (g : Grows k p e S o name w v es w1 v1)
    (hrd : Storage.read k.backend p' e' o name schema' w1 = (r, w2)) (g' : Grows k p e S o name w2 v1 es' w3 v2)
    (hb : (es.length + es'.length) * S.size + 8 < 2 ^ 63) :
    ∃ x w4, v2.close p e w3 = (.err x, w4) := by
  obtain ⟨i, u, nf0⟩ := created_inv S.size hu hc
  obtain ⟨pre, buf, c, i1, el, u1, nf, fl⟩ := grows_inv i u hs g (by rw [Nat.add_mul] at hb; omega)
  obtain ⟨nf1, rfl⟩ := nf (nf0 hn)
  have s0 : Kind.Steps k w0 w := Kind.steps_of (fun _ => Kind.pres_createExternalVector) ho hc
  have s1 : Kind.Steps k w w1 := g.steps (s0.alive ho)
  have s01 := s0.trans s1
  have s2 : Kind.Steps k w1 w2 := Kind.steps_of (fun _ => Kind.pres_storageRead) (s01.alive ho) hrd
  have s02 := s01.trans s2
  have i2 : EvInv k.laws o name schema S.size w2 v1 pre buf pre.flatten := ⟨i1.writing.storageRead hrd, i1.rep, i1.len, i1.all⟩
  obtain ⟨s, hs1, hs2, hs3, hs4⟩ := read_unfinished i1.writing u1.data nf1 hrd
  have hel := el.length_eq
  have hb' : ((pre ++ buf).length + es'.length) * S.size + 8 < 2 ^ 63 := by rw [← hel]; exact hb
  obtain ⟨pre', buf', i3, nf3, hl⟩ := grows_from i2 hs (noFault_storageRead hrd nf1) g' hb'
  have s3 : Kind.Steps k w2 w3 := g'.steps (s02.alive ho)
  rw [← hl] at hb'
  have e1 := i1.length
  have e2 : (pre ++ buf).length * S.size ≤ (pre' ++ buf').length * S.size := Nat.mul_le_mul_right _ (by omega)
  have e3 := i3.all'.length_flatten
  refine i3.close_misfit p e (by omega) nf3 ((hr.steps s02).steps s3) ((s02.trans s3).alive ho) (cache_steps (hr.steps s02) s3 hs1)
    fun w4 rest s4 m4 => ?_
  refine unfinished_misfit (hr.steps s02) (s3.trans s4) hs1 hs2 hs3 hs4 m4 ?_ (by omega) (by omega)
  rcases fl with rfl | fl
  · simp
  · have : bufferLimit = 33554432 := by decide
    omega

/-- The elements of the example, a read, one more element. -/
example [DiffLib] (k : Kind) (w0 w w1 w3 : k.backend.W) (o : k.backend.Obj) (v v1 v2 : ExtVec k.backend) (hr : k.Reachable w0)
    (ho : k.alive w0 o) (hu : k.Unused w0 o "x") (hn : k.noFault w0)
    (hc : createExternalVector .debug .little o "x" "s" w0 = (.ok v, w)) (g : Grows k .debug .little VecExample.S o "x" w v VecExample.es w1 v1)
    (g' : Grows k .debug .little VecExample.S o "x" (Storage.read k.backend .debug .little o "x" "s" w1).2 v1 VecExample.es w3 v2) :
    ∃ x w4, v2.close .debug .little w3 = (.err x, w4) :=
  C36_close_fails k .debug .debug .little .little VecExample.S (by decide) w0 w w1 _ w3 o "x" "s" "s" v v1 v2 VecExample.es VecExample.es
    _ hr ho hu hn hc g rfl g' (by decide)

/-- A run on disk that meets the hypotheses. -/
example [DiffLib] : ∃ v1 w1 x w4, VecExample.build (B := file) objD VecExample.es (disk0 []) = (.ok v1, w1) ∧
    v1.close .debug .little (Storage.read file .debug .little objD "x" "s" w1).2 = (.err x, w4) := by
  have hb : (VecExample.build (B := file) objD VecExample.es (disk0 [])).1.isOk = true := by decide
  obtain ⟨v1, w1, hb⟩ := VecExample.isOk_run hb
  obtain ⟨v, w, hc, g⟩ := VecExample.build_grows (k := .disk) hb
  obtain ⟨x, w4, h⟩ := C36_close_fails .disk .debug .debug .little .little VecExample.S (by decide) _ _ _ _ _ objD "x" "s" "s" v v1 v1
    VecExample.es [] _ (disk0_reachable _ _) (by change 0 < 1; decide) (VecExample.unused_disk0 ..) (disk0_noFault _) hc g rfl .start (by decide)
  exact ⟨v1, w1, x, w4, hb, h⟩

theorem MvInv.storageRead [DiffLib] {B : Backend} {L : Laws B} {o o' : B.Obj} {name schema n s : String} {V : Variadic} {p : Profile}
    {e : Endian} {w w' : B.W} {v : MultiVec B} {preI bufI : List Bytes} {cI pre body c : Bytes}
    (i : MvInv L o name schema V w v preI bufI cI pre body c) {r}
    (hr : Storage.read B p e o' n s w = (r, w')) : MvInv L o name schema V w' v preI bufI cI pre body c :=
  ⟨⟨i.index.writing.storageRead hr, i.index.rep, i.index.len, i.index.all⟩, i.data.storageRead hr, i.buf, i.flushed⟩

/-- The same for multivectors, when the index was read: `close` even panics, since it drops the data handle while it is open. -/
theorem C36_multivec_close_panics [DiffLib] (k : Kind) (p p' : Profile) (e e' : Endian) (V : Variadic) (ok : IndexOK V)
    (w0 w w1 w2 w3 : k.backend.W) (o : k.backend.Obj) (name schema schema' : String) (v v1 v2 : MultiVec k.backend)
    (its its' : List (List Add)) (r : Res RErr (Slice k.backend.Base)) (hr : k.Reachable w0) (ho : k.alive w0 o)
    (hu : k.MUnused w0 o name) (hn : k.noFault w0)
    (hc : createMultiVector p e o name schema w0 = (.ok v, w)) (g : MGrows k p e V o name w v its w1 v1)
    (hrd : Storage.read k.backend p' e' o (name ++ "_index") schema' w1 = (r, w2)) (g' : MGrows k p e V o name w2 v1 its' w3 v2)
    (hbI : (its.length + its'.length + 1) * V.indexSize + 8 < 2 ^ 63) (hb : dataSize its + dataSize its' + 8 < 2 ^ 63) :
    ∃ w4, v2.close p e V w3 = (.panic, w4) := by
  obtain ⟨i, u, nf0⟩ := mcreated_inv V hu hc
  have hbI' : (its.length + 1) * V.indexSize + 8 < 2 ^ 63 := by
    have : (its.length + 1) * V.indexSize ≤ (its.length + its'.length + 1) * V.indexSize := Nat.mul_le_mul_right _ (by omega)
    omega
  obtain ⟨preI, bufI, cI, pre, body, c, xss, s⟩ := mgrows_inv ok i u g hbI' (by omega)
  obtain ⟨nf1, rfl, rfl⟩ := s.fine (nf0 hn)
  have s0 : Kind.Steps k w0 w := Kind.steps_of (fun _ => Kind.pres_createMultiVector) ho hc
  have s01 := s0.trans (g.steps (s0.alive ho))
  have s2 : Kind.Steps k w1 w2 := Kind.steps_of (fun _ => Kind.pres_storageRead) (s01.alive ho) hrd
  have s02 := s01.trans s2
  have i2 := s.inv.storageRead hrd
  obtain ⟨m, hs1, hs2, hs3, hs4⟩ := read_unfinished s.inv.index.writing s.unseen.index.data nf1 hrd
  obtain ⟨l1, l2⟩ := s.length
  obtain ⟨preI', bufI', pre', body', i3, nf3, hl, hl', _⟩ := mgrows_from ok i2 (noFault_storageRead hrd nf1) g'
    (by rw [l2]; exact hbI) (by omega)
  have s3 : Kind.Steps k w2 w3 := g'.steps (s02.alive ho)
  have e1 := s.inv.index.length
  have e2 : (preI ++ bufI).length * V.indexSize ≤ (preI' ++ bufI').length * V.indexSize := Nat.mul_le_mul_right _ (by omega)
  refine i3.close_misfit_index p e ok (by omega) (by rw [hl, l2]; exact hbI) nf3 ((hr.steps s02).steps s3) ((s02.trans s3).alive ho)
    (cache_steps (hr.steps s02) s3 hs1) fun w4 n rest s4 hn1 hn2 m4 => ?_
  refine unfinished_misfit (hr.steps s02) (s3.trans s4) hs1 hs2 hs3 hs4 m4 ?_ (by omega) (by omega)
  rcases s.flushedI with rfl | fl
  · simp
  · have : bufferLimit = 33554432 := by decide
    omega

theorem unseen_storageRead [DiffLib] {B : Backend} {L : Laws B} {o : B.Obj} {name schema n : String} {p : Profile} {e : Endian} {w w' : B.W} {r}
    (h1 : L.loc o name ≠ L.loc o n) (h2 : L.loc o (Storage.schemaName name) ≠ L.loc o n)
    (h3 : L.loc o name ≠ L.loc o (Storage.schemaName n)) (h4 : L.loc o (Storage.schemaName name) ≠ L.loc o (Storage.schemaName n))
    (h : Storage.read B p e o name schema w = (r, w')) (hu : Unseen L o n w) : Unseen L o n w' := by
  have step : ∀ m, L.loc o m ≠ L.loc o n → L.loc o m ≠ L.loc o (Storage.schemaName n) →
      Act.Pres (fun w' => Unseen L o n w') (B.readResource o m) := by
    intro m e1 e2 w1 hu1
    have k1 := L.read_keeps (o := o) (n := m) (w := w1) rfl
    exact ⟨(k1.2.2.1 _ _ e1.symm).trans hu1.data, (k1.2.2.1 _ _ e2.symm).trans hu1.schema⟩
  have all : Act.Pres (fun w' => Unseen L o n w') (Storage.read B p e o name schema) := by
    unfold Storage.read
    refine Act.Pres.bind (Act.Pres.mapErr (step _ h1 h3)) fun d => Act.Pres.bind (Act.Pres.mapErr (step _ h2 h4)) fun s => ?_
    intro w1 hu1
    have := (checkResource_same p e name schema (w := w1) (w' := w1) (sd := d) (ss := s) rfl rfl).2.1
    rw [this]; exact hu1
  have := all w hu
  rw [h] at this; exact this

/-- When only the data were read, `close` returns an error. -/
theorem C36_multivec_close_fails [DiffLib] (k : Kind) (p p' : Profile) (e e' : Endian) (V : Variadic) (ok : IndexOK V)
    (w0 w w1 w2 w3 : k.backend.W) (o : k.backend.Obj) (name schema schema' : String) (v v1 v2 : MultiVec k.backend)
    (its its' : List (List Add)) (r : Res RErr (Slice k.backend.Base)) (hr : k.Reachable w0) (ho : k.alive w0 o)
    (hu : k.MUnused w0 o name) (hn : k.noFault w0)
    (hc : createMultiVector p e o name schema w0 = (.ok v, w)) (g : MGrows k p e V o name w v its w1 v1)
    (hrd : Storage.read k.backend p' e' o name schema' w1 = (r, w2)) (g' : MGrows k p e V o name w2 v1 its' w3 v2)
    (hbI : (its.length + its'.length + 1) * V.indexSize + 8 < 2 ^ 63) (hb : dataSize its + dataSize its' + 8 < 2 ^ 63) :
    ∃ x w4, v2.close p e V w3 = (.err x, w4) := by
  obtain ⟨i, u, nf0⟩ := mcreated_inv V hu hc
  have hbI' : (its.length + 1) * V.indexSize + 8 < 2 ^ 63 := by
    have : (its.length + 1) * V.indexSize ≤ (its.length + its'.length + 1) * V.indexSize := Nat.mul_le_mul_right _ (by omega)
    omega
  obtain ⟨preI, bufI, cI, pre, body, c, xss, s⟩ := mgrows_inv ok i u g hbI' (by omega)
  obtain ⟨nf1, rfl, rfl⟩ := s.fine (nf0 hn)
  have s0 : Kind.Steps k w0 w := Kind.steps_of (fun _ => Kind.pres_createMultiVector) ho hc
  have s01 := s0.trans (g.steps (s0.alive ho))
  have s2 : Kind.Steps k w1 w2 := Kind.steps_of (fun _ => Kind.pres_storageRead) (s01.alive ho) hrd
  have s02 := s01.trans s2
  have i2 := s.inv.storageRead hrd
  obtain ⟨m, hs1, hs2, hs3, hs4⟩ := read_unfinished s.inv.data s.unseen.data.data nf1 hrd
  obtain ⟨l1, l2⟩ := s.length
  obtain ⟨preI', bufI', pre', body', i3, nf3, hl, hl', hun⟩ := mgrows_from ok i2 (noFault_storageRead hrd nf1) g'
    (by rw [l2]; exact hbI) (by omega)
  have s3 : Kind.Steps k w2 w3 := g'.steps (s02.alive ho)
  refine i3.close_misfit_data p e ok (by omega) (by rw [hl, l2]; exact hbI) nf3 ((hr.steps s02).steps s3) ((s02.trans s3).alive ho)
    (cache_steps (hr.steps s02) s3 hs1) (hun ?_) fun w4 rest s4 m4 => ?_
  · have ap := k.apart o name
    exact unseen_storageRead ap.indexData.symm ap.indexSchema.symm ap.schemaData.symm ap.schemaSchema.symm hrd s.unseen.index
  refine unfinished_misfit (hr.steps s02) (s3.trans s4) hs1 hs2 hs3 hs4 m4 ?_ (by omega) (by omega)
  rcases s.flushed with rfl | fl
  · simp
  · have : bufferLimit = 33554432 := by decide
    omega

/-- The items of the example, on disk: reading the index, or the data, then closing. -/
example [DiffLib] : ∃ v1 w1, MvExample.build (B := file) Coappearances.VerticesData objD MvExample.its (disk0 []) = (.ok v1, w1) ∧
    (∃ w4, v1.close .debug .little Coappearances.VerticesData (Storage.read file .debug .little objD "x_index" "index(s)" w1).2 = (.panic, w4)) ∧
    (∃ x w4, v1.close .debug .little Coappearances.VerticesData (Storage.read file .debug .little objD "x" "s" w1).2 = (.err x, w4)) := by
  have hb : (MvExample.build (B := file) Coappearances.VerticesData objD MvExample.its (disk0 [])).1.isOk = true := by decide +kernel
  obtain ⟨v1, w1, hb⟩ := VecExample.isOk_run hb
  obtain ⟨v, w, hc, g⟩ := MvExample.build_mgrows (k := .disk) MvExample.its_variants hb
  refine ⟨v1, w1, hb, ?_, ?_⟩
  · exact C36_multivec_close_panics .disk .debug .debug .little .little Coappearances.VerticesData MultiExample.ok.index _ _ _ _ _ objD
      "x" "s" "index(s)" v v1 v1 MvExample.its [] _ (disk0_reachable _ _) (by change 0 < 1; decide) (MvExample.munused_disk0 ..)
      (disk0_noFault _) hc g rfl .start (by decide) (by decide)
  · exact C36_multivec_close_fails .disk .debug .debug .little .little Coappearances.VerticesData MultiExample.ok.index _ _ _ _ _ objD
      "x" "s" "s" v v1 v1 MvExample.its [] _ (disk0_reachable _ _) (by change 0 < 1; decide) (MvExample.munused_disk0 ..)
      (disk0_noFault _) hc g rfl .start (by decide) (by decide)

/-! ## C34: writing again, exactly -/

/-- Reading succeeds only if the schema is seen. -/
theorem checkResource_text [DiffLib] {B : Backend} {p : Profile} {e : Endian} {name expected : String} {w w' : B.W}
    {sd ss s : Slice B.Base} (h : Storage.checkResource B p e name expected sd ss w = (.ok s, w')) :
    B.deref w ss = .ok (strBytes expected) := by
  unfold Storage.checkResource at h
  split at h
  · cases h
  · obtain ⟨x1, w1, h1, k1⟩ := Act.bind_eq_ok h
    have e1 : w1 = w := (Act.lift_eq_ok h1).2
    obtain ⟨x2, w2, h2, k2⟩ := Act.bind_eq_ok k1
    have e2 : w2 = w := (Act.lift_eq_ok h2).2.trans e1
    obtain ⟨x3, w3, h3, k3⟩ := Act.bind_eq_ok k2
    have e3 : w3 = w := (Act.lift_eq_ok h3).2.trans e2
    obtain ⟨x4, w4, h4, k4⟩ := Act.bind_eq_ok k3
    have e4 : w4 = w := (Act.lift_eq_ok h4).2.trans e3
    split at k4
    · cases k4
    · obtain ⟨x5, w5, h5, k5⟩ := Act.bind_eq_ok k4
      subst e4
      have h5' := (Act.lift_eq_ok h5).1
      rw [h5']
      unfold Storage.checkSchema at k5
      cases hu : fromUtf8 x5 with
      | none => rw [hu] at k5; cases k5
      | some t =>
        rw [hu] at k5
        change (if t ≠ expected then _ else _ : Act B.W RErr (Slice B.Base)) w5 = _ at k5
        by_cases ht : t = expected
        · rw [← ht, strBytes_of_fromUtf8 hu]
        · rw [if_pos ht] at k5; cases k5

/-- C34 on disk, exactly: after a resource has been written successfully, whatever was there before, the storage object shows the new content if
and only if what it has mapped so far of the two files has the length of the new ones. -/
theorem C34_disk_exact [DiffLib] (p p' : Profile) (e e' : Endian) (w w1 : FileW) (o : Obj) (name schema : String) (data : Bytes)
    (hr : Kind.Reachable .disk w) (ho : Kind.alive .disk w o) (hn : Kind.noFault .disk w) (hd : data.length < 2 ^ 63) (hs : schema ≠ "")
    (h : Storage.write file p e o name schema data w = (.ok (), w1)) :
    (∃ s w2, Storage.read file p' e' o name schema w1 = (.ok s, w2) ∧ file.deref w2 s = .ok data) ↔
    (∀ m, w.maps o.id (join o.path name) = some m → m.2 = data.length + 16) ∧
    (∀ m, w.maps o.id (join o.path (name ++ ".schema")) = some m → m.2 = (strBytes schema).length) := by
  have st : Kind.Steps .disk w w1 := Kind.steps_of (fun _ => Kind.pres_storageWrite) ho h
  have hr1 := hr.steps st
  have hn1 := st.noFault hn
  obtain ⟨s1, s2, hon⟩ := write_stored (k := .disk) hd trivial trivial h
  have hm : ∀ n m, w.maps o.id (join o.path n) = some m →
      fileLaws.cache w1 o n = some ⟨key (join o.path n), 0, m.2⟩ := by
    intro n m hm
    have hc : fileLaws.cache w o n = some ⟨m.1, 0, m.2⟩ := by
      change Option.map _ (w.maps o.id (join o.path n)) = _
      rw [hm]; rfl
    have hb : m.1 = key (join o.path n) := fileLaws.inv_bloc hr.inv hc
    rw [← hb]
    exact (hon.cache _ _).trans hc
  constructor
  · rintro ⟨s, w2, h1, h2⟩
    refine ⟨fun m hx => ?_, fun m hx => ?_⟩
    · have hc := hm name m hx
      refine Decidable.byContradiction fun hne => ?_
      obtain ⟨x, w', h3⟩ := read_misfit (k := .disk) p' e' (expected := schema) hr1.inv hn1 hc (by
        intro h16
        refine ⟨data.length, ?_, by omega, fun hl => hne hl.symm⟩
        unfold Backend.deref
        change (if _ ≤ ((w1.fs.files (key (join o.path name))).getD []).length then
          Out.ok ((((w1.fs.files (key (join o.path name))).getD []).drop 0).take 8) else .ub) = _
        have s1 : w1.fs.files (key (join o.path name)) = some (image data) := s1
        rw [s1]
        change (if 0 + 8 ≤ (image data).length then _ else _) = _
        rw [if_pos (by simp [image, length_le64])]
        change Out.ok (((image data).drop 0).take 8) = _
        rw [List.drop_zero]; unfold image; rw [List.append_assoc, take8_le64])
      change Storage.read file p' e' o name schema w1 = _ at h3
      rw [h1] at h3; cases h3
    · have hc := hm (name ++ ".schema") m hx
      unfold Storage.read at h1
      obtain ⟨sd, w3, h3, h4⟩ := Act.bind_eq_ok h1
      obtain ⟨ss, w4, h5, h6⟩ := Act.bind_eq_ok h4
      have r3 := mapErr_eq_ok h3
      have r5 := mapErr_eq_ok h5
      have ro : ReadOnly fileLaws w1 w4 := (ReadOnly.read r3).trans (.read r5)
      have hc4 : fileLaws.cache w4 o (name ++ ".schema") = some ⟨key (join o.path (name ++ ".schema")), 0, m.2⟩ := by
        rcases ro.cache o (name ++ ".schema") with ⟨a, _⟩ | ⟨a, _⟩
        · exact a.trans hc
        · rw [hc] at a; cases a
      have := (fileLaws.read_ok r5).1
      rw [show Storage.schemaName name = name ++ ".schema" from rfl, hc4] at this
      cases this
      exact (deref_length (checkResource_text h6)).symm
  · rintro ⟨h1, h2⟩
    have cur : ∀ n d, Kind.stored .disk w1 o n = some d → d ≠ [] → (∀ m, w.maps o.id (join o.path n) = some m → m.2 = d.length) →
        Kind.current .disk w1 o n := by
      intro n d hd hne hmm x hx
      have hc : fileLaws.cache w1 o n = some ⟨x.1, 0, x.2⟩ := by
        change Option.map _ (w1.maps o.id (join o.path n)) = _
        rw [show w1.maps o.id (join o.path n) = some x from hx]; rfl
      have hw := (hon.cache o n).symm.trans hc
      have hb := fileLaws.inv_bloc hr1.inv hc
      change Option.map _ (w.maps o.id (join o.path n)) = _ at hw
      rw [Option.map_eq_some_iff] at hw
      obtain ⟨m, hm1, hm2⟩ := hw
      refine ⟨d, hd, hne, Prod.ext hb ?_⟩
      have e1 := hmm m hm1
      exact (congrArg Slice.len hm2).symm.trans e1
    have hsn : strBytes schema ≠ [] := fun hc => hs (strBytes_eq_nil.mp hc)
    have hin : image data ≠ [] := by
      intro h0; have := congrArg List.length h0; simp [image, length_le64] at this
    have hil : (image data).length = data.length + 16 := by simp [image, length_le64, zeros]; omega
    have hv : Valid .disk (Kind.stored .disk w1 o) name schema data :=
      valid_image (k := .disk) ((Kind.stored_eq .disk ..).symm.trans s1) ((Kind.stored_eq .disk ..).symm.trans s2) hd hsn
    have ex := C17_read_exact .disk p' e' w1 o name schema hr1 (st.alive ho) hn1
      (cur name _ s1 hin (by rw [hil]; exact h1)) (cur _ _ s2 hsn h2)
    obtain ⟨s, w2, hx⟩ := ex.1.mpr ⟨data, hv⟩
    obtain ⟨x, hx1, hx2⟩ := ex.2 s w2 hx
    rw [hx1.unique hv] at hx2
    exact ⟨s, w2, hx, hx2⟩

/-- A resource of one byte has been written to the disk of the example. -/
def RewriteExample.written : FileW := (Storage.write file .debug .little objD "x" "s" [7#8] (disk0 [])).2

/-- ... and read. -/
def RewriteExample.readBack : FileW := (@Storage.read file .debug .little naiveDiff objD "x" "s" written).2

theorem RewriteExample.readBack_steps : Kind.Steps .disk (disk0 []) readBack := by
  have h1 : Kind.Steps .disk (disk0 []) written :=
    ((Kind.pres_storageWrite (k := .disk) (o := objD) (w0 := disk0 []) (p := .debug) (e := .little) (name := "x") (schema := "s") (d := [7#8])) (disk0 [])
      ⟨Kind.Steps.refl (k := .disk) _, show 0 < 1 by decide⟩).1
  have ha : Kind.alive .disk written objD := h1.alive (o := objD) (show 0 < 1 by decide)
  exact h1.trans ((@Kind.pres_storageRead .disk objD written naiveDiff .debug .little "x" "s") written ⟨Kind.Steps.refl (k := .disk) _, ha⟩).1

/-- Writing another byte is seen, writing two bytes is not. -/
example [DiffLib] : ∃ w1 w1', Storage.write file .debug .little objD "x" "s" [1#8] RewriteExample.readBack = (.ok (), w1) ∧
    (∃ s w2, Storage.read file .debug .little objD "x" "s" w1 = (.ok s, w2) ∧ file.deref w2 s = .ok [1#8]) ∧
    Storage.write file .debug .little objD "x" "s" [1#8, 2#8] RewriteExample.readBack = (.ok (), w1') ∧
    ¬ ∃ s w2, Storage.read file .debug .little objD "x" "s" w1' = (.ok s, w2) ∧ file.deref w2 s = .ok [1#8, 2#8] := by
  have h1 : Storage.write file .debug .little objD "x" "s" [1#8] RewriteExample.readBack = (.ok (), _) := run_eq (by decide +kernel)
  have h2 : Storage.write file .debug .little objD "x" "s" [1#8, 2#8] RewriteExample.readBack = (.ok (), _) := run_eq (by decide +kernel)
  have hm : RewriteExample.readBack.maps objD.id (join objD.path "x") = some ([['d'], ['x']], 17) := by decide +kernel
  have hm' : RewriteExample.readBack.maps objD.id (join objD.path ("x" ++ ".schema")) = some (key (join objD.path "x.schema"), 1) := by decide +kernel
  have hr := (disk0_reachable [] (fun _ => none)).steps RewriteExample.readBack_steps
  have hn : Kind.noFault .disk RewriteExample.readBack := RewriteExample.readBack_steps.noFault (disk0_noFault _)
  have ha : Kind.alive .disk RewriteExample.readBack objD := RewriteExample.readBack_steps.alive (o := objD) (show 0 < 1 by decide)
  refine ⟨_, _, h1, ?_, h2, ?_⟩
  · refine (C34_disk_exact .debug .debug .little .little _ _ objD "x" "s" [1#8] hr ha hn (by decide) (by decide) h1).mpr ⟨?_, ?_⟩
    · intro m h; rw [hm] at h; cases h; rfl
    · intro m h; rw [hm'] at h; cases h; decide
  · intro h
    have := ((C34_disk_exact .debug .debug .little .little _ _ objD "x" "s" [1#8, 2#8] hr ha hn (by decide) (by decide) h2).mp h).1 _ hm
    revert this; decide

/-- What an object of a memory storage sees under a name: what it has read, or else what has been written. -/
def Spec.memSeen (w : MemW) (l : MemLoc) : Option Bytes := (w.resources l).or ((w.streams l).map Prod.fst)

theorem memSeen_read {o : Obj} {n : String} {w : MemW} {d : Bytes} (h : memSeen w (MemSt.loc o n) = some d) :
    ∃ w', MemSt.readResource o n w = (.ok ⟨MemSt.loc o n, 0, d.length⟩, w') ∧ w'.resources (MemSt.loc o n) = some d ∧
      (∀ l, memSeen w' l = memSeen w l) ∧ ∀ l, w.resources l ≠ none → w'.resources l = w.resources l := by
  unfold memSeen at h
  rcases MemSt.read_cases o n w with ⟨x, h1, h2⟩ | ⟨x, q, h1, h3, h2⟩ | ⟨h1, h3, _⟩
  · rw [h1] at h; cases h
    exact ⟨w, h2, h1, fun _ => rfl, fun _ _ => rfl⟩
  · rw [h1, h3] at h; cases h
    refine ⟨_, h2, upd_same .., fun l => ?_, fun l hl => ?_⟩
    · unfold memSeen
      dsimp only
      by_cases hl : l = MemSt.loc o n
      · rw [hl, upd_same, h1, h3]; rfl
      · rw [upd_other _ _ hl]
    · exact upd_other _ _ (fun he => hl (by rw [he]; exact h1))
  · rw [h1, h3] at h; cases h

/-- C17 in memory, exactly, for all states of the storage: `read` shows `x` if and only if what the object sees is a complete resource with
the payload `x`, and the schema. -/
theorem C17_memory_exact [DiffLib] (p : Profile) (e : Endian) (w : MemW) (o : Obj) (name schema : String) (x : Bytes) :
    (∃ s w', Storage.read mem p e o name schema w = (.ok s, w') ∧ mem.deref w' s = .ok x) ↔
    ∃ d, memSeen w (o.id, key (join o.path name)) = some d ∧ Holds d x ∧ x.length + 16 < 2 ^ 64 ∧
      memSeen w (o.id, key (join o.path (name ++ ".schema"))) = some (strBytes schema) := by
  have whole : ∀ {w : MemW} {l : MemLoc} {d : Bytes}, w.resources l = some d → mem.deref w ⟨l, 0, d.length⟩ = .ok d := by
    intro w l d h
    change (if 0 + d.length ≤ ((w.resources l).getD []).length then Out.ok ((((w.resources l).getD []).drop 0).take d.length) else .ub) = _
    rw [h]; simp
  have key : ∀ d c, memSeen w (MemSt.loc o name) = some d → memSeen w (MemSt.loc o (Storage.schemaName name)) = some c →
      ∃ w', Storage.read mem p e o name schema w = (toSlice ⟨MemSt.loc o name, 0, d.length⟩ (verdict p name schema d c), w') ∧
        mem.deref w' ⟨MemSt.loc o name, 0, d.length⟩ = .ok d := by
    intro d c hd hc
    obtain ⟨w1, r1, c1, s1, _⟩ := memSeen_read hd
    obtain ⟨w2, r2, c2, s2, k2⟩ := memSeen_read ((s1 _).trans hc)
    have c1' := (k2 _ (by rw [c1]; simp)).trans c1
    exact ⟨w2, read_from (B := mem) p e r1 r2 (whole c1') (whole c2), whole c1'⟩
  have seen : ∀ {n : String} {w w' : MemW} {s}, MemSt.readResource o n w = (.ok s, w') → ∃ d, memSeen w (MemSt.loc o n) = some d := by
    intro n w w' s h
    unfold memSeen
    rcases MemSt.read_cases o n w with ⟨x, h1, _⟩ | ⟨x, q, h1, h3, _⟩ | ⟨h1, h3, h2⟩
    · exact ⟨x, by rw [h1]; rfl⟩
    · exact ⟨x, by rw [h1, h3]; rfl⟩
    · rw [h] at h2; cases h2
  constructor
  · rintro ⟨s, w', h, hx⟩
    have h0 := h
    unfold Storage.read at h
    obtain ⟨sd, w3, h3, h4⟩ := Act.bind_eq_ok h
    obtain ⟨ss, w4, h5, h6⟩ := Act.bind_eq_ok h4
    have r3 := mapErr_eq_ok h3
    have r5 := mapErr_eq_ok h5
    obtain ⟨d, hd⟩ := seen r3
    obtain ⟨w3', e3, _, s3, _⟩ := memSeen_read hd
    obtain ⟨c, hc⟩ := seen r5
    change MemSt.readResource o name w = _ at r3
    rw [r3] at e3; cases e3
    obtain ⟨w'', h7, h8⟩ := key d c hd ((s3 _).symm.trans hc)
    rw [h0] at h7
    have e1 := congrArg Prod.fst h7
    have e2 : w' = w'' := congrArg Prod.snd h7
    subst e2
    cases hv : verdict p name schema d c with
    | ok y =>
      rw [hv] at e1
      cases e1
      obtain ⟨v1, v2, v3⟩ := verdict_ok.mp hv
      have := v1.length
      rw [deref_sub h8 (by simp only; omega), v1.body] at hx
      cases hx
      exact ⟨d, hd, v1, v2, by rw [← v3]; exact (s3 _).symm.trans hc⟩
    | err y => rw [hv] at e1; cases e1
    | panic => rw [hv] at e1; cases e1
    | ub => rw [hv] at e1; cases e1
  · rintro ⟨d, hd, v1, v2, hc⟩
    obtain ⟨w', h7, h8⟩ := key d _ hd hc
    rw [verdict_ok.mpr ⟨v1, v2, rfl⟩] at h7
    refine ⟨_, w', h7, ?_⟩
    have := v1.length
    rw [deref_sub h8 (by simp only; omega), v1.body]

/-- The stream at `l` holds `c` and is at its end; or it does not exist yet. -/
def AtEnd (w : MemW) (l : MemLoc) (c : Bytes) : Prop := w.streams l = some (c, c.length) ∨ (w.streams l = none ∧ c = [])

/-- Only the stream at `l` has changed. -/
structure OnlyStream (w w' : MemW) (l : MemLoc) : Prop where
  streams : ∀ l', l' ≠ l → w'.streams l' = w.streams l'
  resources : w'.resources = w.resources
  next : w'.next = w.next

theorem OnlyStream.trans {a b c : MemW} {l : MemLoc} (h : OnlyStream a b l) (h' : OnlyStream b c l) : OnlyStream a c l :=
  ⟨fun x hx => (h'.streams x hx).trans (h.streams x hx), h'.resources.trans h.resources, h'.next.trans h.next⟩

theorem mem_create {o : Obj} {n : String} {w : MemW} {c : Bytes} (h : AtEnd w (MemSt.loc o n) c) :
    ∃ w', MemSt.createOutputStream o n w = (.ok (MemSt.loc o n), w') ∧ w'.streams (MemSt.loc o n) = some (c, c.length) ∧
      OnlyStream w w' (MemSt.loc o n) := by
  rcases MemSt.create_cases o n w with ⟨x, h1, h2⟩ | ⟨h1, h2⟩
  · rcases h with h | ⟨h, _⟩
    · exact ⟨w, h2, h, fun _ _ => rfl, rfl, rfl⟩
    · rw [h1] at h; cases h
  · rcases h with h | ⟨_, rfl⟩
    · rw [h1] at h; cases h
    · exact ⟨_, h2, upd_same .., fun l hl => upd_other _ _ hl, rfl, rfl⟩

theorem mem_append {l : MemLoc} {w : MemW} {c : Bytes} (b : Bytes) (h : w.streams l = some (c, c.length)) :
    ∃ w', MemSt.writeAll l b w = (.ok (), w') ∧ w'.streams l = some (c ++ b, (c ++ b).length) ∧ OnlyStream w w' l := by
  refine ⟨_, MemSt.writeAll_eq b h, ?_, fun l hl => upd_other _ _ hl, rfl, rfl⟩
  dsimp only
  rw [upd_same, putAt_end, List.length_append]

/-- In memory, writing appends. -/
theorem mem_write (p : Profile) (e : Endian) {o : Obj} {name schema : String} {w : MemW} {c t data : Bytes} (hd : data.length < 2 ^ 64)
    (h1 : AtEnd w (MemSt.loc o name) c) (h2 : AtEnd w (MemSt.loc o (Storage.schemaName name)) t) :
    ∃ w', Storage.write mem p e o name schema data w = (.ok (), w') ∧
      AtEnd w' (MemSt.loc o name) (c ++ image data) ∧ AtEnd w' (MemSt.loc o (Storage.schemaName name)) (t ++ strBytes schema) ∧
      w'.streams (MemSt.loc o name) ≠ none ∧ w'.streams (MemSt.loc o (Storage.schemaName name)) ≠ none ∧
      w'.resources = w.resources ∧ w'.next = w.next := by
  have hne : MemSt.loc o (Storage.schemaName name) ≠ MemSt.loc o name := Kind.loc_schema_ne .memory o name
  obtain ⟨w1, r1, c1, o1⟩ := mem_create h1
  obtain ⟨w2, r2, c2, o2⟩ := mem_append (le64 data.length) c1
  obtain ⟨w3, r3, c3, o3⟩ := mem_append data c2
  obtain ⟨w4, r4, c4, o4⟩ := mem_append (zeros 8) c3
  have o14 := o1.trans (o2.trans (o3.trans o4))
  have h2' : AtEnd w4 (MemSt.loc o (Storage.schemaName name)) t := by
    unfold AtEnd at h2 ⊢
    rw [o14.streams _ hne]; exact h2
  obtain ⟨w5, r5, c5, o5⟩ := mem_create h2'
  obtain ⟨w6, r6, c6, o6⟩ := mem_append (strBytes schema) c5
  have o56 := o5.trans o6
  have c4' := (o56.streams _ hne.symm).trans c4
  have e1 : c ++ le64 data.length ++ data ++ zeros 8 = c ++ image data := by unfold image; simp only [List.append_assoc]
  rw [e1] at c4'
  refine ⟨w6, ?_, .inl c4', .inl c6, by rw [c4']; simp, by rw [c6]; simp, o56.resources.trans o14.resources, o56.next.trans o14.next⟩
  unfold Storage.write
  rw [Act.bind_ok r1]
  have r234 : Storage.writeToStream mem p e data (MemSt.loc o name) w1 = (.ok (), w4) := by
    unfold Storage.writeToStream
    rw [Act.bind_ok ((writeSize_eq (B := mem) p e _ hd w1).trans r2), Act.bind_ok r3]
    exact r4
  rw [Act.bind_ok r234, Act.bind_ok r5]
  exact r6

/-- C34 in memory, exactly: a resource that is written twice shows the second content only if it is the first one again and was read in
between, together with its schema (unless this is empty). -/
theorem C34_memory_exact [DiffLib] (p p' : Profile) (e e' : Endian) (w w1 w2 w3 : MemW) (o : Obj) (name schema : String) (old data : Bytes)
    (hr : Kind.Reachable .memory w) (ho : Kind.alive .memory w o) (hd : data.length < 2 ^ 63) (hd' : old.length < 2 ^ 63)
    (n1 : Kind.stored .memory w o name = none) (n2 : Kind.stored .memory w o (name ++ ".schema") = none)
    (h1 : Storage.write mem p e o name schema old w = (.ok (), w1)) (hl : Looks .memory w1 w2)
    (h2 : Storage.write mem p e o name schema data w2 = (.ok (), w3)) :
    (∃ s w4, Storage.read mem p' e' o name schema w3 = (.ok s, w4) ∧ mem.deref w4 s = .ok data) ↔
    old = data ∧ ¬ Kind.unread .memory w2 o name ∧ (¬ Kind.unread .memory w2 o (name ++ ".schema") ∨ schema = "") := by
  rw [C17_memory_exact]
  have u1 := hr.unread n1
  have u2 := hr.unread n2
  have none_of : ∀ n, Kind.stored .memory w o n = none → AtEnd w (MemSt.loc o n) [] := by
    intro n hn
    right
    change Option.map Prod.fst (w.streams (MemSt.loc o n)) = none at hn
    exact ⟨Option.map_eq_none_iff.mp hn, rfl⟩
  obtain ⟨w1', e1, a1, a2, m1, m2, rs1, nx1⟩ := mem_write p e (schema := schema) (data := old) (by omega) (none_of _ n1) (none_of _ n2)
  rw [h1] at e1; cases e1
  have g : MemGrown w1 w2 := hl.grown
  have al : (MemSt.loc o name).1 < w1.next := by rw [nx1]; exact ho
  have b1 : AtEnd w2 (MemSt.loc o name) (image old) := by unfold AtEnd at a1 ⊢; rw [g.streams _ al]; exact a1
  have b2 : AtEnd w2 (MemSt.loc o (Storage.schemaName name)) (strBytes schema) := by
    unfold AtEnd at a2 ⊢; rw [g.streams (MemSt.loc o (Storage.schemaName name)) al]; exact a2
  have some_of : ∀ {w : MemW} {l : MemLoc} {c : Bytes}, AtEnd w l c → w.streams l ≠ none → w.streams l = some (c, c.length) := by
    intro w l c h hn
    rcases h with h | ⟨h, _⟩
    · exact h
    · exact absurd h hn
  have s1 := some_of a1 m1
  have s2 := some_of a2 m2
  obtain ⟨w3', e3, c1, c2, m3, m4, rs3, nx3⟩ := mem_write p e (schema := schema) (data := data) (by omega) b1 b2
  rw [h2] at e3; cases e3
  have t1 := some_of c1 m3
  have t2 := some_of c2 m4
  have seen : ∀ n (a b : Bytes), Kind.unread .memory w o n → w1.streams (MemSt.loc o n) = some (a, a.length) →
      w3.streams (MemSt.loc o n) = some (a ++ b, (a ++ b).length) →
      (Kind.unread .memory w2 o n ∧ memSeen w3 (MemSt.loc o n) = some (a ++ b)) ∨
      (¬ Kind.unread .memory w2 o n ∧ memSeen w3 (MemSt.loc o n) = some a) := by
    intro n a b hu ha hb
    have hu : w.resources (MemSt.loc o n) = none := hu
    unfold memSeen
    rw [rs3]
    rcases g.resources (MemSt.loc o n) al with hc | ⟨_, d, q, hc1, hc2⟩
    · rw [rs1] at hc
      refine .inl ⟨hc.trans hu, ?_⟩
      rw [hc, hu, hb]; rfl
    · rw [ha] at hc1; cases hc1
      refine .inr ⟨fun hc => ?_, by rw [hc2]; rfl⟩
      have hc : w2.resources (MemSt.loc o n) = none := hc
      rw [hc2] at hc; cases hc
  have hi : ∀ d : Bytes, (image d).length = d.length + 16 := by intro d; simp [image, length_le64, zeros]; omega
  have sd := seen name (image old) (image data) u1 s1 t1
  have ss := seen (name ++ ".schema") (strBytes schema) (strBytes schema) u2 s2 t2
  constructor
  · rintro ⟨d, hdd, hv, _, hc⟩
    have hdd : memSeen w3 (MemSt.loc o name) = some d := hdd
    have hc : memSeen w3 (MemSt.loc o (name ++ ".schema")) = some (strBytes schema) := hc
    rcases sd with ⟨_, sd⟩ | ⟨ur, sd⟩
    · exfalso
      rw [sd] at hdd; cases hdd
      have h8 : (image old ++ image data).take 8 = le64 old.length := by unfold image; simp only [List.append_assoc]; rw [take8_le64]
      have hz := hv.size
      rw [h8, leNat_le64 (by omega)] at hz
      have hll := hv.length
      rw [List.length_append, hi, hi, ← hz] at hll
      omega
    · rw [sd] at hdd; cases hdd
      refine ⟨Holds.unique (holds_image old (by omega)) hv, ur, ?_⟩
      rcases ss with ⟨_, ss⟩ | ⟨us, _⟩
      · right
        rw [ss] at hc
        have := congrArg List.length (Option.some.inj hc)
        rw [List.length_append] at this
        exact strBytes_eq_nil.mp (List.eq_nil_of_length_eq_zero (by omega))
      · exact .inl us
  · rintro ⟨rfl, ur, us⟩
    rcases sd with ⟨ur', _⟩ | ⟨_, sd⟩
    · exact absurd ur' ur
    refine ⟨image old, sd, holds_image old (by omega), by omega, ?_⟩
    rcases ss with ⟨us', ss⟩ | ⟨_, ss⟩
    · rcases us with us | rfl
      · exact absurd us' us
      · exact ss
    · exact ss

/-- A resource has been written to the memory storage of the example. -/
def RewriteExample.once : MemW := (Storage.write mem .debug .little obj "x" "s" [7#8] mem0).2

/-- ... and read. -/
def RewriteExample.onceRead : MemW := (@Storage.read mem .debug .little naiveDiff obj "x" "s" once).2

/-- Writing the same again is seen if it was read in between, and not otherwise. -/
example [DiffLib] : ∃ w3 w3', Storage.write mem .debug .little obj "x" "s" [7#8] RewriteExample.onceRead = (.ok (), w3) ∧
    (∃ s w4, Storage.read mem .debug .little obj "x" "s" w3 = (.ok s, w4) ∧ mem.deref w4 s = .ok [7#8]) ∧
    Storage.write mem .debug .little obj "x" "s" [7#8] RewriteExample.once = (.ok (), w3') ∧
    ¬ ∃ s w4, Storage.read mem .debug .little obj "x" "s" w3' = (.ok s, w4) ∧ mem.deref w4 s = .ok [7#8] := by
  have h0 : Storage.write mem .debug .little obj "x" "s" [7#8] mem0 = (.ok (), RewriteExample.once) := run_eq (by decide +kernel)
  have h1 : Storage.write mem .debug .little obj "x" "s" [7#8] RewriteExample.onceRead = (.ok (), _) := run_eq (by decide +kernel)
  have h2 : Storage.write mem .debug .little obj "x" "s" [7#8] RewriteExample.once = (.ok (), _) := run_eq (by decide +kernel)
  refine ⟨_, _, h1, ?_, h2, ?_⟩
  · refine (C34_memory_exact .debug .debug .little .little mem0 RewriteExample.once RewriteExample.onceRead _ obj "x" "s" [7#8] [7#8]
      mem0_reachable Nat.zero_lt_one (by decide) (by decide) (by decide) (by decide) h0
      (@looks_read .memory .debug .little obj naiveDiff "x" "s" RewriteExample.once Nat.zero_lt_one) h1).mpr ⟨rfl, ?_, .inl ?_⟩
    · change RewriteExample.onceRead.resources _ ≠ none; decide +kernel
    · change RewriteExample.onceRead.resources _ ≠ none; decide +kernel
  · intro h
    refine ((C34_memory_exact .debug .debug .little .little mem0 RewriteExample.once RewriteExample.once _ obj "x" "s" [7#8] [7#8]
      mem0_reachable Nat.zero_lt_one (by decide) (by decide) (by decide) (by decide) h0 (.refl _) h2).mp h).2.1 ?_
    change RewriteExample.once.resources _ = none
    decide +kernel

/-! ## C35: on disk, what becomes of a slice -/

/-- What a slice of a file shows after the file has changed. -/
theorem deref_file {w : FileW} {s : Slice Key} {c : Bytes} (ho : s.off = 0) (hc : w.fs.files s.base = some c) :
    file.deref w s = if s.len ≤ c.length then .ok (c.take s.len) else .ub := by
  change (if s.off + s.len ≤ ((w.fs.files s.base).getD []).length then Out.ok ((((w.fs.files s.base).getD []).drop s.off).take s.len) else .ub) = _
  rw [hc, ho]
  simp

theorem read_slice {w w1 : FileW} {o : Obj} {n : String} {s : Slice Key} (hr : Kind.Reachable .disk w)
    (h : file.readResource o n w = (.ok s, w1)) : s.off = 0 ∧ s.base = key (join o.path n) := by
  rcases (fileLaws.read_ok h).2 with hc | ⟨_, _, _, h1, _, hb, _⟩
  · refine ⟨?_, fileLaws.inv_bloc hr.inv hc⟩
    change Option.map _ (w.maps o.id (join o.path n)) = _ at hc
    rw [Option.map_eq_some_iff] at hc
    obtain ⟨m, _, rfl⟩ := hc
    rfl
  · exact ⟨h1, hb⟩

/-- C35 on disk: once a stream is created for the same file, through any storage object, a slice handed out before must not be used any
more. -/
theorem C35_disk_created (w w1 w2 w3 : FileW) (o o' : Obj) (n n' : String) (s : Slice Key) (st : Nat) (hr : Kind.Reachable .disk w)
    (h : file.readResource o n w = (.ok s, w1)) (h0 : s.len ≠ 0) (hp : Kind.place .disk o' n' = Kind.place .disk o n)
    (hc : file.createOutputStream o' n' w2 = (.ok st, w3)) : file.deref w3 s = .ub := by
  obtain ⟨h1, h2⟩ := read_slice hr h
  have hm := ((fileLaws.create_ok hc).2.2 trivial).1
  have hm : w3.fs.files (key (join o'.path n')) = some [] := hm
  have hp : key (join o'.path n') = key (join o.path n) := hp
  rw [deref_file h1 (by rw [h2, ← hp]; exact hm), if_neg (by simp; omega)]

/-- C35 on disk: when the resource has been written again, through any storage object, the slice shows the beginning of what was written,
and must not be used if this is shorter. -/
theorem C35_disk_rewritten (p : Profile) (e : Endian) (w w1 w2 w3 : FileW) (o o' : Obj) (n n' schema : String) (s : Slice Key) (data : Bytes)
    (hr : Kind.Reachable .disk w) (h : file.readResource o n w = (.ok s, w1)) (hp : Kind.place .disk o' n' = Kind.place .disk o n)
    (hd : data.length < 2 ^ 63) (hw : Storage.write file p e o' n' schema data w2 = (.ok (), w3)) :
    file.deref w3 s = if s.len ≤ data.length + 16 then .ok ((image data).take s.len) else .ub := by
  obtain ⟨h1, h2⟩ := read_slice hr h
  obtain ⟨s1, _, _⟩ := write_stored (k := .disk) hd trivial trivial hw
  have s1 : w3.fs.files (key (join o'.path n')) = some (image data) := s1
  have hp : key (join o'.path n') = key (join o.path n) := hp
  have hi : (image data).length = data.length + 16 := by simp [image, length_le64, zeros]; omega
  rw [deref_file h1 (by rw [h2, ← hp]; exact s1), hi]

/-- The resource of `disk1` is read; then a stream is created for it, or it is written again through another object, with fewer bytes or with
more. -/
example : ∃ s w1, file.readResource objD "x" disk1 = (.ok s, w1) ∧ file.deref w1 s = .ok (image [7#8]) ∧
    (∃ st w3, file.createOutputStream ⟨1, ['d']⟩ "x" w1 = (.ok st, w3) ∧ file.deref w3 s = .ub) ∧
    (∃ w3, Storage.write file .debug .little ⟨1, ['d']⟩ "x" "s" [] w1 = (.ok (), w3) ∧ file.deref w3 s = .ub) ∧
    (∃ w3, Storage.write file .debug .little ⟨1, ['d']⟩ "x" "s" [1#8, 2#8] w1 = (.ok (), w3) ∧
      file.deref w3 s = .ok ((image [1#8, 2#8]).take 17)) := by
  have h1 : file.readResource objD "x" disk1 = (.ok ⟨[['d'], ['x']], 0, 17⟩, _) := run_eq (by decide)
  have h2 : file.createOutputStream ⟨1, ['d']⟩ "x" (file.readResource objD "x" disk1).2 = (.ok 0, _) := run_eq (by decide +kernel)
  have h3 : Storage.write file .debug .little ⟨1, ['d']⟩ "x" "s" [] (file.readResource objD "x" disk1).2 = (.ok (), _) := run_eq (by decide +kernel)
  have h4 : Storage.write file .debug .little ⟨1, ['d']⟩ "x" "s" [1#8, 2#8] (file.readResource objD "x" disk1).2 = (.ok (), _) :=
    run_eq (by decide +kernel)
  refine ⟨_, _, h1, by decide, ⟨_, _, h2, ?_⟩, ⟨_, h3, ?_⟩, ⟨_, h4, ?_⟩⟩
  · exact C35_disk_created disk1 _ _ _ objD ⟨1, ['d']⟩ "x" "x" _ 0 (disk0_reachable _ _) h1 (by decide) rfl h2
  · exact C35_disk_rewritten .debug .little disk1 _ _ _ objD ⟨1, ['d']⟩ "x" "x" "s" _ [] (disk0_reachable _ _) h1 rfl (by decide) h3
  · exact C35_disk_rewritten .debug .little disk1 _ _ _ objD ⟨1, ['d']⟩ "x" "x" "s" _ [1#8, 2#8] (disk0_reachable _ _) h1 rfl (by decide) h4

end Flatdata
