import Verif.Props.ExtVectors
import Verif.Proofs.Timely
/-!
# Property C20, exactly: which external vectors a crash may turn into empty ones

`C20_extvec_refuted` shows one vector that is read as empty after a crash. Here: exactly those vectors are in danger of which
at most eight bytes are in the file when `close` is called, in particular all that were never flushed (up to 32 MiB).
-/
namespace Flatdata
open Spec StorageExample VecExample

/-- Some failure of system calls from now on makes `close` leave behind a resource that another process, for which nothing
fails, reads as empty. -/
def MayBecomeEmpty [DiffLib] (p p' : Profile) (e e' : Endian) (name schema : String) (v : ExtVec file) (w : FileW) (o' : Obj) : Prop :=
  ∃ f : Nat → Option Nat, (∀ t, t < w.fs.tick → f t = w.fs.fault t) ∧
    ∃ w2 w3 s, NewProcess (v.close p e (faring w f)).2 w2 ∧ Kind.noFault .disk w2 ∧
      Storage.read file p' e' o' name schema w2 = (.ok s, w3) ∧ file.deref w3 s = .ok []

namespace CrashExact

/-- A file of at least `n` bytes. -/
def Long (l : Key) (n : Nat) (w : FileW) : Prop := ∃ d, w.fs.files l = some d ∧ n ≤ d.length

theorem length_putAt (c : Bytes) (pos : Nat) (b : Bytes) : c.length ≤ (putAt c pos b).length := by
  unfold putAt
  split
  · exact Nat.le_refl _
  · simp only [List.length_append, List.length_take, List.length_replicate, List.length_drop]; omega

theorem long_put {l : Key} {n : Nat} {files : Key → Option Bytes} {k : Key} {pos : Nat} {b : Bytes}
    (h : ∃ d, files l = some d ∧ n ≤ d.length) :
    ∃ d, upd files k ((files k).map (putAt · pos b)) l = some d ∧ n ≤ d.length := by
  obtain ⟨d, h1, h2⟩ := h
  by_cases hk : l = k
  · subst hk
    rw [upd_same, h1]
    exact ⟨_, rfl, Nat.le_trans h2 (length_putAt ..)⟩
  · rw [upd_other _ _ hk]; exact ⟨d, h1, h2⟩

theorem long_write (l : Key) (n : Nat) (s : Nat) (b : Bytes) : Act.Pres (Long l n) (FileSt.writeAll s b) := by
  intro w h
  unfold FileSt.writeAll FileSt.syscall
  dsimp only
  split
  · exact long_put h
  · exact long_put h

theorem long_seek (l : Key) (n : Nat) (s : Nat) : Act.Pres (Long l n) (FileSt.seekStart s) := by
  intro w h
  unfold FileSt.seekStart FileSt.syscall
  dsimp only
  split
  · exact h
  · dsimp only; split <;> exact h

theorem long_handleWrite (l : Key) (n : Nat) (p : Profile) (h : Handle file) (b : Bytes) : Act.Pres (Long l n) (h.write p b) := by
  unfold Handle.write
  split
  · exact .fail _
  · exact .bind (long_write l n _ b) fun _ => .bind (.lift _) fun _ => .pure _

theorem long_flush (l : Key) (n : Nat) (p : Profile) (v : ExtVec file) : Act.Pres (Long l n) (v.flush p) := by
  unfold ExtVec.flush
  exact .bind (.lift _) fun _ => .bind (.lift _) fun _ => .bind (long_handleWrite l n p _ _) fun _ => .pure _

theorem long_finish (l : Key) (n : Nat) (p : Profile) (e : Endian) (h : Handle file) (s : Nat) : Act.Pres (Long l n) (h.finish p e s) := by
  unfold Handle.finish
  refine .bind (long_write l n s _) fun _ => .bind (long_seek l n s) fun _ => ?_
  unfold Storage.writeSize
  exact .bind (.lift _) fun _ => long_write l n s _

theorem long_read [DiffLib] (l : Key) (n : Nat) (p : Profile) (e : Endian) (o : Obj) (name schema : String) :
    Act.Pres (Long l n) (Storage.read file p e o name schema) := by
  intro w h
  obtain ⟨d, h1, h2⟩ := h
  exact ⟨d, (storageRead_medium (L := fileLaws) (p := p) (e := e) (o := o) (name := name) (expected := schema) (w := w)
    (r := (Storage.read file p e o name schema w).1) rfl l).trans h1, h2⟩

theorem long_drop {E : Type} (l : Key) (n : Nat) (h : Handle file) : Act.Pres (Long l n) (h.drop (E := E)) := by
  unfold Handle.drop
  split
  · exact .lift _
  · exact .pure _

theorem long_handleClose [DiffLib] (l : Key) (n : Nat) (p : Profile) (e : Endian) (h : Handle file) :
    Act.Pres (Long l n) (h.close p e) := by
  unfold Handle.close
  split
  · exact .pure _
  · refine .bind (.attempt (long_finish l n p e _ _)) fun r => ?_
    split
    · exact .pure _
    · exact .bind (.attempt (long_read l n p e _ _ _)) fun _ => .pure _

theorem long_closeHandle [DiffLib] (l : Key) (n : Nat) (p : Profile) (e : Endian) (v : ExtVec file) :
    Act.Pres (Long l n) (v.closeHandle p e) := by
  unfold ExtVec.closeHandle
  refine .bind (.mapErr (long_handleClose l n p e _)) fun r => .bind (long_drop l n _) fun _ => ?_
  unfold Act.ofExcept
  split
  · exact .pure _
  · exact .fail _

theorem long_close [DiffLib] (l : Key) (n : Nat) (p : Profile) (e : Endian) (v : ExtVec file) : Act.Pres (Long l n) (v.close p e) := by
  unfold ExtVec.close
  refine .bind (.attempt (long_flush l n p v)) fun r => ?_
  split
  · exact .bind (long_drop l n _) fun _ => .fail _
  · exact long_closeHandle l n p e _

/-! ## Dying at a chosen byte -/

theorem append_fault {w : FileW} {s : Nat} {l : Key} {c : Bytes} (a : Appending fileLaws w s l c) (b : Bytes) {k : Nat}
    (hf : w.fs.fault w.fs.tick = some k) :
    ∃ w', FileSt.writeAll s b w = (.err .other, w') ∧ w'.fs.files l = some (c ++ b.take k) ∧
      ∀ l', l' ≠ l → w'.fs.files l' = w.fs.files l' := by
  have h := FileSt.syscall_fault (f := fun fs => (Res.ok (), { fs with
      files := upd fs.files (fs.fds s).1 ((fs.files (fs.fds s).1).map (putAt · (fs.fds s).2 b))
      fds := upd fs.fds s ((fs.fds s).1, (fs.fds s).2 + b.length) }))
    (g := fun k fs => { fs with
      files := upd fs.files (fs.fds s).1 ((fs.files (fs.fds s).1).map (putAt · (fs.fds s).2 (b.take k)))
      fds := upd fs.fds s ((fs.fds s).1, (fs.fds s).2 + (b.take k).length) }) hf
  refine ⟨_, h, ?_, ?_⟩
  · change upd w.fs.files (w.fs.fds s).1 ((w.fs.files (w.fs.fds s).1).map (putAt · (w.fs.fds s).2 (b.take k))) l = _
    rw [show (w.fs.fds s).1 = l from a.sloc, upd_same, show w.fs.files l = some c from a.medium,
      show (w.fs.fds s).2 = c.length from a.pos]
    simp [putAt_end]
  · intro l' hl
    change upd w.fs.files (w.fs.fds s).1 _ l' = _
    rw [show (w.fs.fds s).1 = l from a.sloc, upd_other _ _ hl]

theorem append_fine {w : FileW} {s : Nat} {l : Key} {c : Bytes} (a : Appending fileLaws w s l c) (b : Bytes)
    (hf : w.fs.fault w.fs.tick = none) :
    ∃ w', FileSt.writeAll s b w = (.ok (), w') ∧ Appending fileLaws w' s l (c ++ b) ∧
      (∀ l', l' ≠ l → w'.fs.files l' = w.fs.files l') ∧ w'.fs.fault = w.fs.fault ∧ w'.fs.tick = w.fs.tick + 1 := by
  have h := FileSt.syscall_noFault (f := fun fs => (Res.ok (), { fs with
      files := upd fs.files (fs.fds s).1 ((fs.files (fs.fds s).1).map (putAt · (fs.fds s).2 b))
      fds := upd fs.fds s ((fs.fds s).1, (fs.fds s).2 + b.length) }))
    (g := fun k fs => { fs with
      files := upd fs.files (fs.fds s).1 ((fs.files (fs.fds s).1).map (putAt · (fs.fds s).2 (b.take k)))
      fds := upd fs.fds s ((fs.fds s).1, (fs.fds s).2 + (b.take k).length) }) hf
  refine ⟨_, h, ⟨a.live, ?_, ?_, ?_⟩, ?_, rfl, rfl⟩
  · change (upd w.fs.fds s ((w.fs.fds s).1, _) s).1 = l
    rw [upd_same]; exact a.sloc
  · change upd w.fs.files (w.fs.fds s).1 ((w.fs.files (w.fs.fds s).1).map (putAt · (w.fs.fds s).2 b)) l = _
    rw [show (w.fs.fds s).1 = l from a.sloc, upd_same, show w.fs.files l = some c from a.medium,
      show (w.fs.fds s).2 = c.length from a.pos]
    simp [putAt_end]
  · change (upd w.fs.fds s (_, (w.fs.fds s).2 + b.length) s).2 = _
    rw [upd_same, show (w.fs.fds s).2 = c.length from a.pos]; simp
  · intro l' hl
    change upd w.fs.files (w.fs.fds s).1 _ l' = _
    rw [show (w.fs.fds s).1 = l from a.sloc, upd_other _ _ hl]

/-- The calls of a process that dies `n` bytes later, `big` of which fit into the next call. -/
def dying (old : Nat → Option Nat) (tick n big : Nat) : Nat → Option Nat := fun t =>
  if t < tick then old t else if n ≤ big then (if t = tick then some n else none)
  else (if t = tick + 1 then some (n - big) else none)

theorem faring_inv {o : Obj} {name schema : String} {size : Nat} {w : FileW} {v : ExtVec file} {pre buf : List Bytes} {c : Bytes}
    (i : EvInv fileLaws o name schema size w v pre buf c) (f : Nat → Option Nat) :
    EvInv fileLaws o name schema size (faring w f) v pre buf c := by
  obtain ⟨s, hs, a⟩ := i.writing.stream
  exact ⟨⟨i.writing.obj, i.writing.nameEq, i.writing.schemaEq, i.writing.size, ⟨s, hs, a.live, a.sloc, a.medium, a.pos⟩,
    i.writing.le, i.writing.clean, i.writing.schemaStored⟩, i.rep, i.len, i.all⟩

/-- `close` dies when the file has exactly 16 bytes. -/
theorem dies_at_16 [DiffLib] {o : Obj} {name schema : String} {size : Nat} {w : FileW} {v : ExtVec file} {pre buf : List Bytes}
    {c : Bytes} (i : EvInv fileLaws o name schema size w v pre buf c) (p : Profile) (e : Endian) (hc : c.length ≤ 8)
    (hb : (pre ++ buf).length * size < 2 ^ 63) :
    ∃ b w2, (v.close p e (faring w (dying w.fs.fault w.fs.tick (8 - c.length) buf.flatten.length))).2 = w2 ∧ b.length = 8 ∧
      w2.fs.files (key (join o.path name)) = some (le64 0 ++ b) ∧
      w2.fs.files (key (join o.path (Storage.schemaName name))) = some (strBytes schema) := by
  have i := faring_inv i (dying w.fs.fault w.fs.tick (8 - c.length) buf.flatten.length)
  have hne : key (join o.path (Storage.schemaName name)) ≠ key (join o.path name) := Kind.loc_schema_ne .disk o name
  obtain ⟨s, hs, a⟩ := i.writing.stream
  obtain ⟨e1, e2⟩ := i.rep.body p
  have hsch : (faring w (dying w.fs.fault w.fs.tick (8 - c.length) buf.flatten.length)).fs.files
    (key (join o.path (Storage.schemaName name))) = some (strBytes schema) := i.writing.schemaStored
  have hf0 : (faring w (dying w.fs.fault w.fs.tick (8 - c.length) buf.flatten.length)).fs.fault =
    dying w.fs.fault w.fs.tick (8 - c.length) buf.flatten.length := rfl
  have ht0 : (faring w (dying w.fs.fault w.fs.tick (8 - c.length) buf.flatten.length)).fs.tick = w.fs.tick := rfl
  generalize faring w (dying w.fs.fault w.fs.tick (8 - c.length) buf.flatten.length) = w0 at *
  have hopen : v.handle.isOpen = true := i.writing.isOpen
  have hsz : v.handle.size + buf.flatten.length < 2 ^ 64 := by
    have := i.length; have := i.writing.size; omega
  obtain ⟨data, len, st, sz, ob, nm, sc⟩ := v
  change st = some s at hs
  subst hs
  have hflushErr : ∀ {x w'}, FileSt.writeAll s buf.flatten w0 = (.err x, w') →
      ExtVec.flush p (⟨data, len, some s, sz, ob, nm, sc⟩ : ExtVec file) w0 = (.err x, w') := by
    intro x w' h
    unfold ExtVec.flush
    rw [e1]
    change (Act.lift (sliceRange data 0 buf.flatten.length) >>= _) w0 = _
    rw [e2]
    change ((FileSt.writeAll s buf.flatten >>= _) >>= _) w0 = _
    rw [Act.bind_err (Act.bind_err h)]
  have hflushOk : ∀ {w'}, FileSt.writeAll s buf.flatten w0 = (.ok (), w') →
      ExtVec.flush p (⟨data, len, some s, sz, ob, nm, sc⟩ : ExtVec file) w0 =
        (.ok ⟨List.replicate paddingSize 0#8, len, some s, sz + buf.flatten.length, ob, nm, sc⟩, w') := by
    intro w' h
    unfold ExtVec.flush
    rw [e1]
    change (Act.lift (sliceRange data 0 buf.flatten.length) >>= _) w0 = _
    rw [e2]
    have hw : Handle.write p (⟨some s, sz, ob, nm, sc⟩ : Handle file) buf.flatten w0 =
        (.ok ⟨some s, sz + buf.flatten.length, ob, nm, sc⟩, w') := by
      change (FileSt.writeAll s buf.flatten >>= _) w0 = _
      rw [Act.bind_ok h, uadd_ok (by exact hsz)]
      rfl
    change ((Handle.write p (⟨some s, sz, ob, nm, sc⟩ : Handle file) buf.flatten : Act FileW IoErr (Handle file)) >>= _) w0 = _
    rw [Act.bind_ok hw]
    rfl
  by_cases hbig : 8 - c.length ≤ buf.flatten.length
  · obtain ⟨w', h1, h2, h3⟩ := append_fault a buf.flatten (k := 8 - c.length) (by
      rw [hf0, ht0]; unfold dying; rw [if_neg (Nat.lt_irrefl _), if_pos hbig, if_pos rfl])
    have h4 := hflushErr h1
    refine ⟨c ++ buf.flatten.take (8 - c.length), w', ?_, ?_, by rw [← List.append_assoc]; exact h2, (h3 _ hne).trans hsch⟩
    · unfold ExtVec.close
      rw [Act.bind_ok (Act.attempt_err h4)]
      dsimp only
      unfold ExtVec.drop Handle.drop
      rw [if_pos hopen]
      rfl
    · simp only [List.length_append, List.length_take]; omega
  · obtain ⟨w', h1, a1, h3, h5, h6⟩ := append_fine a buf.flatten (by
      rw [hf0, ht0]; unfold dying; rw [if_neg (Nat.lt_irrefl _), if_neg hbig, if_neg (by omega)])
    have h4 := hflushOk h1
    obtain ⟨w2, g1, g2, g3⟩ := append_fault a1 (List.replicate paddingSize 0#8) (k := 8 - c.length - buf.flatten.length) (by
      rw [h5, hf0, h6, ht0]; unfold dying; rw [if_neg (by omega), if_neg hbig, if_pos rfl])
    refine ⟨c ++ buf.flatten ++ (List.replicate paddingSize 0#8).take (8 - c.length - buf.flatten.length), w2, ?_, ?_, ?_, ?_⟩
    · unfold ExtVec.close
      rw [Act.bind_ok (Act.attempt_ok h4)]
      dsimp only
      have hfin : Handle.finish p e (⟨some s, sz + buf.flatten.length, ob, nm, sc⟩ : Handle file) s w' = (.err .other, w2) := by
        unfold Handle.finish
        exact Act.bind_err g1
      have hcl : Handle.close p e (⟨some s, sz + buf.flatten.length, ob, nm, sc⟩ : Handle file) w' =
          (.ok (.error (.io .other nm), ⟨some s, sz + buf.flatten.length, ob, nm, sc⟩), w2) := by
        unfold Handle.close
        dsimp only
        rw [Act.bind_ok (Act.attempt_err hfin)]
        rfl
      unfold ExtVec.closeHandle
      dsimp only
      rw [Act.bind_ok (Act.mapErr_ok hcl)]
      rfl
    · simp only [List.length_append, List.length_take, List.length_replicate, paddingSize]; omega
    · rw [← List.append_assoc, ← List.append_assoc]; exact g2
    · exact (g3 _ hne).trans ((h3 _ hne).trans hsch)

end CrashExact

open CrashExact

/-- Exactly when a vector may be read as empty after a crash in `close`: if there are at most eight bytes in its file besides the
size. -/
theorem C20_extvec_exact [DiffLib] (p p' : Profile) (e e' : Endian) (S : StructDef) (hs : 0 < S.size) (w0 w w1 : FileW)
    (o o' : Obj) (name schema : String) (v v1 : ExtVec file) (es : List (List HandleOp))
    (hu : Kind.Unused .disk w0 o name) (hm : Kind.mappable .disk (strBytes schema))
    (hc : createExternalVector (B := file) p e o name schema w0 = (.ok v, w)) (g : Grows .disk p e S o name w v es w1 v1)
    (hb : es.length * S.size + 8 < 2 ^ 63) (ho : o'.path = o.path) :
    MayBecomeEmpty p p' e e' name schema v1 w1 o' ↔ ∃ d, Kind.stored .disk w1 o name = some d ∧ d.length ≤ 16 := by
  obtain ⟨i, u, _⟩ := created_inv (k := .disk) S.size hu hc
  obtain ⟨pre, buf, c, i1, el, u1, _, _⟩ := grows_inv (k := .disk) i u hs g hb
  obtain ⟨s, _, a⟩ := i1.writing.stream
  have hst : w1.fs.files (key (join o.path name)) = some (le64 0 ++ c) := a.medium
  have hl : ∀ n, key (join o'.path n) = key (join o.path n) := fun n => by rw [ho]
  constructor
  · rintro ⟨f, _, w3, w4, sl, hp, _, hr, hd⟩
    refine ⟨_, hst, ?_⟩
    have h1 : Long (key (join o.path name)) (le64 0 ++ c).length (faring w1 f) := ⟨_, hst, Nat.le_refl _⟩
    obtain ⟨d, h2, h3⟩ := long_close _ _ p e v1 _ h1
    have hcache : ∀ n, fileLaws.cache w3 o' n = none := by
      intro n; change Option.map _ (w3.maps _ _) = none; rw [hp.initial.1]; rfl
    obtain ⟨d', x, k1, _, hx, k3⟩ := read_ok_inv (L := fileLaws) (Kind.loc_schema_ne .disk o' name) (hcache _) (hcache _) hr
    rw [hd] at k3
    cases k3
    have k1' : w3.fs.files (key (join o'.path name)) = some d' := k1
    rw [hl, hp.files, h2] at k1'
    cases k1'
    have := hx.length
    simp only [List.length_nil] at this
    omega
  · rintro ⟨d, h1, h2⟩
    have hd : d = le64 0 ++ c := by
      have : w1.fs.files (key (join o.path name)) = some d := h1
      rw [hst] at this; exact (Option.some.inj this).symm
    have hc8 : c.length ≤ 8 := by rw [hd, List.length_append, length_le64] at h2; omega
    obtain ⟨b, w2, k1, hb8, k2, k3⟩ := dies_at_16 i1 p e hc8 (by rw [← el.length_eq]; omega)
    let w3 : FileW := ⟨⟨w2.fs.files, w2.fs.isDir, fun _ => ([], 0), 0, fun _ => none, 0⟩, fun _ _ => none, 1⟩
    have hsn : strBytes schema ≠ [] := hm
    have hh : Holds (le64 0 ++ b) [] := by
      refine ⟨?_, rfl, ?_⟩
      · rw [take8_le64, leNat_le64 (by decide)]; rfl
      · rw [List.length_append, length_le64, hb8]; rfl
    obtain ⟨sl, w4, h4, d4⟩ := read_new_ok (L := fileLaws) p' e' (o := o') (name := name) (schema := schema) (w := w3)
      (Kind.loc_schema_ne .disk o' name) (fun _ _ => rfl) (show w2.fs.files (key (join o'.path name)) = _ by rw [hl]; exact k2)
      (show w2.fs.files (key (join o'.path (Storage.schemaName name))) = _ by rw [hl]; exact k3) hh (by decide) hsn rfl rfl
    refine ⟨dying w1.fs.fault w1.fs.tick (8 - c.length) buf.flatten.length, fun t ht => ?_, w3, w4, sl, ?_, fun _ _ => rfl, h4, d4⟩
    · unfold dying; rw [if_pos ht]
    · exact ⟨by rw [k1], fun _ _ => rfl, rfl⟩

/-- In particular every vector of up to 32 MiB (with padding) is in danger, although nothing has failed so far. -/
theorem C20_extvec_small [DiffLib] (p p' : Profile) (e e' : Endian) (S : StructDef) (hs : 0 < S.size) (w0 w w1 : FileW)
    (o o' : Obj) (name schema : String) (v v1 : ExtVec file) (es : List (List HandleOp))
    (hu : Kind.Unused .disk w0 o name) (hn : Kind.noFault .disk w0) (hm : Kind.mappable .disk (strBytes schema))
    (hc : createExternalVector (B := file) p e o name schema w0 = (.ok v, w)) (g : Grows .disk p e S o name w v es w1 v1)
    (hb : es.length * S.size + 8 ≤ 32 * 1024 * 1024) (ho : o'.path = o.path) :
    MayBecomeEmpty p p' e e' name schema v1 w1 o' := by
  refine (C20_extvec_exact p p' e e' S hs w0 w w1 o o' name schema v v1 es hu hm hc g (by omega) ho).mpr ?_
  obtain ⟨i, u, n⟩ := created_inv (k := .disk) S.size hu hc
  obtain ⟨pre, buf, c, i1, el, u1, nf, fl⟩ := grows_inv (k := .disk) i u hs g (by omega)
  obtain ⟨s, _, a⟩ := i1.writing.stream
  have hpre : pre = [] := by
    rcases fl with h | h
    · exact h
    · have h1 := i1.length
      rw [← el.length_eq] at h1
      unfold bufferLimit at h
      omega
  have hc0 : c = [] := by rw [(nf (n hn)).2, hpre]; rfl
  exact ⟨le64 0 ++ c, a.medium, by rw [hc0, List.length_append, length_le64]; decide⟩

/-- A vector that has been flushed is out of danger: whatever fails from now on, it is not read as empty. -/
theorem C20_extvec_flushed [DiffLib] (p p' : Profile) (e e' : Endian) (S : StructDef) (hs : 0 < S.size) (w0 w w1 : FileW)
    (o o' : Obj) (name schema : String) (v v1 : ExtVec file) (es : List (List HandleOp)) (d : Bytes)
    (hu : Kind.Unused .disk w0 o name) (hm : Kind.mappable .disk (strBytes schema))
    (hc : createExternalVector (B := file) p e o name schema w0 = (.ok v, w)) (g : Grows .disk p e S o name w v es w1 v1)
    (hb : es.length * S.size + 8 < 2 ^ 63) (ho : o'.path = o.path) (hd : Kind.stored .disk w1 o name = some d) (hl : 16 < d.length) :
    ¬ MayBecomeEmpty p p' e e' name schema v1 w1 o' := by
  intro h
  obtain ⟨d', h1, h2⟩ := (C20_extvec_exact p p' e e' S hs w0 w w1 o o' name schema v v1 es hu hm hc g hb ho).mp h
  rw [hd] at h1; cases h1; omega

/-- Two elements written to disk, nothing fails before `close`. -/
example [DiffLib] : ∃ v w v1 w1, createExternalVector (B := file) .debug .little objD "x" "s" (disk0 []) = (.ok v, w) ∧
    Grows .disk .debug .little S objD "x" w v es w1 v1 ∧ MayBecomeEmpty .debug .release .little .big "x" "s" v1 w1 objD := by
  obtain ⟨v, w, v1, w1, hc, g⟩ := VecExample.run_disk
  exact ⟨v, w, v1, w1, hc, g, C20_extvec_small .debug .release .little .big S (by decide) (disk0 []) w w1 objD objD "x" "s" v v1 es
    (unused_disk0 ..) (disk0_noFault _) (by change strBytes "s" ≠ []; decide) hc g (by decide) rfl⟩

end Flatdata
