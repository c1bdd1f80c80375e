import Verif.Proofs.ProgramRun
/-!
# Room on disk: states in which the files of an archive can be created

`F` are the files to be created, `G` the directories they go to.
-/
namespace Flatdata
open Spec

/-! ## code that succeeds -/

/-- From a state satisfying `P`, code succeeds, with `Q` of its value and the state. -/
def Act.Does {W E α : Type} (P : W → Prop) (x : Act W E α) (Q : α → W → Prop) : Prop :=
  ∀ w, P w → ∃ a w', x w = (.ok a, w') ∧ Q a w'

namespace Act.Does
variable {W E E' α β : Type} {P : W → Prop} {Q : α → W → Prop}

theorem bind {x : Act W E α} {f : α → Act W E β} {R : β → W → Prop} (hx : Act.Does P x Q) (hf : ∀ a, Act.Does (Q a) (f a) R) :
    Act.Does P (x >>= f) R := by
  intro w hw
  obtain ⟨a, w1, h1, q1⟩ := hx w hw
  obtain ⟨b, w2, h2, q2⟩ := hf a w1 q1
  exact ⟨b, w2, by rw [Act.bind_ok h1]; exact h2, q2⟩

theorem pure (a : α) (h : ∀ w, P w → Q a w) : Act.Does P (Pure.pure a : Act W E α) Q := fun w hw => ⟨a, w, rfl, h w hw⟩

theorem mapErr {x : Act W E α} {f : E → E'} (hx : Act.Does P x Q) : Act.Does P (x.mapErr f) Q := by
  intro w hw
  obtain ⟨a, w1, h1, q1⟩ := hx w hw
  exact ⟨a, w1, FileSt.mapErr_ok h1, q1⟩

theorem attempt {x : Act W E α} (hx : Act.Does P x Q) :
    Act.Does P (x.attempt : Act W E' (Except E α)) (fun r w => ∃ a, r = .ok a ∧ Q a w) := by
  intro w hw
  obtain ⟨a, w1, h1, q1⟩ := hx w hw
  exact ⟨_, w1, Act.attempt_ok h1, a, rfl, q1⟩

theorem mono {x : Act W E α} {P' : W → Prop} {Q' : α → W → Prop} (hx : Act.Does P x Q) (hp : ∀ w, P' w → P w)
    (hq : ∀ a w, Q a w → Q' a w) : Act.Does P' x Q' := by
  intro w hw
  obtain ⟨a, w1, h1, q1⟩ := hx w (hp w hw)
  exact ⟨a, w1, h1, hq a w1 q1⟩

end Act.Does

/-! ## room -/

/-- No file is in the way of a directory, no directory in the way of a file. -/
structure DiskRoom (F G : Key → Prop) (w : FileW) : Prop where
  noDir : ∀ f, F f → w.fs.isDir f = false
  noFile : ∀ d, G d → ∀ i, w.fs.files (d.take i) = none
  noFault : FileSt.NoFault w

theorem DiskRoom.quiet {F G : Key → Prop} {w w' : FileW} (h : DiskRoom F G w) (q : FileSt.Quiet w w') (hd : w'.fs.isDir = w.fs.isDir) :
    DiskRoom F G w' :=
  ⟨fun f hf => by rw [hd]; exact h.noDir f hf, fun d hd' i => by rw [q.files]; exact h.noFile d hd' i, q.noFault h.noFault⟩

namespace Spec.Kind

/-- There is room, and no call fails. -/
def Room : (k : Kind) → (F G : Key → Prop) → k.backend.W → Prop
  | .memory, _, _, _ => True
  | .disk, F, G, w => DiskRoom F G w

/-- The directory of a storage object. -/
def base : (k : Kind) → k.backend.Obj → Key
  | .memory, o => key (o : Obj).path
  | .disk, o => key (o : Obj).path

/-- The places of the files in `F` that are in the directory of `o`. -/
def Spot : (k : Kind) → (F : Key → Prop) → k.backend.Obj → k.Place → Prop
  | .memory, _, _, _ => True
  | .disk, F, o, l => F l ∧ ∃ x, (l : Key) = key (o : Obj).path ++ [x]

theorem spot_place {k : Kind} {F : Key → Prop} {o : k.backend.Obj} {n : String} (hn : PlainName n) (h : F (k.base o ++ [n.toList])) :
    k.Spot F o (k.place o n) := by
  cases k
  · trivial
  · have : Kind.place .disk o n = key (Obj.path o) ++ [n.toList] := key_join_plain _ hn
    refine ⟨?_, ⟨_, this⟩⟩
    rw [this]; exact h

end Spec.Kind

theorem disk_create {F G : Key → Prop} (ap : ∀ f d, F f → G d → ¬ f <+: d) {o : Obj} {n : String} {w : FileW} (hg : G (key o.path))
    (h : DiskRoom F G w) (hs : Kind.Spot .disk F o (key (join o.path n))) :
    ∃ s w', FileSt.createOutputStream o n w = (.ok s, w') ∧ DiskRoom F G w' := by
  obtain ⟨hf, x, hx⟩ := hs
  have fin : ∀ w1, DiskRoom F G w1 → FileSt.dirOK w1.fs (key o.path) = true →
      ∃ s w', FileSt.fileCreate (join o.path n) w1 = (.ok s, w') ∧ DiskRoom F G w' := by
    intro w1 g1 hd
    have hcc : FileSt.canCreate w1.fs (key (join o.path n)) = true := by
      have h1 : FileSt.dirOK w1.fs (key (join o.path n)) = false := by
        unfold FileSt.dirOK; rw [g1.noDir _ hf, hx]; simp
      unfold FileSt.canCreate
      rw [h1, hx, List.dropLast_concat, hd]; simp
    rcases FileSt.fileCreate_spec (join o.path n) w1 with ⟨_, h⟩ | ⟨x, _, h⟩ | ⟨x, _, _, h⟩
    · refine ⟨_, _, h, g1.noDir, fun d hd i => ?_, (FileSt.tk_quiet w1).noFault g1.noFault⟩
      change upd w1.fs.files _ _ _ = none
      rw [upd_other _ _ ?_]
      · exact g1.noFile d hd i
      · intro he
        exact ap _ d hf hd (he ▸ List.take_prefix _ _)
    · rw [h g1.noFault] at hcc; cases hcc
    · exact absurd g1.noFault h
  obtain ⟨b, w1, h1, q1, d1, hb, hb'⟩ := FileSt.pathExists_spec o.path w
  have g1 := h.quiet q1 d1
  unfold FileSt.createOutputStream
  rw [Act.bind_ok (FileSt.mapErr_ok h1)]
  cases b with
  | true =>
    simp only [Bool.not_true, Bool.false_eq_true, if_false]
    refine fin w1 g1 ?_
    have h0 := h.noFile _ hg (key o.path).length
    rw [List.take_length] at h0
    have := hb' rfl
    rw [h0] at this
    unfold FileSt.dirOK at this ⊢
    rw [d1]; simpa using this
  | false =>
    simp only [Bool.not_false, if_true]
    rcases FileSt.createDirAll_spec o.path w1 with ⟨w2, h2, q2, d2⟩ | ⟨x, w2, h2, q2, hbl, _⟩
    · rw [Act.bind_ok h2]
      refine fin w2 ⟨fun f hf => ?_, fun d hd i => ?_, q2.noFault g1.noFault⟩ ?_
      · rw [d2, g1.noDir f hf, Bool.false_or, Bool.eq_false_iff]
        intro hp
        exact ap f _ hf hg (List.isPrefixOf_iff_prefix.mp hp)
      · rw [q2.files]; exact g1.noFile d hd i
      · unfold FileSt.dirOK
        rw [d2]
        have : (key o.path).isPrefixOf (key o.path) = true := List.isPrefixOf_iff_prefix.mpr (List.prefix_refl _)
        rw [this]; simp
    · have := hbl g1.noFault
      unfold FileSt.blocked at this
      rw [List.any_eq_true] at this
      obtain ⟨i, _, hi⟩ := this
      rw [g1.noFile _ hg i] at hi; cases hi

theorem disk_write {F G : Key → Prop} (ap : ∀ f d, F f → G d → ¬ f <+: d) {s : Nat} {b : Bytes} {w : FileW} (h : DiskRoom F G w)
    (hs : F (w.fs.fds s).1) : ∃ w', FileSt.writeAll s b w = (.ok (), w') ∧ DiskRoom F G w' := by
  rcases FileSt.writeAll_spec s b w with h1 | ⟨x, k, h1, nf⟩
  · refine ⟨_, h1, h.noDir, fun d hd i => ?_, (FileSt.tk_quiet w).noFault h.noFault⟩
    change upd w.fs.files (w.fs.fds s).1 _ _ = none
    rw [upd_other _ _ ?_]
    · exact h.noFile d hd i
    · intro he
      exact ap _ d hs hd (he ▸ List.take_prefix _ _)
  · exact absurd h.noFault nf

namespace Spec.Kind
variable {k : Kind} {F G : Key → Prop} {o : k.backend.Obj}

/-- The calls of a storage object whose directory is in `G` leave room. -/
theorem closed_room (ap : ∀ f d, F f → G d → ¬ f <+: d) (hg : G (k.base o)) : Closed k o (k.Spot F o) (k.Room F G) := by
  cases k
  · exact ⟨fun _ => trivial, fun _ _ _ => trivial, fun _ _ _ => trivial, fun _ _ _ => trivial, fun _ _ _ => trivial⟩
  · refine ⟨?_, ?_, ?_, ?_, ?_⟩
    · intro w n h
      obtain ⟨b, w1, h1, q1, d1, _⟩ := FileSt.pathExists_spec (join (o : Obj).path n) w
      change DiskRoom F G (FileSt.pathExists _ w).2
      rw [h1]; exact DiskRoom.quiet h q1 d1
    · intro w n h _ _
      change DiskRoom F G (FileSt.readResource o n w).2
      rcases FileSt.read_spec o n w with ⟨_, _, w1, _, q, d, h2⟩ | ⟨_, w1, _, _, _, q, d, h2⟩ | ⟨_, w1, q, d, h2, _⟩ <;> rw [h2]
      · exact DiskRoom.quiet h q d
      · exact ⟨(DiskRoom.quiet h q d).noDir, (DiskRoom.quiet h q d).noFile, (DiskRoom.quiet h q d).noFault⟩
      · exact DiskRoom.quiet h q d
    · intro w n h _ hs
      obtain ⟨s, w', h1, h2⟩ := disk_create (o := o) ap hg h hs
      change DiskRoom F G (FileSt.createOutputStream o n w).2
      rw [h1]; exact h2
    · intro w s b h _ hs
      obtain ⟨w', h1, h2⟩ := disk_write (b := b) ap h hs.1
      change DiskRoom F G (FileSt.writeAll s b w).2
      rw [h1]; exact h2
    · intro w s h _ _
      change DiskRoom F G (FileSt.seekStart s w).2
      rcases FileSt.seekStart_spec s w with h1 | ⟨_, _, nf⟩
      · have h' : DiskRoom F G w := h
        rw [h1]; exact ⟨h'.noDir, h'.noFile, (FileSt.tk_quiet w).noFault h'.noFault⟩
      · exact absurd (DiskRoom.noFault h) nf

theorem Room.fine {w : k.backend.W} (h : k.Room F G w) : k.noFault w := by
  cases k
  · trivial
  · exact DiskRoom.noFault h

theorem Room.subdir {w w' : k.backend.W} {d : String} {r} (h : k.Room F G w) (hs : k.backend.subdir o d w = (r, w')) : k.Room F G w' := by
  cases k
  · trivial
  · have h' : DiskRoom F G w := h
    cases hs
    exact ⟨h'.noDir, h'.noFile, h'.noFault⟩

theorem base_subdir {w w' : k.backend.W} {d : String} {o' : k.backend.Obj} (hd : PlainName d) (hs : k.backend.subdir o d w = (.ok o', w')) :
    k.base o' = k.base o ++ [d.toList] := by
  cases k
  · cases hs; exact key_join_plain _ hd
  · cases hs; exact key_join_plain _ hd

section
variable (ap : ∀ f d, F f → G d → ¬ f <+: d) (hg : G (k.base o))
include ap hg

theorem does_create {n : String} (hn : k.Spot F o (k.place o n)) :
    Act.Does (Within k o (k.Room F G)) (k.backend.createOutputStream o n) (fun s => WithinS k o (k.Spot F o) (k.Room F G) s) := by
  intro w h
  have c := closed_room (o := o) ap hg
  have ht := within_create hn w h
  have : ∃ s, (k.backend.createOutputStream o n w).1 = .ok s := by
    cases k
    · change ∃ s, (MemSt.createOutputStream o n w).1 = .ok s
      rcases MemSt.create_cases o n w with ⟨_, _, h⟩ | ⟨_, h⟩ <;> rw [h] <;> exact ⟨_, rfl⟩
    · obtain ⟨s, w', h1, _⟩ := disk_create (o := o) ap hg h.1 hn
      change ∃ s, (FileSt.createOutputStream o n w).1 = .ok s
      rw [h1]; exact ⟨s, rfl⟩
  obtain ⟨s, hs⟩ := this
  exact ⟨s, (k.backend.createOutputStream o n w).2, by rw [← hs], ht.2 s hs⟩

theorem does_write {s : k.backend.Strm} {b : Bytes} : Act.Does (WithinS k o (k.Spot F o) (k.Room F G) s) (k.backend.writeAll s b)
    (fun _ => WithinS k o (k.Spot F o) (k.Room F G) s) := by
  intro w h
  have c := closed_room (o := o) ap hg
  have ht := within_write (N := k.Spot F o) (b := b) w h
  have : (k.backend.writeAll s b w).1 = .ok () := by
    cases k
    · have hs : (w : MemW).streams s ≠ none := h.2.1
      change (MemSt.writeAll s b w).1 = .ok ()
      cases hm : (w : MemW).streams s with
      | none => exact absurd hm hs
      | some x => rw [MemSt.writeAll_eq b hm]
    · obtain ⟨w', h1, _⟩ := disk_write (b := b) ap h.1.1 h.2.2.1
      change (FileSt.writeAll s b w).1 = .ok ()
      rw [h1]
  exact ⟨(), (k.backend.writeAll s b w).2, by rw [← this], ht⟩

variable {p : Profile} {e : Endian} {name schema : String}

theorem does_writeSize {s : k.backend.Strm} {n : Nat} (hn : n < 2 ^ 64) :
    Act.Does (WithinS k o (k.Spot F o) (k.Room F G) s) (Storage.writeSize k.backend p e n s)
      (fun _ => WithinS k o (k.Spot F o) (k.Room F G) s) := by
  intro w h
  rw [writeSize_eq p e s hn]
  exact does_write ap hg w h

theorem does_storageWrite {d : Bytes} (hd : d.length < 2 ^ 64) (h1 : k.Spot F o (k.place o name))
    (h2 : k.Spot F o (k.place o (Storage.schemaName name))) :
    Act.Does (Within k o (k.Room F G)) (Storage.write k.backend p e o name schema d) (fun _ => Within k o (k.Room F G)) :=
  .bind (does_create ap hg h1) fun _ =>
  .bind (.bind (does_writeSize ap hg hd) fun _ => .bind (does_write ap hg) fun _ => does_write ap hg) fun _ =>
  .bind ((does_create ap hg h2).mono (fun _ h => h.1) fun _ _ h => h) fun _ =>
  (does_write ap hg).mono (fun _ h => h) fun _ _ h => h.1

theorem does_createExternalVector (h1 : k.Spot F o (k.place o name)) (h2 : k.Spot F o (k.place o (Storage.schemaName name))) :
    Act.Does (Within k o (k.Room F G)) (createExternalVector (B := k.backend) p e o name schema) (fun _ => Within k o (k.Room F G)) :=
  .bind (does_create ap hg h2) fun _ => .bind (does_write ap hg) fun _ =>
  .bind ((does_create ap hg h1).mono (fun _ h => h.1) fun _ _ h => h) fun _ =>
  .bind (Q := fun _ => Within k o (k.Room F G))
    (.bind (does_writeSize ap hg (by decide)) fun _ => .pure _ fun _ h => h.1) fun _ => .pure _ fun _ h => h

theorem does_createMultiVector (h1 : k.Spot F o (k.place o name)) (h2 : k.Spot F o (k.place o (Storage.schemaName name)))
    (h3 : k.Spot F o (k.place o (Storage.indexName name)))
    (h4 : k.Spot F o (k.place o (Storage.schemaName (Storage.indexName name)))) :
    Act.Does (Within k o (k.Room F G)) (createMultiVector (B := k.backend) p e o name schema) (fun _ => Within k o (k.Room F G)) := by
  refine .bind (does_createExternalVector ap hg h3 h4) fun index => ?_
  have hd : Act.Does (Within k o (k.Room F G)) (createDataHandle (B := k.backend) p e o name schema) (fun _ => Within k o (k.Room F G)) :=
    .bind (does_create ap hg h2) fun _ => .bind (does_write ap hg) fun _ =>
    .bind ((does_create ap hg h1).mono (fun _ h => h.1) fun _ _ h => h) fun _ =>
    .bind (does_writeSize ap hg (by decide)) fun _ => .pure _ fun _ h => h.1
  refine .bind hd.attempt fun r => ?_
  rintro w ⟨a, rfl, h⟩
  exact ⟨_, w, rfl, h⟩

/-- The builder of an archive can be created. -/
theorem does_builderNew {D : ArchiveDef} {w : k.backend.W} (hr : Within k o (k.Room F G) w)
    (hp : PlainName (D.name ++ ".archive")) (h1 : F (k.base o ++ [(D.name ++ ".archive").toList]))
    (hp' : PlainName (D.name ++ ".archive" ++ ".schema")) (h2 : F (k.base o ++ [(D.name ++ ".archive" ++ ".schema").toList]))
    (hn : k.stored w o (D.name ++ ".archive") = none) (hu : k.unread w o (D.name ++ ".archive")) :
    ∃ w', builderNew k.backend p e o D w = (.ok o, w') ∧ Within k o (k.Room F G) w' := by
  have c := closed_room (o := o) ap hg
  have e1 : ∃ w1, k.backend.existsRes o (D.name ++ ".archive") w = (.ok false, w1) := by
    cases k
    · have hn' : (w : MemW).streams (MemSt.loc o (D.name ++ ".archive")) = none := Option.map_eq_none_iff.mp hn
      have hu' : (w : MemW).resources (MemSt.loc o (D.name ++ ".archive")) = none := hu
      refine ⟨w, ?_⟩
      change MemSt.existsRes o (D.name ++ ".archive") w = _
      unfold MemSt.existsRes
      rw [hn', hu']; rfl
    · obtain ⟨b, w', e1, q, hd, hb, _⟩ := FileSt.pathExists_spec (join (o : Obj).path (D.name ++ ".archive")) w
      refine ⟨w', ?_⟩
      change FileSt.pathExists (join (o : Obj).path (D.name ++ ".archive")) w = _
      have hn' : (w : FileW).fs.files (key (join (o : Obj).path (D.name ++ ".archive"))) = none := hn
      rw [e1, hb (DiskRoom.noFault hr.1), hn', key_join_plain _ hp]
      have : FileSt.dirOK (w : FileW).fs (key (o : Obj).path ++ [(D.name ++ ".archive").toList]) = false := by
        have h3 := DiskRoom.noDir hr.1 _ h1
        unfold FileSt.dirOK
        change FS.isDir _ (key (o : Obj).path ++ [(D.name ++ ".archive").toList]) = false at h3
        rw [h3]; simp
      rw [this]; simp
  obtain ⟨w1, e1⟩ := e1
  have r1 : Within k o (k.Room F G) w1 := by
    have := within_exists (N := k.Spot F o) (n := D.name ++ ".archive") w hr
    rw [e1] at this; exact this
  obtain ⟨_, w2, e2, r2⟩ := does_storageWrite (p := p) (e := e) (schema := D.schema) (d := []) ap hg (by decide) (spot_place hp h1) (spot_place hp' h2) w1 r1
  refine ⟨w2, ?_, r2⟩
  have : Storage.createArchive k.backend p e o D.signature D.schema w = (.ok (), w2) := by
    change Storage.createArchive k.backend p e o (D.name ++ ".archive") D.schema w = (.ok (), w2)
    unfold Storage.createArchive
    rw [Act.bind_ok (FileSt.mapErr_ok e1)]
    exact FileSt.mapErr_ok e2
  unfold builderNew
  rw [Act.bind_ok this]; rfl

end

end Spec.Kind

end Flatdata
