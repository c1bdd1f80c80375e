import Verif.Proofs.MGrows
/-!
# The vectors stay at the places that are theirs

`N` are places, `I` an invariant that is kept by calls at these places (`Closed`).
-/
namespace Flatdata
open Spec

/-- From a state satisfying `I`, code ends in a state satisfying `I`, and its value satisfies `Q` if it succeeds. -/
def Act.Keep {W E α : Type} (I : W → Prop) (x : Act W E α) (Q : α → Prop) : Prop :=
  ∀ w, I w → I (x w).2 ∧ ∀ a, (x w).1 = .ok a → Q a

namespace Act.Keep
variable {W E E' α β : Type} {I : W → Prop} {Q : α → Prop}

theorem bind {x : Act W E α} {f : α → Act W E β} {Q' : β → Prop} (hx : Act.Keep I x Q) (hf : ∀ a, Q a → Act.Keep I (f a) Q') :
    Act.Keep I (x >>= f) Q' := by
  intro w hw
  have h1 := hx w hw
  rw [Act.bind_def]
  split
  · rename_i heq; rw [heq] at h1; exact hf _ (h1.2 _ rfl) _ h1.1
  · rename_i heq; rw [heq] at h1; exact ⟨h1.1, fun _ h => by cases h⟩
  · rename_i heq; rw [heq] at h1; exact ⟨h1.1, fun _ h => by cases h⟩
  · rename_i heq; rw [heq] at h1; exact ⟨h1.1, fun _ h => by cases h⟩

theorem pure {a : α} (h : Q a) : Act.Keep I (Pure.pure a : Act W E α) Q := fun _ hw => ⟨hw, fun b hb => by cases hb; exact h⟩

theorem fail (e : E) : Act.Keep I (Act.fail e : Act W E α) Q := fun _ hw => ⟨hw, fun b hb => by cases hb⟩

theorem of_pres {x : Act W E α} (h : Act.Pres I x) : Act.Keep I x (fun _ => True) := fun w hw => ⟨h w hw, fun _ _ => trivial⟩

theorem lift (x : Out α) : Act.Keep I (Act.lift x : Act W E α) (fun _ => True) := of_pres (.lift x)

theorem mono {x : Act W E α} {Q' : α → Prop} (h : Act.Keep I x Q) (hQ : ∀ a, Q a → Q' a) : Act.Keep I x Q' :=
  fun w hw => ⟨(h w hw).1, fun a ha => hQ a ((h w hw).2 a ha)⟩

theorem pres {x : Act W E α} (h : Act.Keep I x Q) : Act.Pres I x := fun w hw => (h w hw).1

theorem mapErr {x : Act W E α} {f : E → E'} (hx : Act.Keep I x Q) : Act.Keep I (x.mapErr f) Q := by
  intro w hw
  have h1 := hx w hw
  unfold Act.mapErr
  split <;> (rename_i heq; rw [heq] at h1; refine ⟨h1.1, fun a ha => ?_⟩) <;> cases ha
  exact h1.2 _ rfl

theorem attempt {x : Act W E α} (hx : Act.Keep I x Q) :
    Act.Keep I (x.attempt : Act W E' (Except E α)) (fun r => ∀ a, r = .ok a → Q a) := by
  intro w hw
  have h1 := hx w hw
  unfold Act.attempt
  split <;> (rename_i heq; rw [heq] at h1; refine ⟨h1.1, fun a ha => ?_⟩) <;> cases ha
  · exact fun a ha => by cases ha; exact h1.2 _ rfl
  · exact fun a ha => by cases ha

theorem foldlM {l : List β} {f : α → β → Act W E α} (h : ∀ a b, Q a → Act.Keep I (f a b) Q) :
    ∀ {a}, Q a → Act.Keep I (l.foldlM f a) Q := by
  induction l with
  | nil => intro a ha; exact pure ha
  | cons b l ih =>
    intro a ha
    rw [List.foldlM_cons]
    exact bind (h a b ha) fun a' ha' => ih ha'

end Act.Keep

namespace Spec.Kind
variable {k : Kind} {o : k.backend.Obj} {N : k.Place → Prop} {I : k.backend.W → Prop} {T : k.backend.Strm → Prop}

/-- The invariant holds; the object exists; the streams in `T` are open and write to places in `N`. -/
def WithinT (k : Kind) (o : k.backend.Obj) (N : k.Place → Prop) (I : k.backend.W → Prop) (T : k.backend.Strm → Prop) (w : k.backend.W) : Prop :=
  Within k o I w ∧ ∀ s, T s → k.streamOpen w s ∧ N (k.target w s)

theorem WithinT.move {w w' : k.backend.W} (h : WithinT k o N I T w) (hi : I w') (st : Step k w w')
    (hk : ∀ s, k.laws.live w s → k.laws.live w' s ∧ k.laws.sloc w' s = k.laws.sloc w s) : WithinT k o N I T w' := by
  refine ⟨⟨hi, st.alive h.1.2⟩, fun s hs => ?_⟩
  obtain ⟨h1, h2⟩ := h.2 s hs
  obtain ⟨h3, h4⟩ := hk s (open_live.mp h1)
  exact ⟨open_live.mpr h3, by rw [target_congr h4]; exact h2⟩

theorem WithinT.weaken {T' : k.backend.Strm → Prop} {w : k.backend.W} (h : WithinT k o N I T w) (ht : ∀ s, T' s → T s) :
    WithinT k o N I T' w := ⟨h.1, fun s hs => h.2 s (ht s hs)⟩

variable [c : Closed k o N I]

theorem withinT_read {n : String} (hp : N (k.place o n)) : Act.Pres (WithinT k o N I T) (k.backend.readResource o n) :=
  fun _ h => h.move (c.read h.1.1 h.1.2 hp) (.read h.1.2 rfl)
    fun s hs => ⟨((k.laws.read_keeps rfl).2.1 s hs).1, ((k.laws.read_keeps rfl).2.1 s hs).2.1⟩

theorem withinT_write {s : k.backend.Strm} {b : Bytes} (hs : T s) : Act.Pres (WithinT k o N I T) (k.backend.writeAll s b) := by
  intro w h
  obtain ⟨h1, h2⟩ := h.2 s hs
  have hk := (k.laws.write_keeps (open_live.mp h1) (r := (k.backend.writeAll s b w).1) (w' := (k.backend.writeAll s b w).2) rfl).2.1
  exact h.move (c.write h.1.1 h1 h2) (.write rfl) fun s hs => ⟨(hk s hs).1, (hk s hs).2.1⟩

theorem withinT_seek {s : k.backend.Strm} (hs : T s) : Act.Pres (WithinT k o N I T) (k.backend.seekStart s) := by
  intro w h
  obtain ⟨h1, h2⟩ := h.2 s hs
  have hk := (k.laws.seek_keeps (open_live.mp h1) (r := (k.backend.seekStart s w).1) (w' := (k.backend.seekStart s w).2) rfl).2.1
  exact h.move (c.seek h.1.1 h1 h2) (.seek rfl) fun s hs => ⟨(hk s hs).1, (hk s hs).2.1⟩

theorem withinT_create {n : String} (hp : N (k.place o n)) :
    Act.Tri (WithinT k o N I T) (WithinT k o N I T) (k.backend.createOutputStream o n)
      (fun s => WithinT k o N I (fun t => T t ∨ t = s)) := by
  intro w h
  have hm := h.move (w' := (k.backend.createOutputStream o n w).2) (c.create h.1.1 h.1.2 hp) (.create h.1.2 rfl)
    fun s hs => ⟨((k.laws.create_keeps rfl).2.1 s hs).1, ((k.laws.create_keeps rfl).2.1 s hs).2.1⟩
  refine ⟨hm, fun s hs => ⟨hm.1, ?_⟩⟩
  rintro t (ht | rfl)
  · exact hm.2 t ht
  · have hc : k.backend.createOutputStream o n w = (.ok t, (k.backend.createOutputStream o n w).2) := by rw [← hs]
    obtain ⟨h1, h2, _⟩ := k.laws.create_ok hc
    refine ⟨open_live.mpr h1, ?_⟩
    have : k.target (k.backend.createOutputStream o n w).2 t = k.place o n := by cases k <;> exact h2
    rw [this]; exact hp

theorem withinT_writeSize {p e n s} (hs : T s) : Act.Pres (WithinT k o N I T) (Storage.writeSize k.backend p e n s) :=
  .bind (.lift _) fun _ => withinT_write hs

theorem withinT_storageRead [DiffLib] {p e name expected} (h1 : N (k.place o name))
    (h2 : N (k.place o (Storage.schemaName name))) :
    Act.Pres (WithinT k o N I T) (Storage.read k.backend p e o name expected) :=
  .bind (.mapErr (withinT_read h1)) fun _ => .bind (.mapErr (withinT_read h2)) fun _ => pres_checkResource'

/-- The handle belongs to a resource of the object whose places are in `N`; its stream is in `T`. -/
structure Inside (k : Kind) (o : k.backend.Obj) (N : k.Place → Prop) (T : k.backend.Strm → Prop) (h : Handle k.backend) : Prop where
  obj : h.obj = o
  data : N (k.place o h.name)
  schema : N (k.place o (Storage.schemaName h.name))
  stream : ∀ s, h.stream = some s → T s

theorem keep_handleWrite {p d} {h : Handle k.backend} (ho : Inside k o N T h) :
    Act.Keep (WithinT k o N I T) (h.write p d) (Inside k o N T) := by
  unfold Handle.write
  cases hs : h.stream with
  | none => exact .fail _
  | some s =>
    refine .bind (.of_pres (withinT_write (ho.stream s hs))) fun _ _ => .bind (.lift _) fun n _ => .pure ?_
    exact ⟨ho.obj, ho.data, ho.schema, fun t ht => ho.stream t (hs.trans ht)⟩

theorem keep_finish {p e h s} (hs : T s) : Act.Pres (WithinT k o N I T) (Handle.finish (B := k.backend) p e h s) :=
  .bind (withinT_write hs) fun _ => .bind (withinT_seek hs) fun _ => withinT_writeSize hs

theorem keep_handleClose [DiffLib] {p e} {h : Handle k.backend} (ho : Inside k o N T h) :
    Act.Keep (WithinT k o N I T) (h.close p e) (fun r => Inside k o N T r.2) := by
  unfold Handle.close
  cases hs : h.stream with
  | none => exact .pure ho
  | some s =>
    refine .bind (Act.Keep.of_pres (keep_finish (ho.stream s hs))).attempt fun r _ => ?_
    cases r with
    | error x => exact .pure ho
    | ok u =>
      rw [ho.obj]
      refine .bind (.of_pres (.attempt (withinT_storageRead ho.data ho.schema))) fun r _ => .pure ?_
      exact ⟨rfl, ho.data, ho.schema, fun s hs => by cases hs⟩

theorem keep_drop {E : Type} {h : Handle k.backend} {I : k.backend.W → Prop} : Act.Pres I (Handle.drop h : Act k.backend.W E Unit) := by
  unfold Handle.drop
  split
  · exact .lift _
  · exact .pure _

theorem keep_flush {p} {v : ExtVec k.backend} (ho : Inside k o N T v.handle) :
    Act.Keep (WithinT k o N I T) (v.flush p) (fun v => Inside k o N T v.handle) :=
  .bind (.lift _) fun _ _ => .bind (.lift _) fun _ _ => .bind (keep_handleWrite ho) fun _ h => .pure h

theorem keep_grow {p size} {v : ExtVec k.backend} (ho : Inside k o N T v.handle) :
    Act.Keep (WithinT k o N I T) (v.grow p size) (fun r => Inside k o N T r.1.handle) := by
  refine .bind (Q := fun v => Inside k o N T v.handle) ?_ fun v h => ?_
  · unfold ExtVec.flushIfFull
    split
    · exact keep_flush ho
    · exact .pure ho
  · exact .bind (.lift _) fun _ _ => .bind (.lift _) fun _ _ => .bind (.lift _) fun _ _ => .bind (.lift _) fun _ _ =>
      .bind (.lift _) fun _ _ => .pure h

theorem keep_close [DiffLib] {p e} {v : ExtVec k.backend} (ho : Inside k o N T v.handle) :
    Act.Pres (WithinT k o N I T) (v.close p e) := by
  refine Act.Keep.pres (Q := fun _ => True) ?_
  refine .bind (keep_flush ho).attempt fun r hr => ?_
  cases r with
  | error x => exact .bind (.of_pres keep_drop) fun _ _ => .fail _
  | ok v =>
    exact .bind (keep_handleClose (hr v rfl)).mapErr fun _ _ => .bind (.of_pres keep_drop) fun _ _ => .of_pres pres_ofExcept

theorem withinT_tryNew {p e name schema} {s : k.backend.Strm} (hs : T s) (h1 : N (k.place o name))
    (h2 : N (k.place o (Storage.schemaName name))) :
    Act.Keep (WithinT k o N I T) (Handle.tryNew (B := k.backend) p e o name schema s) (Inside k o N T) :=
  .bind (.of_pres (withinT_writeSize hs)) fun _ _ => .pure ⟨rfl, h1, h2, fun t ht => by cases ht; exact hs⟩

/-- Code that keeps the invariant for more streams. -/
theorem tri_of_keep {E α : Type} {T' : k.backend.Strm → Prop} {x : Act k.backend.W E α} {Q : α → Prop}
    (ht : ∀ s, T s → T' s) (h : Act.Keep (WithinT k o N I T') x Q) :
    Act.Tri (WithinT k o N I T) (WithinT k o N I T') x (fun a w => WithinT k o N I T' w ∧ Q a) :=
  fun w hw => ⟨(h w hw).1.weaken ht, fun a ha => ⟨(h w hw).1, (h w hw).2 a ha⟩⟩

theorem tri_weaken {E α : Type} {T' : k.backend.Strm → Prop} {x : Act k.backend.W E α} {P' : k.backend.W → Prop} {Q : α → k.backend.W → Prop}
    (ht : ∀ s, T s → T' s) (h : Act.Tri (WithinT k o N I T') P' x Q) : Act.Tri (WithinT k o N I T) P' x Q :=
  fun w hw => ⟨(h w hw).1.weaken ht, (h w hw).2⟩

/-- Creating a vector. -/
theorem withinT_createExternalVector {p e name schema} (h1 : N (k.place o name)) (h2 : N (k.place o (Storage.schemaName name))) :
    Act.Tri (WithinT k o N I T) (WithinT k o N I T) (createExternalVector (B := k.backend) p e o name schema)
      (fun v w => ∃ T', (∀ s, T s → T' s) ∧ WithinT k o N I T' w ∧ Inside k o N T' v.handle) := by
  refine .bind (withinT_create h2) fun s => ?_
  refine .bind (tri_of_keep (fun _ h => .inl h) (.of_pres (withinT_write (.inr rfl)))) fun _ => ?_
  refine .bind (tri_weaken (fun _ h => .inl h) ((withinT_create h1).mono (fun _ h => h.1) fun _ _ h => h)) fun s' => ?_
  refine .bind (tri_of_keep (fun _ h => .inl (.inl h)) (withinT_tryNew (.inr rfl) h1 h2)) fun h => ?_
  exact .pure _ fun w hw => ⟨hw.1.weaken fun _ h => .inl (.inl h), ⟨_, fun _ h => .inl (.inl h), hw.1, hw.2⟩⟩

/-! ## multivectors -/

/-- Both handles of a multivector. -/
structure MInside (k : Kind) (o : k.backend.Obj) (N : k.Place → Prop) (T : k.backend.Strm → Prop) (v : MultiVec k.backend) : Prop where
  index : Inside k o N T v.index.handle
  data : Inside k o N T v.handle

theorem keep_mflush {p} {v : MultiVec k.backend} (ho : MInside k o N T v) :
    Act.Keep (WithinT k o N I T) (v.flush p) (MInside k o N T) :=
  .bind (.lift _) fun _ _ => .bind (.lift _) fun _ _ => .bind (keep_handleWrite ho.data) fun _ h => .bind (.lift _) fun _ _ =>
    .pure ⟨ho.index, h⟩

theorem keep_addToIndex {p e V} {v : MultiVec k.backend} (ho : MInside k o N T v) :
    Act.Keep (WithinT k o N I T) (v.addToIndex p e V) (MInside k o N T) :=
  .bind (keep_grow ho.index) fun _ h => .bind (.lift _) fun _ _ => .bind (.lift _) fun _ _ => .bind (.lift _) fun _ _ =>
    .pure ⟨h, ho.data⟩

theorem keep_mgrow {p e V} {v : MultiVec k.backend} (ho : MInside k o N T v) :
    Act.Keep (WithinT k o N I T) (v.grow p e V) (fun r => MInside k o N T r.2) := by
  refine .bind (Q := fun r => ∀ v, r = .ok v → MInside k o N T v) (.attempt ?_) fun r h => ?_
  · unfold MultiVec.flushIfFull
    split
    · exact keep_mflush ho
    · exact .pure ho
  · cases r with
    | error x => exact .pure ho
    | ok v =>
      refine .bind (keep_addToIndex (h v rfl)).attempt fun r hr => ?_
      cases r with
      | error x => exact .pure (h v rfl)
      | ok v => exact .pure (hr v rfl)

theorem keep_mdrop {E : Type} {v : MultiVec k.backend} {I : k.backend.W → Prop} : Act.Pres I (v.drop : Act k.backend.W E Unit) :=
  .bind keep_drop fun _ => keep_drop

theorem keep_mclose [DiffLib] {p e V} {v : MultiVec k.backend} (ho : MInside k o N T v) :
    Act.Pres (WithinT k o N I T) (v.close p e V) := by
  refine Act.Keep.pres (Q := fun _ => True) ?_
  refine .bind (keep_addToIndex ho).attempt fun r hr => ?_
  cases r with
  | error x => exact .bind (.of_pres keep_mdrop) fun _ _ => .fail _
  | ok v =>
    refine .bind (keep_mflush (hr v rfl)).attempt fun r hr => ?_
    cases r with
    | error x => exact .bind (.of_pres keep_mdrop) fun _ _ => .fail _
    | ok v =>
      have hv := hr v rfl
      refine .bind (Act.Keep.of_pres (keep_close hv.index)).attempt fun r _ => ?_
      cases r with
      | error x => exact .bind (.of_pres keep_drop) fun _ _ => .fail _
      | ok i =>
        exact .bind (keep_handleClose hv.data).mapErr fun _ _ => .bind (.of_pres keep_drop) fun _ _ =>
          .bind (.of_pres pres_ofExcept) fun _ _ => .pure trivial

theorem Inside.weaken {T' : k.backend.Strm → Prop} {h : Handle k.backend} (ho : Inside k o N T h) (ht : ∀ s, T s → T' s) :
    Inside k o N T' h := ⟨ho.obj, ho.data, ho.schema, fun s hs => ht s (ho.stream s hs)⟩

/-- Creating a multivector. -/
theorem withinT_createMultiVector {p e name schema} (h1 : N (k.place o name)) (h2 : N (k.place o (Storage.schemaName name)))
    (h3 : N (k.place o (Storage.indexName name))) (h4 : N (k.place o (Storage.schemaName (Storage.indexName name)))) :
    Act.Tri (WithinT k o N I T) (WithinT k o N I T) (createMultiVector (B := k.backend) p e o name schema)
      (fun v w => ∃ T', (∀ s, T s → T' s) ∧ WithinT k o N I T' w ∧ MInside k o N T' v) := by
  refine .bind (withinT_createExternalVector h3 h4) fun iv => ?_
  rintro w ⟨T', ht, hw, ho⟩
  have hd : Act.Tri (WithinT k o N I T') (WithinT k o N I T') (createDataHandle (B := k.backend) p e o name schema)
      (fun h w => ∃ T'', (∀ s, T' s → T'' s) ∧ WithinT k o N I T'' w ∧ Inside k o N T'' h) := by
    refine .bind (withinT_create h2) fun s => ?_
    refine .bind (tri_of_keep (fun _ h => .inl h) (.of_pres (withinT_write (.inr rfl)))) fun _ => ?_
    refine .bind (tri_weaken (fun _ h => .inl h) ((withinT_create h1).mono (fun _ h => h.1) fun _ _ h => h)) fun s' => ?_
    refine (tri_of_keep (fun _ h => .inl (.inl h)) (withinT_tryNew (.inr rfl) h1 h2)).mono (fun _ h => h) fun h w hw => ?_
    exact ⟨_, fun _ h => .inl (.inl h), hw.1, hw.2⟩
  revert w
  suffices hs : Act.Tri (WithinT k o N I T) (WithinT k o N I T') _ (fun v w => ∃ T', (∀ s, T s → T' s) ∧ WithinT k o N I T' w ∧
      MInside k o N T' v) from fun w hw => hs w hw
  refine tri_weaken ht (.bind hd.attempt fun r => ?_)
  cases r with
  | error x =>
    refine Act.Tri.mono (P := WithinT k o N I T') (Act.Tri.bind (.of_pres keep_drop fun _ h => h) (fun _ => .fail _ fun _ h => h))
      (fun _ h => h.1) fun _ _ h => h
  | ok h =>
    refine .pure _ fun w hw => ⟨hw.1, ?_⟩
    obtain ⟨T'', ht', hw', ho'⟩ := hw.2 h rfl
    exact ⟨T'', fun s hs => ht' s (ht s hs), hw', ho.weaken ht', ho'⟩

end Spec.Kind
end Flatdata
