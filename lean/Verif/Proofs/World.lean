import Verif.Spec.World
import Verif.Proofs.Storage
/-!
# Connection of the generic laws with `Spec.Kind`
-/
namespace Flatdata
open Spec

theorem FileSt.Quiet.keeps {w w' : FileW} (q1 : FileSt.Quiet w w') (l : Key) : Keeps fileLaws w w' l := by
  refine ⟨congrFun q1.files _, fun s h1 h2 => ⟨?_, ?_, ?_⟩, fun _ _ _ => ?_, fun b _ => ?_⟩
  · change s < w'.fs.nextFd; rw [q1.nextFd]; exact h1
  · change (w'.fs.fds s).1 = _; rw [q1.fds]; exact h2
  · change (w'.fs.fds s).2 = _; rw [q1.fds]; rfl
  · change Option.map _ (w'.maps _ _) = _; rw [q1.maps]; rfl
  · change (w'.fs.files _).getD _ = _; rw [q1.files]

namespace Spec.Kind

/-- The laws of each storage. -/
def laws : (k : Kind) → Laws k.backend
  | memory => memLaws
  | disk => fileLaws

theorem stored_eq (k : Kind) (w : k.backend.W) (o : k.backend.Obj) (n : String) :
    k.stored w o n = k.laws.medium w (k.laws.loc o n) := by cases k <;> rfl

theorem unread_iff (k : Kind) (w : k.backend.W) (o : k.backend.Obj) (n : String) :
    k.unread w o n ↔ k.laws.cache w o n = none := by
  cases k
  · change _ ↔ Option.map _ _ = none; rw [Option.map_eq_none_iff]; rfl
  · change _ ↔ Option.map _ _ = none; rw [Option.map_eq_none_iff]; rfl

theorem noFault_iff (k : Kind) (w : k.backend.W) : k.noFault w ↔ k.laws.noFault w := by cases k <;> exact Iff.rfl

theorem mappable_iff (k : Kind) (d : Bytes) : k.mappable d ↔ k.laws.readable d := by cases k <;> exact Iff.rfl

theorem alive_iff (k : Kind) (w : k.backend.W) (o : k.backend.Obj) : k.alive w o ↔ k.laws.objLive w o := by
  cases k <;> exact Iff.rfl

theorem initial_inv {k : Kind} {w : k.backend.W} (h : k.initial w) : k.laws.inv w := by
  cases k
  · exact ⟨fun l _ => (h l).2, fun l _ => (h l).1⟩
  · obtain ⟨h1, h2⟩ := h
    exact ⟨fun i p k n hm => (by rw [h1] at hm; cases hm), fun s hs => (by rw [h2] at hs; cases hs)⟩

theorem Step.inv {k : Kind} {w w' : k.backend.W} (h : Step k w w') (hi : k.laws.inv w) : k.laws.inv w' := by
  cases h with
  | subdir h => exact k.laws.subdir_inv hi h
  | exists_ h => exact k.laws.exists_inv hi h
  | read _ h => exact k.laws.read_inv hi h
  | create ho h => exact k.laws.create_inv hi ((k.alive_iff _ _).mp ho) h
  | write h => exact k.laws.write_inv hi h
  | seek h => exact k.laws.seek_inv hi h

theorem Steps.inv {k : Kind} {w w' : k.backend.W} (h : Steps k w w') (hi : k.laws.inv w) : k.laws.inv w' := by
  induction h with
  | refl => exact hi
  | step _ s ih => exact s.inv ih

theorem Steps.trans {k : Kind} {a b c : k.backend.W} (h : Steps k a b) (h' : Steps k b c) : Steps k a c := by
  induction h' with
  | refl => exact h
  | step _ s ih => exact .step ih s

theorem Reachable.inv {k : Kind} {w : k.backend.W} (h : Reachable k w) : k.laws.inv w := by
  obtain ⟨w0, h0, hs⟩ := h; exact hs.inv (initial_inv h0)

theorem Reachable.steps {k : Kind} {w w' : k.backend.W} (h : Reachable k w) (hs : Steps k w w') : Reachable k w' := by
  obtain ⟨w0, h0, h1⟩ := h; exact ⟨w0, h0, h1.trans hs⟩

/-- In reachable states, what is not stored has not been read. -/
theorem Reachable.unread {k : Kind} {w : k.backend.W} (h : Reachable k w) {o : k.backend.Obj} {n : String}
    (hn : k.stored w o n = none) : k.unread w o n := by
  rw [unread_iff]; rw [stored_eq] at hn; exact k.laws.inv_cache h.inv hn

theorem loc_suffix_ne (k : Kind) (o : k.backend.Obj) (n s t : String) (hs : Suffix s.toList) (ht : Suffix t.toList) (h : s ≠ t) :
    k.laws.loc o (n ++ s) ≠ k.laws.loc o (n ++ t) := by
  intro he
  apply h
  cases k
  · exact key_join_suffix_inj _ n s t hs ht (congrArg Prod.snd he)
  · exact key_join_suffix_inj _ n s t hs ht he

theorem loc_schema_ne (k : Kind) (o : k.backend.Obj) (n : String) :
    k.laws.loc o (Storage.schemaName n) ≠ k.laws.loc o n := by
  have := k.loc_suffix_ne o n ".schema" "" (by constructor <;> decide) (by constructor <;> decide) (by decide)
  simpa [Storage.schemaName] using this

theorem loc_plain_ne (k : Kind) (o : k.backend.Obj) {n m : String} (hn : PlainName n) (hm : PlainName m) (h : n ≠ m) :
    k.laws.loc o n ≠ k.laws.loc o m := by
  intro he
  apply h
  cases k
  · exact key_join_plain_inj _ hn hm (congrArg Prod.snd he)
  · exact key_join_plain_inj _ hn hm he

/-- Memory: nothing stored or read for an existing object is lost by a call. -/
theorem Step.mem {w w' : (backend memory).W} (h : Step memory w w') : w.next ≤ w'.next ∧ ∀ l : MemLoc, l.1 < w.next →
    (w.streams l ≠ none → w'.streams l ≠ none) ∧ (∀ d, w.resources l = some d → w'.resources l = some d) := by
  cases h with
  | @subdir o d _ r _ h =>
    cases h
    refine ⟨Nat.le_succ _, fun l hl => ?_⟩
    have hne : l.1 ≠ w.next := Nat.ne_of_lt hl
    exact ⟨fun h => by simpa [hne] using h, fun d h => by simpa [hne] using h⟩
  | exists_ h => cases h; exact ⟨Nat.le_refl _, fun l _ => ⟨id, fun _ => id⟩⟩
  | @read o n _ r _ ho h =>
    change MemSt.readResource o n w = (r, w') at h
    rcases MemSt.read_cases o n w with ⟨d, h1, h2⟩ | ⟨d, q, h1, h3, h2⟩ | ⟨_, _, h2⟩ <;> rw [h2] at h <;> cases h
    · exact ⟨Nat.le_refl _, fun l _ => ⟨id, fun _ => id⟩⟩
    · refine ⟨Nat.le_refl _, fun l _ => ⟨id, fun d' h => ?_⟩⟩
      have hne : l ≠ MemSt.loc o n := by intro he; rw [he, h1] at h; cases h
      simpa [upd_other _ _ hne] using h
    · exact ⟨Nat.le_refl _, fun l _ => ⟨id, fun _ => id⟩⟩
  | @create o n _ r _ ho h =>
    change MemSt.createOutputStream o n w = (r, w') at h
    rcases MemSt.create_cases o n w with ⟨x, h1, h2⟩ | ⟨h1, h2⟩ <;> rw [h2] at h <;> cases h
    · exact ⟨Nat.le_refl _, fun l _ => ⟨id, fun _ => id⟩⟩
    · refine ⟨Nat.le_refl _, fun l _ => ⟨fun h => ?_, fun _ => id⟩⟩
      by_cases he : l = MemSt.loc o n
      · simp [he, upd_same]
      · simpa [upd_other _ _ he] using h
  | @write s b _ r _ h =>
    change MemSt.writeAll s b w = (r, w') at h
    unfold MemSt.writeAll at h
    split at h <;> cases h
    · refine ⟨Nat.le_refl _, fun l _ => ⟨fun h => ?_, fun _ => id⟩⟩
      by_cases he : l = s
      · simp [he, upd_same]
      · simpa [upd_other _ _ he] using h
    · exact ⟨Nat.le_refl _, fun l _ => ⟨id, fun _ => id⟩⟩
  | @seek s _ r _ h =>
    change MemSt.seekStart s w = (r, w') at h
    unfold MemSt.seekStart at h
    split at h <;> cases h
    · refine ⟨Nat.le_refl _, fun l _ => ⟨fun h => ?_, fun _ => id⟩⟩
      by_cases he : l = s
      · simp [he, upd_same]
      · simpa [upd_other _ _ he] using h
    · exact ⟨Nat.le_refl _, fun l _ => ⟨id, fun _ => id⟩⟩

/-- What a call does to the file system: no file disappears, faults stay as planned. -/
structure DiskMono (w w' : FileW) : Prop where
  next : w.next ≤ w'.next
  files : ∀ l, w.fs.files l ≠ none → w'.fs.files l ≠ none
  fault : w'.fs.fault = w.fs.fault
  tick : w.fs.tick ≤ w'.fs.tick

theorem DiskMono.quiet {w w' : FileW} (q : FileSt.Quiet w w') : DiskMono w w' :=
  ⟨Nat.le_of_eq q.next.symm, fun l h => by rw [q.files]; exact h, q.fault, q.tick⟩

theorem DiskMono.trans {a b c : FileW} (h : DiskMono a b) (k : DiskMono b c) : DiskMono a c :=
  ⟨Nat.le_trans h.next k.next, fun l x => k.files l (h.files l x), k.fault.trans h.fault, Nat.le_trans h.tick k.tick⟩

theorem upd_ne_none {α β : Type} [DecidableEq α] {f : α → Option β} {a l : α} {d : β} (h : f l ≠ none) :
    upd f a (some d) l ≠ none := by
  by_cases he : l = a
  · rw [he, upd_same]; simp
  · rw [upd_other _ _ he]; exact h

theorem upd_map_ne_none {α β : Type} [DecidableEq α] {f : α → Option β} {a l : α} {g : β → β} (h : f l ≠ none) :
    upd f a ((f a).map g) l ≠ none := by
  by_cases he : l = a
  · subst he
    rw [upd_same]
    cases hf : f l with
    | none => exact absurd hf h
    | some d => simp
  · rw [upd_other _ _ he]; exact h

theorem Step.disk {w w' : (backend disk).W} (h : Step disk w w') : DiskMono w w' := by
  cases h with
  | @subdir o d _ r _ h =>
    cases h
    exact ⟨Nat.le_succ _, fun _ => id, rfl, Nat.le_refl _⟩
  | @exists_ o n _ r _ h =>
    change FileSt.pathExists _ w = (r, w') at h
    obtain ⟨b, w1, h1, q1, _⟩ := FileSt.pathExists_spec (join o.path n) w
    rw [h1] at h; cases h; exact .quiet q1
  | @read o n _ r _ ho h =>
    change FileSt.readResource o n w = (r, w') at h
    rcases FileSt.read_spec o n w with ⟨k, m, w1, _, q, _, h2⟩ | ⟨d, w1, _, _, _, q, _, h2⟩ | ⟨x, w1, q, _, h2, _⟩ <;>
      rw [h2] at h <;> cases h
    · exact .quiet q
    · exact (DiskMono.quiet q).trans ⟨Nat.le_refl _, fun _ => id, rfl, Nat.le_refl _⟩
    · exact .quiet q
  | @create o n _ r _ ho h =>
    change FileSt.createOutputStream o n w = (r, w') at h
    rcases FileSt.create_spec o n w with ⟨w1, q, _, h2⟩ | ⟨x, w1, q, h2⟩ | ⟨x, w1, q, h2⟩ <;> rw [h2] at h <;> cases h
    · exact (DiskMono.quiet q).trans ⟨Nat.le_refl _, fun _ => upd_ne_none, rfl, Nat.le_refl _⟩
    · exact .quiet q
    · exact (DiskMono.quiet q).trans ⟨Nat.le_refl _, fun _ => upd_ne_none, rfl, Nat.le_refl _⟩
  | @write s b _ r _ h =>
    change FileSt.writeAll s b w = (r, w') at h
    rcases FileSt.writeAll_spec s b w with h2 | ⟨x, k, h2, _⟩ <;> rw [h2] at h <;> cases h
    · exact ⟨Nat.le_refl _, fun _ => upd_map_ne_none, rfl, Nat.le_succ _⟩
    · exact ⟨Nat.le_refl _, fun _ => upd_map_ne_none, rfl, Nat.le_succ _⟩
  | @seek s _ r _ h =>
    change FileSt.seekStart s w = (r, w') at h
    rcases FileSt.seekStart_spec s w with h2 | ⟨x, h2 | h2, _⟩ <;> rw [h2] at h <;> cases h <;>
      exact ⟨Nat.le_refl _, fun _ => id, rfl, Nat.le_succ _⟩

theorem Step.alive {k : Kind} {w w' : k.backend.W} (h : Step k w w') {o : k.backend.Obj} (ho : k.alive w o) : k.alive w' o := by
  cases k
  · exact Nat.lt_of_lt_of_le ho h.mem.1
  · exact Nat.lt_of_lt_of_le ho h.disk.next

theorem Steps.alive {k : Kind} {w w' : k.backend.W} (h : Steps k w w') {o : k.backend.Obj} (ho : k.alive w o) : k.alive w' o := by
  induction h with
  | refl => exact ho
  | step _ s ih => exact s.alive ih

theorem Step.stored {k : Kind} {w w' : k.backend.W} (h : Step k w w') {o : k.backend.Obj} {n : String} (ho : k.alive w o)
    (hs : k.stored w o n ≠ none) : k.stored w' o n ≠ none := by
  cases k
  · have := (h.mem.2 (MemSt.loc o n) ho).1
    intro hn
    refine this ?_ ?_
    · intro hc; apply hs; change Option.map _ (MemW.streams w (MemSt.loc o n)) = none; rw [hc]; rfl
    · exact Option.map_eq_none_iff.mp hn
  · exact h.disk.files _ hs

theorem Steps.stored {k : Kind} {w w' : k.backend.W} (h : Steps k w w') {o : k.backend.Obj} {n : String} (ho : k.alive w o)
    (hs : k.stored w o n ≠ none) : k.stored w' o n ≠ none := by
  induction h with
  | refl => exact hs
  | step st s ih => exact s.stored (st.alive ho) ih

theorem Step.noFault {k : Kind} {w w' : k.backend.W} (h : Step k w w') (hn : k.noFault w) : k.noFault w' := by
  cases k
  · trivial
  · intro t ht; have := h.disk; rw [this.fault]; exact hn t (Nat.le_trans this.tick ht)

theorem Step.unborn_disk {w w' : (backend Kind.disk).W} (h : Step Kind.disk w w') (hu : Kind.unborn Kind.disk w) :
    Kind.unborn Kind.disk w' := by
  have mono : ∀ {a b : FileW}, (∀ i p, a.next ≤ i → a.maps i p = none) → b.maps = a.maps → b.next = a.next →
      ∀ i p, b.next ≤ i → b.maps i p = none := by
    intro a b h hm hn i p hi
    rw [hm]; exact h i p (by omega)
  cases h with
  | @subdir o d _ r _ h =>
    cases h
    intro i p hi
    change upd (FileW.maps w) (FileW.next w) (fun _ => none) i p = none
    have hi' : FileW.next w + 1 ≤ i := hi
    rw [upd_other _ _ (by omega)]; exact hu i p (by omega)
  | @exists_ o n _ r _ h =>
    change FileSt.pathExists _ w = (r, w') at h
    obtain ⟨b, w1, h1, q1, _⟩ := FileSt.pathExists_spec (join o.path n) w
    rw [h1] at h; cases h; exact mono hu q1.maps q1.next
  | @read o n _ r _ ho h =>
    change FileSt.readResource o n w = (r, w') at h
    rcases FileSt.read_spec o n w with ⟨k, m, w1, _, q, _, h2⟩ | ⟨d, w1, _, _, _, q, _, h2⟩ | ⟨x, w1, q, _, h2, _⟩ <;>
      rw [h2] at h <;> cases h
    · exact mono hu q.maps q.next
    · intro i p hi
      have hi' : w1.next ≤ i := hi
      have ho' : Obj.id o < FileW.next w := ho
      change upd w1.maps (Obj.id o) _ i p = none
      rw [q.next] at hi'
      rw [upd_other _ _ (by omega), q.maps]; exact hu i p hi'
    · exact mono hu q.maps q.next
  | @create o n _ r _ ho h =>
    change FileSt.createOutputStream o n w = (r, w') at h
    rcases FileSt.create_spec o n w with ⟨w1, q, _, h2⟩ | ⟨x, w1, q, h2⟩ | ⟨x, w1, q, h2⟩ <;> rw [h2] at h <;> cases h <;>
      exact mono hu q.maps q.next
  | @write s b _ r _ h =>
    change FileSt.writeAll s b w = (r, w') at h
    rcases FileSt.writeAll_spec s b w with h2 | ⟨x, k, h2, _⟩ <;> rw [h2] at h <;> cases h <;> exact mono hu rfl rfl
  | @seek s _ r _ h =>
    change FileSt.seekStart s w = (r, w') at h
    rcases FileSt.seekStart_spec s w with h2 | ⟨x, h2 | h2, _⟩ <;> rw [h2] at h <;> cases h <;> exact mono hu rfl rfl

/-- In reachable states, storage objects that do not exist yet have no resources. -/
theorem Reachable.unborn {k : Kind} {w : k.backend.W} (h : Reachable k w) : k.unborn w := by
  cases k
  · have := h.inv
    exact fun l hl => ⟨this.2 l hl, this.1 l (this.2 l hl)⟩
  · obtain ⟨w0, h0, hs⟩ := h
    have hu : Kind.unborn Kind.disk w0 := fun i p _ => h0.1 i p
    clear h0
    induction hs with
    | refl => exact hu
    | step _ s ih => exact s.unborn_disk ih

theorem Steps.noFault {k : Kind} {w w' : k.backend.W} (h : Steps k w w') (hn : k.noFault w) : k.noFault w' := by
  induction h with
  | refl => exact hn
  | step st s ih => exact s.noFault ih

theorem subdir_unborn {k : Kind} {o : k.backend.Obj} {d : String} {w w' : k.backend.W} {r} (hu : k.unborn w)
    (h : k.backend.subdir o d w = (r, w')) (l : k.laws.Loc) : Keeps k.laws w w' l := by
  cases k
  · cases h
    have e1 : (fun l : MemLoc => if l.1 = MemW.next w then none else MemW.streams w l) = MemW.streams w := by
      funext l
      split
      · rename_i he; exact ((hu l (Nat.le_of_eq he.symm)).1).symm
      · rfl
    have e2 : (fun l : MemLoc => if l.1 = MemW.next w then none else MemW.resources w l) = MemW.resources w := by
      funext l
      split
      · rename_i he; exact ((hu l (Nat.le_of_eq he.symm)).2).symm
      · rfl
    rw [e1, e2]
    exact ⟨rfl, fun s hs hl => ⟨hs, hl, rfl⟩, fun _ _ _ => rfl, fun _ _ => rfl⟩
  · cases h
    refine ⟨rfl, fun s hs hl => ⟨hs, hl, rfl⟩, ?_, fun _ _ => rfl⟩
    intro o n _
    change Option.map _ (upd (FileW.maps w) (FileW.next w) (fun _ => none) (Obj.id o) _) = Option.map _ (FileW.maps w (Obj.id o) _)
    by_cases he : Obj.id o = FileW.next w
    · rw [he, upd_same, hu _ _ (Nat.le_refl _)]
    · rw [upd_other _ _ he]

theorem StepAway.keeps {k : Kind} {P : k.Place → Prop} {w w' : k.backend.W} (h : StepAway k P w w') :
    (∀ o n, P (k.place o n) → Keeps k.laws w w' (k.laws.loc o n)) ∧ (k.noFault w → k.noFault w') := by
  cases h with
  | subdir hu h => exact ⟨fun _ _ _ => subdir_unborn hu h _, (Step.subdir h).noFault⟩
  | @exists_ o n _ r _ h =>
    cases k
    · cases h; exact ⟨fun _ _ _ => .refl _ _, id⟩
    · change FileSt.pathExists _ w = (r, w') at h
      obtain ⟨b, w1, h1, q1, _⟩ := FileSt.pathExists_spec (join o.path n) w
      rw [h1] at h; cases h
      exact ⟨fun o' n' _ => q1.keeps _, q1.noFault⟩
  | @read o n _ r _ _ hp h =>
    refine ⟨fun o' n' hp' => Keeps.read h ?_, ?_⟩
    · intro he; apply hp
      have : k.place o n = k.place o' n' := by cases k <;> exact he.symm
      rw [this]; exact hp'
    · rw [noFault_iff, noFault_iff]; exact (k.laws.read_keeps h).2.2.2.2
  | @create o n _ r _ _ hp h =>
    refine ⟨fun o' n' hp' => Keeps.create h ?_, ?_⟩
    · intro he; apply hp
      have : k.place o n = k.place o' n' := by cases k <;> exact he.symm
      rw [this]; exact hp'
    · rw [noFault_iff, noFault_iff]; exact (k.laws.create_keeps h).2.2.2.2
  | @write s b _ r _ hs hp h =>
    have hl : k.laws.live w s := by cases k <;> exact hs
    refine ⟨fun o' n' hp' => Keeps.write hl h ?_, ?_⟩
    · intro he; apply hp
      have : k.target w s = k.place o' n' := by cases k <;> exact he.symm
      rw [this]; exact hp'
    · rw [noFault_iff, noFault_iff]; exact (k.laws.write_keeps hl h).2.2.2.2
  | @seek s _ r _ hs hp h =>
    have hl : k.laws.live w s := by cases k <;> exact hs
    refine ⟨fun o' n' hp' => Keeps.seek hl h ?_, ?_⟩
    · intro he; apply hp
      have : k.target w s = k.place o' n' := by cases k <;> exact he.symm
      rw [this]; exact hp'
    · rw [noFault_iff, noFault_iff]; exact (k.laws.seek_keeps hl h).2.2.2.2

theorem StepAway.step {k : Kind} {P : k.Place → Prop} {w w' : k.backend.W} (h : StepAway k P w w') : Step k w w' := by
  cases h with
  | subdir _ h => exact .subdir h
  | exists_ h => exact .exists_ h
  | read ho _ h => exact .read ho h
  | create ho _ h => exact .create ho h
  | write _ _ h => exact .write h
  | seek _ _ h => exact .seek h

theorem StepsAway.steps {k : Kind} {P : k.Place → Prop} {w w' : k.backend.W} (h : StepsAway k P w w') : Steps k w w' := by
  induction h with
  | refl => exact .refl _
  | step _ s ih => exact .step ih s.step

theorem StepsAway.keeps {k : Kind} {P : k.Place → Prop} {w w' : k.backend.W} (h : StepsAway k P w w') :
    (∀ o n, P (k.place o n) → Keeps k.laws w w' (k.laws.loc o n)) ∧ (k.noFault w → k.noFault w') := by
  induction h with
  | refl => exact ⟨fun _ _ _ => .refl _ _, id⟩
  | step _ s ih => exact ⟨fun o n hp => (ih.1 o n hp).trans (s.keeps.1 o n hp), fun hn => s.keeps.2 (ih.2 hn)⟩

end Spec.Kind

/-! ## Effects of composite code -/

/-- Code that only makes storage calls for existing objects keeps a property closed under such calls. -/
def Act.Pres {W E α : Type} (P : W → Prop) (x : Act W E α) : Prop := ∀ w, P w → P (x w).2

namespace Act.Pres
variable {W E E' α β : Type} {P : W → Prop}

theorem pure (a : α) : Act.Pres P (Pure.pure a : Act W E α) := fun _ h => h
theorem fail (e : E) : Act.Pres P (Act.fail e : Act W E α) := fun _ h => h
theorem lift (x : Out α) : Act.Pres P (Act.lift x : Act W E α) := fun _ h => by cases x <;> exact h

theorem bind {x : Act W E α} {f : α → Act W E β} (hx : Act.Pres P x) (hf : ∀ a, Act.Pres P (f a)) : Act.Pres P (x >>= f) := by
  intro w hw
  have h1 := hx w hw
  rw [Act.bind_def]
  split
  · rename_i heq; rw [heq] at h1; exact hf _ _ h1
  · rename_i heq; rw [heq] at h1; exact h1
  · rename_i heq; rw [heq] at h1; exact h1
  · rename_i heq; rw [heq] at h1; exact h1

theorem mapErr {x : Act W E α} {f : E → E'} (hx : Act.Pres P x) : Act.Pres P (x.mapErr f) := by
  intro w hw
  have h1 := hx w hw
  unfold Act.mapErr
  split <;> (rename_i heq; rw [heq] at h1; exact h1)

theorem attempt {x : Act W E α} (hx : Act.Pres P x) : Act.Pres P (x.attempt : Act W E' (Except E α)) := by
  intro w hw
  have h1 := hx w hw
  unfold Act.attempt
  split <;> (rename_i heq; rw [heq] at h1; exact h1)

theorem load {B : Backend} {P : B.W → Prop} (s : Slice B.Base) : Act.Pres P (B.load s : Act B.W E Bytes) := by
  intro w hw
  unfold Backend.load
  exact lift _ w hw

end Act.Pres

namespace Spec.Kind

/-- Code that only makes storage calls, for the object `o`. -/
def Calls {E α : Type} (k : Kind) (o : k.backend.Obj) (x : Act k.backend.W E α) : Prop :=
  ∀ w, k.alive w o → Steps k w (x w).2

theorem Calls.of {E α : Type} {k : Kind} {o : k.backend.Obj} {x : Act k.backend.W E α}
    (h : ∀ w0, Act.Pres (fun w => Steps k w0 w ∧ k.alive w o) x) : Calls k o x :=
  fun w hw => (h w w ⟨.refl w, hw⟩).1

variable {k : Kind} {o : k.backend.Obj} {w0 : k.backend.W}

/-- The property used with `Act.Pres`. -/
abbrev Since (k : Kind) (o : k.backend.Obj) (w0 : k.backend.W) : k.backend.W → Prop := fun w => Steps k w0 w ∧ k.alive w o

theorem Since.step {w w' : k.backend.W} (h : Since k o w0 w) (s : Step k w w') : Since k o w0 w' :=
  ⟨.step h.1 s, s.alive h.2⟩

theorem pres_read (n : String) : Act.Pres (Since k o w0) (k.backend.readResource o n) :=
  fun _ h => h.step (.read h.2 rfl)
theorem pres_create (n : String) : Act.Pres (Since k o w0) (k.backend.createOutputStream o n) :=
  fun _ h => h.step (.create h.2 rfl)
theorem pres_exists (n : String) : Act.Pres (Since k o w0) (k.backend.existsRes o n) :=
  fun _ h => h.step (.exists_ rfl)
theorem pres_write (s b) : Act.Pres (Since k o w0) (k.backend.writeAll s b) :=
  fun _ h => h.step (.write rfl)
theorem pres_seek (s) : Act.Pres (Since k o w0) (k.backend.seekStart s) :=
  fun _ h => h.step (.seek rfl)

theorem pres_writeSize {p e n s} : Act.Pres (Since k o w0) (Storage.writeSize k.backend p e n s) :=
  .bind (.lift _) fun _ => pres_write _ _

theorem pres_writeToStream {p e d s} : Act.Pres (Since k o w0) (Storage.writeToStream k.backend p e d s) :=
  .bind pres_writeSize fun _ => .bind (pres_write _ _) fun _ => pres_write _ _

theorem pres_storageWrite {p e name schema d} : Act.Pres (Since k o w0) (Storage.write k.backend p e o name schema d) :=
  .bind (pres_create _) fun _ => .bind pres_writeToStream fun _ => .bind (pres_create _) fun _ => pres_write _ _

theorem pres_checkSchema [DiffLib] {name expected d n c} :
    Act.Pres (Since k o w0) (Storage.checkSchema k.backend name expected d n c) := by
  unfold Storage.checkSchema
  split
  · exact .fail _
  · split
    · exact .fail _
    · exact .lift _

theorem pres_checkResource [DiffLib] {p e name expected d s} :
    Act.Pres (Since k o w0) (Storage.checkResource k.backend p e name expected d s) := by
  unfold Storage.checkResource
  split
  · exact .fail _
  · refine .bind (.load _) fun _ => .bind (.lift _) fun _ => .bind (.lift _) fun _ => .bind (.lift _) fun _ => ?_
    split
    · exact .fail _
    · exact .bind (.load _) fun _ => pres_checkSchema

theorem pres_storageRead [DiffLib] {p e name expected} :
    Act.Pres (Since k o w0) (Storage.read k.backend p e o name expected) :=
  .bind (.mapErr (pres_read _)) fun _ => .bind (.mapErr (pres_read _)) fun _ => pres_checkResource

theorem pres_createArchive {p e sig schema} :
    Act.Pres (Since k o w0) (Storage.createArchive k.backend p e o sig schema) := by
  refine .bind (.mapErr (pres_exists _)) fun x => ?_
  split
  · exact .fail _
  · exact .mapErr pres_storageWrite

end Spec.Kind

/-! ## Code that keeps away from places -/

/-- From a state satisfying `P`, code ends in a state satisfying `R`, and `Q` of its value if it succeeds. -/
def Act.Tri {W E α : Type} (R : W → Prop) (P : W → Prop) (x : Act W E α) (Q : α → W → Prop) : Prop :=
  ∀ w, P w → R (x w).2 ∧ ∀ a, (x w).1 = .ok a → Q a (x w).2

namespace Act.Tri
variable {W E E' α β : Type} {R P : W → Prop} {Q : α → W → Prop}

theorem bind {x : Act W E α} {f : α → Act W E β} {Q' : β → W → Prop} (hx : Act.Tri R P x Q) (hf : ∀ a, Act.Tri R (Q a) (f a) Q') :
    Act.Tri R P (x >>= f) Q' := by
  intro w hw
  have h1 := hx w hw
  rw [Act.bind_def]
  split
  · rename_i heq; rw [heq] at h1; exact hf _ _ (h1.2 _ rfl)
  · rename_i heq; rw [heq] at h1; exact ⟨h1.1, fun _ h => by cases h⟩
  · rename_i heq; rw [heq] at h1; exact ⟨h1.1, fun _ h => by cases h⟩
  · rename_i heq; rw [heq] at h1; exact ⟨h1.1, fun _ h => by cases h⟩

theorem pure (a : α) (h : ∀ w, P w → R w ∧ Q a w) : Act.Tri R P (Pure.pure a : Act W E α) Q :=
  fun w hw => ⟨(h w hw).1, fun b hb => by cases hb; exact (h w hw).2⟩

theorem fail (e : E) (h : ∀ w, P w → R w) : Act.Tri R P (Act.fail e : Act W E α) Q :=
  fun w hw => ⟨h w hw, fun b hb => by cases hb⟩

theorem lift (x : Out α) (h : ∀ w, P w → R w) : Act.Tri R P (Act.lift x : Act W E α) (fun _ => P) :=
  fun w hw => by cases x <;> exact ⟨h w hw, fun b hb => hw⟩

theorem mono {x : Act W E α} {P' : W → Prop} {Q' : α → W → Prop} (h : Act.Tri R P x Q) (hP : ∀ w, P' w → P w)
    (hQ : ∀ a w, Q a w → Q' a w) : Act.Tri R P' x Q' :=
  fun w hw => ⟨(h w (hP w hw)).1, fun a ha => hQ a _ ((h w (hP w hw)).2 a ha)⟩

theorem of_pres {x : Act W E α} (h : Act.Pres P x) (hR : ∀ w, P w → R w) : Act.Tri R P x (fun _ => P) :=
  fun w hw => ⟨hR _ (h w hw), fun _ _ => h w hw⟩

theorem mapErr {x : Act W E α} {f : E → E'} (hx : Act.Tri R P x Q) : Act.Tri R P (x.mapErr f) Q := by
  intro w hw
  have h1 := hx w hw
  unfold Act.mapErr
  split <;> (rename_i heq; rw [heq] at h1; refine ⟨h1.1, fun a ha => ?_⟩) <;> cases ha
  exact h1.2 _ rfl

theorem attempt {x : Act W E α} (hx : Act.Tri R P x Q) :
    Act.Tri R P (x.attempt : Act W E' (Except E α)) (fun r w => R w ∧ ∀ a, r = .ok a → Q a w) := by
  intro w hw
  have h1 := hx w hw
  unfold Act.attempt
  split <;> (rename_i heq; rw [heq] at h1; refine ⟨h1.1, fun a ha => ?_⟩) <;> cases ha
  · exact ⟨h1.1, fun a ha => by cases ha; exact h1.2 _ rfl⟩
  · exact ⟨h1.1, fun a ha => by cases ha⟩

theorem pres {x : Act W E α} (h : Act.Tri P P x Q) : Act.Pres P x := fun w hw => (h w hw).1

end Act.Tri

namespace Spec.Kind
variable {k : Kind} {o : k.backend.Obj} {N : k.Place → Prop} {I : k.backend.W → Prop}

/-- The calls of a storage object at the places `N` keep the invariant `I`. -/
class Closed (k : Kind) (o : k.backend.Obj) (N : k.Place → Prop) (I : k.backend.W → Prop) : Prop where
  exists_ : ∀ {w n}, I w → I (k.backend.existsRes o n w).2
  read : ∀ {w n}, I w → k.alive w o → N (k.place o n) → I (k.backend.readResource o n w).2
  create : ∀ {w n}, I w → k.alive w o → N (k.place o n) → I (k.backend.createOutputStream o n w).2
  write : ∀ {w s b}, I w → k.streamOpen w s → N (k.target w s) → I (k.backend.writeAll s b w).2
  seek : ∀ {w s}, I w → k.streamOpen w s → N (k.target w s) → I (k.backend.seekStart s w).2

/-- The invariant holds; the object exists. -/
abbrev Within (k : Kind) (o : k.backend.Obj) (I : k.backend.W → Prop) : k.backend.W → Prop :=
  fun w => I w ∧ k.alive w o

/-- ... and the stream `s` is open and writes to a place in `N`. -/
abbrev WithinS (k : Kind) (o : k.backend.Obj) (N : k.Place → Prop) (I : k.backend.W → Prop) (s : k.backend.Strm) : k.backend.W → Prop :=
  fun w => Within k o I w ∧ k.streamOpen w s ∧ N (k.target w s)

theorem open_live {w : k.backend.W} {s : k.backend.Strm} : k.streamOpen w s ↔ k.laws.live w s := by cases k <;> exact Iff.rfl

theorem target_congr {w w' : k.backend.W} {s : k.backend.Strm} (h : k.laws.sloc w' s = k.laws.sloc w s) :
    k.target w' s = k.target w s := by cases k <;> exact h

variable [c : Closed k o N I]

include c in
theorem within_exists {n : String} : Act.Pres (Within k o I) (k.backend.existsRes o n) :=
  fun _ h => ⟨c.exists_ h.1, (Step.exists_ rfl).alive h.2⟩

theorem within_read {n : String} (hp : N (k.place o n)) : Act.Pres (Within k o I) (k.backend.readResource o n) :=
  fun _ h => ⟨c.read h.1 h.2 hp, (Step.read h.2 rfl).alive h.2⟩

theorem within_create {n : String} (hp : N (k.place o n)) :
    Act.Tri (Within k o I) (Within k o I) (k.backend.createOutputStream o n) (fun s => WithinS k o N I s) := by
  intro w h
  have h' : Within k o I (k.backend.createOutputStream o n w).2 := ⟨c.create h.1 h.2 hp, (Step.create h.2 rfl).alive h.2⟩
  refine ⟨h', fun s hs => ?_⟩
  have hc : k.backend.createOutputStream o n w = (.ok s, (k.backend.createOutputStream o n w).2) := by rw [← hs]
  obtain ⟨h1, h2, _⟩ := k.laws.create_ok hc
  refine ⟨h', open_live.mpr h1, ?_⟩
  have : k.target (k.backend.createOutputStream o n w).2 s = k.place o n := by cases k <;> exact h2
  rw [this]; exact hp

theorem within_write {s : k.backend.Strm} {b : Bytes} : Act.Pres (WithinS k o N I s) (k.backend.writeAll s b) := by
  intro w ⟨h, h1, h2⟩
  have hk := (k.laws.write_keeps (open_live.mp h1) (r := (k.backend.writeAll s b w).1) (w' := (k.backend.writeAll s b w).2) rfl).2.1
    s (open_live.mp h1)
  exact ⟨⟨c.write h.1 h1 h2, (Step.write rfl).alive h.2⟩, open_live.mpr hk.1, by rw [target_congr hk.2.1]; exact h2⟩

theorem within_writeSize {p e n s} : Act.Pres (WithinS k o N I s) (Storage.writeSize k.backend p e n s) :=
  .bind (.lift _) fun _ => within_write

theorem within_writeToStream {p e d s} : Act.Pres (WithinS k o N I s) (Storage.writeToStream k.backend p e d s) :=
  .bind within_writeSize fun _ => .bind within_write fun _ => within_write

theorem within_storageWrite {p e name schema d} (h1 : N (k.place o name)) (h2 : N (k.place o (Storage.schemaName name))) :
    Act.Pres (Within k o I) (Storage.write k.backend p e o name schema d) := by
  refine Act.Tri.pres (Q := fun _ _ => True) ?_
  refine .bind (within_create h1) fun s => ?_
  refine .bind (.of_pres within_writeToStream fun _ h => h.1) fun _ => ?_
  refine .bind ((within_create h2).mono (fun _ h => h.1) fun _ _ h => h) fun t => ?_
  exact (Act.Tri.of_pres within_write fun _ h => h.1).mono (fun _ h => h) fun _ _ _ => trivial

omit c in
theorem pres_checkSchema' [DiffLib] {J : k.backend.W → Prop} {name expected d n c} :
    Act.Pres J (Storage.checkSchema k.backend name expected d n c) := by
  unfold Storage.checkSchema
  split
  · exact .fail _
  · split
    · exact .fail _
    · exact .lift _

omit c in
theorem pres_checkResource' [DiffLib] {J : k.backend.W → Prop} {p e name expected d s} :
    Act.Pres J (Storage.checkResource k.backend p e name expected d s) := by
  unfold Storage.checkResource
  split
  · exact .fail _
  · refine .bind (.load _) fun _ => .bind (.lift _) fun _ => .bind (.lift _) fun _ => .bind (.lift _) fun _ => ?_
    split
    · exact .fail _
    · exact .bind (.load _) fun _ => pres_checkSchema'

theorem within_storageRead [DiffLib] {p e name expected} (h1 : N (k.place o name)) (h2 : N (k.place o (Storage.schemaName name))) :
    Act.Pres (Within k o I) (Storage.read k.backend p e o name expected) :=
  .bind (.mapErr (within_read h1)) fun _ => .bind (.mapErr (within_read h2)) fun _ => pres_checkResource'

theorem within_createArchive {p e sig schema} (h1 : N (k.place o sig)) (h2 : N (k.place o (Storage.schemaName sig))) :
    Act.Pres (Within k o I) (Storage.createArchive k.backend p e o sig schema) := by
  refine .bind (.mapErr (within_exists (N := N))) fun x => ?_
  split
  · exact .fail _
  · exact .mapErr (within_storageWrite h1 h2)

end Spec.Kind

namespace Spec.Kind
variable {k : Kind} {o : k.backend.Obj} {w0 : k.backend.W} {P : k.Place → Prop}

/-- Calls that concern none of the places in `P`. -/
instance closed_away : Closed k o (fun l => ¬ P l) (StepsAway k P w0) where
  exists_ h := .step h (.exists_ rfl)
  read h ho hp := .step h (.read ho hp rfl)
  create h ho hp := .step h (.create ho hp rfl)
  write h hs hp := .step h (.write hs hp rfl)
  seek h hs hp := .step h (.seek hs hp rfl)

/-- Reached from `w0` by calls that concern none of the places in `P`; the object exists. -/
abbrev Aside (k : Kind) (o : k.backend.Obj) (P : k.Place → Prop) (w0 : k.backend.W) : k.backend.W → Prop :=
  Within k o (StepsAway k P w0)

theorem aside_storageWrite {p e name schema d} (h1 : ¬ P (k.place o name)) (h2 : ¬ P (k.place o (Storage.schemaName name))) :
    Act.Pres (Aside k o P w0) (Storage.write k.backend p e o name schema d) :=
  within_storageWrite (N := fun l => ¬ P l) h1 h2

theorem aside_storageRead [DiffLib] {p e name expected} (h1 : ¬ P (k.place o name))
    (h2 : ¬ P (k.place o (Storage.schemaName name))) :
    Act.Pres (Aside k o P w0) (Storage.read k.backend p e o name expected) :=
  within_storageRead (N := fun l => ¬ P l) h1 h2

theorem aside_createArchive {p e sig schema} (h1 : ¬ P (k.place o sig)) (h2 : ¬ P (k.place o (Storage.schemaName sig))) :
    Act.Pres (Aside k o P w0) (Storage.createArchive k.backend p e o sig schema) :=
  within_createArchive (N := fun l => ¬ P l) h1 h2

end Spec.Kind

/-- Writing a resource succeeds if streams can be created and nothing fails. -/
theorem write_succeeds {B : Backend} (L : Laws B) (p : Profile) (e : Endian) {o : B.Obj} {name schema : String} {data : Bytes}
    {w : B.W} (G : B.W → Prop) (hG : G w)
    (cr : ∀ n w, n = name ∨ n = Storage.schemaName name → G w → ∃ s w', B.createOutputStream o n w = (.ok s, w') ∧ G w')
    (wr : ∀ s b w, G w → L.live w s → G (B.writeAll s b w).2) (hn : L.noFault w)
    (hd : data.length < 2 ^ 64) (hne : L.loc o (Storage.schemaName name) ≠ L.loc o name)
    (hf : L.fresh (L.medium w (L.loc o name))) (hf' : L.fresh (L.medium w (L.loc o (Storage.schemaName name)))) :
    ∃ w', Storage.write B p e o name schema data w = (.ok (), w') ∧ G w' := by
  unfold Storage.write
  obtain ⟨s, w1, h1, g1⟩ := cr name w (.inl rfl) hG
  have n1 := (L.create_keeps h1).2.2.2.2 hn
  rcases create_step o name w hf with ⟨s', w1', h1', a1, o1⟩ | ⟨x, w1', h1', _⟩
  · rw [h1] at h1'; cases h1'
    rw [Act.bind_ok h1]
    rcases writeToStream_spec p e a1 hd with ⟨w2, h2, a2, o2⟩ | ⟨x, c, w2, h2, hc, c2, o2, nf⟩
    · rw [Act.bind_ok h2]
      have g2 : G w2 := by
        have wr' : ∀ b, Act.Pres (fun w => G w ∧ L.live w s) (B.writeAll s b) := fun b w ⟨hg, hl⟩ =>
          ⟨wr s b w hg hl, ((L.write_keeps hl (r := (B.writeAll s b w).1) (w' := (B.writeAll s b w).2) rfl).2.1 s hl).1⟩
        have : Act.Pres (fun w => G w ∧ L.live w s) (Storage.writeToStream B p e data s) :=
          .bind (.bind (.lift _) fun _ => wr' _) fun _ => .bind (wr' _) fun _ => wr' _
        have := this w1 ⟨g1, a1.live⟩
        rw [h2] at this; exact this.1
      obtain ⟨t, w3, h3, g3⟩ := cr (Storage.schemaName name) w2 (.inr rfl) g2
      have k1 := (o1.keeps _ hne).medium
      have k2 := (o2.keeps _ hne).medium
      rcases create_step o (Storage.schemaName name) w2 (by rw [k2, k1]; exact hf') with
        ⟨t', w3', h3', a3, o3⟩ | ⟨x, w3', h3', _⟩
      · rw [h3] at h3'; cases h3'
        rw [Act.bind_ok h3]
        unfold Storage.writeSchema
        rcases append_step a3 (strBytes schema) with ⟨w4, h4, a4, o4⟩ | ⟨x, b', w4, h4, hp, a4, o4, nf⟩
        · refine ⟨w4, h4, ?_⟩
          have := wr t (strBytes schema) w3 g3 a3.live
          rw [h4] at this; exact this
        · exact absurd (o3.noFault (o2.noFault n1)) nf
      · rw [h3] at h3'; cases h3'
    · exact absurd n1 nf
  · rw [h1] at h1'; cases h1'

end Flatdata
