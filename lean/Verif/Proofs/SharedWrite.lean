import Verif.Proofs.SharedFiles
import Verif.Proofs.SafePure
/-!
# The moments of writing one resource
-/
namespace Flatdata
open Spec

/-- Files go forward while `x` runs, and if it succeeds, `Q` holds. -/
structure Goes {E α : Type} (soft : Key → Prop) (x : Act FileW E α) (w : FileW) (Q : α → FileW → Prop) : Prop where
  adv : Advances soft x w
  post : ∀ a w', x w = (.ok a, w') → Q a w'

section
variable {E E' α β : Type} {soft : Key → Prop}

theorem Goes.pure {a : α} {w : FileW} {Q : α → FileW → Prop} (h : Q a w) : Goes soft (Pure.pure a : Act FileW E α) w Q :=
  ⟨.pure a w, fun a' w' h' => by cases h'; exact h⟩

theorem Goes.fail {e : E} {w : FileW} {Q : α → FileW → Prop} : Goes soft (Act.fail e : Act FileW E α) w Q :=
  ⟨.fail e w, fun a' w' h' => by cases h'⟩

theorem Goes.lift {x : Out α} {w : FileW} {Q : α → FileW → Prop} (h : ∀ a, x = .ok a → Q a w) : Goes soft (Act.lift x : Act FileW E α) w Q :=
  ⟨.lift x w, fun a' w' h' => by
    cases x with
    | ok a => cases h'; exact h _ rfl
    | panic => cases h'
    | ub => cases h'⟩

theorem Goes.mono {x : Act FileW E α} {w : FileW} {Q R : α → FileW → Prop} (h : Goes soft x w Q) (hq : ∀ a w', Q a w' → R a w') : Goes soft x w R :=
  ⟨h.adv, fun a w' h' => hq a w' (h.post a w' h')⟩

theorem Goes.bind {x : Act FileW E α} {f : α → Act FileW E β} {w : FileW} {Q : α → FileW → Prop} {R : β → FileW → Prop}
    (tx : Tame x) (tf : ∀ a, Tame (f a)) (hc : Clean w) (hx : Goes soft x w Q)
    (hf : ∀ a w', Q a w' → Clean w' → Goes soft (f a) w' R) : Goes soft (x >>= f) w R := by
  refine ⟨.bind tx tf hc hx.adv fun a w' h c => (hf a w' (hx.post a w' h) c).adv, fun b w' h => ?_⟩
  obtain ⟨a, w1, h1, h2⟩ := Act.bind_eq_ok h
  have c1 := hc.next tx
  rw [h1] at c1
  exact (hf a w1 (hx.post a w1 h1) c1).post b w' h2

theorem Goes.mapErr {x : Act FileW E α} {f : E → E'} {w : FileW} {Q : α → FileW → Prop} (h : Goes soft x w Q) : Goes soft (x.mapErr f) w Q :=
  ⟨h.adv.mapErr, fun a w' h' => h.post a w' (mapErr_eq_ok h')⟩

theorem Goes.attempt {x : Act FileW E α} {w : FileW} {Q : α → FileW → Prop} (h : Goes soft x w Q) :
    Goes soft (x.attempt : Act FileW E' (Except E α)) w (fun r w' => ∀ a, r = .ok a → Q a w') := by
  refine ⟨h.adv.attempt, fun r w' h' a ha => h.post a w' ?_⟩
  subst ha
  unfold Act.attempt at h'
  split at h' <;> cases h'
  assumption

theorem Goes.ofExcept {x : Except E α} {w : FileW} {Q : α → FileW → Prop} (h : ∀ a, x = .ok a → Q a w) : Goes soft (Act.ofExcept x) w Q := by
  cases x with
  | error e => exact .fail
  | ok a => exact .pure (h a rfl)

theorem Goes.foldlM {f : β → α → Act FileW E β} {I : β → FileW → Prop} (tf : ∀ b a, Tame (f b a))
    (hf : ∀ b a w, I b w → Clean w → Goes soft (f b a) w I) : ∀ (l : List α) (b : β) (w : FileW), I b w → Clean w → Goes soft (l.foldlM f b) w I
  | [], b, w, h, _ => .pure h
  | a :: l, b, w, h, hc => by
    rw [List.foldlM_cons]
    exact .bind (tf b a) (fun b' => .foldlM tf l b') hc (hf b a w h hc) fun b' w' h' c' => Goes.foldlM tf hf l b' w' h' c'

theorem Goes.of_still {x : Act FileW E α} {w : FileW} {Q : α → FileW → Prop} (h : ∀ w, (x w).2.fs.files = w.fs.files)
    (hq : ∀ a w', x w = (.ok a, w') → Q a w') : Goes soft x w Q := ⟨.of_still h w, hq⟩

end

/-! ## streams -/

/-- Files and streams at the places `P` stay as they are. -/
def Leaves (P : Key → Prop) (w w' : FileW) : Prop :=
  ∀ l, P l → w'.fs.files l = w.fs.files l ∧ ∀ s c, Appending fileLaws w s l c → Appending fileLaws w' s l c

theorem Leaves.refl (P : Key → Prop) (w : FileW) : Leaves P w w := fun _ _ => ⟨rfl, fun _ _ h => h⟩
theorem Leaves.trans {P : Key → Prop} {a b c : FileW} (h : Leaves P a b) (h' : Leaves P b c) : Leaves P a c := fun l hl =>
  ⟨(h' l hl).1.trans (h l hl).1, fun s d hs => (h' l hl).2 s d ((h l hl).2 s d hs)⟩
theorem Leaves.mono {P Q : Key → Prop} {a b : FileW} (h : Leaves P a b) (hq : ∀ l, Q l → P l) : Leaves Q a b := fun l hl => h l (hq l hl)

theorem Leaves.of_keeps {P : Key → Prop} {w w' : FileW} (h : ∀ l, P l → Keeps fileLaws w w' l) : Leaves P w w' := fun l hl =>
  ⟨(h l hl).medium, fun _ _ hs => hs.keeps (h l hl)⟩

section
variable {soft : Key → Prop} {w : FileW}

theorem goes_create {o : Obj} {n : String} (hc : Clean w) (h : w.fs.files (key (join o.path n)) = none) :
    Goes soft (FileSt.createOutputStream o n) w fun s w' => Appending fileLaws w' s (key (join o.path n)) [] ∧
      Leaves (· ≠ key (join o.path n)) w w' := by
  refine ⟨advances_create o n hc h, fun s w' h' => ?_⟩
  rcases create_step (L := fileLaws) o n w trivial with ⟨s1, w1, h1, a1, o1⟩ | ⟨x, w1, h1, _⟩
  · have h2 : FileSt.createOutputStream o n w = (.ok s1, w1) := h1
    rw [h'] at h2; cases h2
    exact ⟨a1, .of_keeps fun l hl => o1.keeps l hl⟩
  · have h2 : FileSt.createOutputStream o n w = (.err x, w1) := h1
    rw [h'] at h2; cases h2

theorem goes_append {s : Nat} {k : Key} {c b : Bytes} (a : Appending fileLaws w s k c) :
    Goes soft (FileSt.writeAll s b) w fun _ w' => Appending fileLaws w' s k (c ++ b) ∧ Leaves (· ≠ k) w w' := by
  refine ⟨advances_append a, fun u w' h' => ?_⟩
  rcases append_step a b with ⟨w1, h1, a1, o1⟩ | ⟨x, _, w1, h1, _⟩
  · have h2 : FileSt.writeAll s b w = (.ok (), w1) := h1
    rw [h'] at h2; cases h2
    exact ⟨a1, .of_keeps fun l hl => o1.keeps l hl⟩
  · have h2 : FileSt.writeAll s b w = (.err x, w1) := h1
    rw [h'] at h2; cases h2

theorem goes_writeSize {p : Profile} {e : Endian} {n : Nat} (hn : n < 2 ^ 64) {s : Nat} {k : Key} {c : Bytes} (a : Appending fileLaws w s k c) :
    Goes soft (Storage.writeSize file p e n s) w fun _ w' => Appending fileLaws w' s k (c ++ le64 n) ∧ Leaves (· ≠ k) w w' := by
  have e : Storage.writeSize file p e n s = FileSt.writeAll s (le64 n) := funext fun w => writeSize_eq (B := file) p e s hn w
  rw [e]
  exact goes_append a

/-- The handle is open; the size field is zero. -/
def OpenAt (w : FileW) (h : Handle file) (k : Key) : Prop := ∃ s c, h.stream = some s ∧ Appending fileLaws w s k (zeros 8 ++ c)

theorem OpenAt.leaves {w' : FileW} {h : Handle file} {k : Key} {P : Key → Prop} (ho : OpenAt w h k) (hl : Leaves P w w') (hk : P k) :
    OpenAt w' h k := by
  obtain ⟨s, c, h1, h2⟩ := ho
  exact ⟨s, c, h1, (hl k hk).2 _ _ h2⟩

variable {p : Profile} {e : Endian}

/-- Setters. -/
theorem goes_write {o : Obj} {name schema : String} {b : Bytes} (hb : b.length < 2 ^ 64) (hc : Clean w)
    (hne : key (join o.path (Storage.schemaName name)) ≠ key (join o.path name)) (h1 : w.fs.files (key (join o.path name)) = none)
    (h2 : w.fs.files (key (join o.path (Storage.schemaName name))) = none) :
    Goes soft (Storage.write file p e o name schema b) w fun _ _ => True := by
  unfold Storage.write Storage.writeToStream
  refine .bind (FileSt.tame_createOutputStream _ _) (fun _ => .bind (.bind (tame_writeSize _ _) fun _ =>
    .bind (FileSt.tame_writeAll _ _) fun _ => FileSt.tame_writeAll _ _) fun _ => .bind (FileSt.tame_createOutputStream _ _) fun _ =>
    FileSt.tame_writeAll _ _) hc (goes_create hc h1) fun s w1 q1 c1 => ?_
  refine .bind (.bind (tame_writeSize _ _) fun _ => .bind (FileSt.tame_writeAll _ _) fun _ => FileSt.tame_writeAll _ _)
    (fun _ => .bind (FileSt.tame_createOutputStream _ _) fun _ => FileSt.tame_writeAll _ _) c1
    (Q := fun _ w' => Leaves (· ≠ key (join o.path name)) w1 w') ?_ fun _ w2 q2 c2 => ?_
  · refine .bind (tame_writeSize _ _) (fun _ => .bind (FileSt.tame_writeAll _ _) fun _ => FileSt.tame_writeAll _ _) c1
      (goes_writeSize hb q1.1) fun _ w2 q2 c2 => ?_
    refine .bind (FileSt.tame_writeAll _ _) (fun _ => FileSt.tame_writeAll _ _) c2 (goes_append q2.1) fun _ w3 q3 c3 => ?_
    exact (goes_append q3.1).mono fun _ _ q4 => (q2.2.trans q3.2).trans q4.2
  · refine .bind (FileSt.tame_createOutputStream _ _) (fun _ => FileSt.tame_writeAll _ _) c2 (goes_create c2 ?_) fun s w3 q3 c3 => ?_
    · rw [(q2 _ hne).1, (q1.2 _ hne).1]; exact h2
    · exact (goes_append q3.1).mono fun _ _ _ => trivial

/-- `start_…`. -/
theorem goes_createHandle {o : Obj} {name schema : String} (hc : Clean w)
    (hne : key (join o.path (Storage.schemaName name)) ≠ key (join o.path name)) (h1 : w.fs.files (key (join o.path name)) = none)
    (h2 : w.fs.files (key (join o.path (Storage.schemaName name))) = none) :
    Goes soft (createHandle file p e o name schema) w fun h w' => OpenAt w' h (key (join o.path name)) ∧
      Leaves (fun l => l ≠ key (join o.path name) ∧ l ≠ key (join o.path (Storage.schemaName name))) w w' := by
  unfold createHandle
  refine .bind (FileSt.tame_createOutputStream _ _) (fun _ => .bind (FileSt.tame_writeAll _ _) fun _ =>
    .bind (FileSt.tame_createOutputStream _ _) fun _ => .bind (tame_writeSize _ _) fun _ => .pure _) hc (goes_create hc h2) fun s w1 q1 c1 => ?_
  refine .bind (FileSt.tame_writeAll _ _) (fun _ => .bind (FileSt.tame_createOutputStream _ _) fun _ => .bind (tame_writeSize _ _) fun _ => .pure _)
    c1 (goes_append q1.1) fun _ w2 q2 c2 => ?_
  refine .bind (FileSt.tame_createOutputStream _ _) (fun _ => .bind (tame_writeSize _ _) fun _ => .pure _) c2 (goes_create c2 ?_) fun s' w3 q3 c3 => ?_
  · rw [(q2.2 _ hne.symm).1, (q1.2 _ hne.symm).1]; exact h1
  unfold Handle.tryNew
  refine .bind (tame_writeSize _ _) (fun _ => .pure _) c3 (goes_writeSize (by decide) q3.1) fun _ w4 q4 c4 => .pure ⟨?_, ?_⟩
  · refine ⟨s', [], rfl, ?_⟩
    have := q4.1
    rw [le64_zero] at this
    exact this
  · exact (((q1.2.mono fun l hl => hl.2).trans (q2.2.mono fun l hl => hl.2)).trans (q3.2.mono fun l hl => hl.1)).trans
      (q4.2.mono fun l hl => hl.1)

/-- `write` of a handle. -/
theorem goes_handleWrite {h : Handle file} {k : Key} {d : Bytes} (ho : OpenAt w h k) (hc : Clean w) :
    Goes soft (h.write p d) w fun h' w' => OpenAt w' h' k ∧ Leaves (· ≠ k) w w' := by
  obtain ⟨s, c, hs, ha⟩ := ho
  unfold Handle.write
  rw [hs]
  refine .bind (FileSt.tame_writeAll _ _) (fun _ => .bind (.lift _) fun _ => .pure _) hc (goes_append ha) fun _ w1 q1 c1 => ?_
  refine .bind (.lift _) (fun _ => .pure _) c1 (.lift (Q := fun _ w' => w' = w1) fun _ _ => rfl) fun _ w2 q2 c2 => .pure ?_
  subst q2
  exact ⟨⟨s, c ++ d, rfl, by rw [← List.append_assoc]; exact q1.1⟩, q1.2⟩

/-- `close` of a handle. -/
theorem goes_finish {h : Handle file} {s : Nat} {k : Key} {c : Bytes} (ha : Appending fileLaws w s k (zeros 8 ++ c)) (hc : Clean w) (hsoft : soft k) :
    Goes soft (h.finish p e s) w fun _ w' => Leaves (· ≠ k) w w' := by
  unfold Handle.finish Storage.writePadding
  refine .bind (FileSt.tame_writeAll _ _) (fun _ => .bind (FileSt.tame_seekStart _) fun _ => tame_writeSize _ _) hc (goes_append ha) fun _ w1 q1 c1 => ?_
  refine .bind (FileSt.tame_seekStart _) (fun _ => tame_writeSize _ _) c1 (.of_still (still_seekStart s) (Q := fun _ w' =>
    w'.fs.files k = w1.fs.files k ∧ fileLaws.live w' s ∧ w'.fs.fds s = (k, 0) ∧ Leaves (· ≠ k) w1 w') fun a w' h' => ?_) fun _ w2 q2 c2 => ?_
  · have h2 : file.seekStart s w1 = (.ok a, w') := h'
    have k2 := fileLaws.seek_keeps q1.1.live h2
    refine ⟨k2.1 k, (k2.2.1 s q1.1.live).1, Prod.ext ((k2.2.1 s q1.1.live).2.1.trans q1.1.sloc) (fileLaws.seek_ok q1.1.live h2), ?_⟩
    exact .of_keeps fun l hl => .seek q1.1.live h2 (by rw [q1.1.sloc]; exact hl)
  · obtain ⟨f2, l2, d2, v2⟩ := q2
    unfold Storage.writeSize
    refine .bind (.lift _) (fun _ => FileSt.tame_writeAll _ _) c2 (.lift (Q := fun b w' => w' = w2 ∧ b.length = 8) fun b hb =>
      ⟨rfl, by rw [writeBytes_length hb]; rfl⟩) fun b w3 q3 c3 => ?_
    obtain ⟨rfl, hb⟩ := q3
    have m3 : w3.fs.files k = some (zeros 8 ++ (c ++ List.replicate paddingSize 0#8)) := by
      rw [f2, ← List.append_assoc]; exact q1.1.medium
    refine ⟨advances_size d2 m3 hb hsoft, fun u w4 h4 => ?_⟩
    refine (q1.2.trans v2).trans (.of_keeps fun l hl => .write (L := fileLaws) l2 h4 ?_)
    change l ≠ (w3.fs.fds s).1
    rw [d2]; exact hl

variable [DiffLib]

theorem still_checkResource {name expected : String} {d t : Slice Key} (w : FileW) :
    (Storage.checkResource file p e name expected d t w).2 = w :=
  (checkResource_same (B := file) p e name expected (w := w) (w' := w) (sd := d) (ss := t) rfl rfl).2.1

theorem still_read {o : Obj} {name schema : String} (w : FileW) : (Storage.read file p e o name schema w).2.fs.files = w.fs.files :=
  funext fun l => storageRead_medium (L := fileLaws) (B := file) (r := (Storage.read file p e o name schema w).1) rfl l

theorem leaves_read {o : Obj} {name schema : String} {r} {w' : FileW} (h : Storage.read file p e o name schema w = (r, w')) :
    Leaves (fun _ => True) w w' := by
  have one : ∀ n w r w', (file.readResource o n).mapErr (RErr.io · name) w = (r, w') → Leaves (fun _ => True) w w' := by
    intro n w r w' h
    have h1 : file.readResource o n w = ((file.readResource o n w).1, w') := by
      have := mapErr_snd (x := file.readResource o n) (f := (RErr.io · name)) (w := w)
      rw [h] at this
      exact Prod.ext rfl this.symm
    obtain ⟨k1, k2, _⟩ := fileLaws.read_keeps h1
    intro l _
    refine ⟨k1 l, fun s c a => ?_⟩
    obtain ⟨a1, a2, a3⟩ := k2 s a.live
    exact ⟨a1, a2.trans a.sloc, (k1 _).trans a.medium, a3.trans a.pos⟩
  unfold Storage.read at h
  rw [Act.bind_def] at h
  split at h
  · rename_i a w1 h1
    have e1 := one _ _ _ _ h1
    rw [Act.bind_def] at h
    split at h
    · rename_i b w2 h2
      have e2 := one _ _ _ _ h2
      have := still_checkResource (p := p) (e := e) (name := name) (expected := schema) (d := a) (t := b) w2
      rw [h] at this
      rw [show w' = w2 from this]
      exact e1.trans e2
    all_goals (rename_i w2 h2; cases h; exact e1.trans (one _ _ _ _ h2))
  all_goals (rename_i w1 h1; cases h; exact one _ _ _ _ h1)

theorem goes_handleClose {h : Handle file} {k : Key} (ho : OpenAt w h k) (hc : Clean w) (hsoft : soft k) :
    Goes soft (h.close p e) w fun r w' => ∀ sl, r.1 = .ok sl → Leaves (· ≠ k) w w' := by
  obtain ⟨s, c, hs, ha⟩ := ho
  unfold Handle.close
  rw [hs]
  refine .bind (.attempt (tame_finish _ _)) (fun r => ?_) hc (goes_finish ha hc hsoft).attempt fun r w1 q1 c1 => ?_
  · split
    · exact .pure _
    · exact .bind (.attempt (tame_read _ _ _)) fun _ => .pure _
  · match r, q1 with
    | .error x, _ => exact .pure fun sl h => by cases h
    | .ok (), q1 =>
      refine .bind (.attempt (tame_read _ _ _)) (fun _ => .pure _) c1 (Goes.attempt (Q := fun _ w' => Leaves (fun _ => True) w1 w') (.of_still still_read fun a w' h' =>
        leaves_read h')) fun r w2 q2 c2 => .pure fun sl hsl => ?_
      exact (q1 _ rfl).trans ((q2 sl hsl).mono fun _ _ => trivial)

omit [DiffLib] in
theorem goes_drop {E : Type} {h : Handle file} : Goes soft (h.drop : Act FileW E Unit) w fun _ w' => w' = w := by
  unfold Handle.drop
  split
  · exact .lift fun _ h => by cases h
  · exact .pure rfl

/-! ## vectors -/

omit [DiffLib] in
theorem goes_flush {v : ExtVec file} {k : Key} (ho : OpenAt w v.handle k) (hc : Clean w) :
    Goes soft (v.flush p) w fun v' w' => OpenAt w' v'.handle k ∧ Leaves (· ≠ k) w w' := by
  unfold ExtVec.flush
  refine .bind (.lift _) (fun _ => .bind (.lift _) fun _ => .bind (tame_handleWrite _ _) fun _ => .pure _) hc
    (.lift (Q := fun _ w' => w' = w) fun _ _ => rfl) fun n w1 q1 c1 => ?_
  subst q1
  refine .bind (.lift _) (fun _ => .bind (tame_handleWrite _ _) fun _ => .pure _) c1 (.lift (Q := fun _ w' => w' = w1) fun _ _ => rfl) fun d w2 q2 c2 => ?_
  subst q2
  exact .bind (tame_handleWrite _ _) (fun _ => .pure _) c2 (goes_handleWrite ho c2) fun h w3 q3 c3 => .pure q3

omit [DiffLib] in
theorem goes_grow {v : ExtVec file} {k : Key} {size : Nat} (ho : OpenAt w v.handle k) (hc : Clean w) :
    Goes soft (v.grow p size) w fun r w' => OpenAt w' r.1.handle k ∧ Leaves (· ≠ k) w w' := by
  have tf : Tame (v.flushIfFull p) := by
    unfold ExtVec.flushIfFull
    split
    · exact tame_flush _
    · exact .pure _
  unfold ExtVec.grow
  refine .bind tf (fun _ => .bind (.lift _) fun _ => .bind (.lift _) fun _ => .bind (.lift _) fun _ => .bind (.lift _) fun _ =>
    .bind (.lift _) fun _ => .pure _) hc (Q := fun v' w' => OpenAt w' v'.handle k ∧ Leaves (· ≠ k) w w') ?_ fun v' w1 q1 c1 => ?_
  · unfold ExtVec.flushIfFull
    split
    · exact goes_flush ho hc
    · exact .pure ⟨ho, .refl _ _⟩
  have l : ∀ {α : Type} {x : Out α}, Goes soft (Act.lift x : Act FileW IoErr α) w1 fun _ w' => w' = w1 := .lift fun _ _ => rfl
  refine .bind (.lift _) (fun _ => .bind (.lift _) fun _ => .bind (.lift _) fun _ => .bind (.lift _) fun _ => .bind (.lift _) fun _ => .pure _) c1 l
    fun _ w2 q2 c2 => ?_
  subst q2
  refine .bind (.lift _) (fun _ => .bind (.lift _) fun _ => .bind (.lift _) fun _ => .bind (.lift _) fun _ => .pure _) c1 l fun _ w3 q3 c2 => ?_
  subst q3
  refine .bind (.lift _) (fun _ => .bind (.lift _) fun _ => .bind (.lift _) fun _ => .pure _) c1 l fun _ w4 q4 c2 => ?_
  subst q4
  refine .bind (.lift _) (fun _ => .bind (.lift _) fun _ => .pure _) c1 l fun _ w5 q5 c2 => ?_
  subst q5
  refine .bind (.lift _) (fun _ => .pure _) c1 l fun _ w6 q6 c2 => ?_
  subst q6
  exact .pure q1

theorem goes_closeHandle {v : ExtVec file} {k : Key} (ho : OpenAt w v.handle k) (hc : Clean w) (hsoft : soft k) :
    Goes soft (v.closeHandle p e) w fun _ w' => Leaves (· ≠ k) w w' := by
  unfold ExtVec.closeHandle
  refine .bind (.mapErr (tame_handleClose _)) (fun _ => .bind (tame_drop _) fun _ => .ofExcept _) hc (goes_handleClose ho hc hsoft).mapErr fun r w1 q1 c1 => ?_
  refine .bind (tame_drop _) (fun _ => .ofExcept _) c1 goes_drop fun _ w2 q2 c2 => .ofExcept fun sl hsl => ?_
  rw [q2]; exact q1 sl hsl

theorem goes_close {v : ExtVec file} {k : Key} (ho : OpenAt w v.handle k) (hc : Clean w) (hsoft : soft k) :
    Goes soft (v.close p e) w fun _ w' => Leaves (· ≠ k) w w' := by
  unfold ExtVec.close
  refine .bind (.attempt (tame_flush _)) (fun r => ?_) hc (goes_flush ho hc).attempt fun r w1 q1 c1 => ?_
  · split
    · exact .bind (tame_drop _) fun _ => .fail _
    · exact tame_closeHandle _
  · match r, q1 with
    | .error x, _ => exact .bind (tame_drop _) (fun _ => .fail _) c1 goes_drop fun _ _ _ _ => .fail
    | .ok v', q1 =>
      obtain ⟨o1, l1⟩ := q1 v' rfl
      exact (goes_closeHandle o1 c1 hsoft).mono fun _ _ q2 => l1.trans q2

/-! ## multivectors -/

/-- Both handles are open. -/
def MvOpen (w : FileW) (v : MultiVec file) (kI kD : Key) : Prop := OpenAt w v.index.handle kI ∧ OpenAt w v.handle kD

section
variable {v : MultiVec file} {kI kD : Key}

omit [DiffLib] in
theorem goes_mvFlush (ho : MvOpen w v kI kD) (hk : kI ≠ kD) (hc : Clean w) : Goes soft (v.flush p) w fun v' w' => MvOpen w' v' kI kD := by
  unfold MultiVec.flush
  refine .bind (.lift _) (fun _ => .bind (.lift _) fun _ => .bind (tame_handleWrite _ _) fun _ => .bind (.lift _) fun _ => .pure _) hc
    (.lift (Q := fun _ w' => w' = w) fun _ _ => rfl) fun n w1 q1 c1 => ?_
  subst q1
  refine .bind (.lift _) (fun _ => .bind (tame_handleWrite _ _) fun _ => .bind (.lift _) fun _ => .pure _) c1
    (.lift (Q := fun _ w' => w' = w1) fun _ _ => rfl) fun d w2 q2 c2 => ?_
  subst q2
  refine .bind (tame_handleWrite _ _) (fun _ => .bind (.lift _) fun _ => .pure _) c2 (goes_handleWrite ho.2 c2) fun h w3 q3 c3 => ?_
  refine .bind (.lift _) (fun _ => .pure _) c3 (.lift (Q := fun _ w' => w' = w3) fun _ _ => rfl) fun d w4 q4 c4 => .pure ?_
  subst q4
  exact ⟨ho.1.leaves q3.2 hk, q3.1⟩

omit [DiffLib] in
theorem goes_addToIndex {V : Variadic} (ho : MvOpen w v kI kD) (hk : kI ≠ kD) (hc : Clean w) :
    Goes soft (v.addToIndex p e V) w fun v' w' => MvOpen w' v' kI kD := by
  unfold MultiVec.addToIndex
  refine .bind (tame_grow _ _) (fun _ => .bind (.lift _) fun _ => .bind (.lift _) fun _ => .bind (.lift _) fun _ => .pure _) hc (goes_grow ho.1 hc)
    fun r w1 q1 c1 => ?_
  refine .bind (.lift _) (fun _ => .bind (.lift _) fun _ => .bind (.lift _) fun _ => .pure _) c1 (.lift (Q := fun _ w' => w' = w1) fun _ _ => rfl)
    fun _ w2 q2 c2 => ?_
  subst q2
  refine .bind (.lift _) (fun _ => .bind (.lift _) fun _ => .pure _) c1 (.lift (Q := fun _ w' => w' = w2) fun _ _ => rfl) fun _ w3 q3 c3 => ?_
  subst q3
  refine .bind (.lift _) (fun _ => .pure _) c1 (.lift (Q := fun _ w' => w' = w3) fun _ _ => rfl) fun _ w4 q4 c4 => .pure ?_
  subst q4
  exact ⟨q1.1, ho.2.leaves q1.2 hk.symm⟩

omit [DiffLib] in
theorem goes_mvGrow {V : Variadic} (ho : MvOpen w v kI kD) (hk : kI ≠ kD) (hc : Clean w) :
    Goes soft (v.grow p e V) w fun r w' => r.1 = .ok () → MvOpen w' r.2 kI kD := by
  unfold MultiVec.grow
  refine .bind (.attempt (tame_mvFlushIfFull _)) (fun r => ?_) hc (Goes.attempt (Q := fun v' w' => MvOpen w' v' kI kD) ?_) fun r w1 q1 c1 => ?_
  · split
    · exact .pure _
    · refine .bind (.attempt (tame_addToIndex _ _)) fun r => ?_
      split <;> exact .pure _
  · unfold MultiVec.flushIfFull
    split
    · exact goes_mvFlush ho hk hc
    · exact .pure ho
  · match r, q1 with
    | .error x, _ => exact .pure fun h => by cases h
    | .ok v', q1 =>
      refine .bind (.attempt (tame_addToIndex _ _)) (fun r => by split <;> exact .pure _) c1 (goes_addToIndex (q1 v' rfl) hk c1).attempt fun r w2 q2 c2 => ?_
      match r, q2 with
      | .error x, _ => exact .pure fun h => by cases h
      | .ok v'', q2 => exact .pure fun _ => q2 v'' rfl

omit [DiffLib] in
theorem goes_growItem {V : Variadic} {as : List Add} (ho : MvOpen w v kI kD) (hk : kI ≠ kD) (hc : Clean w) :
    Goes soft (growItem file p e V v as) w fun v' w' => MvOpen w' v' kI kD := by
  have ta : ∀ (v : MultiVec file) (a : Add), Tame (addOne file p e v a) := fun v a =>
    .bind (.lift _) fun _ => .bind (.lift _) fun _ => .pure _
  unfold growItem
  refine .bind (.mapErr (tame_mvGrow _ _)) (fun _ => .bind (.ofExcept _) fun _ => .foldlM ta _ _) hc (goes_mvGrow ho hk hc).mapErr fun r w1 q1 c1 => ?_
  refine .bind (.ofExcept _) (fun _ => .foldlM ta _ _) c1 (.ofExcept (Q := fun _ w' => MvOpen w' r.2 kI kD) fun _ hr => q1 hr) fun _ w2 q2 c2 => ?_
  refine Goes.foldlM (I := fun v w => MvOpen w v kI kD) ta (fun v a w hv hc => ?_) as r.2 w2 q2 c2
  unfold addOne
  refine .bind (.lift _) (fun _ => .bind (.lift _) fun _ => .pure _) hc (.lift (Q := fun _ w' => w' = w) fun _ _ => rfl) fun _ w1 q1 c1 => ?_
  subst q1
  refine .bind (.lift _) (fun _ => .pure _) hc (.lift (Q := fun _ w' => w' = w1) fun _ _ => rfl) fun _ w2 q2 c2 => .pure ?_
  subst q2
  exact hv

theorem goes_closeData {i : Slice Key} (ho : OpenAt w v.handle kD) (hc : Clean w) (hsoft : soft kD) :
    Goes soft (v.closeData p e i) w fun _ _ => True := by
  unfold MultiVec.closeData
  refine .bind (.mapErr (tame_handleClose _)) (fun _ => .bind (tame_drop _) fun _ => .bind (.ofExcept _) fun _ => .pure _) hc
    (goes_handleClose ho hc hsoft).mapErr fun r w1 q1 c1 => ?_
  refine .bind (tame_drop _) (fun _ => .bind (.ofExcept _) fun _ => .pure _) c1 goes_drop fun _ w2 q2 c2 => ?_
  exact .bind (.ofExcept _) (fun _ => .pure _) c2 (.ofExcept (Q := fun _ _ => True) fun _ _ => trivial) fun _ _ _ _ => .pure trivial

theorem goes_mvClose {V : Variadic} (ho : MvOpen w v kI kD) (hk : kI ≠ kD) (hc : Clean w) (hI : soft kI) (hD : soft kD) :
    Goes soft (v.close p e V) w fun _ _ => True := by
  have fin : ∀ {x : RErr} {E' : Type} {y : Act FileW RErr Unit} {w : FileW}, Tame y → Clean w → Goes soft y w (fun _ _ => True) →
      Goes soft (y >>= fun _ => (Act.fail x : Act FileW RErr (Slice Key × Slice Key))) w fun _ _ => True := fun ty hc hy =>
    .bind ty (fun _ => .fail _) hc hy fun _ _ _ _ => .fail
  have dr : ∀ {v : MultiVec file} {w : FileW}, Clean w → Goes soft (v.drop : Act FileW RErr Unit) w fun _ _ => True := fun hc =>
    .bind (tame_drop _) (fun _ => tame_drop _) hc goes_drop fun _ _ _ _ => goes_drop.mono fun _ _ _ => trivial
  unfold MultiVec.close
  refine .bind (.attempt (tame_addToIndex _ _)) (fun r => ?_) hc (goes_addToIndex ho hk hc).attempt fun r w1 q1 c1 => ?_
  · split
    · exact .bind (tame_mvDrop _) fun _ => .fail _
    · exact tame_closeFlush _
  match r, q1 with
  | .error x, _ => exact fin (E' := Unit) (tame_mvDrop _) c1 (dr c1)
  | .ok v1, q1 =>
    change Goes soft (v1.closeFlush p e) w1 _
    unfold MultiVec.closeFlush
    refine .bind (.attempt (tame_mvFlush _)) (fun r => ?_) c1 (goes_mvFlush (q1 v1 rfl) hk c1).attempt fun r w2 q2 c2 => ?_
    · split
      · exact .bind (tame_mvDrop _) fun _ => .fail _
      · exact tame_closeIndex _
    match r, q2 with
    | .error x, _ => exact fin (E' := Unit) (tame_mvDrop _) c2 (dr c2)
    | .ok v2, q2 =>
      change Goes soft (v2.closeIndex p e) w2 _
      obtain ⟨oI, oD⟩ := q2 v2 rfl
      unfold MultiVec.closeIndex
      refine .bind (.attempt (tame_close _)) (fun r => ?_) c2 (goes_close oI c2 hI).attempt fun r w3 q3 c3 => ?_
      · split
        · exact .bind (tame_drop _) fun _ => .fail _
        · exact tame_closeData _ _
      match r, q3 with
      | .error x, _ => exact fin (E' := Unit) (tame_drop _) c3 (goes_drop.mono fun _ _ _ => trivial)
      | .ok i, q3 => exact goes_closeData (oD.leaves (q3 i rfl) hk.symm) c3 hD

end

/-! ## resources -/

/-- The source is written step by step. -/
def Stepwise : Source → Prop
  | .elements _ => True
  | .items _ => True
  | _ => False

theorem goes_writeResource {o : Obj} {r : ResDecl} {s : Source} {c : Payload} (hg : Gives p e r s c) (hi : IndexNamed r) (hc : Clean w)
    (hpl : ∀ n ∈ resFiles r, PlainName n) (hnd : (resFiles r).Nodup) (hn : ∀ n ∈ resFiles r, w.fs.files (key (join o.path n)) = none)
    (hsoft : Stepwise s → ∀ q ∈ parts r, soft (key (join o.path q.1))) : Advances soft (writeResource file p e o r s) w := by
  have ne : ∀ {n m : String}, n ∈ resFiles r → m ∈ resFiles r → n ≠ m → key (join o.path n) ≠ key (join o.path m) := fun h1 h2 h3 h4 =>
    h3 (key_join_plain_inj o.path (hpl _ h1) (hpl _ h2) h4)
  have d1 := (name_mem_resFiles r).1
  have d2 := (name_mem_resFiles r).2
  have nsuf : ∀ {n : String}, n ++ ".schema" ≠ n := fun {n} h => by
    have := congrArg String.length h
    simp at this
  have hne := ne d2 d1 nsuf
  have wr : ∀ {b : Bytes}, b.length < 2 ^ 64 → Advances soft ((Storage.write file p e o r.name r.schema b).mapErr (RErr.io · r.name)) w := fun hb =>
    (goes_write hb hc hne (hn _ d1) (hn _ d2)).adv.mapErr
  cases s <;> cases c <;> try simp only [Gives] at hg
  · obtain ⟨S, h, hb, hl, rfl⟩ := hg
    unfold writeResource
    simp only [h]
    unfold setStruct
    rw [if_neg (by omega)]
    exact wr (by simp; omega)
  · rcases hg with ⟨⟨S, h⟩ | h, hb, rfl⟩
    · unfold writeResource
      simp only [h]
      exact wr (by omega)
    · unfold writeResource
      simp only [h]
      exact wr (by omega)
  · obtain ⟨S, xs, h, hs, hx, hb, rfl⟩ := hg
    have hm : (r.name, r.schema) ∈ parts r := by rw [parts_of_one fun V i hv => by rw [h] at hv; cases hv]; simp
    unfold writeResource
    simp only [h]
    have tg := fun v ops => tame_growOne (p := p) (e := e) S v ops
    refine (Goes.bind (Q := fun v w' => OpenAt w' v.handle (key (join o.path r.name))) (R := fun _ _ => True) (.mapErr (tame_createExternalVector _ _ _)) (fun _ => .bind (.mapErr (.foldlM tg _ _)) fun _ =>
      .bind (tame_close _) fun _ => .pure _) hc ?_ fun v w1 q1 c1 => ?_).adv
    · rw [createExternalVector_eq]
      exact .mapErr (.bind (tame_createHandle _ _ _) (fun _ => .pure _) hc (goes_createHandle hc hne (hn _ d1) (hn _ d2)) fun h w1 q1 c1 => .pure q1.1)
    refine .bind (.mapErr (.foldlM tg _ _)) (fun _ => .bind (tame_close _) fun _ => .pure _) c1
      (Goes.mapErr (Goes.foldlM (I := fun v w' => OpenAt w' v.handle (key (join o.path r.name))) tg (fun v ops w hv hc => ?_) _ v w1 q1 c1)) fun v w2 q2 c2 => ?_
    · unfold growOne
      refine .bind (tame_grow _ _) (fun _ => .bind (.lift _) fun _ => .pure _) hc (goes_grow hv hc) fun r w1 q1 c1 => ?_
      refine .bind (.lift _) (fun _ => .pure _) c1 (.lift (Q := fun _ w' => w' = w1) fun _ _ => rfl) fun _ w2 q2 c2 => .pure ?_
      subst q2
      exact q1.1
    · exact .bind (tame_close _) (fun _ => .pure _) c2 (goes_close q2 c2 (hsoft trivial _ hm)) fun _ _ _ _ => .pure trivial
  · obtain ⟨V, h, _⟩ := hg
    have hp := parts_of_multi h
    have hI : (r.name ++ "_index", "index(" ++ r.schema ++ ")") ∈ parts r := by rw [hp]; simp
    have hD : (r.name, r.schema) ∈ parts r := by rw [hp]; simp
    obtain ⟨i1, i2⟩ := index_mem_resFiles hi h
    have hfl : resFiles r = [r.name ++ "_index", r.name ++ "_index" ++ ".schema", r.name, r.name ++ ".schema"] := by
      unfold resFiles; rw [hp]; rfl
    rw [hfl] at hnd
    simp only [List.nodup_cons, List.mem_cons, not_or, List.not_mem_nil, or_false] at hnd
    have n1 := ne i1 d1 hnd.1.2.1
    have n2 := ne i1 d2 hnd.1.2.2
    have n3 := ne i2 d1 hnd.2.1.1
    have n4 := ne i2 d2 hnd.2.1.2
    unfold writeResource
    simp only [h]
    have tg := fun v as => tame_growItem (p := p) (e := e) V v as
    refine (Goes.bind (Q := fun v w' => MvOpen w' v (key (join o.path (r.name ++ "_index"))) (key (join o.path r.name))) (R := fun _ _ => True)
      (.mapErr (tame_createMultiVector _ _ _)) (fun _ => .bind (.mapErr (.foldlM tg _ _)) fun _ => .bind (tame_mvClose _ _) fun _ => .pure _) hc ?_ fun v w1 q1 c1 => ?_).adv
    · unfold createMultiVector
      rw [createExternalVector_eq]
      have tdh : Tame (createDataHandle (B := file) p e o r.name r.schema) := tame_createHandle o r.name r.schema
      refine .mapErr (.bind (.bind (tame_createHandle _ _ _) fun _ => .pure _) (fun i => .bind (.attempt tdh) fun r => ?_) hc
        (.bind (tame_createHandle _ _ _) (fun _ => .pure _) hc (goes_createHandle hc (ne i2 i1 nsuf) (hn _ i1) (hn _ i2)) fun h w1 q1 c1 =>
          Goes.pure (Q := fun (v : ExtVec file) w' => OpenAt w' v.handle (key (join o.path (r.name ++ "_index"))) ∧
            Leaves (fun l => l ≠ key (join o.path (r.name ++ "_index")) ∧ l ≠ key (join o.path (r.name ++ "_index" ++ ".schema"))) w w') q1) fun i w1 q1 c1 => ?_)
      · split
        · exact .bind (tame_drop _) fun _ => .fail _
        · exact .pure _
      · refine .bind (.attempt tdh) (fun r => ?_) c1 (Goes.attempt (goes_createHandle (p := p) (e := e) (schema := r.schema) c1 hne ?_ ?_)) fun x w2 q2 c2 => ?_
        · split
          · exact .bind (tame_drop _) fun _ => .fail _
          · exact .pure _
        · rw [(q1.2 _ ⟨n1.symm, n3.symm⟩).1]; exact hn _ d1
        · exact (q1.2 _ ⟨n2.symm, n4.symm⟩).1.trans (hn _ d2)
        · match x, q2 with
          | .error x, _ => exact .bind (tame_drop _) (fun _ => .fail _) c2 goes_drop fun _ _ _ _ => .fail
          | .ok h, q2 => exact .pure ⟨q1.1.leaves (q2 h rfl).2 ⟨n1, n2⟩, (q2 h rfl).1⟩
    refine .bind (.mapErr (.foldlM tg _ _)) (fun _ => .bind (tame_mvClose _ _) fun _ => .pure _) c1
      (Goes.mapErr (Goes.foldlM (I := fun v w' => MvOpen w' v (key (join o.path (r.name ++ "_index"))) (key (join o.path r.name))) tg
        (fun v as w hv hc => goes_growItem hv n1 hc) _ v w1 q1 c1)) fun v w2 q2 c2 => ?_
    have sI := hsoft trivial (r.name ++ "_index", "index(" ++ r.schema ++ ")") hI
    have sD := hsoft trivial (r.name, r.schema) hD
    exact .bind (tame_mvClose _ _) (fun _ => .pure _) c2 (goes_mvClose q2 n1 c2 sI sD) fun _ _ _ _ => .pure trivial

end
end Flatdata
