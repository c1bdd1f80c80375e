import Verif.Proofs.SafePure
import Verif.Proofs.Grows
/-!
# Code with effects that performs no undefined access
-/
namespace Flatdata
open Spec

theorem putAt_length_le (c b : Bytes) (pos : Nat) : c.length ≤ (putAt c pos b).length := by
  unfold putAt
  split
  · exact Nat.le_refl _
  · simp; omega

namespace Spec.Kind
variable {k : Kind}

/-! ## What stays true -/

theorem Step.streamOpen {w w' : k.backend.W} (hr : Reachable k w) (h : Step k w w') {s : k.backend.Strm} (ho : k.streamOpen w s) :
    k.streamOpen w' s := by
  cases k
  · have hu : (s : MemLoc).1 < MemW.next w := by
      refine Decidable.byContradiction fun hc => ?_
      exact ho ((hr.unborn s (by omega)).1)
    exact (h.mem.2 s hu).1 ho
  · change (s : Nat) < (w : FileW).fs.nextFd at ho
    change (s : Nat) < (w' : FileW).fs.nextFd
    cases h with
    | subdir h => cases h; exact ho
    | @exists_ o n _ r _ h =>
      change FileSt.pathExists _ w = (r, w') at h
      obtain ⟨b, w1, h1, q1, _⟩ := FileSt.pathExists_spec (join o.path n) w
      rw [h1] at h; cases h; rw [q1.nextFd]; exact ho
    | @read o n _ r _ _ h =>
      change FileSt.readResource o n w = (r, w') at h
      rcases FileSt.read_spec o n w with ⟨k, m, w1, _, q, _, h2⟩ | ⟨d, w1, _, _, _, q, _, h2⟩ | ⟨x, w1, q, _, h2, _⟩ <;>
        rw [h2] at h <;> cases h
      · rw [q.nextFd]; exact ho
      · change s < w1.fs.nextFd; rw [q.nextFd]; exact ho
      · rw [q.nextFd]; exact ho
    | @create o n _ r _ _ h =>
      change FileSt.createOutputStream o n w = (r, w') at h
      rcases FileSt.create_spec o n w with ⟨w1, q, _, h2⟩ | ⟨x, w1, q, h2⟩ | ⟨x, w1, q, h2⟩ <;> rw [h2] at h <;> cases h
      · change s < w1.fs.nextFd + 1; rw [q.nextFd]; exact Nat.lt_succ_of_lt ho
      · rw [q.nextFd]; exact ho
      · change s < w1.fs.nextFd; rw [q.nextFd]; exact ho
    | @write t b _ r _ h =>
      change FileSt.writeAll t b w = (r, w') at h
      rcases FileSt.writeAll_spec t b w with h2 | ⟨x, k, h2, _⟩ <;> rw [h2] at h <;> cases h <;> exact ho
    | @seek t _ r _ h =>
      change FileSt.seekStart t w = (r, w') at h
      rcases FileSt.seekStart_spec t w with h2 | ⟨x, h2 | h2, _⟩ <;> rw [h2] at h <;> cases h <;> exact ho

/-- Mappings that exist stay. -/
theorem Step.maps {w w' : (backend Kind.disk).W} (hr : Reachable Kind.disk w) (h : Step Kind.disk w w') {i : Nat} {p : Path} {x : Key × Nat}
    (hm : FileW.maps w i p = some x) : FileW.maps w' i p = some x := by
  cases h with
  | @subdir o d _ r _ h =>
    cases h
    change upd (FileW.maps w) (FileW.next w) (fun _ => none) i p = _
    by_cases he : i = FileW.next w
    · have := hr.unborn i p (Nat.le_of_eq he.symm); rw [hm] at this; cases this
    · rw [upd_other _ _ he]; exact hm
  | @exists_ o n _ r _ h =>
    change FileSt.pathExists _ w = (r, w') at h
    obtain ⟨b, w1, h1, q1, _⟩ := FileSt.pathExists_spec (join o.path n) w
    rw [h1] at h; cases h; rw [q1.maps]; exact hm
  | @read o n _ r _ _ h =>
    change FileSt.readResource o n w = (r, w') at h
    rcases FileSt.read_spec o n w with ⟨k, m, w1, _, q, _, h2⟩ | ⟨d, w1, hn, _, _, q, _, h2⟩ | ⟨x, w1, q, _, h2, _⟩ <;>
      rw [h2] at h <;> cases h
    · rw [q.maps]; exact hm
    · change upd w1.maps (Obj.id o) _ i p = _
      by_cases he : i = Obj.id o
      · subst he
        rw [upd_same]
        by_cases hp : p = join o.path n
        · subst hp; rw [hn] at hm; cases hm
        · rw [upd_other _ _ hp, q.maps]; exact hm
      · rw [upd_other _ _ he, q.maps]; exact hm
    · rw [q.maps]; exact hm
  | @create o n _ r _ _ h =>
    change FileSt.createOutputStream o n w = (r, w') at h
    rcases FileSt.create_spec o n w with ⟨w1, q, _, h2⟩ | ⟨x, w1, q, h2⟩ | ⟨x, w1, q, h2⟩ <;> rw [h2] at h <;> cases h
    · change w1.maps i p = _; rw [q.maps]; exact hm
    · rw [q.maps]; exact hm
    · change w1.maps i p = _; rw [q.maps]; exact hm
  | @write t b _ r _ h =>
    change FileSt.writeAll t b w = (r, w') at h
    rcases FileSt.writeAll_spec t b w with h2 | ⟨x, k, h2, _⟩ <;> rw [h2] at h <;> cases h <;> exact hm
  | @seek t _ r _ h =>
    change FileSt.seekStart t w = (r, w') at h
    rcases FileSt.seekStart_spec t w with h2 | ⟨x, h2 | h2, _⟩ <;> rw [h2] at h <;> cases h <;> exact hm

theorem Step.held {w w' : k.backend.W} (hr : Reachable k w) (h : Step k w w') {s : Slice k.backend.Base} (hs : k.held w s) :
    k.held w' s := by
  cases k
  · obtain ⟨d, h1, h2⟩ := hs
    have hu : (s.base : MemLoc).1 < MemW.next w := by
      refine Decidable.byContradiction fun hc => ?_
      have := (hr.unborn s.base (by omega)).2
      rw [h1] at this; cases this
    exact ⟨d, (h.mem.2 s.base hu).2 d h1, h2⟩
  · obtain ⟨i, p, n, h1, h2⟩ := hs
    exact ⟨i, p, n, h.maps hr h1, h2⟩

theorem Steps.streamOpen {w w' : k.backend.W} (hr : Reachable k w) (h : Steps k w w') {s : k.backend.Strm} (ho : k.streamOpen w s) :
    k.streamOpen w' s := by
  induction h with
  | refl => exact ho
  | step st s ih => exact s.streamOpen (hr.steps st) ih

theorem Steps.held {w w' : k.backend.W} (hr : Reachable k w) (h : Steps k w w') {s : Slice k.backend.Base} (hs : k.held w s) :
    k.held w' s := by
  induction h with
  | refl => exact hs
  | step st s ih => exact s.held (hr.steps st) ih

/-- Calls that map no file. -/
def Still (k : Kind) (w w' : k.backend.W) : Prop := Steps k w w' ∧ ∀ l, k.unmapped w l → k.unmapped w' l

theorem Still.refl (w : k.backend.W) : Still k w w := ⟨.refl w, fun _ => id⟩

theorem Still.trans {a b c : k.backend.W} (h : Still k a b) (h' : Still k b c) : Still k a c :=
  ⟨h.1.trans h'.1, fun l hl => h'.2 l (h.2 l hl)⟩

/-- What is known about the state before and after a call: kinds of steps. -/
class Moves (k : Kind) (T : k.backend.W → k.backend.W → Prop) : Prop where
  refl : ∀ w, T w w
  trans : ∀ {a b c}, T a b → T b c → T a c
  steps : ∀ {a b}, T a b → Steps k a b
  still : ∀ {a b}, Still k a b → T a b

instance : Moves k (Steps k) := ⟨.refl, .trans, id, And.left⟩
instance : Moves k (Still k) := ⟨.refl, .trans, And.left, id⟩

/-- From a state satisfying `P`, code performs no undefined access, moves by `T`, keeps mapped files, and satisfies `Q` of its value
if it succeeds. -/
def Safe (k : Kind) (T : k.backend.W → k.backend.W → Prop) {E α : Type} (P : k.backend.W → Prop) (x : Act k.backend.W E α)
    (Q : α → k.backend.W → Prop) : Prop :=
  ∀ w, Reachable k w → k.intact w → P w → (x w).1 ≠ .ub ∧ T w (x w).2 ∧ k.intact (x w).2 ∧ ∀ a, (x w).1 = .ok a → Q a (x w).2

/-- A statement about the state that stays true. -/
def Stable (k : Kind) (T : k.backend.W → k.backend.W → Prop) (J : k.backend.W → Prop) : Prop :=
  ∀ w w', Reachable k w → T w w' → J w → J w'

section
variable {T : k.backend.W → k.backend.W → Prop} [m : Moves k T] {E E' α β : Type} {P J : k.backend.W → Prop} {Q : α → k.backend.W → Prop}

theorem Safe.bind {x : Act k.backend.W E α} {f : α → Act k.backend.W E β} {Q' : β → k.backend.W → Prop} (hx : Safe k T P x Q)
    (hf : ∀ a, Safe k T (Q a) (f a) Q') : Safe k T P (x >>= f) Q' := by
  intro w hr hi hw
  have h1 := hx w hr hi hw
  rw [Act.bind_def]
  split
  · rename_i a w' heq
    rw [heq] at h1
    obtain ⟨_, h2, h3, h4⟩ := h1
    obtain ⟨g1, g2, g3, g4⟩ := hf a w' (hr.steps (m.steps h2)) h3 (h4 a rfl)
    exact ⟨g1, m.trans h2 g2, g3, g4⟩
  · rename_i heq; rw [heq] at h1; exact ⟨by simp, h1.2.1, h1.2.2.1, fun _ h => by cases h⟩
  · rename_i heq; rw [heq] at h1; exact ⟨by simp, h1.2.1, h1.2.2.1, fun _ h => by cases h⟩
  · rename_i heq; rw [heq] at h1; exact absurd rfl h1.1

theorem Safe.pure (a : α) (h : ∀ w, P w → Q a w) : Safe k T P (Pure.pure a : Act k.backend.W E α) Q :=
  fun w _ hi hw => ⟨by simp [Pure.pure], m.refl w, hi, fun b hb => by cases hb; exact h w hw⟩

theorem Safe.fail (e : E) : Safe k T P (Act.fail e : Act k.backend.W E α) Q :=
  fun w _ hi _ => ⟨by simp [Act.fail], m.refl w, hi, fun b hb => by cases hb⟩

theorem Safe.lift {x : Out α} (hx : x ≠ .ub) : Safe k T P (Act.lift x : Act k.backend.W E α) (fun a w => P w ∧ x = .ok a) := by
  intro w _ hi hw
  cases x
  · exact ⟨by simp [Act.lift], m.refl w, hi, fun b hb => by cases hb; exact ⟨hw, rfl⟩⟩
  · exact ⟨by simp [Act.lift], m.refl w, hi, fun b hb => by cases hb⟩
  · exact absurd rfl hx

omit m in
theorem Safe.mono {x : Act k.backend.W E α} {P' : k.backend.W → Prop} {Q' : α → k.backend.W → Prop} (h : Safe k T P x Q)
    (hP : ∀ w, P' w → P w) (hQ : ∀ a w, Q a w → Q' a w) : Safe k T P' x Q' :=
  fun w hr hi hw => let ⟨h1, h2, h3, h4⟩ := h w hr hi (hP w hw); ⟨h1, h2, h3, fun a ha => hQ a _ (h4 a ha)⟩

omit m in
theorem Safe.frame {x : Act k.backend.W E α} (h : Safe k T P x Q) (hJ : Stable k T J) :
    Safe k T (fun w => J w ∧ P w) x (fun a w => J w ∧ Q a w) :=
  fun w hr hi hw => let ⟨h1, h2, h3, h4⟩ := h w hr hi hw.2; ⟨h1, h2, h3, fun a ha => ⟨hJ _ _ hr h2 hw.1, h4 a ha⟩⟩

theorem Safe.of_still {x : Act k.backend.W E α} (h : Safe k (Still k) P x Q) : Safe k T P x Q :=
  fun w hr hi hw => let ⟨h1, h2, h3, h4⟩ := h w hr hi hw; ⟨h1, m.still h2, h3, h4⟩

omit m in
theorem Safe.mapErr {x : Act k.backend.W E α} {f : E → E'} (hx : Safe k T P x Q) : Safe k T P (x.mapErr f) Q := by
  intro w hr hi hw
  have h1 := hx w hr hi hw
  unfold Act.mapErr
  split <;> (rename_i heq; rw [heq] at h1)
  · exact ⟨by simp, h1.2.1, h1.2.2.1, fun a ha => by cases ha; exact h1.2.2.2 _ rfl⟩
  · exact ⟨by simp, h1.2.1, h1.2.2.1, fun a ha => by cases ha⟩
  · exact ⟨by simp, h1.2.1, h1.2.2.1, fun a ha => by cases ha⟩
  · exact absurd rfl h1.1

omit m in
theorem Safe.attempt {x : Act k.backend.W E α} (hx : Safe k T P x Q) :
    Safe k T P (x.attempt : Act k.backend.W E' (Except E α)) (fun r w => ∀ a, r = .ok a → Q a w) := by
  intro w hr hi hw
  have h1 := hx w hr hi hw
  unfold Act.attempt
  split <;> (rename_i heq; rw [heq] at h1)
  · exact ⟨by simp, h1.2.1, h1.2.2.1, fun a ha b hb => by cases ha; cases hb; exact h1.2.2.2 _ rfl⟩
  · exact ⟨by simp, h1.2.1, h1.2.2.1, fun a ha b hb => by cases ha; cases hb⟩
  · exact ⟨by simp, h1.2.1, h1.2.2.1, fun a ha => by cases ha⟩
  · exact absurd rfl h1.1

omit m in
theorem Stable.and {J J' : k.backend.W → Prop} (h : Stable k T J) (h' : Stable k T J') : Stable k T (fun w => J w ∧ J' w) :=
  fun w w' hr ht hj => ⟨h w w' hr ht hj.1, h' w w' hr ht hj.2⟩

theorem stable_alive {o : k.backend.Obj} : Stable k T (fun w => k.alive w o) := fun _ _ _ h => (m.steps h).alive

theorem stable_open {s : k.backend.Strm} : Stable k T (fun w => k.streamOpen w s) := fun _ _ hr h => (m.steps h).streamOpen hr

theorem stable_held {s : Slice k.backend.Base} : Stable k T (fun w => k.held w s) := fun _ _ hr h => (m.steps h).held hr

omit m in
theorem stable_const {p : Prop} : Stable k T (fun _ => p) := fun _ _ _ _ => id

omit m in
theorem stable_true : Stable k T (fun _ => True) := fun _ _ _ _ => id

end

theorem stable_unmapped {l : k.Place} : Stable k (Still k) (fun w => k.unmapped w l) := fun _ _ _ h => h.2 l

/-! ## The methods of the storages -/

theorem safe_exists {o : k.backend.Obj} {n : String} : Safe k (Still k) (fun _ => True) (k.backend.existsRes o n) (fun _ _ => True) := by
  intro w hr hi _
  cases k
  · exact ⟨by simp [MemSt.existsRes], .refl _, trivial, fun _ _ => trivial⟩
  · obtain ⟨b, w1, h1, q1, _⟩ := FileSt.pathExists_spec (join o.path n) w
    have h2 : (backend disk).existsRes o n w = (.ok b, w1) := h1
    rw [h2]
    refine ⟨by simp, ⟨.step (.refl _) (.exists_ h2), fun l hl => ?_⟩, ?_, fun _ _ => trivial⟩
    · intro i p m; rw [q1.maps]; exact hl i p m
    · intro i p l m hm; rw [q1.files]; rw [q1.maps] at hm; exact hi i p l m hm

theorem safe_subdir {o : k.backend.Obj} {d : String} {N : String → Prop} :
    Safe k (Still k) (fun w => ∀ n, N n → k.subUnmapped w o d n) (k.backend.subdir o d)
      (fun o' w => k.alive w o' ∧ ∀ n, N n → k.unmapped w (k.place o' n)) := by
  intro w hr hi hN
  refine ⟨?_, ⟨.step (.refl _) (.subdir rfl), ?_⟩, ?_, ?_⟩
  · cases k <;> simp [FileSt.subdir, FileSt.new, MemSt.subdir, MemSt.new]
  · cases k
    · exact fun _ _ => trivial
    · intro l hl i p n hm
      change upd (FileW.maps w) (FileW.next w) (fun _ => none) i p = _ at hm
      by_cases he : i = FileW.next w
      · rw [he, upd_same] at hm; cases hm
      · rw [upd_other _ _ he] at hm; exact hl i p n hm
  · cases k
    · trivial
    · intro i p l n hm
      change upd (FileW.maps w) (FileW.next w) (fun _ => none) i p = _ at hm
      by_cases he : i = FileW.next w
      · rw [he, upd_same] at hm; cases hm
      · rw [upd_other _ _ he] at hm; exact hi i p l n hm
  · cases k
    · intro o' h; cases h; exact ⟨Nat.lt_succ_self _, fun _ _ => trivial⟩
    · intro o' h
      cases h
      refine ⟨Nat.lt_succ_self _, fun n hn i p m hm => ?_⟩
      change upd (FileW.maps w) (FileW.next w) (fun _ => none) i p = _ at hm
      by_cases he : i = FileW.next w
      · rw [he, upd_same] at hm; cases hm
      · rw [upd_other _ _ he] at hm; exact hN n hn i p m hm

theorem safe_read {o : k.backend.Obj} {n : String} : Safe k (Steps k) (fun w => k.alive w o) (k.backend.readResource o n)
    (fun s w => k.held w s) := by
  intro w hr hi ho
  have st : Steps k w (k.backend.readResource o n w).2 := .step (.refl _) (.read ho rfl)
  refine ⟨?_, st, ?_⟩
  · cases k
    · change (MemSt.readResource o n w).1 ≠ _
      rcases MemSt.read_cases o n w with ⟨d, h1, h2⟩ | ⟨d, q, h1, h3, h2⟩ | ⟨_, _, h2⟩ <;> rw [h2] <;> simp
    · change (FileSt.readResource o n w).1 ≠ _
      rcases FileSt.read_spec o n w with ⟨k, m, w1, _, q, _, h2⟩ | ⟨d, w1, _, _, _, q, _, h2⟩ | ⟨x, w1, q, _, h2, _⟩ <;>
        rw [h2] <;> simp
  · clear st
    cases k
    · refine ⟨trivial, fun s hs => ?_⟩
      change (MemSt.readResource o n w).1 = _ at hs
      change held memory (MemSt.readResource o n w).2 s
      rcases MemSt.read_cases o n w with ⟨d, h1, h2⟩ | ⟨d, q, h1, h3, h2⟩ | ⟨_, _, h2⟩ <;> rw [h2] at hs ⊢ <;> cases hs
      · exact ⟨d, h1, by simp⟩
      · exact ⟨d, upd_same _ _ _, by simp⟩
    · change intact disk (FileSt.readResource o n w).2 ∧ ∀ a, (FileSt.readResource o n w).1 = _ → held disk (FileSt.readResource o n w).2 a
      rcases FileSt.read_spec o n w with ⟨k, m, w1, h1, q, _, h2⟩ | ⟨d, w1, hn, hd, _, q, _, h2⟩ | ⟨x, w1, q, _, h2, _⟩ <;> rw [h2]
      · refine ⟨fun i p l m hm => ?_, fun s hs => ?_⟩
        · rw [q.files]; rw [q.maps] at hm; exact hi i p l m hm
        · cases hs; exact ⟨_, _, m, by rw [q.maps]; exact h1, by simp⟩
      · refine ⟨fun i p l m hm => ?_, fun s hs => ?_⟩
        · change upd w1.maps (Obj.id o) _ i p = _ at hm
          change ∃ d, w1.fs.files l = some d ∧ m ≤ d.length
          rw [q.files]
          by_cases he : i = Obj.id o
          · subst he
            rw [upd_same] at hm
            by_cases hp : p = join o.path n
            · subst hp; rw [upd_same] at hm; cases hm; exact ⟨d, hd, Nat.le_refl _⟩
            · rw [upd_other _ _ hp, q.maps] at hm; exact hi _ p l m hm
          · rw [upd_other _ _ he, q.maps] at hm; exact hi i p l m hm
        · cases hs
          refine ⟨Obj.id o, join o.path n, d.length, ?_, by simp⟩
          change upd w1.maps (Obj.id o) _ _ _ = _
          rw [upd_same, upd_same]
      · refine ⟨fun i p l m hm => ?_, fun s hs => by cases hs⟩
        rw [q.files]; rw [q.maps] at hm; exact hi i p l m hm

theorem safe_create {o : k.backend.Obj} {n : String} : Safe k (Still k) (fun w => k.alive w o ∧ k.unmapped w (k.place o n))
    (k.backend.createOutputStream o n) (fun s w => k.streamOpen w s) := by
  intro w hr hi ⟨ho, hu⟩
  have st : Steps k w (k.backend.createOutputStream o n w).2 := .step (.refl _) (.create ho rfl)
  have hs : ∀ s, (k.backend.createOutputStream o n w).1 = .ok s → k.streamOpen (k.backend.createOutputStream o n w).2 s := by
    intro s hs
    have hc : k.backend.createOutputStream o n w = (.ok s, (k.backend.createOutputStream o n w).2) := by rw [← hs]
    exact open_live.mpr (k.laws.create_ok hc).1
  cases k
  · refine ⟨?_, ⟨st, fun _ _ => trivial⟩, trivial, hs⟩
    change (MemSt.createOutputStream o n w).1 ≠ _
    rcases MemSt.create_cases o n w with ⟨x, h1, h2⟩ | ⟨h1, h2⟩ <;> rw [h2] <;> simp
  · have key : (FileSt.createOutputStream o n w).1 ≠ .ub ∧ FileW.maps (FileSt.createOutputStream o n w).2 = FileW.maps w ∧
        ∀ l, l ≠ key (join o.path n) → (FileSt.createOutputStream o n w).2.fs.files l = FS.files (FileW.fs w) l := by
      rcases FileSt.create_spec o n w with ⟨w1, q, _, h2⟩ | ⟨x, w1, q, h2⟩ | ⟨x, w1, q, h2⟩ <;> rw [h2]
      · refine ⟨by simp, q.maps, fun l hl => ?_⟩
        change upd w1.fs.files _ _ l = _
        rw [upd_other _ _ hl, q.files]
      · exact ⟨by simp, q.maps, fun l _ => by rw [q.files]⟩
      · refine ⟨by simp, q.maps, fun l hl => ?_⟩
        change upd w1.fs.files _ _ l = _
        rw [upd_other _ _ hl, q.files]
    obtain ⟨h1, h2, h3⟩ := key
    refine ⟨h1, ⟨st, fun l hl i p m hm => ?_⟩, fun i p l m hm => ?_, hs⟩
    · change (FileSt.createOutputStream o n w).2.maps i p = _ at hm
      rw [h2] at hm; exact hl i p m hm
    · change (FileSt.createOutputStream o n w).2.maps i p = _ at hm
      rw [h2] at hm
      have hne : l ≠ key (join o.path n) := by rintro rfl; exact hu i p m hm
      change ∃ d, (FileSt.createOutputStream o n w).2.fs.files l = some d ∧ _
      rw [h3 l hne]; exact hi i p l m hm

theorem safe_write {s : k.backend.Strm} {b : Bytes} : Safe k (Still k) (fun w => k.streamOpen w s) (k.backend.writeAll s b)
    (fun _ _ => True) := by
  intro w hr hi ho
  have st : Steps k w (k.backend.writeAll s b w).2 := .step (.refl _) (.write rfl)
  cases k
  · refine ⟨?_, ⟨st, fun _ _ => trivial⟩, trivial, fun _ _ => trivial⟩
    change (MemSt.writeAll s b w).1 ≠ _
    unfold MemSt.writeAll
    split
    · simp
    · next h => exact absurd h ho
  · have key : ∀ c, FileW.maps (FileSt.written (FileSt.tk w) s c) = FileW.maps w ∧ intact disk (FileSt.written (FileSt.tk w) s c) := by
      intro c
      refine ⟨rfl, fun i p l m hm => ?_⟩
      obtain ⟨d, h1, h2⟩ := hi i p l m hm
      change ∃ d, upd (FS.files (FileW.fs w)) (FS.fds (FileW.fs w) s).1 _ l = some d ∧ m ≤ d.length
      by_cases he : l = (FS.fds (FileW.fs w) s).1
      · subst he
        rw [upd_same]
        change ∃ d, (FS.files (FileW.fs w) (FS.fds (FileW.fs w) s).1).map (putAt · (FS.fds (FileW.fs w) s).2 c) = some d ∧ m ≤ d.length
        rw [h1]
        refine ⟨_, rfl, ?_⟩
        exact Nat.le_trans h2 (putAt_length_le _ _ _)
      · rw [upd_other _ _ he]; exact ⟨d, h1, h2⟩
    have h2 : (FileSt.writeAll s b w).1 ≠ .ub ∧ ∃ c, (FileSt.writeAll s b w).2 = FileSt.written (FileSt.tk w) s c := by
      rcases FileSt.writeAll_spec s b w with h2 | ⟨x, j, h2, _⟩ <;> rw [h2]
      · exact ⟨by simp, _, rfl⟩
      · exact ⟨by simp, _, rfl⟩
    obtain ⟨h2, c, h3⟩ := h2
    refine ⟨h2, ⟨st, fun l hl i p m hm => ?_⟩, ?_, fun _ _ => trivial⟩
    · change (FileSt.writeAll s b w).2.maps i p = _ at hm
      rw [h3, (key c).1] at hm; exact hl i p m hm
    · change intact disk (FileSt.writeAll s b w).2
      rw [h3]; exact (key c).2

theorem safe_seek {s : k.backend.Strm} : Safe k (Still k) (fun w => k.streamOpen w s) (k.backend.seekStart s) (fun _ _ => True) := by
  intro w hr hi ho
  have st : Steps k w (k.backend.seekStart s w).2 := .step (.refl _) (.seek rfl)
  cases k
  · refine ⟨?_, ⟨st, fun _ _ => trivial⟩, trivial, fun _ _ => trivial⟩
    change (MemSt.seekStart s w).1 ≠ _
    unfold MemSt.seekStart
    split
    · simp
    · next h => exact absurd h ho
  · have h2 : (FileSt.seekStart s w).1 ≠ .ub ∧ (FileSt.seekStart s w).2.maps = FileW.maps w ∧
        (FileSt.seekStart s w).2.fs.files = FS.files (FileW.fs w) := by
      rcases FileSt.seekStart_spec s w with h2 | ⟨x, h2 | h2, _⟩ <;> rw [h2] <;> exact ⟨by simp, rfl, rfl⟩
    obtain ⟨h1, h2, h3⟩ := h2
    refine ⟨h1, ⟨st, fun l hl i p m hm => ?_⟩, fun i p l m hm => ?_, fun _ _ => trivial⟩
    · change (FileSt.seekStart s w).2.maps i p = _ at hm
      rw [h2] at hm; exact hl i p m hm
    · change (FileSt.seekStart s w).2.maps i p = _ at hm
      change ∃ d, (FileSt.seekStart s w).2.fs.files l = some d ∧ _
      rw [h2] at hm; rw [h3]; exact hi i p l m hm

/-- What is held can be read. -/
theorem deref_held {w : k.backend.W} {s : Slice k.backend.Base} (hi : k.intact w) (hs : k.held w s) :
    ∃ b, k.backend.deref w s = .ok b ∧ b.length = s.len := by
  have key : s.off + s.len ≤ (k.backend.content w s.base).length := by
    cases k
    · obtain ⟨d, h1, h2⟩ := hs
      change _ ≤ ((MemW.resources w s.base).getD []).length
      rw [h1]; exact h2
    · obtain ⟨i, p, n, h1, h2⟩ := hs
      obtain ⟨d, h3, h4⟩ := hi i p s.base n h1
      change _ ≤ ((FS.files (FileW.fs w) s.base).getD []).length
      rw [h3]; exact Nat.le_trans h2 h4
  unfold Backend.deref
  rw [if_pos key]
  exact ⟨_, rfl, by simp; omega⟩

theorem safe_load {s : Slice k.backend.Base} {E : Type} :
    Safe k (Still k) (fun w => k.held w s) (k.backend.load s : Act k.backend.W E Bytes) (fun b _ => b.length = s.len) := by
  intro w hr hi hs
  obtain ⟨b, h1, h2⟩ := deref_held hi hs
  unfold Backend.load
  rw [h1]
  exact ⟨by simp [Act.lift], .refl _, hi, fun a ha => by cases ha; exact h2⟩


/-! ## The functions built on them -/

section
variable {T : k.backend.W → k.backend.W → Prop} [m : Moves k T] {E E' α β : Type} {P J : k.backend.W → Prop} {Q : α → k.backend.W → Prop}

omit m in
theorem Safe.keep {x : Act k.backend.W E α} (h : Safe k T P x Q) (hJ : Stable k T J) (hP : ∀ w, J w → P w) :
    Safe k T J x (fun a w => J w ∧ Q a w) :=
  (h.frame hJ).mono (fun w hw => ⟨hw, hP w hw⟩) fun _ _ h => h

omit m in
theorem Safe.keep' {x : Act k.backend.W E α} (h : Safe k T P x Q) (hJ : Stable k T J) (hP : ∀ w, J w → P w) :
    Safe k T J x (fun _ w => J w) :=
  (h.keep hJ hP).mono (fun _ h => h) fun _ _ h => h.1

theorem Safe.liftK {x : Out α} (hx : x ≠ .ub) : Safe k T P (Act.lift x : Act k.backend.W E α) (fun _ w => P w) :=
  (Safe.lift hx).mono (fun _ h => h) fun _ _ h => h.1

omit m in
/-- Facts that do not depend on the state. -/
theorem Safe.given {x : Act k.backend.W E α} {c : Prop} (h : ∀ w, P w → c) (hx : c → Safe k T P x Q) : Safe k T P x Q :=
  fun w hr hi hw => hx (h w hw) w hr hi hw

omit m in
/-- Errors as values. -/
theorem Safe.attempt' {x : Act k.backend.W E α} (hx : Safe k T P x Q) (hJ : Stable k T J) (hP : ∀ w, J w → P w) :
    Safe k T J (x.attempt : Act k.backend.W E' (Except E α)) (fun r w => J w ∧ ∀ a, r = .ok a → Q a w) :=
  hx.attempt.keep hJ hP

theorem stable_handle {h : Handle k.backend} : Stable k T (fun w => HandleFine w h) :=
  fun _ _ hr ht hf => ⟨fun s hs => (m.steps ht).streamOpen hr (hf.stream s hs), (m.steps ht).alive hf.obj⟩

theorem stable_multi {v : MultiVec k.backend} : Stable k T (fun w => MultiFine w v) :=
  fun w w' hr ht hf => ⟨stable_handle w w' hr ht hf.handle, stable_handle w w' hr ht hf.index⟩

end

section
variable {J : k.backend.W → Prop} {p : Profile} {e : Endian} {s : k.backend.Strm} {o : k.backend.Obj} {name schema : String}

theorem safe_writeSize {n : Nat} (hJ : Stable k (Still k) J) (ho : ∀ w, J w → k.streamOpen w s) :
    Safe k (Still k) J (Storage.writeSize k.backend p e n s) (fun _ w => J w) :=
  .bind (.liftK (writeBytes_ne_ub (by decide) (by simp))) fun _ => safe_write.keep' hJ ho

theorem safe_writeToStream {d : Bytes} (hJ : Stable k (Still k) J) (ho : ∀ w, J w → k.streamOpen w s) :
    Safe k (Still k) J (Storage.writeToStream k.backend p e d s) (fun _ w => J w) :=
  .bind (safe_writeSize hJ ho) fun _ => .bind (safe_write.keep' hJ ho) fun _ => safe_write.keep' hJ ho

/-- A resource and its schema can be created. -/
abbrev Free (k : Kind) (o : k.backend.Obj) (name : String) : k.backend.W → Prop := fun w => k.alive w o ∧ k.writable w o name

theorem stable_free : Stable k (Still k) (Free k o name) := stable_alive.and (stable_unmapped.and stable_unmapped)

theorem safe_storageWrite {d : Bytes} (hJ : Stable k (Still k) J) (h : ∀ w, J w → Free k o name w) :
    Safe k (Still k) J (Storage.write k.backend p e o name schema d) (fun _ w => J w) := by
  refine .bind (safe_create.keep hJ fun w hw => ⟨(h w hw).1, (h w hw).2.1⟩) fun s => ?_
  have h1 : Stable k (Still k) (fun w => J w ∧ k.streamOpen w s) := hJ.and stable_open
  refine .bind (safe_writeToStream h1 fun _ h => h.2) fun _ => ?_
  refine .bind (safe_create.keep h1 fun w hw => ⟨(h w hw.1).1, (h w hw.1).2.2⟩) fun t => ?_
  exact (safe_write.keep' (h1.and stable_open) fun _ h => h.2).mono (fun _ h => h) fun _ _ h => h.1.1

theorem safe_createArchive (hJ : Stable k (Still k) J) (h : ∀ w, J w → Free k o name w) :
    Safe k (Still k) J (Storage.createArchive k.backend p e o name schema) (fun _ w => J w) := by
  refine .bind (safe_exists.mapErr.keep' hJ fun _ _ => trivial) fun x => ?_
  split
  · exact .fail _
  · exact (safe_storageWrite hJ h).mapErr

theorem held_sub {w : k.backend.W} {s : Slice k.backend.Base} (h : k.held w s) {off len : Nat} (h1 : s.off ≤ off)
    (h2 : off + len ≤ s.off + s.len) : k.held w ⟨s.base, off, len⟩ := by
  cases k
  · obtain ⟨d, h3, h4⟩ := h; exact ⟨d, h3, by simp only; omega⟩
  · obtain ⟨i, q, n, h3, h4⟩ := h; exact ⟨i, q, n, h3, by simp only; omega⟩

theorem readHeader_ne_ub {b : Bytes} (h : b.length = 8) : readBytes p e .u64 b 0 64 ≠ .ub := by
  rw [readBytes_code (by decide) (by decide) (by omega) (.inr (by decide))]
  simp

theorem safe_checkResource [DiffLib] {data sch : Slice k.backend.Base} (hJ : Stable k (Steps k) J)
    (hd : ∀ w, J w → k.held w data) (hs : ∀ w, J w → k.held w sch) :
    Safe k (Steps k) J (Storage.checkResource k.backend p e name schema data sch) (fun r w => J w ∧ k.held w r) := by
  unfold Storage.checkResource
  split
  · exact .fail _
  · next h16 =>
    have hp : paddingSize = 8 := rfl
    refine .bind (safe_load.of_still.keep hJ fun w hw => held_sub (hd w hw) (Nat.le_refl _) (by omega)) fun header => ?_
    refine Safe.bind (Q := fun _ w => J w) ?_ fun size => ?_
    · exact .given (fun _ h => h.2) fun hl => (Safe.liftK (readHeader_ne_ub hl)).mono (fun _ h => h.1) fun _ _ h => h
    · refine .bind (.liftK uadd_ne_ub) fun t => .bind (.liftK uadd_ne_ub) fun u => ?_
      split
      · exact .fail _
      · refine .bind (safe_load.of_still.keep' hJ hs) fun stored => ?_
        unfold Storage.checkSchema
        split
        · exact .fail _
        · split
          · exact .fail _
          · refine (Safe.lift (by unfold Storage.payload; split <;> simp)).mono (fun _ h => h) fun r w h => ⟨h.1, ?_⟩
            have h2 := h.2
            unfold Storage.payload at h2
            split at h2
            · cases h2; exact held_sub (hd w h.1) (by omega) (by omega)
            · cases h2

theorem safe_storageRead [DiffLib] (hJ : Stable k (Steps k) J) (ho : ∀ w, J w → k.alive w o) :
    Safe k (Steps k) J (Storage.read k.backend p e o name schema) (fun r w => J w ∧ k.held w r) := by
  refine .bind (safe_read.mapErr.keep hJ ho) fun d => ?_
  have h1 : Stable k (Steps k) (fun w => J w ∧ k.held w d) := hJ.and stable_held
  refine .bind (safe_read.mapErr.keep h1 fun w hw => ho w hw.1) fun c => ?_
  exact (safe_checkResource (h1.and stable_held) (fun _ h => h.1.2) fun _ h => h.2).mono (fun _ h => h) fun _ _ h => ⟨h.1.1.1, h.2⟩

/-! ### Handles and vectors -/

theorem safe_tryNew (hJ : Stable k (Still k) J) (h : ∀ w, J w → k.alive w o ∧ k.streamOpen w s) :
    Safe k (Still k) J (Handle.tryNew p e o name schema s) (fun r w => J w ∧ HandleFine w r) :=
  .bind (safe_writeSize hJ fun w hw => (h w hw).2) fun _ =>
    .pure _ fun w hw => ⟨hw, ⟨fun t ht => by cases ht; exact (h w hw).2, (h w hw).1⟩⟩

theorem safe_handleWrite {h : Handle k.backend} {d : Bytes} (hJ : Stable k (Still k) J) (hh : ∀ w, J w → HandleFine w h) :
    Safe k (Still k) J (h.write p d) (fun r w => J w ∧ HandleFine w r) := by
  unfold Handle.write
  split
  · exact .fail _
  · next t ht =>
    refine .bind (safe_write.keep' hJ fun w hw => (hh w hw).stream t ht) fun _ => .bind (.liftK uadd_ne_ub) fun n => ?_
    exact .pure _ fun w hw => ⟨hw, fun u hu => (hh w hw).stream u hu, (hh w hw).obj⟩

theorem stable_of_steps {J : k.backend.W → Prop} (h : Stable k (Steps k) J) : Stable k (Still k) J := fun w w' hr ht => h w w' hr ht.1

theorem safe_handleClose [DiffLib] {h : Handle k.backend} (hJ : Stable k (Steps k) J) (hh : ∀ w, J w → HandleFine w h) :
    Safe k (Steps k) J (h.close p e) (fun r w => J w ∧ HandleFine w r.2 ∧ ∀ s, r.1 = .ok s → k.held w s) := by
  unfold Handle.close
  split
  · exact .pure _ fun w hw => ⟨hw, hh w hw, fun s hs => by cases hs⟩
  · next t ht =>
    have hf : Safe k (Still k) J (h.finish p e t) (fun _ w => J w) :=
      .bind (safe_write.keep' (stable_of_steps hJ) fun w hw => (hh w hw).stream t ht) fun _ =>
        .bind (safe_seek.keep' (stable_of_steps hJ) fun w hw => (hh w hw).stream t ht) fun _ =>
          safe_writeSize (stable_of_steps hJ) fun w hw => (hh w hw).stream t ht
    refine .bind (hf.of_still.attempt' hJ fun _ h => h) fun r => ?_
    cases r with
    | error x => exact .pure _ fun w hw => ⟨hw.1, hh w hw.1, fun s hs => by cases hs⟩
    | ok u =>
      cases u
      refine .bind (((safe_storageRead hJ fun w hw => (hh w hw).obj).attempt' hJ fun _ h => h).mono (fun _ h => h.1) fun _ _ h => h) fun r => ?_
      exact .pure _ fun w hw => ⟨hw.1, ⟨(fun s hs => by cases hs), (hh w hw.1).obj⟩, fun s hs => (hw.2 s hs).2⟩

theorem safe_drop {E : Type} {h : Handle k.backend} : Safe k (Still k) J (h.drop : Act k.backend.W E Unit) (fun _ w => J w) := by
  unfold Handle.drop
  split
  · exact .liftK panic_ne_ub
  · exact .pure _ fun _ h => h

theorem safe_createVector (hJ : Stable k (Still k) J) (h : ∀ w, J w → Free k o name w) :
    Safe k (Still k) J (createExternalVector p e o name schema) (fun v w => J w ∧ HandleFine w v.handle ∧ v.data.length < 2 ^ 63) := by
  refine .bind (safe_create.keep hJ fun w hw => ⟨(h w hw).1, (h w hw).2.2⟩) fun t => ?_
  have h1 : Stable k (Still k) (fun w => J w ∧ k.streamOpen w t) := hJ.and stable_open
  refine .bind (safe_write.keep' h1 fun _ h => h.2) fun _ => ?_
  refine .bind (safe_create.keep h1 fun w hw => ⟨(h w hw.1).1, (h w hw.1).2.1⟩) fun u => ?_
  refine .bind (safe_tryNew (h1.and stable_open) fun w hw => ⟨(h w hw.1.1).1, hw.2⟩) fun x => ?_
  exact .pure _ fun w hw => ⟨hw.1.1.1, hw.2, by simp [ExtVec.new, paddingSize]⟩

theorem safe_flush {v : ExtVec k.backend} (hJ : Stable k (Still k) J) (hh : ∀ w, J w → HandleFine w v.handle) :
    Safe k (Still k) J (v.flush p) (fun r w => J w ∧ HandleFine w r.handle ∧ r.data.length = 8) :=
  .bind (.liftK usub_ne_ub) fun _ => .bind (.liftK sliceRange_ne_ub) fun _ => .bind (safe_handleWrite hJ hh) fun _ =>
    .pure _ fun _ hw => ⟨hw.1, hw.2, by simp [paddingSize]⟩

theorem safe_vectorGrow {v : ExtVec k.backend} {size : Nat} (hJ : Stable k (Still k) J) (hh : ∀ w, J w → HandleFine w v.handle) :
    Safe k (Still k) J (v.grow p size) (fun r w => J w ∧ HandleFine w r.1.handle ∧ r.1.data.length < 2 ^ 63 ∧
      (v.data.length < 2 ^ 63 → size < 2 ^ 63 → r.2 + size ≤ r.1.data.length)) := by
  have hf : Safe k (Still k) J (v.flushIfFull p) (fun r w => (v.data.length < 2 ^ 63 → r.data.length < 2 ^ 63) ∧ J w ∧ HandleFine w r.handle) := by
    unfold ExtVec.flushIfFull
    split
    · exact (safe_flush hJ hh).mono (fun _ h => h) fun _ _ h => ⟨fun _ => by rw [h.2.2]; decide, h.1, h.2.1⟩
    · exact .pure _ fun w hw => ⟨id, hw, hh w hw⟩
  refine .bind hf fun v' => ?_
  refine .bind (.lift uadd_ne_ub) fun n => .bind (.lift alloc_ne_ub) fun _ => .bind (.liftK uadd_ne_ub) fun len =>
    .bind (.lift usub_ne_ub) fun pos => .bind (.lift sliceFrom_ne_ub) fun x => .pure _ fun w hw => ?_
  obtain ⟨⟨⟨⟨⟨hl, hw⟩, h1⟩, h2⟩, h3⟩, h4⟩ := hw
  refine ⟨hw.1, hw.2, by rw [resize0_length]; exact alloc_ok h2, fun hv hs => ?_⟩
  have hl := hl hv
  have e1 := uadd_inv h1 (by omega)
  have e3 := usub_inv h3
  have e4 := (sliceFrom_ok h4).1
  have e2 := alloc_ok h2
  rw [resize0_length] at e4
  simp only [resize0_length]
  have : paddingSize = 8 := rfl
  omega

theorem safe_ofExcept {T : k.backend.W → k.backend.W → Prop} [Moves k T] {E α : Type} {P : k.backend.W → Prop} {r : Except E α} :
    Safe k T P (Act.ofExcept r) (fun a w => P w ∧ r = .ok a) := by
  cases r
  · exact .fail _
  · exact .pure _ fun _ h => ⟨h, rfl⟩

theorem safe_closeHandle [DiffLib] {v : ExtVec k.backend} (hJ : Stable k (Steps k) J) (hh : ∀ w, J w → HandleFine w v.handle) :
    Safe k (Steps k) J (v.closeHandle p e) (fun s w => J w ∧ k.held w s) := by
  refine .bind (safe_handleClose hJ hh).mapErr fun r => .bind safe_drop.of_still fun _ => ?_
  exact safe_ofExcept.mono (fun _ h => h) fun a w h => ⟨h.1.1, h.1.2.2 a h.2⟩

theorem safe_vectorClose [DiffLib] {v : ExtVec k.backend} (hJ : Stable k (Steps k) J) (hh : ∀ w, J w → HandleFine w v.handle) :
    Safe k (Steps k) J (v.close p e) (fun s w => J w ∧ k.held w s) := by
  refine .bind ((safe_flush (stable_of_steps hJ) hh).of_still.attempt' hJ fun _ h => h) fun r => ?_
  cases r with
  | error x => exact .bind safe_drop.of_still fun _ => .fail _
  | ok v' =>
    refine (safe_closeHandle (J := fun w => J w ∧ HandleFine w v'.handle) (hJ.and stable_handle) fun _ h => h.2).mono (fun w h => ⟨h.1, (h.2 v' rfl).2.1⟩)
      fun _ _ h => ⟨h.1.1, h.2⟩

/-! ### Multivectors -/

theorem safe_createData (hJ : Stable k (Still k) J) (h : ∀ w, J w → Free k o name w) :
    Safe k (Still k) J (createDataHandle p e o name schema) (fun v w => J w ∧ HandleFine w v) := by
  refine .bind (safe_create.keep hJ fun w hw => ⟨(h w hw).1, (h w hw).2.2⟩) fun t => ?_
  have h1 : Stable k (Still k) (fun w => J w ∧ k.streamOpen w t) := hJ.and stable_open
  refine .bind (safe_write.keep' h1 fun _ h => h.2) fun _ => ?_
  refine .bind (safe_create.keep h1 fun w hw => ⟨(h w hw.1).1, (h w hw.1).2.1⟩) fun u => ?_
  exact (safe_tryNew (h1.and stable_open) fun w hw => ⟨(h w hw.1.1).1, hw.2⟩).mono (fun _ h => h) fun _ _ hw => ⟨hw.1.1.1, hw.2⟩

theorem safe_createMulti (hJ : Stable k (Still k) J) (h : ∀ w, J w → Free k o name w ∧ Free k o (Storage.indexName name) w) :
    Safe k (Still k) J (createMultiVector p e o name schema) (fun v w => J w ∧ MultiFine w v ∧ v.index.data.length < 2 ^ 63) := by
  refine .bind (safe_createVector hJ fun w hw => (h w hw).2) fun i => ?_
  have h1 : Stable k (Still k) (fun w => J w ∧ HandleFine w i.handle ∧ i.data.length < 2 ^ 63) := hJ.and (stable_handle.and stable_const)
  refine .bind ((safe_createData h1 fun w hw => (h w hw.1).1).attempt' h1 fun _ h => h) fun r => ?_
  cases r with
  | error x => exact .bind safe_drop fun _ => .fail _
  | ok d => exact .pure _ fun w hw => ⟨hw.1.1, ⟨(hw.2 d rfl).2, hw.1.2.1⟩, hw.1.2.2⟩

theorem safe_mflush {v : MultiVec k.backend} (hJ : Stable k (Still k) J) (hh : ∀ w, J w → MultiFine w v) :
    Safe k (Still k) J (v.flush p) (fun r w => J w ∧ MultiFine w r ∧ r.index = v.index) :=
  .bind (.liftK usub_ne_ub) fun _ => .bind (.liftK sliceRange_ne_ub) fun _ =>
    .bind (safe_handleWrite hJ fun w hw => (hh w hw).handle) fun _ =>
    .bind (.liftK uadd_ne_ub) fun _ => .pure _ fun w hw => ⟨hw.1, ⟨hw.2, (hh w hw.1).index⟩, rfl⟩

theorem safe_addToIndex {V : Variadic} {v : MultiVec k.backend} (g : GoodIndex V v.index.data) (hJ : Stable k (Still k) J)
    (hh : ∀ w, J w → MultiFine w v) :
    Safe k (Still k) J (v.addToIndex p e V) (fun r w => J w ∧ MultiFine w r ∧ r.index.data.length < 2 ^ 63) := by
  refine .bind (safe_vectorGrow hJ fun w hw => (hh w hw).index) fun r => ?_
  refine .bind (.liftK uadd_ne_ub) fun n => .bind (.liftK usub_ne_ub) fun n => ?_
  refine .given (fun w hw => hw.2.2.2 g.size g.type) fun hp => ?_
  have hs := writeAt_safe (p := p) (e := e) (S := V.indexStruct) (data := r.1.data) (pos := r.2) (ops := [.set (indexField V.indexBits) n])
    (indexStruct_wf g.ok) hp fun op hop => by
      cases List.mem_singleton.mp hop; exact List.mem_singleton.mpr rfl
  refine .bind (.lift hs.1) fun d => .pure _ fun w hw => ?_
  refine ⟨hw.1.1, ⟨(hh w hw.1.1).handle, hw.1.2.1⟩, ?_⟩
  simp only
  rw [hs.2 d hw.2]
  exact hw.1.2.2.1

theorem safe_multiGrow {V : Variadic} {v : MultiVec k.backend} (g : GoodIndex V v.index.data) (hJ : Stable k (Still k) J)
    (hh : ∀ w, J w → MultiFine w v) :
    Safe k (Still k) J (v.grow p e V) (fun r w => J w ∧ MultiFine w r.2 ∧ r.2.index.data.length < 2 ^ 63) := by
  have hf : Safe k (Still k) J (v.flushIfFull p) (fun r w => J w ∧ MultiFine w r ∧ r.index = v.index) := by
    unfold MultiVec.flushIfFull
    split
    · exact safe_mflush hJ hh
    · exact .pure _ fun w hw => ⟨hw, hh w hw, rfl⟩
  refine .bind (hf.attempt' hJ fun _ h => h) fun r => ?_
  cases r with
  | error x => exact .pure _ fun w hw => ⟨hw.1, hh w hw.1, g.size⟩
  | ok v' =>
    refine .given (fun w hw => (hw.2 v' rfl).2.2) fun he => ?_
    have g' : GoodIndex V v'.index.data := by rw [he]; exact g
    have h1 : Stable k (Still k) (fun w => J w ∧ MultiFine w v') := hJ.and stable_multi
    refine Safe.mono (P := fun w => J w ∧ MultiFine w v') ?_ (fun w h => ⟨h.1, (h.2 v' rfl).2.1⟩) fun _ _ h => h
    refine .bind ((safe_addToIndex g' h1 fun _ h => h.2).attempt' h1 fun _ h => h) fun r => ?_
    cases r with
    | error x => exact .pure _ fun w hw => ⟨hw.1.1, hw.1.2, g'.size⟩
    | ok v'' => exact .pure _ fun w hw => ⟨hw.1.1, (hw.2 v'' rfl).2⟩

theorem safe_mdrop {E : Type} {v : MultiVec k.backend} : Safe k (Still k) J (v.drop : Act k.backend.W E Unit) (fun _ w => J w) :=
  .bind safe_drop fun _ => safe_drop

theorem safe_closeData [DiffLib] {v : MultiVec k.backend} {i : Slice k.backend.Base} (hJ : Stable k (Steps k) J)
    (hh : ∀ w, J w → HandleFine w v.handle) (hi : ∀ w, J w → k.held w i) :
    Safe k (Steps k) J (v.closeData p e i) (fun r w => J w ∧ k.held w r.1 ∧ k.held w r.2) := by
  refine .bind (safe_handleClose hJ hh).mapErr fun r => .bind safe_drop.of_still fun _ => .bind safe_ofExcept fun d => ?_
  exact .pure _ fun w hw => ⟨hw.1.1, hi w hw.1.1, hw.1.2.2 d hw.2⟩

theorem safe_closeIndex [DiffLib] {v : MultiVec k.backend} (hJ : Stable k (Steps k) J) (hh : ∀ w, J w → MultiFine w v) :
    Safe k (Steps k) J (v.closeIndex p e) (fun r w => J w ∧ k.held w r.1 ∧ k.held w r.2) := by
  refine .bind ((safe_vectorClose hJ fun w hw => (hh w hw).index).attempt' hJ fun _ h => h) fun r => ?_
  cases r with
  | error x => exact .bind safe_drop.of_still fun _ => .fail _
  | ok i =>
    exact (safe_closeData (J := fun w => J w ∧ k.held w i) (hJ.and stable_held) (fun w h => (hh w h.1).handle) fun _ h => h.2).mono
      (fun w h => ⟨h.1, (h.2 i rfl).2⟩) fun _ _ h => ⟨h.1.1, h.2⟩

theorem safe_multiClose [DiffLib] {V : Variadic} {v : MultiVec k.backend} (g : GoodIndex V v.index.data) (hJ : Stable k (Steps k) J)
    (hh : ∀ w, J w → MultiFine w v) :
    Safe k (Steps k) J (v.close p e V) (fun r w => J w ∧ k.held w r.1 ∧ k.held w r.2) := by
  refine .bind ((safe_addToIndex g (stable_of_steps hJ) hh).of_still.attempt' hJ fun _ h => h) fun r => ?_
  cases r with
  | error x => exact .bind safe_mdrop.of_still fun _ => .fail _
  | ok v1 =>
    have h1 : Stable k (Steps k) (fun w => J w ∧ MultiFine w v1) := hJ.and stable_multi
    refine Safe.mono (P := fun w => J w ∧ MultiFine w v1) ?_ (fun w h => ⟨h.1, (h.2 v1 rfl).2.1⟩) fun _ _ h => h
    refine .bind ((safe_mflush (stable_of_steps h1) fun _ h => h.2).of_still.attempt' h1 fun _ h => h) fun r => ?_
    cases r with
    | error x => exact .bind safe_mdrop.of_still fun _ => .fail _
    | ok v2 =>
      exact (safe_closeIndex (J := fun w => J w ∧ MultiFine w v2) (hJ.and stable_multi) fun _ h => h.2).mono
        (fun w h => ⟨h.1.1, (h.2 v2 rfl).2.1⟩) fun _ _ h => ⟨h.1.1, h.2⟩

end
end Spec.Kind
end Flatdata
