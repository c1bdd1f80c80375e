import Verif.Proofs.MvView
import Verif.Spec.Unwind
/-!
# Lemmas on destructors and unwinding
-/
namespace Flatdata
open Spec

section Drop
variable {B : Backend}

theorem Handle.dropIn_unwinding (h : Handle B) : h.dropIn .unwinding = .unwinding := rfl

theorem Owned.dropIn_unwinding (v : Owned B) : v.dropIn .unwinding = .unwinding := by cases v <;> rfl

theorem Handle.dropIn_running (h : Handle B) : h.dropIn .running = if h.isOpen then .unwinding else .running := rfl

theorem Owned.dropIn_running (v : Owned B) :
    (Open v ∧ v.dropIn .running = .unwinding) ∨ (¬ Open v ∧ v.dropIn .running = .running) := by
  cases v with
  | handle h =>
    change (h.isOpen = true ∧ h.dropIn .running = _) ∨ (¬ h.isOpen = true ∧ h.dropIn .running = _)
    rw [Handle.dropIn_running]
    cases h.isOpen <;> simp
  | vector v =>
    change (v.handle.isOpen = true ∧ v.handle.dropIn .running = _) ∨ (¬ v.handle.isOpen = true ∧ v.handle.dropIn .running = _)
    rw [Handle.dropIn_running]
    cases v.handle.isOpen <;> simp
  | multi v =>
    change ((v.index.handle.isOpen = true ∨ v.handle.isOpen = true) ∧ v.handle.dropIn (v.index.handle.dropIn .running) = _) ∨
      (¬ (v.index.handle.isOpen = true ∨ v.handle.isOpen = true) ∧ v.handle.dropIn (v.index.handle.dropIn .running) = _)
    rw [Handle.dropIn_running v.index.handle]
    cases v.index.handle.isOpen
    · rw [if_neg (by simp), Handle.dropIn_running]
      cases v.handle.isOpen <;> simp
    · rw [if_pos rfl, Handle.dropIn_unwinding]
      simp

theorem dropAll_unwinding (vs : List (Owned B)) : dropAll vs .unwinding = .unwinding := by
  unfold dropAll
  induction vs with
  | nil => rfl
  | cons v vs ih => rw [List.foldl_cons, v.dropIn_unwinding, ih]

theorem dropAll_running (vs : List (Owned B)) :
    ((∃ v ∈ vs, Open v) ∧ dropAll vs .running = .unwinding) ∨ ((∀ v ∈ vs, ¬ Open v) ∧ dropAll vs .running = .running) := by
  induction vs with
  | nil => exact .inr ⟨by simp, rfl⟩
  | cons v vs ih =>
    have hd : dropAll (v :: vs) .running = dropAll vs (v.dropIn .running) := rfl
    rw [hd]
    rcases v.dropIn_running with ⟨ho, h⟩ | ⟨ho, h⟩ <;> rw [h]
    · exact .inl ⟨⟨v, by simp, ho⟩, dropAll_unwinding vs⟩
    · rcases ih with ⟨⟨x, hx, hox⟩, ih⟩ | ⟨hn, ih⟩
      · exact .inl ⟨⟨x, by simp [hx], hox⟩, ih⟩
      · refine .inr ⟨fun x hx => ?_, ih⟩
        rcases List.mem_cons.mp hx with rfl | hx
        · exact ho
        · exact hn x hx

end Drop

section
variable {W E E' α β : Type}

theorem TAct.bind_ok {x : TAct W E α} {f : α → TAct W E β} {t t' : Thread} {w w' : W} {a : α} (h : x t w = (.ok a, t', w')) :
    (x >>= f) t w = f a t' w' := by
  change TAct.bind x f t w = _
  unfold TAct.bind
  rw [h]

theorem TAct.bind_err {x : TAct W E α} {f : α → TAct W E β} {t t' : Thread} {w w' : W} {a : E} (h : x t w = (.err a, t', w')) :
    (x >>= f) t w = (.err a, t', w') := by
  change TAct.bind x f t w = _
  unfold TAct.bind
  rw [h]

theorem TAct.call_ok {x : Act W E α} {t : Thread} {w w' : W} {a : α} (h : x w = (.ok a, w')) :
    TAct.call x t w = (.ok a, t, w') := by
  unfold TAct.call; rw [h]

theorem TAct.call_err {x : Act W E α} {t : Thread} {w w' : W} {a : E} (h : x w = (.err a, w')) :
    TAct.call x t w = (.err a, t, w') := by
  unfold TAct.call; rw [h]

theorem TAct.owning_ok {B : Backend} {v : Owned B} {x : TAct W E α} {t t' : Thread} {w w' : W} {a : α} (h : x t w = (.ok a, t', w')) :
    TAct.owning v x t w = (.ok a, t', w') := by
  unfold TAct.owning; rw [h]

theorem TAct.discard_unwinding {B : Backend} (v : Owned B) (w : W) :
    (TAct.discard v : TAct W E Unit) .unwinding w = (.ok (), .unwinding, w) := by
  unfold TAct.discard; rw [v.dropIn_unwinding, if_pos rfl]

/-! ## A running thread: the other files of the model -/

/-- In a running thread the call `y` does what `x` does; a panic makes the thread unwind. -/
def AsRunning (x : Act W E α) (y : TAct W E α) : Prop :=
  ∀ w, y .running w = ((x w).1, if (x w).1.isPanic then .unwinding else .running, (x w).2)

theorem AsRunning.call (x : Act W E α) : AsRunning x (TAct.call x) := by
  intro w
  unfold TAct.call
  rcases h : x w with ⟨r, w'⟩
  cases r <;> rfl

theorem AsRunning.pure (a : α) : AsRunning (pure a : Act W E α) (pure a : TAct W E α) := fun _ => rfl

theorem AsRunning.bind {x : Act W E α} {y : TAct W E α} {f : α → Act W E β} {g : α → TAct W E β} (h : AsRunning x y) (k : ∀ a, AsRunning (f a) (g a)) :
    AsRunning (x >>= f) (y >>= g) := by
  intro w
  have hw := h w
  change TAct.bind y g .running w = ((Act.bind x f w).1, if (Act.bind x f w).1.isPanic then .unwinding else .running, (Act.bind x f w).2)
  unfold TAct.bind Act.bind
  rw [hw]
  rcases hx : x w with ⟨r, w'⟩
  cases r with
  | ok a => exact k a w'
  | err e => rfl
  | panic => rfl
  | ub => rfl

theorem AsRunning.attempt {x : Act W E α} {y : TAct W E α} (h : AsRunning x y) :
    AsRunning (Act.attempt x : Act W E' _) (TAct.attempt y) := by
  intro w
  unfold TAct.attempt Act.attempt
  rw [h w]
  rcases hx : x w with ⟨r, w'⟩
  cases r <;> rfl

theorem AsRunning.owning {B : Backend} {v : Owned B} {x : Act W E α} {y : TAct W E α} (h : AsRunning x y) : AsRunning x (TAct.owning v y) := by
  intro w
  unfold TAct.owning
  rw [h w]
  rcases hx : x w with ⟨r, w'⟩
  cases r with
  | panic =>
    change (Res.panic, v.dropIn .unwinding, w') = _
    rw [v.dropIn_unwinding]
    rfl
  | ok a => rfl
  | err e => rfl
  | ub => rfl

end

section
variable {B : Backend} {E : Type}

theorem AsRunning.handle (h : Handle B) : AsRunning (h.drop : Act B.W E Unit) (TAct.discard (.handle h)) := by
  intro w
  unfold TAct.discard Handle.drop
  change (if h.dropIn .running = .running then _ else (Res.panic, h.dropIn .running, w)) = _
  rw [Handle.dropIn_running]
  cases h.isOpen <;> rfl

theorem AsRunning.vector (v : ExtVec B) : AsRunning (v.drop : Act B.W E Unit) (TAct.discard (.vector v)) := AsRunning.handle v.handle

theorem AsRunning.multi (v : MultiVec B) : AsRunning (v.drop : Act B.W E Unit) (TAct.discard (.multi v)) := by
  intro w
  have hd : v.handle.drop w = ((if v.handle.isOpen then Res.panic else .ok (), w) : Res E Unit × B.W) := by
    unfold Handle.drop; cases v.handle.isOpen <;> rfl
  have hi : v.index.drop w = ((if v.index.handle.isOpen then Res.panic else .ok (), w) : Res E Unit × B.W) := by
    unfold ExtVec.drop Handle.drop; cases v.index.handle.isOpen <;> rfl
  have hm : v.drop w = ((if v.index.handle.isOpen || v.handle.isOpen then Res.panic else .ok (), w) : Res E Unit × B.W) := by
    change Act.bind v.index.drop (fun _ => v.handle.drop) w = _
    unfold Act.bind
    rw [hi]
    cases v.index.handle.isOpen
    · exact hd
    · rfl
  rw [hm]
  unfold TAct.discard
  rcases (Owned.multi v).dropIn_running with ⟨ho, h⟩ | ⟨ho, h⟩ <;> rw [h]
  · have : (v.index.handle.isOpen || v.handle.isOpen) = true := by
      rcases ho with ho | ho
      · rw [show v.index.handle.isOpen = true from ho]; rfl
      · rw [ho, Bool.or_true]
    rw [this]; rfl
  · have : (v.index.handle.isOpen || v.handle.isOpen) = false := by
      cases h1 : v.index.handle.isOpen
      · cases h2 : v.handle.isOpen
        · rfl
        · exact absurd (.inr h2) ho
      · exact absurd (.inl h1) ho
    rw [this]; rfl

variable (p : Profile) (e : Endian)

theorem AsRunning.extClose [DiffLib] (v : ExtVec B) : AsRunning (v.close p e) (v.closeIn p e) := by
  unfold ExtVec.close ExtVec.closeIn
  refine .bind (.owning (.call _)) fun r => ?_
  cases r with
  | error x => exact .bind (.vector v) fun _ => .call _
  | ok v =>
    change AsRunning (v.closeHandle p e) (v.closeHandleIn p e)
    unfold ExtVec.closeHandle ExtVec.closeHandleIn
    exact .bind (.owning (.call _)) fun r => .bind (.handle _) fun _ => .call _

theorem AsRunning.multiClose [DiffLib] (V : Variadic) (v : MultiVec B) : AsRunning (v.close p e V) (v.closeIn p e V) := by
  unfold MultiVec.close MultiVec.closeIn
  refine .bind (.owning (.call _)) fun r => ?_
  cases r with
  | error x => exact .bind (.multi v) fun _ => .call _
  | ok v =>
    change AsRunning (v.closeFlush p e) (v.closeFlushIn p e)
    unfold MultiVec.closeFlush MultiVec.closeFlushIn
    refine .bind (.owning (.call _)) fun r => ?_
    cases r with
    | error x => exact .bind (.multi v) fun _ => .call _
    | ok v =>
      change AsRunning (v.closeIndex p e) (v.closeIndexIn p e)
      unfold MultiVec.closeIndex MultiVec.closeIndexIn
      refine .bind (.owning (.attempt (.extClose p e v.index))) fun r => ?_
      cases r with
      | error x => exact .bind (.handle v.handle) fun _ => .call _
      | ok i =>
        change AsRunning (v.closeData p e i) (v.closeDataIn p e i)
        unfold MultiVec.closeData MultiVec.closeDataIn
        exact .bind (.owning (.call _)) fun r => .bind (.handle _) fun _ => .bind (.call _) fun _ => .pure _

theorem AsRunning.createMulti (o : B.Obj) (name schema : String) :
    AsRunning (createMultiVector p e o name schema) (createMultiVectorIn p e o name schema) := by
  unfold createMultiVector createMultiVectorIn
  refine .bind (.call _) fun index => .bind (.owning (.call _)) fun r => ?_
  cases r with
  | error x => exact .bind (.vector index) fun _ => .call _
  | ok h => exact .pure _

end

/-! ## A thread that unwinds -/

/-- In a thread that unwinds the call `y` does what `x` does, unless `x` panics. -/
def AsUnwinding {W E α : Type} (x : Act W E α) (y : TAct W E α) : Prop :=
  ∀ w, (x w).1.isPanic = false → y .unwinding w = ((x w).1, .unwinding, (x w).2)

section
variable {W E E' α β : Type}

theorem AsUnwinding.call (x : Act W E α) : AsUnwinding x (TAct.call x) := by
  intro w
  unfold TAct.call
  rcases h : x w with ⟨r, w'⟩
  cases r <;> simp [Res.isPanic]

theorem AsUnwinding.pure (a : α) : AsUnwinding (pure a : Act W E α) (pure a : TAct W E α) := fun _ _ => rfl

theorem AsUnwinding.bind {x : Act W E α} {y : TAct W E α} {f : α → Act W E β} {g : α → TAct W E β} (h : AsUnwinding x y)
    (k : ∀ a, AsUnwinding (f a) (g a)) : AsUnwinding (x >>= f) (y >>= g) := by
  intro w
  have hw := h w
  change (Act.bind x f w).1.isPanic = false → TAct.bind y g .unwinding w = ((Act.bind x f w).1, .unwinding, (Act.bind x f w).2)
  unfold TAct.bind Act.bind
  rcases hx : x w with ⟨r, w'⟩
  rw [hx] at hw
  cases r with
  | ok a => rw [hw rfl]; exact k a w'
  | err e => rw [hw rfl]; exact fun _ => rfl
  | panic => exact fun h => nomatch h
  | ub => rw [hw rfl]; exact fun _ => rfl

theorem AsUnwinding.attempt {x : Act W E α} {y : TAct W E α} (h : AsUnwinding x y) :
    AsUnwinding (Act.attempt x : Act W E' _) (TAct.attempt y) := by
  intro w
  have hw := h w
  unfold TAct.attempt Act.attempt
  rcases hx : x w with ⟨r, w'⟩
  rw [hx] at hw
  cases r with
  | ok a => rw [hw rfl]; exact fun _ => rfl
  | err e => rw [hw rfl]; exact fun _ => rfl
  | panic => exact fun h => nomatch h
  | ub => rw [hw rfl]; exact fun _ => rfl

theorem AsUnwinding.owning {B : Backend} {v : Owned B} {x : Act W E α} {y : TAct W E α} (h : AsUnwinding x y) :
    AsUnwinding x (TAct.owning v y) := by
  intro w hp
  unfold TAct.owning
  rw [h w hp]
  rcases hx : x w with ⟨r, w'⟩
  rw [hx] at hp
  cases r with
  | ok a => rfl
  | err e => rfl
  | panic => exact nomatch hp
  | ub => rfl

end

section
variable {B : Backend} {E : Type}

theorem AsUnwinding.handle (h : Handle B) : AsUnwinding (h.drop : Act B.W E Unit) (TAct.discard (.handle h)) := by
  intro w
  rw [TAct.discard_unwinding]
  unfold Handle.drop
  cases h.isOpen
  · exact fun _ => rfl
  · exact fun h => nomatch h

theorem AsUnwinding.vector (v : ExtVec B) : AsUnwinding (v.drop : Act B.W E Unit) (TAct.discard (.vector v)) := AsUnwinding.handle v.handle

theorem AsUnwinding.multi (v : MultiVec B) : AsUnwinding (v.drop : Act B.W E Unit) (TAct.discard (.multi v)) := by
  intro w hp
  rw [TAct.discard_unwinding]
  unfold MultiVec.drop at hp ⊢
  change (Act.bind v.index.drop (fun _ => v.handle.drop) w).1.isPanic = false at hp
  change _ = ((Act.bind v.index.drop (fun _ => v.handle.drop) w).1, _, (Act.bind v.index.drop (fun _ => v.handle.drop) w).2)
  unfold Act.bind ExtVec.drop Handle.drop at hp ⊢
  cases h1 : v.index.handle.isOpen
  · rw [h1] at hp
    cases h2 : v.handle.isOpen
    · rfl
    · rw [h2] at hp; exact nomatch hp
  · rw [h1] at hp; exact nomatch hp

variable (p : Profile) (e : Endian)

theorem AsUnwinding.extClose [DiffLib] (v : ExtVec B) : AsUnwinding (v.close p e) (v.closeIn p e) := by
  unfold ExtVec.close ExtVec.closeIn
  refine .bind (.owning (.call _)) fun r => ?_
  cases r with
  | error x => exact .bind (.vector v) fun _ => .call _
  | ok v =>
    change AsUnwinding (v.closeHandle p e) (v.closeHandleIn p e)
    unfold ExtVec.closeHandle ExtVec.closeHandleIn
    exact .bind (.owning (.call _)) fun r => .bind (.handle _) fun _ => .call _

theorem AsUnwinding.multiClose [DiffLib] (V : Variadic) (v : MultiVec B) : AsUnwinding (v.close p e V) (v.closeIn p e V) := by
  unfold MultiVec.close MultiVec.closeIn
  refine .bind (.owning (.call _)) fun r => ?_
  cases r with
  | error x => exact .bind (.multi v) fun _ => .call _
  | ok v =>
    change AsUnwinding (v.closeFlush p e) (v.closeFlushIn p e)
    unfold MultiVec.closeFlush MultiVec.closeFlushIn
    refine .bind (.owning (.call _)) fun r => ?_
    cases r with
    | error x => exact .bind (.multi v) fun _ => .call _
    | ok v =>
      change AsUnwinding (v.closeIndex p e) (v.closeIndexIn p e)
      unfold MultiVec.closeIndex MultiVec.closeIndexIn
      refine .bind (.owning (.attempt (.extClose p e v.index))) fun r => ?_
      cases r with
      | error x => exact .bind (.handle v.handle) fun _ => .call _
      | ok i =>
        change AsUnwinding (v.closeData p e i) (v.closeDataIn p e i)
        unfold MultiVec.closeData MultiVec.closeDataIn
        exact .bind (.owning (.call _)) fun r => .bind (.handle _) fun _ => .bind (.call _) fun _ => .pure _

end

/-- The outcome is a value or an error. -/
def Returned {W E α : Type} (x : Res E α × Thread × W) : Prop :=
  (∃ a w, x = (.ok a, .unwinding, w)) ∨ ∃ y w, x = (.err y, .unwinding, w)

theorem returned_except {W E α : Type} (r : Except E α) (w : W) :
    Returned (TAct.call (Act.ofExcept r) .unwinding w) := by
  cases r with
  | error x => exact .inr ⟨x, w, rfl⟩
  | ok a => exact .inl ⟨a, w, rfl⟩

section
variable {B : Backend} {L : Laws B} {o : B.Obj} {name schema : String}

theorem EvInv.closeIn [DiffLib] {size : Nat} {w : B.W} {v : ExtVec B} {pre buf : List Bytes} {c : Bytes}
    (i : EvInv L o name schema size w v pre buf c)
    (hu : Unseen L o name w) (hne : L.loc o (Storage.schemaName name) ≠ L.loc o name) (p : Profile) (e : Endian)
    (hb : (pre ++ buf).length * size < 2 ^ 63) :
    ∃ r w', v.closeIn p e .unwinding w = (r, .unwinding, w') ∧ Returned (r, .unwinding, w') ∧ Off L w w' (OwnLoc L o name) := by
  have own : ∀ l, l = L.loc o name → OwnLoc L o name l := fun _ => .inl
  unfold ExtVec.closeIn
  rcases i.flush hne p (by omega) with ⟨v', w1, h1, i1, o1⟩ | ⟨x, d', w1, h1, i1, o1, nf⟩
  · rw [TAct.bind_ok (TAct.owning_ok (TAct.call_ok (Act.attempt_ok h1)))]
    change ∃ r w', ExtVec.closeHandleIn p e v' .unwinding w1 = _ ∧ _
    unfold ExtVec.closeHandleIn
    have hlen : (pre ++ buf).flatten.length < 2 ^ 63 := by rw [i.all'.length_flatten]; exact hb
    obtain ⟨r, w2, h2, cl, o2, s2, an⟩ := i1.writing.close (hu.only o1) hne p e hlen
    rw [TAct.bind_ok (TAct.owning_ok (TAct.call_ok (Act.mapErr_ok h2))), TAct.bind_ok (TAct.discard_unwinding _ _)]
    rcases r with ⟨r, h⟩
    cases r with
    | error x => exact ⟨.err x, w2, rfl, .inr ⟨x, w2, rfl⟩, (o1.off own).trans o2⟩
    | ok s => exact ⟨.ok s, w2, rfl, .inl ⟨s, w2, rfl⟩, (o1.off own).trans o2⟩
  · rw [TAct.bind_ok (TAct.owning_ok (TAct.call_ok (Act.attempt_err h1)))]
    refine ⟨.err (.io x v.handle.name), w1, ?_, .inr ⟨_, _, rfl⟩, o1.off own⟩
    change ((TAct.discard (.vector v) : TAct B.W RErr Unit) >>= _) .unwinding w1 = _
    rw [TAct.bind_ok (TAct.discard_unwinding _ _)]
    rfl

variable {V : Variadic} {w : B.W} {v : MultiVec B} {preI bufI : List Bytes} {cI pre body c : Bytes}

theorem MvInv.closeIn [DiffLib] (i : MvInv L o name schema V w v preI bufI cI pre body c) (ap : Apart L o name) (p : Profile) (e : Endian)
    (ok : IndexOK V) (hu : Unseen L o name w) (huI : Unseen L o (Storage.indexName name) w)
    (hb : pre.length + body.length + 8 < 2 ^ 63) (hbI : ((preI ++ bufI).length + 1) * V.indexSize + 8 < 2 ^ 63) :
    Returned (v.closeIn p e V .unwinding w) := by
  unfold MultiVec.closeIn
  rcases i.addToIndex ap p e ok hb hbI with
    ⟨v1, w1, preI', bufI', cI', x, h1, i1, e1, hx, hc1, hd1, hf1, o1⟩ | ⟨x, d', w1, h1, i1, o1, nf⟩
  · rw [TAct.bind_ok (TAct.owning_ok (TAct.call_ok (Act.attempt_ok h1)))]
    change Returned (MultiVec.closeFlushIn p e v1 .unwinding w1)
    unfold MultiVec.closeFlushIn
    rcases i1.flush ap p hb with ⟨v2, w2, h2, i2, hi2, o2⟩ | ⟨x2, d', w2, h2, i2, o2, nf⟩
    · rw [TAct.bind_ok (TAct.owning_ok (TAct.call_ok (Act.attempt_ok h2)))]
      change Returned (MultiVec.closeIndexIn p e v2 .unwinding w2)
      unfold MultiVec.closeIndexIn
      have hall : preI' ++ (bufI' ++ [x]) = preI ++ bufI ++ [x] := by rw [← List.append_assoc, e1]
      have hlen : (preI' ++ (bufI' ++ [x])).length = (preI ++ bufI).length + 1 := by rw [hall]; simp; omega
      obtain ⟨r, w3, h3, cl, o3⟩ := i2.index.closeIn ((huI.only o1).only o2) ap.index p e (by rw [hlen]; omega)
      have k3 : Keeps L w2 w3 (L.loc o name) := o3.keeps _ (ap.index_data (.inl rfl))
      have k3' : Keeps L w2 w3 (L.loc o (Storage.schemaName name)) := o3.keeps _ (ap.index_data (.inr rfl))
      have d3 := i2.data.keeps k3 k3'
      rcases cl with ⟨si, _, hr⟩ | ⟨y, _, hr⟩
      · cases hr
        have h4 : (TAct.attempt (v2.index.closeIn p e) : TAct B.W RErr _) .unwinding w2 = (.ok (.ok si), .unwinding, w3) := by
          unfold TAct.attempt; rw [h3]
        rw [TAct.bind_ok (TAct.owning_ok h4)]
        change Returned (MultiVec.closeDataIn p e v2 si .unwinding w3)
        unfold MultiVec.closeDataIn
        have hu3 : Unseen L o name w3 := ((hu.only o1).only o2).keeps k3 k3'
        obtain ⟨r, w4, h4, cl, o4, s4, an4⟩ := d3.close hu3 ap.data p e (by simp; omega)
        rw [TAct.bind_ok (TAct.owning_ok (TAct.call_ok (Act.mapErr_ok h4))), TAct.bind_ok (TAct.discard_unwinding _ _)]
        rcases r with ⟨r, h⟩
        cases r with
        | error x => exact .inr ⟨x, w4, rfl⟩
        | ok s => exact .inl ⟨(si, s), w4, rfl⟩
      · cases hr
        have h4 : (TAct.attempt (v2.index.closeIn p e) : TAct B.W RErr _) .unwinding w2 = (.ok (.error y), .unwinding, w3) := by
          unfold TAct.attempt; rw [h3]
        rw [TAct.bind_ok (TAct.owning_ok h4)]
        change Returned (((TAct.discard (.handle v2.handle) : TAct B.W RErr Unit) >>= _) .unwinding w3)
        rw [TAct.bind_ok (TAct.discard_unwinding _ _)]
        exact .inr ⟨y, w3, rfl⟩
    · rw [TAct.bind_ok (TAct.owning_ok (TAct.call_ok (Act.attempt_err h2)))]
      change Returned (((TAct.discard (.multi v1) : TAct B.W RErr Unit) >>= _) .unwinding w2)
      rw [TAct.bind_ok (TAct.discard_unwinding _ _)]
      exact .inr ⟨_, w2, rfl⟩
  · rw [TAct.bind_ok (TAct.owning_ok (TAct.call_ok (Act.attempt_err h1)))]
    change Returned (((TAct.discard (.multi v) : TAct B.W RErr Unit) >>= _) .unwinding w1)
    rw [TAct.bind_ok (TAct.discard_unwinding _ _)]
    exact .inr ⟨_, w1, rfl⟩

theorem createMultiVectorIn_returns (p : Profile) (e : Endian) (ap : Apart L o name) (size : Nat)
    (hf : L.fresh (L.medium w (L.loc o name))) (hf' : L.fresh (L.medium w (L.loc o (Storage.schemaName name))))
    (hfI : L.fresh (L.medium w (L.loc o (Storage.indexName name))))
    (hfI' : L.fresh (L.medium w (L.loc o (Storage.schemaName (Storage.indexName name))))) :
    Returned (createMultiVectorIn p e o name schema .unwinding w) := by
  unfold createMultiVectorIn
  rcases createExternalVector_spec p e o (Storage.indexName name) (Storage.indexSchema schema) size w ap.index hfI hfI' with
    ⟨v1, w1, h1, i1, o1⟩ | ⟨x, w1, h1, o1, _⟩
  · rw [TAct.bind_ok (TAct.call_ok h1)]
    have k := o1.keeps (L.loc o name) (ap.index_data (.inl rfl))
    have k' := o1.keeps (L.loc o (Storage.schemaName name)) (ap.index_data (.inr rfl))
    have e2 : createDataHandle p e o name schema = createHandle B p e o name schema := rfl
    rcases createHandle_spec p e o name schema w1 ap.data (by rw [k.medium]; exact hf) (by rw [k'.medium]; exact hf') with
      ⟨h, w2, h2, _⟩ | ⟨x, w2, h2, _⟩
    · rw [e2, TAct.bind_ok (TAct.owning_ok (TAct.call_ok (Act.attempt_ok h2)))]
      exact .inl ⟨_, w2, rfl⟩
    · rw [e2, TAct.bind_ok (TAct.owning_ok (TAct.call_ok (Act.attempt_err h2)))]
      change Returned (((TAct.discard (.vector v1) : TAct B.W IoErr Unit) >>= _) .unwinding w2)
      rw [TAct.bind_ok (TAct.discard_unwinding _ _)]
      exact .inr ⟨x, w2, rfl⟩
  · rw [TAct.bind_err (TAct.call_err h1)]
    exact .inr ⟨x, w1, rfl⟩

end
end Flatdata
