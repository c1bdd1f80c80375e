import Verif.Spec.OpenFiles
import Verif.Proofs.ExtVector
/-!
# Counting open files: the functions of `Limited` are balanced
-/
namespace Flatdata
open Spec Limited

namespace Spec.Balanced
variable {E E' α β : Type} {k g : Nat} {t : α → Nat} {x : Act LimW E α} {y : Act FileW E α}

theorem inner (y : Act FileW E α) : Balanced 0 0 (fun _ => 0) (Limited.inner y) y :=
  fun _ _ => ⟨fun _ => ⟨rfl, rfl⟩, fun _ _ => rfl, fun _ => rfl⟩

theorem pure (a : α) : Balanced (E := E) 0 (t a) t (Pure.pure a) (Pure.pure a) := by
  refine fun w n => ⟨fun _ => ⟨rfl, rfl⟩, fun b h => ?_, fun h => (by cases h)⟩
  cases h; rfl

theorem fail (err : E) (t : α → Nat) : Balanced 0 0 t (Act.fail err) (Act.fail err) :=
  fun _ _ => ⟨fun _ => ⟨rfl, rfl⟩, fun _ h => (by cases h), fun _ => rfl⟩

theorem ofExcept (r : Except E α) : Balanced 0 0 (fun _ => 0) (Act.ofExcept r) (Act.ofExcept r) := by
  cases r <;> exact fun _ _ => ⟨fun _ => ⟨rfl, rfl⟩, fun _ _ => rfl, fun _ => rfl⟩

theorem lift (o : Out α) : Balanced (E := E) 0 0 (fun _ => 0) (Act.lift o) (Act.lift o) := by
  cases o <;> exact fun _ _ => ⟨fun _ => ⟨rfl, rfl⟩, fun _ _ => rfl, fun _ => rfl⟩

theorem opening (y : Act FileW IoErr α) : Balanced 1 0 (fun _ => 1) (Limited.opening y) y := by
  intro w n
  unfold Limited.opening
  dsimp only
  split
  · exact ⟨fun _ => by omega, fun _ h => (by cases h), fun _ => rfl⟩
  rcases y w with ⟨r, v⟩
  cases r with
  | ok a => exact ⟨fun _ => ⟨rfl, rfl⟩, fun _ _ => (by dsimp only; omega), fun h => (by cases h)⟩
  | err _ => exact ⟨fun _ => ⟨rfl, rfl⟩, fun _ h => (by cases h), fun _ => rfl⟩
  | panic => exact ⟨fun _ => ⟨rfl, rfl⟩, fun _ h => (by cases h), fun _ => rfl⟩
  | ub => exact ⟨fun _ => ⟨rfl, rfl⟩, fun _ h => (by cases h), fun _ => rfl⟩

theorem weaken (h : Balanced k g t x y) {k' : Nat} (hk : k ≤ k') : Balanced k' g t x y :=
  fun w n => ⟨fun hn => (h w n).1 (by omega), (h w n).2⟩

theorem scope (h : Balanced k g t x y) : Balanced k (g + 1) t (Limited.scope x) y := by
  intro w n
  obtain ⟨h1, h3, h4⟩ := h w n
  refine ⟨h1, fun a ha => ?_, fun hr => ?_⟩
  · have := h3 a ha
    change (x (w, n)).2.2 + 1 + t a = _
    omega
  · have := h4 hr
    change (x (w, n)).2.2 + 1 = _
    omega

theorem passing (c : Nat) (h : Balanced k g t x y) : Balanced k (g + c) (fun a => t a + c) (Limited.passing c x) y := by
  intro w n
  obtain ⟨h1, h3, h4⟩ := h w n
  unfold Limited.passing
  dsimp only
  rcases hx : x (w, n) with ⟨r, v⟩
  rw [hx] at h1 h3 h4
  dsimp only at h1 h3 h4
  cases r with
  | ok a =>
    refine ⟨h1, fun b hb => ?_, fun hr => by cases hr⟩
    have := h3 b hb; dsimp only; omega
  | err _ => exact ⟨h1, fun b hb => (by cases hb), fun hr => (by dsimp only; rw [h4 rfl]; omega)⟩
  | panic => exact ⟨h1, fun b hb => (by cases hb), fun hr => (by dsimp only; rw [h4 rfl]; omega)⟩
  | ub => exact ⟨h1, fun b hb => (by cases hb), fun hr => (by dsimp only; rw [h4 rfl]; omega)⟩

/-- The second part is told how many files the first one leaves. -/
theorem bind {t' : β → Nat} {k' : Nat} {f : α → Act LimW E β} {f' : α → Act FileW E β} (h : Balanced k g t x y)
    (hf : ∀ a v v', x v = (.ok a, v') → (k' = 0 ∨ k' + t a ≤ k + g) ∧ Balanced k' (t a) t' (f a) (f' a)) :
    Balanced k g t' (x >>= f) (y >>= f') := by
  intro w n
  obtain ⟨h1, h3, h4⟩ := h w n
  rcases hx : x (w, n) with ⟨r, v, m⟩
  rcases hy : y w with ⟨r', v'⟩
  rw [hx, hy] at h1
  rw [hx] at h3 h4
  dsimp only at h1 h3 h4
  cases r with
  | ok a =>
    have h5 := h3 a rfl
    obtain ⟨hk, hb⟩ := hf a _ _ hx
    rw [Act.bind_ok hx]
    obtain ⟨g1, g2, g3⟩ := hb v m
    refine ⟨fun hn => ?_, fun b hb => (by have := g2 b hb; omega), fun hr => (by have := g3 hr; omega)⟩
    obtain ⟨rfl, rfl⟩ := h1 hn
    rw [Act.bind_ok hy]
    exact g1 (by omega)
  | err _ =>
    rw [Act.bind_err hx]
    refine ⟨fun hn => ?_, fun _ h => (by cases h), fun _ => h4 rfl⟩
    obtain ⟨rfl, rfl⟩ := h1 hn
    rw [Act.bind_err hy]
    exact ⟨rfl, rfl⟩
  | panic =>
    rw [Act.bind_panic hx]
    refine ⟨fun hn => ?_, fun _ h => (by cases h), fun _ => h4 rfl⟩
    obtain ⟨rfl, rfl⟩ := h1 hn
    rw [Act.bind_panic hy]
    exact ⟨rfl, rfl⟩
  | ub =>
    have e1 : (x >>= f) (w, n) = (.ub, (v, m)) := by change Act.bind x f _ = _; unfold Act.bind; rw [hx]
    rw [e1]
    refine ⟨fun hn => ?_, fun _ h => (by cases h), fun _ => h4 rfl⟩
    obtain ⟨rfl, rfl⟩ := h1 hn
    have e2 : (y >>= f') w = (.ub, v) := by change Act.bind y f' _ = _; unfold Act.bind; rw [hy]
    rw [e2]
    exact ⟨rfl, rfl⟩

/-- Without files in between. -/
theorem bind0 {t' : β → Nat} {k' : Nat} {f : α → Act LimW E β} {f' : α → Act FileW E β} (h : Balanced k 0 (fun _ => 0) x y)
    (hf : ∀ a, Balanced k' 0 t' (f a) (f' a)) : Balanced (max k k') 0 t' (x >>= f) (y >>= f') :=
  (h.weaken (Nat.le_max_left ..)).bind (k' := k') fun a _ _ _ => ⟨.inr (by omega), hf a⟩

theorem mapErr {f : E → E'} (h : Balanced k g t x y) : Balanced k g t (x.mapErr f) (y.mapErr f) := by
  intro w n
  obtain ⟨h1, h3, h4⟩ := h w n
  unfold Act.mapErr
  rcases hx : x (w, n) with ⟨r, v, m⟩
  rcases hy : y w with ⟨r', v'⟩
  rw [hx, hy] at h1
  rw [hx] at h3 h4
  dsimp only at h1 h3 h4
  cases r with
  | ok a => exact ⟨fun hn => (by obtain ⟨rfl, rfl⟩ := h1 hn; exact ⟨rfl, rfl⟩), fun b hb => (by cases hb; exact h3 a rfl), fun h => (by cases h)⟩
  | err _ => exact ⟨fun hn => (by obtain ⟨rfl, rfl⟩ := h1 hn; exact ⟨rfl, rfl⟩), fun _ h => (by cases h), fun _ => h4 rfl⟩
  | panic => exact ⟨fun hn => (by obtain ⟨rfl, rfl⟩ := h1 hn; exact ⟨rfl, rfl⟩), fun _ h => (by cases h), fun _ => h4 rfl⟩
  | ub => exact ⟨fun hn => (by obtain ⟨rfl, rfl⟩ := h1 hn; exact ⟨rfl, rfl⟩), fun _ h => (by cases h), fun _ => h4 rfl⟩

/-- The files of a `Result`. -/
def held (t : α → Nat) : Except E α → Nat
  | .ok a => t a
  | .error _ => 0

theorem attempt (h : Balanced k g t x y) : Balanced (E := E') k g (held t) (Act.attempt x) (Act.attempt y) := by
  intro w n
  obtain ⟨h1, h3, h4⟩ := h w n
  unfold Act.attempt
  rcases hx : x (w, n) with ⟨r, v, m⟩
  rcases hy : y w with ⟨r', v'⟩
  rw [hx, hy] at h1
  rw [hx] at h3 h4
  dsimp only at h1 h3 h4
  cases r with
  | ok a => exact ⟨fun hn => (by obtain ⟨rfl, rfl⟩ := h1 hn; exact ⟨rfl, rfl⟩), fun b hb => (by cases hb; exact h3 a rfl), fun h => (by cases h)⟩
  | err _ => exact ⟨fun hn => (by obtain ⟨rfl, rfl⟩ := h1 hn; exact ⟨rfl, rfl⟩), fun b hb => (by cases hb; exact h4 rfl), fun h => (by cases h)⟩
  | panic => exact ⟨fun hn => (by obtain ⟨rfl, rfl⟩ := h1 hn; exact ⟨rfl, rfl⟩), fun _ h => (by cases h), fun _ => h4 rfl⟩
  | ub => exact ⟨fun hn => (by obtain ⟨rfl, rfl⟩ := h1 hn; exact ⟨rfl, rfl⟩), fun _ h => (by cases h), fun _ => h4 rfl⟩

/-- A step that has no counterpart without a limit. -/
theorem release_bind {t' : β → Nat} {k' c : Nat} {f : Act LimW E β} {f' : Act FileW E β} (h : Balanced k' 0 t' f f') (hk : k' ≤ k + c) :
    Balanced k c t' (Limited.release c >>= fun _ => f) f' := by
  intro w n
  have e1 : (Limited.release c >>= fun _ => f) (w, n) = f (w, n + c) := rfl
  rw [e1]
  obtain ⟨h1, h3, h4⟩ := h w (n + c)
  exact ⟨fun hn => h1 (by omega), h3, h4⟩

/-! ## The storage -/

theorem createOutputStream (o : Obj) (name : String) :
    Balanced 1 0 (fun _ => 1) (Limited.createOutputStream o name) (FileSt.createOutputStream o name) := by
  unfold Limited.createOutputStream FileSt.createOutputStream
  refine (inner _).bind0 (k' := 1) fun x => ?_
  split
  · exact (inner _).bind0 (k' := 1) fun _ => opening _
  · exact opening _

theorem mapRead (o : Obj) (p : Path) : Balanced 1 0 (fun _ => 0) (Limited.mapRead o p) (FileSt.mapRead o p) := by
  intro w n
  unfold Limited.mapRead FileSt.mapRead
  dsimp only
  rcases w.maps o.id p with _ | ⟨k, m⟩
  · exact (opening (FileSt.fileOpen p)).bind (k' := 0) (fun k _ _ _ => ⟨.inr (by omega), (inner _).scope⟩) w n
  · exact ⟨fun _ => ⟨rfl, rfl⟩, fun _ _ => rfl, fun _ => rfl⟩

theorem readResource (o : Obj) (name : String) : Balanced 1 0 (fun _ => 0) (Limited.readResource o name) (FileSt.readResource o name) := by
  unfold Limited.readResource FileSt.readResource
  refine (inner _).bind0 (k' := 1) fun x => ?_
  split
  · exact (fail _ _).weaken (by omega)
  · exact mapRead _ _

theorem load (s : Slice Key) : Balanced (E := E) 0 0 (fun _ => 0) (limited.load s) (file.load s) := by
  intro w n
  have e1 : limited.load (E := E) s (w, n) = ((file.load (E := E) s w).1, (w, n)) := by
    change Act.lift (file.deref w s) (w, n) = ((Act.lift (file.deref w s) w : Res E Bytes × FileW).1, (w, n))
    cases file.deref w s <;> rfl
  rw [e1]
  refine ⟨fun _ => ⟨rfl, ?_⟩, fun _ _ => rfl, fun _ => rfl⟩
  change w = (Act.lift (file.deref w s) w : Res E Bytes × FileW).2
  cases file.deref w s <;> rfl

theorem checkResource [DiffLib] (p : Profile) (e : Endian) (name expected : String) (data schema : Slice Key) :
    Balanced 0 0 (fun _ => 0) (Storage.checkResource limited p e name expected data schema)
      (Storage.checkResource file p e name expected data schema) := by
  unfold Storage.checkResource
  split
  · exact fail _ _
  · refine (load _).bind0 (k' := 0) fun _ => (lift _).bind0 (k' := 0) fun _ => (lift _).bind0 (k' := 0) fun _ =>
      (lift _).bind0 (k' := 0) fun _ => ?_
    split
    · exact fail _ _
    · refine (load _).bind0 (k' := 0) fun stored => ?_
      unfold Storage.checkSchema
      split
      · exact fail _ _
      · split
        · exact fail _ _
        · exact lift _

theorem read [DiffLib] (p : Profile) (e : Endian) (o : Obj) (name expected : String) :
    Balanced 1 0 (fun _ => 0) (Storage.read limited p e o name expected) (Storage.read file p e o name expected) := by
  unfold Storage.read
  exact (readResource o name).mapErr.bind0 (k' := 1) fun _ => (readResource o _).mapErr.bind0 (k' := 0) fun _ => checkResource _ _ _ _ _ _

theorem write (p : Profile) (e : Endian) (o : Obj) (name schema : String) (data : Bytes) :
    Balanced 2 0 (fun _ => 0) (Limited.write p e o name schema data) (Storage.write file p e o name schema data) := by
  unfold Limited.write Storage.write
  refine ((createOutputStream o name).weaken (by omega)).bind (k' := 1) fun s _ _ _ => ⟨.inr (by omega), ?_⟩
  refine scope ((inner _).bind0 (k' := 1) fun _ => ?_)
  exact (createOutputStream o _).bind (k' := 0) fun s _ _ _ => ⟨.inr (by omega), (inner _).scope⟩

theorem createArchive (p : Profile) (e : Endian) (o : Obj) (signature schema : String) :
    Balanced 2 0 (fun _ => 0) (Limited.createArchive p e o signature schema) (Storage.createArchive file p e o signature schema) := by
  unfold Limited.createArchive Storage.createArchive
  refine (inner _).bind0 (k' := 2) fun x => ?_
  split
  · exact (fail _ _).weaken (by omega)
  · exact (write _ _ _ _ _ _).mapErr

/-! ## Vectors -/

theorem createHandle (p : Profile) (e : Endian) (o : Obj) (name schema : String) :
    Balanced 2 0 (fun _ => 1) (Limited.createHandle p e o name schema) (createDataHandle (B := file) p e o name schema) := by
  unfold Limited.createHandle createDataHandle
  refine ((createOutputStream o _).weaken (by omega)).bind (k' := 1) fun s _ _ _ => ⟨.inr (by omega), ?_⟩
  refine scope ((inner _).bind0 (k' := 1) fun _ => ?_)
  exact (createOutputStream o _).bind (k' := 0) fun s _ _ _ => ⟨.inr (by omega), (inner _).passing 1⟩

theorem passing_inv {n : Nat} {x : Act LimW E α} {v v' : LimW} {a : α} (h : Limited.passing n x v = (.ok a, v')) : x v = (.ok a, v') := by
  unfold Limited.passing at h
  split at h
  · rename_i h1; cases h; exact h1
  · rename_i h1 h2; exfalso; cases h; exact h1 _ rfl

theorem inner_inv {x : Act FileW E α} {v v' : LimW} {a : α} (h : Limited.inner x v = (.ok a, v')) : x v.1 = (.ok a, v'.1) := by
  unfold Limited.inner at h
  obtain ⟨h1, h2⟩ := Prod.mk.injEq .. ▸ h
  rw [← h2, ← h1]

theorem tryNew_open {p : Profile} {e : Endian} {o : Obj} {name schema : String} {w w' : LimW} {h : Handle file}
    (hh : Limited.createHandle p e o name schema w = (.ok h, w')) : h.held = 1 := by
  unfold Limited.createHandle at hh
  obtain ⟨s, w1, _, hh⟩ := Act.bind_eq_ok hh
  unfold Limited.scope at hh
  have hh := (Prod.mk.injEq .. ▸ hh).1
  rcases hr : ((Limited.inner (FileSt.writeAll s (strBytes schema)) >>= fun _ => Limited.createOutputStream o name >>= fun s =>
    Limited.passing 1 (Limited.inner (Handle.tryNew (B := file) p e o name schema s))) : Act LimW IoErr (Handle file)) w1 with ⟨r, w2⟩
  rw [hr] at hh
  dsimp only at hh
  subst hh
  obtain ⟨_, w2, _, hr⟩ := Act.bind_eq_ok hr
  obtain ⟨s', w3, _, hr⟩ := Act.bind_eq_ok hr
  have hr := inner_inv (passing_inv hr)
  unfold Handle.tryNew at hr
  obtain ⟨_, w4, _, hr⟩ := Act.bind_eq_ok hr
  cases hr; rfl

theorem createExternalVector (p : Profile) (e : Endian) (o : Obj) (name schema : String) :
    Balanced 2 0 ExtVec.held (Limited.createExternalVector p e o name schema) (Flatdata.createExternalVector (B := file) p e o name schema) := by
  have h1 : Flatdata.createExternalVector (B := file) p e o name schema =
      (createDataHandle (B := file) p e o name schema >>= fun h => Pure.pure (ExtVec.new h)) := by
    unfold Flatdata.createExternalVector createDataHandle
    simp only [Act.bind_assoc]
  rw [h1]
  unfold Limited.createExternalVector
  refine (createHandle p e o name schema).bind (k' := 0) fun h w w' hh => ⟨.inl rfl, ?_⟩
  have : ExtVec.held (ExtVec.new h) = 1 := tryNew_open hh
  rw [← this]
  exact pure _

theorem new_held {p : Profile} {e : Endian} {o : Obj} {name schema : String} {w w' : LimW} {v : ExtVec file}
    (hv : Limited.createExternalVector p e o name schema w = (.ok v, w')) : v.held = 1 := by
  unfold Limited.createExternalVector at hv
  obtain ⟨h, w1, h1, hv⟩ := Act.bind_eq_ok hv
  cases hv
  exact tryNew_open h1

theorem passing0 (c : Nat) (h : Balanced k 0 (fun _ => 0) x y) : Balanced k c (fun _ => c) (Limited.passing c x) y := by
  have := h.passing c
  simp only [Nat.zero_add] at this
  exact this

theorem attempt0 (h : Balanced k g (fun _ => 0) x y) : Balanced (E := E') k g (fun _ => 0) (Act.attempt x) (Act.attempt y) := by
  have h1 : held (E := E) (fun _ : α => 0) = fun _ => 0 := by funext r; cases r <;> rfl
  have := h.attempt (E' := E')
  rwa [h1] at this

theorem attempt_inv {W : Type} {x : Act W E α} {w w' : W} {a : α} (h : (x.attempt : Act W E' _) w = (.ok (.ok a), w')) :
    x w = (.ok a, w') := by
  unfold Act.attempt at h
  split at h <;> cases h
  assumption

/-- If the second part needs no more files. -/
theorem bind1 {t' : β → Nat} {f : α → Act LimW E β} {f' : α → Act FileW E β} (h : Balanced k g t x y)
    (hf : ∀ a v v', x v = (.ok a, v') → Balanced 0 (t a) t' (f a) (f' a)) : Balanced k g t' (x >>= f) (y >>= f') :=
  h.bind (k' := 0) fun a v v' ha => ⟨.inl rfl, hf a v v' ha⟩

theorem createMultiVector (p : Profile) (e : Endian) (o : Obj) (name schema : String) :
    Balanced 3 0 MultiVec.held (Limited.createMultiVector p e o name schema) (Flatdata.createMultiVector (B := file) p e o name schema) := by
  unfold Limited.createMultiVector Flatdata.createMultiVector
  refine ((createExternalVector p e o _ _).weaken (by omega)).bind (k' := 2) fun v w w' hv => ⟨.inr (by rw [new_held hv]; omega), ?_⟩
  have h1 := ((createHandle p e o name schema).attempt (E' := IoErr)).passing v.held
  rw [Nat.zero_add] at h1
  refine h1.bind (k' := 0) fun r w w' hr => ⟨.inl rfl, ?_⟩
  · cases r with
    | error x =>
      unfold held
      dsimp only
      rw [Nat.zero_add]
      exact release_bind (k' := 0) ((inner _).bind0 (k' := 0) fun _ => fail _ _) (by omega)
    | ok h =>
      unfold held
      dsimp only
      have h2 : (MultiVec.new v h).held = 1 + v.held := by
        have : h.held = 1 := tryNew_open (attempt_inv (passing_inv hr))
        unfold MultiVec.held MultiVec.new
        dsimp only
        omega
      rw [← h2]
      exact pure _

theorem mnew_held {p : Profile} {e : Endian} {o : Obj} {name schema : String} {w w' : LimW} {v : MultiVec file}
    (hv : Limited.createMultiVector p e o name schema w = (.ok v, w')) : v.held = 2 := by
  unfold Limited.createMultiVector at hv
  obtain ⟨i, w1, h1, hv⟩ := Act.bind_eq_ok hv
  obtain ⟨r, w2, h2, hv⟩ := Act.bind_eq_ok hv
  have h2 := passing_inv h2
  cases r with
  | error x =>
    obtain ⟨_, _, _, hv⟩ := Act.bind_eq_ok hv
    obtain ⟨_, _, _, hv⟩ := Act.bind_eq_ok hv
    cases hv
  | ok h =>
    cases hv
    have e1 := new_held h1
    have e2 := tryNew_open (attempt_inv h2)
    change i.held + h.held = 2
    omega

theorem dropHandle (h : Handle file) : Balanced (E := E) 0 h.held (fun _ => 0) (Limited.dropHandle h) h.drop :=
  release_bind (k' := 0) (inner _) (by omega)

theorem closeStream [DiffLib] (p : Profile) (e : Endian) (h : Handle file) :
    Balanced 0 h.held (fun r => r.2.held) (Limited.closeStream p e h) (h.close p e) := by
  unfold Limited.closeStream Handle.close
  cases hs : h.stream with
  | none => exact pure (t := fun r : Except RErr (Slice Key) × Handle file => r.2.held) (.error (.io .unexpectedEof h.name), h)
  | some s =>
    have h1 : h.held = 1 := by unfold Handle.held Handle.isOpen; rw [hs]; rfl
    dsimp only
    rw [h1]
    refine ((inner _).passing0 1).bind (k' := 0) fun r w w' hr => ⟨.inr (by omega), ?_⟩
    cases r with
    | error x =>
      dsimp only
      rw [← h1]
      exact pure (t := fun r : Except RErr (Slice Key) × Handle file => r.2.held) (.error (.io x h.name), h)
    | ok u =>
      dsimp only
      refine release_bind (k' := 1) ?_ (by omega)
      exact (read p e h.obj h.name h.schema).attempt0.bind (k' := 0) fun r w w' hr => ⟨by omega,
        pure (t := fun r : Except RErr (Slice Key) × Handle file => r.2.held) (r, { h with stream := none })⟩

theorem closeHandle [DiffLib] (p : Profile) (e : Endian) (v : ExtVec file) :
    Balanced 0 v.held (fun _ => 0) (Limited.closeHandle p e v) (v.closeHandle p e) := by
  unfold Limited.closeHandle ExtVec.closeHandle
  exact (closeStream p e v.handle).mapErr.bind1 fun r _ _ _ => (dropHandle r.2).bind1 fun _ _ _ _ => ofExcept _

theorem write_held {p : Profile} {h h' : Handle file} {d : Bytes} {w w' : FileW} (hh : h.write p d w = (.ok h', w')) : h'.held = h.held := by
  unfold Handle.write at hh
  cases hs : h.stream with
  | none => rw [hs] at hh; cases hh
  | some s =>
    rw [hs] at hh
    obtain ⟨_, _, _, hh⟩ := Act.bind_eq_ok hh
    obtain ⟨_, _, _, hh⟩ := Act.bind_eq_ok hh
    cases hh
    unfold Handle.held Handle.isOpen
    dsimp only
    rw [hs]

theorem flush_held {p : Profile} {v v' : ExtVec file} {w w' : FileW} (h : v.flush p w = (.ok v', w')) : v'.held = v.held := by
  unfold ExtVec.flush at h
  obtain ⟨_, _, _, h⟩ := Act.bind_eq_ok h
  obtain ⟨_, _, _, h⟩ := Act.bind_eq_ok h
  obtain ⟨_, _, h4, h⟩ := Act.bind_eq_ok h
  cases h
  exact write_held h4

theorem grow_held {p : Profile} {size : Nat} {v : ExtVec file} {r : ExtVec file × Nat} {w w' : FileW}
    (h : v.grow p size w = (.ok r, w')) : r.1.held = v.held := by
  unfold ExtVec.grow at h
  obtain ⟨v3, w3, h3, h⟩ := Act.bind_eq_ok h
  obtain ⟨_, _, _, h⟩ := Act.bind_eq_ok h
  obtain ⟨_, _, _, h⟩ := Act.bind_eq_ok h
  obtain ⟨_, _, _, h⟩ := Act.bind_eq_ok h
  obtain ⟨_, _, _, h⟩ := Act.bind_eq_ok h
  obtain ⟨_, _, _, h⟩ := Act.bind_eq_ok h
  cases h
  unfold ExtVec.flushIfFull at h3
  split at h3
  · change v3.held = v.held
    exact flush_held h3
  · cases h3; rfl

theorem mflush_held {p : Profile} {v v' : MultiVec file} {w w' : FileW} (h : v.flush p w = (.ok v', w')) : v'.held = v.held := by
  unfold MultiVec.flush at h
  obtain ⟨_, _, _, h⟩ := Act.bind_eq_ok h
  obtain ⟨_, _, _, h⟩ := Act.bind_eq_ok h
  obtain ⟨_, _, h4, h⟩ := Act.bind_eq_ok h
  obtain ⟨_, _, _, h⟩ := Act.bind_eq_ok h
  cases h
  have := write_held h4
  unfold MultiVec.held
  dsimp only
  omega

theorem addToIndex_held {p : Profile} {e : Endian} {V : Variadic} {v v' : MultiVec file} {w w' : FileW}
    (h : v.addToIndex p e V w = (.ok v', w')) : v'.held = v.held := by
  unfold MultiVec.addToIndex at h
  obtain ⟨r, _, h1, h⟩ := Act.bind_eq_ok h
  obtain ⟨_, _, _, h⟩ := Act.bind_eq_ok h
  obtain ⟨_, _, _, h⟩ := Act.bind_eq_ok h
  obtain ⟨_, _, _, h⟩ := Act.bind_eq_ok h
  cases h
  have := grow_held h1
  unfold MultiVec.held ExtVec.held at *
  dsimp only
  omega

theorem attempt_cases {W : Type} {x : Act W E α} {w w' : W} {r : Except E α} (h : (x.attempt : Act W E' _) w = (.ok r, w')) :
    (∃ a, r = .ok a ∧ x w = (.ok a, w')) ∨ ∃ a, r = .error a := by
  unfold Act.attempt at h
  split at h <;> cases h
  · exact .inl ⟨_, rfl, by assumption⟩
  · exact .inr ⟨_, rfl⟩

theorem mgrow_held {p : Profile} {e : Endian} {V : Variadic} {v : MultiVec file} {r : Except IoErr Unit × MultiVec file} {w w' : FileW}
    (h : v.grow p e V w = (.ok r, w')) : r.2.held = v.held := by
  unfold MultiVec.grow at h
  obtain ⟨r1, w1, h1, h⟩ := Act.bind_eq_ok h
  rcases attempt_cases h1 with ⟨v1, rfl, h2⟩ | ⟨x, rfl⟩
  · have e1 : v1.held = v.held := by
      unfold MultiVec.flushIfFull at h2
      split at h2
      · exact mflush_held h2
      · cases h2; rfl
    change (Act.attempt (v1.addToIndex p e V) >>= _) w1 = _ at h
    obtain ⟨r2, w3, h3, h⟩ := Act.bind_eq_ok h
    rcases attempt_cases h3 with ⟨v2, rfl, h4⟩ | ⟨x, rfl⟩
    · cases h; rw [← e1]; exact addToIndex_held h4
    · cases h; exact e1
  · cases h; rfl

theorem foldl_held {γ : Type} {c : α → Nat} {f : α → γ → Act FileW E α} (hf : ∀ a b w a' w', f a b w = (.ok a', w') → c a' = c a) :
    ∀ (l : List γ) (a : α) (w : FileW) (a' : α) (w' : FileW), l.foldlM f a w = (.ok a', w') → c a' = c a
  | [], a, w, a', w', h => by cases h; rfl
  | b :: l, a, w, a', w', h => by
    rw [List.foldlM_cons] at h
    obtain ⟨a1, w1, h1, h⟩ := Act.bind_eq_ok h
    rw [foldl_held hf l a1 w1 a' w' h, hf a b w a1 w1 h1]

theorem growOne_held {p : Profile} {e : Endian} {S : StructDef} (v : ExtVec file) (ops : List HandleOp) (w : FileW) (v' : ExtVec file)
    (w' : FileW) (h : growOne file p e S v ops w = (.ok v', w')) : v'.held = v.held := by
  unfold growOne at h
  obtain ⟨r, _, h1, h⟩ := Act.bind_eq_ok h
  obtain ⟨_, _, _, h⟩ := Act.bind_eq_ok h
  cases h
  exact grow_held h1

theorem growItem_held {p : Profile} {e : Endian} {V : Variadic} (v : MultiVec file) (as : List Add) (w : FileW) (v' : MultiVec file)
    (w' : FileW) (h : growItem file p e V v as w = (.ok v', w')) : v'.held = v.held := by
  unfold growItem at h
  obtain ⟨r, _, h1, h⟩ := Act.bind_eq_ok h
  obtain ⟨_, _, _, h⟩ := Act.bind_eq_ok h
  have e1 : r.2.held = v.held := by
    unfold Act.mapErr at h1
    split at h1 <;> cases h1
    rename_i h2
    exact mgrow_held h2
  rw [← e1]
  refine foldl_held (f := addOne file p e) (c := MultiVec.held) ?_ as _ _ _ _ h
  intro a b w a' w' h
  unfold addOne at h
  obtain ⟨_, _, _, h⟩ := Act.bind_eq_ok h
  obtain ⟨_, _, _, h⟩ := Act.bind_eq_ok h
  cases h
  rfl

theorem close [DiffLib] (p : Profile) (e : Endian) (v : ExtVec file) :
    Balanced 0 v.held (fun _ => 0) (Limited.close p e v) (v.close p e) := by
  unfold Limited.close ExtVec.close
  refine ((inner _).passing0 v.held).bind1 fun r w w' hr => ?_
  rcases attempt_cases (inner_inv (passing_inv hr)) with ⟨v1, rfl, h2⟩ | ⟨x, rfl⟩
  · dsimp only
    rw [← flush_held h2]
    exact closeHandle p e v1
  · exact (dropHandle v.handle).bind1 fun _ _ _ _ => fail _ _

theorem dropMulti (v : MultiVec file) : Balanced (E := E) 0 v.held (fun _ => 0) (Limited.dropMulti v) v.drop :=
  release_bind (k' := 0) (inner _) (by omega)

theorem closeData [DiffLib] (p : Profile) (e : Endian) (v : MultiVec file) (i : Slice Key) :
    Balanced 0 v.handle.held (fun _ => 0) (Limited.closeData p e v i) (v.closeData p e i) := by
  unfold Limited.closeData MultiVec.closeData
  exact (closeStream p e v.handle).mapErr.bind1 fun r _ _ _ => (dropHandle r.2).bind1 fun _ _ _ _ =>
    (ofExcept _).bind1 fun _ _ _ _ => inner (Pure.pure _)

theorem closeIndex [DiffLib] (p : Profile) (e : Endian) (v : MultiVec file) :
    Balanced 0 v.held (fun _ => 0) (Limited.closeIndex p e v) (v.closeIndex p e) := by
  unfold Limited.closeIndex MultiVec.closeIndex
  have h1 := ((close p e v.index).attempt0 (E' := RErr)).passing v.handle.held
  simp only [Nat.zero_add] at h1
  refine h1.bind1 fun r w w' hr => ?_
  cases r with
  | ok i => exact closeData p e v i
  | error x => exact (dropHandle v.handle).bind1 fun _ _ _ _ => fail _ _

theorem closeFlush [DiffLib] (p : Profile) (e : Endian) (v : MultiVec file) :
    Balanced 0 v.held (fun _ => 0) (Limited.closeFlush p e v) (v.closeFlush p e) := by
  unfold Limited.closeFlush MultiVec.closeFlush
  refine ((inner _).passing0 v.held).bind1 fun r w w' hr => ?_
  rcases attempt_cases (inner_inv (passing_inv hr)) with ⟨v1, rfl, h2⟩ | ⟨x, rfl⟩
  · dsimp only
    rw [← mflush_held h2]
    exact closeIndex p e v1
  · exact (dropMulti v).bind1 fun _ _ _ _ => fail _ _

theorem closeMulti [DiffLib] (p : Profile) (e : Endian) (V : Variadic) (v : MultiVec file) :
    Balanced 0 v.held (fun _ => 0) (Limited.closeMulti p e V v) (v.close p e V) := by
  unfold Limited.closeMulti MultiVec.close
  refine ((inner _).passing0 v.held).bind1 fun r w w' hr => ?_
  rcases attempt_cases (inner_inv (passing_inv hr)) with ⟨v1, rfl, h2⟩ | ⟨x, rfl⟩
  · dsimp only
    rw [← addToIndex_held h2]
    exact closeFlush p e v1
  · exact (dropMulti v).bind1 fun _ _ _ _ => fail _ _

/-! ## Archives -/

theorem builderNew (p : Profile) (e : Endian) (o : Obj) (D : ArchiveDef) :
    Balanced 2 0 (fun _ => 0) (Limited.builderNew p e o D) (Flatdata.builderNew file p e o D) :=
  (createArchive p e o D.signature D.schema).bind1 fun _ _ _ _ => inner (Pure.pure _)

theorem builderSub (p : Profile) (e : Endian) (o : Obj) (name : String) (D : ArchiveDef) :
    Balanced 2 0 (fun _ => 0) (Limited.builderSub p e o name D) (Flatdata.builderSub file p e o name D) :=
  (inner ((FileSt.subdir o name).mapErr Empty.elim)).bind0 (k' := 2) fun _ => builderNew _ _ _ _

theorem setStruct (p : Profile) (e : Endian) (o : Obj) (r : ResDecl) (S : StructDef) (item : Bytes) :
    Balanced 2 0 (fun _ => 0) (Limited.setStruct p e o r S item) (Flatdata.setStruct file p e o r S item) := by
  unfold Limited.setStruct Flatdata.setStruct
  split
  · exact (lift _).weaken (by omega)
  · exact write _ _ _ _ _ _

theorem mapErr_inv {W : Type} {x : Act W E α} {f : E → E'} {w w' : W} {a : α} (h : x.mapErr f w = (.ok a, w')) : x w = (.ok a, w') := by
  unfold Act.mapErr at h
  split at h <;> cases h
  assumption

theorem writeLimited [DiffLib] (p : Profile) (e : Endian) (o : Obj) (r : ResDecl) (s : Source) :
    Balanced 3 0 (fun _ => 0) (Spec.writeLimited p e o r s) (writeResource file p e o r s) := by
  unfold Spec.writeLimited writeResource
  cases r.type with
  | struct S =>
    cases s with
    | struct item => exact weaken (k := 2) (setStruct p e o r S item).mapErr (by omega)
    | data b => exact weaken (k := 0) (lift .ub) (by omega)
    | elements es => exact weaken (k := 0) (lift .ub) (by omega)
    | items its => exact weaken (k := 0) (lift .ub) (by omega)
  | vector S =>
    cases s with
    | struct item => exact weaken (k := 0) (lift .ub) (by omega)
    | data b => exact weaken (k := 2) (write p e o r.name r.schema b).mapErr (by omega)
    | elements es =>
      refine (weaken (k := 2) (createExternalVector p e o r.name r.schema).mapErr (by omega)).bind1 fun v _ _ _ => ?_
      refine ((inner _).passing0 v.held).bind1 fun v' _ _ hv => ?_
      rw [← foldl_held growOne_held _ _ _ _ _ (mapErr_inv (inner_inv (passing_inv hv)))]
      exact (close p e v').bind1 fun _ _ _ _ => inner (Pure.pure _)
    | items its => exact weaken (k := 0) (lift .ub) (by omega)
  | multi V i =>
    cases s with
    | struct item => exact weaken (k := 0) (lift .ub) (by omega)
    | data b => exact weaken (k := 0) (lift .ub) (by omega)
    | elements es => exact weaken (k := 0) (lift .ub) (by omega)
    | items its =>
      refine (createMultiVector p e o r.name r.schema).mapErr.bind1 fun v _ _ _ => ?_
      refine ((inner _).passing0 v.held).bind1 fun v' _ _ hv => ?_
      rw [← foldl_held growItem_held _ _ _ _ _ (mapErr_inv (inner_inv (passing_inv hv)))]
      exact (closeMulti p e _ v').bind1 fun _ _ _ _ => inner (Pure.pure _)
  | raw =>
    cases s with
    | struct item => exact weaken (k := 0) (lift .ub) (by omega)
    | data b => exact weaken (k := 2) (write p e o r.name r.schema b).mapErr (by omega)
    | elements es => exact weaken (k := 0) (lift .ub) (by omega)
    | items its => exact weaken (k := 0) (lift .ub) (by omega)

theorem run [DiffLib] (p : Profile) (e : Endian) : ∀ (prog : Prog) (o : Obj),
    Balanced 3 0 (fun _ => 0) (prog.runLimited p e o) (prog.run file p e o)
  | .done, o => (inner (Pure.pure ())).weaken (k := 0) (by omega)
  | .res r s rest, o => (writeLimited p e o r s).bind0 fun _ => run p e rest o
  | .sub name D inner rest, o => ((builderSub p e o name D).weaken (k' := 3) (by omega)).bind0 fun o' =>
      (run p e inner o').bind0 fun _ => run p e rest o

theorem build [DiffLib] (p : Profile) (e : Endian) (o : Obj) (D : ArchiveDef) (prog : Prog) :
    Balanced 3 0 (fun _ => 0) (buildLimited p e o D prog) (buildArchive file p e o D prog) :=
  ((builderNew p e o D).weaken (k' := 3) (by omega)).bind0 fun o => run p e prog o

theorem checkRes {X : Act LimW RErr α} {Y : Act FileW RErr α} (optional : Bool) (h : Balanced k 0 (fun _ => 0) X Y) :
    Balanced k 0 (fun _ => 0) (Flatdata.checkRes limited optional X) (Flatdata.checkRes file optional Y) := by
  unfold Flatdata.checkRes
  refine h.attempt0.bind1 fun r _ _ _ => ?_
  cases r with
  | ok a => exact inner (Pure.pure (some a))
  | error x =>
    dsimp only
    split
    · exact inner (Pure.pure none)
    · exact fail _ _

theorem openResource [DiffLib] (p : Profile) (e : Endian) (o : Obj) (r : ResDecl) :
    Balanced 1 0 (fun _ => 0) (Flatdata.openResource limited p e o r) (Flatdata.openResource file p e o r) := by
  unfold Flatdata.openResource
  split
  · exact (checkRes _ (read p e o _ _)).bind0 (k' := 1) fun _ => (checkRes _ (read p e o _ _)).bind1 fun _ _ _ _ => inner (Pure.pure _)
  · exact (checkRes _ (read p e o _ _)).bind1 fun _ _ _ _ => inner (Pure.pure _)

theorem openResources [DiffLib] (p : Profile) (e : Endian) (o : Obj) : ∀ rs : List ResDecl,
    Balanced 1 0 (fun _ => 0) (Flatdata.openResources limited p e o rs) (Flatdata.openResources file p e o rs)
  | [] => (inner (Pure.pure [])).weaken (by omega)
  | r :: rs => (openResource p e o r).bind0 (k' := 1) fun _ => (openResources p e o rs).bind1 fun _ _ _ _ => inner (Pure.pure _)

mutual
theorem openArchive [DiffLib] (p : Profile) (e : Endian) (o : Obj) : ∀ D : ArchiveDef,
    Balanced 1 0 (fun _ => 0) (Flatdata.openArchive limited p e o D) (Flatdata.openArchive file p e o D)
  | .mk name schema resources subs => by
    unfold Flatdata.openArchive
    exact (read p e o _ _).bind0 (k' := 1) fun _ => (openResources p e o resources).bind0 (k' := 1) fun _ =>
      (openSubs p e o subs).bind1 fun _ _ _ _ => inner (Pure.pure _)

theorem openSubs [DiffLib] (p : Profile) (e : Endian) (o : Obj) : ∀ ds : SubDefs,
    Balanced 1 0 (fun _ => 0) (Flatdata.openSubs limited p e o ds) (Flatdata.openSubs file p e o ds)
  | .nil => by
    unfold Flatdata.openSubs
    exact (inner (Pure.pure _)).weaken (by omega)
  | .cons name optional archive rest => by
    unfold Flatdata.openSubs
    exact (inner (FileSt.subdir o name)).mapErr.bind0 (k' := 1) fun o' => (checkRes optional (openArchive p e o' archive)).bind0 (k' := 1) fun _ =>
      (openSubs p e o rest).bind1 fun _ _ _ _ => inner (Pure.pure _)
end

end Spec.Balanced
end Flatdata
