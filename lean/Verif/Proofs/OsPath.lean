import Verif.Spec.OsPath
import Verif.Proofs.Parallel
import Verif.Spec.Interrupt
/-!
# Reading and writing in directories whose names are not text
-/
namespace Flatdata
open Spec

namespace RawBytes
variable (u : RawBytes)

theorem text_append (a b : Path) : u.text (a ++ b) = (u.text a && u.text b) := List.all_append

theorem text_cons (c : Char) (b : Path) : u.text (c :: b) = (!u.raw c && u.text b) := rfl

theorem text_split : ∀ l : List Char, (∀ x ∈ splitSlash l, u.text x = true) → u.text l = true
  | [], _ => rfl
  | c :: cs, h => by
    unfold splitSlash at h
    rw [text_cons]
    split at h
    · rename_i hc
      rw [hc, u.slash, text_split cs fun x hx => h x (List.mem_cons_of_mem _ hx)]; rfl
    · split at h
      · rename_i he
        exact absurd he (splitSlash_ne_nil cs)
      · rename_i x xs he
        have h1 := h (c :: x) List.mem_cons_self
        rw [text_cons, Bool.and_eq_true] at h1
        rw [h1.1, text_split cs fun y hy => ?_]; rfl
        rw [he] at hy
        cases hy with
        | head => exact h1.2
        | tail _ hy => exact h y (List.mem_cons_of_mem _ hy)

/-- A path is text if its components are. -/
theorem text_of_key {p : Path} (h : ∀ x ∈ key p, u.text x = true) : u.text p = true := by
  refine u.text_split p fun x hx => ?_
  by_cases h1 : x = []
  · subst h1; rfl
  by_cases h2 : x = ['.']
  · subst h2; unfold text; simp [u.dot]
  refine h x ?_
  unfold key
  exact List.mem_append_right _ (List.mem_filter.2 ⟨hx, by simp [h1, h2]⟩)

theorem text_split' : ∀ l : List Char, u.text l = true → ∀ x ∈ splitSlash l, u.text x = true
  | [], _, x, hx => by
    unfold splitSlash at hx
    cases hx with
    | head => rfl
    | tail _ h => cases h
  | c :: cs, h, x, hx => by
    rw [text_cons, Bool.and_eq_true] at h
    have ih := text_split' cs h.2
    unfold splitSlash at hx
    split at hx
    · cases hx with
      | head => rfl
      | tail _ hx => exact ih x hx
    · split at hx
      · rename_i he
        exact absurd he (splitSlash_ne_nil cs)
      · rename_i y ys he
        rw [he] at ih
        cases hx with
        | head => rw [text_cons, h.1, ih y List.mem_cons_self]; rfl
        | tail _ hx => exact ih x (List.mem_cons_of_mem _ hx)

theorem key_text {p : Path} (h : u.text p = true) : ∀ x ∈ key p, u.text x = true := by
  intro x hx
  unfold key at hx
  rcases List.mem_append.1 hx with hx | hx
  · split at hx
    · cases hx with
      | head => unfold text; simp [u.slash]
      | tail _ h => cases h
    · cases hx
  · exact u.text_split' p h x (List.mem_filter.1 hx).1

/-- In a directory whose name is not text nothing has a name that is text. -/
theorem join_raw {p : Path} {n : String} (hp : u.text p = false) (hn : PlainName n) : u.text (join p n) = false := by
  have h1 : n.toList.head? ≠ some '/' := by
    intro h
    cases hl : n.toList with
    | nil => rw [hl] at h; cases h
    | cons c cs =>
      rw [hl] at h
      cases h
      exact hn.2.1 (by rw [hl]; exact List.mem_cons_self)
  have h2 : p ≠ [] := by rintro rfl; cases hp
  unfold join
  rw [if_neg h1, if_neg h2]
  split <;> rw [text_append, hp, Bool.false_and]

end RawBytes

/-- Reading a file whose path is text. -/
theorem FileSt.readOs_text {u : RawBytes} {o : Obj} {n : String} (h : u.text (join o.path n) = true) :
    FileSt.readResourceOs u o n = FileSt.readResource o n := by
  unfold FileSt.readResourceOs FileSt.readResource
  rw [h]
  rfl

/-- Reading a file whose path is not text. -/
theorem FileSt.readOs_raw {u : RawBytes} {o : Obj} {n : String} (h : u.text (join o.path n) = false) (w : FileW) :
    ∃ b w', FileSt.pathExists (join o.path n) w = (.ok b, w') ∧
      FileSt.readResourceOs u o n w = (.err (if b then .invalidData else .notFound), w') := by
  obtain ⟨b, w1, h1, _⟩ := FileSt.pathExists_spec (join o.path n) w
  refine ⟨b, w1, h1, ?_⟩
  unfold FileSt.readResourceOs
  rw [Act.bind_ok (FileSt.mapErr_ok h1), h]
  cases b <;> rfl

/-- The keys of paths that are text. -/
def TextKey (u : RawBytes) (k : Key) : Prop := ∀ x ∈ k, u.text x = true

theorem simul_refl {W E α : Type} (x : Act W E α) : Simul (fun w w' => w = w') (fun a b => a = b) x x := by
  intro w w' h
  cases h
  refine ⟨?_, rfl⟩
  cases (x w).1 <;> first | rfl | trivial

theorem simul_of_refl {W E α : Type} (V : α → α → Prop) (x : Act W E α) (hv : ∀ w a, (x w).1 = .ok a → V a a) : Simul (fun w w' => w = w') V x x := by
  intro w w' h
  cases h
  refine ⟨?_, rfl⟩
  have := hv w
  cases hx : (x w).1 with
  | ok a => exact this a hx
  | err _ => rfl
  | panic => trivial
  | ub => trivial

/-- Where names are text it makes no difference. -/
def osAlike (u : RawBytes) : Alike file (fileOs u) where
  R w w' := w = w'
  obj o o' := o = o'
  base b b' := b = b'
  ok o n := u.text (join o.path n) = true
  isSub o n a := a.path = join o.path n
  subdir o o' n h _ := by
    cases h
    exact simul_of_refl _ _ fun w a ha => by cases ha; exact ⟨rfl, rfl⟩
  existsRes o o' n h _ := by cases h; exact simul_refl _
  readResource o o' n h hn := by
    cases h
    change Simul _ _ (FileSt.readResource o n) (FileSt.readResourceOs u o n)
    rw [FileSt.readOs_text hn]
    exact simul_of_refl _ _ fun _ _ _ => ⟨rfl, rfl, rfl⟩
  content w w' b b' h hb := by cases h; cases hb; rfl
  strm s s' := s = s'
  createOutputStream o o' n h _ := by cases h; exact simul_refl _
  writeAll s s' b h := by cases h; exact simul_of_refl _ _ fun _ _ _ => trivial
  seekStart s s' h := by cases h; exact simul_of_refl _ _ fun _ _ _ => trivial

theorem text_named {u : RawBytes} {o : Obj} {n : String} (h : Named (TextKey u) o n) : u.text (join o.path n) = true :=
  u.text_of_key h.key

theorem text_has {u : RawBytes} {D : ArchiveDef} {o : Obj} (hp : u.text o.path = true) (hn : TextNames u D) : Has (TextKey u) D o := by
  intro t ht x hx
  rcases List.mem_append.1 hx with hx | hx
  · exact u.key_text hp x hx
  · exact hn t ht x hx

theorem os_open [DiffLib] {u : RawBytes} {p : Profile} {e : Endian} {D : ArchiveDef} {o : Obj} (hs : Separate D) (hp : u.text o.path = true)
    (hn : TextNames u D) : Simul (osAlike u).R (osAlike u).archive (openArchive file p e o D) (openArchive (fileOs u) p e o D) :=
  open_alike (K := TextKey u) (osAlike u).toReadAlike id (fun _ _ => text_named) (fun _ _ _ h => h) hs rfl (text_has hp hn)

theorem os_build [DiffLib] {u : RawBytes} {p : Profile} {e : Endian} {D : ArchiveDef} {prog : Prog} {c : Content} {o : Obj} (hs : Separate D)
    (hc : Prepares p e D prog c) (hp : u.text o.path = true) (hn : TextNames u D) :
    Simul (osAlike u).R (fun _ _ => True) (buildArchive file p e o D prog) (buildArchive (fileOs u) p e o D prog) :=
  build_alike (K := TextKey u) (osAlike u) id (fun _ _ => text_named) (fun _ _ _ h => h) hs hc rfl (text_has hp hn)

/-! ## Only setters -/

theorem os_write [DiffLib] {u : RawBytes} {p : Profile} {e : Endian} {o : Obj} {r : ResDecl} {s : Source} (h1 : ∀ es, s ≠ .elements es)
    (h2 : ∀ its, s ≠ .items its) : writeResource (fileOs u) p e o r s = writeResource file p e o r s := by
  unfold writeResource
  cases s with
  | struct _ => cases r.type <;> rfl
  | data _ => cases r.type <;> rfl
  | elements es => exact absurd rfl (h1 es)
  | items its => exact absurd rfl (h2 its)

theorem os_run [DiffLib] {u : RawBytes} {p : Profile} {e : Endian} : ∀ {prog : Prog} (o : Obj), (∀ r, ¬ Staged prog r) →
    prog.run (fileOs u) p e o = prog.run file p e o
  | .done, _, _ => rfl
  | .res r s rest, o, h => by
    have h1 : writeResource (fileOs u) p e o r s = writeResource file p e o r s := by
      refine os_write ?_ ?_
      · rintro es rfl; exact h r (.elements List.mem_cons_self)
      · rintro its rfl; exact h r (.items List.mem_cons_self)
    have h2 : rest.run (fileOs u) p e o = rest.run file p e o := os_run o fun r' hr => by
      refine h r' ?_
      cases hr with
      | elements hm => exact .elements (List.mem_cons_of_mem _ hm)
      | items hm => exact .items (List.mem_cons_of_mem _ hm)
      | sub hm hs => exact .sub hm hs
    unfold Prog.run
    rw [h1, h2]
  | .sub name D inner rest, o, h => by
    have h2 : rest.run (fileOs u) p e o = rest.run file p e o := os_run o fun r' hr => by
      refine h r' ?_
      cases hr with
      | elements hm => exact .elements hm
      | items hm => exact .items hm
      | sub hm hs => exact .sub (List.mem_cons_of_mem _ hm) hs
    have h1 : ∀ o', inner.run (fileOs u) p e o' = inner.run file p e o' := fun o' => os_run o' fun r' hr => h r' (.sub List.mem_cons_self hr)
    unfold Prog.run
    rw [h2]
    have h3 : (fun o' : Obj => inner.run (fileOs u) p e o') = fun o' => inner.run file p e o' := funext h1
    change (builderSub file p e o name D >>= fun o' => inner.run (fileOs u) p e o' >>= fun _ => rest.run file p e o) = _
    simp only [h1]

/-! ## Vectors -/

/-- What the call returns, if it returns a value, is such a value. -/
def Ret {W E α : Type} (P : α → Prop) (x : Act W E α) : Prop := ∀ w a w', x w = (.ok a, w') → P a

namespace Ret
variable {W E E' α β : Type} {P : α → Prop} {Q : β → Prop}

theorem any (x : Act W E α) : Ret (fun _ => True) x := fun _ _ _ _ => trivial

theorem pure {a : α} (h : P a) : Ret P (Pure.pure a : Act W E α) := fun _ _ _ e => by cases e; exact h

theorem fail (x : E) : Ret P (Act.fail x : Act W E α) := fun _ _ _ e => by cases e

theorem bind {x : Act W E α} {f : α → Act W E β} (h : Ret P x) (hf : ∀ a, P a → Ret Q (f a)) : Ret Q (x >>= f) := by
  intro w b w' e
  obtain ⟨a, w1, h1, h2⟩ := Act.bind_eq_ok e
  exact hf a (h w a w1 h1) w1 b w' h2

theorem seq {x : Act W E α} {f : α → Act W E β} (hf : ∀ a, Ret Q (f a)) : Ret Q (x >>= f) := bind (any x) fun a _ => hf a

theorem mapErr {x : Act W E α} {f : E → E'} (h : Ret P x) : Ret P (x.mapErr f) := by
  intro w a w' e
  unfold Act.mapErr at e
  split at e <;> cases e
  exact h _ _ _ (by assumption)

theorem attempt {x : Act W E α} (h : Ret P x) : Ret (fun r => ∀ a, r = .ok a → P a) (x.attempt : Act W E' (Except E α)) := by
  intro w r w' e a ha
  subst ha
  unfold Act.attempt at e
  split at e <;> cases e
  exact h _ _ _ (by assumption)

theorem foldlM {γ : Type} {f : α → γ → Act W E α} (hf : ∀ a c, P a → Ret P (f a c)) : ∀ (l : List γ) (a : α), P a → Ret P (l.foldlM f a)
  | [], _, h => pure h
  | c :: cs, a, h => by
    rw [List.foldlM_cons]
    exact bind (hf a c h) fun b hb => foldlM hf cs b hb

end Ret

section
variable {B : Backend} {o : B.Obj} {n : String} {p : Profile} {e : Endian}

/-- The handle belongs to the resource. -/
def Handle.Of (o : B.Obj) (n : String) (h : Handle B) : Prop := h.obj = o ∧ h.name = n

theorem ret_write {h : Handle B} {d : Bytes} (hh : h.Of o n) : Ret (Handle.Of o n) (h.write p d) := by
  unfold Handle.write
  cases h.stream with
  | none => exact .fail _
  | some s => exact .seq fun _ => .seq fun _ => .pure hh

theorem ret_flush {v : ExtVec B} (hh : v.handle.Of o n) : Ret (fun v => v.handle.Of o n) (v.flush p) :=
  .seq fun _ => .seq fun _ => .bind (ret_write hh) fun _ h => .pure h

theorem ret_grow {v : ExtVec B} {size : Nat} (hh : v.handle.Of o n) : Ret (fun r => r.1.handle.Of o n) (v.grow p size) := by
  unfold ExtVec.grow
  refine .bind (P := fun v => v.handle.Of o n) ?_ fun v hv => .seq fun _ => .seq fun _ => .seq fun _ => .seq fun _ => .seq fun _ => .pure hv
  unfold ExtVec.flushIfFull
  split
  · exact ret_flush hh
  · exact .pure hh

theorem ret_growOne {S : StructDef} {v : ExtVec B} {ops : List HandleOp} (hh : v.handle.Of o n) :
    Ret (fun v => v.handle.Of o n) (growOne B p e S v ops) := .bind (ret_grow hh) fun _ h => .seq fun _ => .pure h

theorem ret_create {schema : String} : Ret (fun v => v.handle.Of o n) (createExternalVector (B := B) p e o n schema) :=
  .seq fun _ => .seq fun _ => .seq fun _ => .bind (P := Handle.Of o n) (.seq fun _ => .pure ⟨rfl, rfl⟩) fun _ h => .pure h

theorem ret_mflush {v : MultiVec B} (hh : v.handle.Of o n) : Ret (fun v => v.handle.Of o n) (v.flush p) :=
  .seq fun _ => .seq fun _ => .bind (ret_write hh) fun _ h => .seq fun _ => .pure h

theorem ret_addToIndex {V : Variadic} {v : MultiVec B} (hh : v.handle.Of o n) : Ret (fun v => v.handle.Of o n) (v.addToIndex p e V) :=
  .seq fun _ => .seq fun _ => .seq fun _ => .seq fun _ => .pure hh

theorem ret_mgrow {V : Variadic} {v : MultiVec B} (hh : v.handle.Of o n) : Ret (fun r => r.2.handle.Of o n) (v.grow p e V) := by
  unfold MultiVec.grow
  refine .bind (.attempt (P := fun v => v.handle.Of o n) ?_) fun r hr => ?_
  · unfold MultiVec.flushIfFull
    split
    · exact ret_mflush hh
    · exact .pure hh
  cases r with
  | error x => exact .pure hh
  | ok v1 =>
    have h1 := hr v1 rfl
    refine .bind (.attempt (ret_addToIndex h1)) fun r hr => ?_
    cases r with
    | error x => exact .pure h1
    | ok v2 => exact .pure (hr v2 rfl)

theorem ret_addOne {v : MultiVec B} {a : Add} (hh : v.handle.Of o n) : Ret (fun v => v.handle.Of o n) (addOne B p e v a) :=
  .seq fun _ => .seq fun _ => .pure hh

theorem ret_growItem {V : Variadic} {v : MultiVec B} {as : List Add} (hh : v.handle.Of o n) :
    Ret (fun v => v.handle.Of o n) (growItem B p e V v as) :=
  .bind (.mapErr (ret_mgrow hh)) fun r hr => .seq fun _ => .foldlM (fun _ _ h => ret_addOne h) as r.2 hr

theorem ret_createMulti {schema : String} : Ret (fun v => v.handle.Of o n) (createMultiVector (B := B) p e o n schema) := by
  refine .seq fun _ => .bind (.attempt (P := Handle.Of o n) ?_) fun r hr => ?_
  · exact .seq fun _ => .seq fun _ => .seq fun _ => .seq fun _ => .pure ⟨rfl, rfl⟩
  cases r with
  | error x => exact .seq fun _ => .fail _
  | ok h => exact .pure (hr h rfl)

end

/-- The call does not succeed. -/
abbrev Never {W E α : Type} (x : Act W E α) : Prop := Ret (fun _ => False) x

theorem Never.not_ok {W E α : Type} {x : Act W E α} (h : Never x) (w : W) : (x w).1.isOk = false := by
  cases hx : x w with
  | mk r w' =>
    cases r with
    | ok a => exact False.elim (h w a w' hx)
    | err _ => rfl
    | panic => rfl
    | ub => rfl

section
variable [DiffLib] {u : RawBytes} {o : Obj} {n : String} {p : Profile} {e : Endian}

theorem never_read {schema : String} (h : u.text (join o.path n) = false) : Never (Storage.read (fileOs u) p e o n schema) := by
  refine .bind (P := fun _ => False) (.mapErr ?_) fun _ h => h.elim
  intro w a w' hr
  obtain ⟨b, w1, _, h2⟩ := FileSt.readOs_raw h w
  rw [show (fileOs u).readResource o n w = FileSt.readResourceOs u o n w from rfl, h2] at hr
  cases hr

theorem never_handle {h : Handle (fileOs u)} (hh : h.Of o n) (hr : u.text (join o.path n) = false) :
    Ret (fun r => ∀ x, r.1 ≠ .ok x) (h.close p e) := by
  unfold Handle.close
  cases h.stream with
  | none => exact .pure (fun x hx => by cases hx)
  | some s =>
    refine .seq fun r => ?_
    cases r with
    | error x => exact .pure (fun x hx => by cases hx)
    | ok _ =>
      refine .bind (.attempt (never_read (by rw [hh.1, hh.2]; exact hr))) fun r hr => .pure fun x hx => ?_
      exact hr x hx

theorem never_close {v : ExtVec (fileOs u)} (hh : v.handle.Of o n) (hr : u.text (join o.path n) = false) : Never (v.close p e) := by
  refine .bind (.attempt (ret_flush hh)) fun r h1 => ?_
  cases r with
  | error x => exact .seq fun _ => .fail _
  | ok v1 =>
    refine .bind (.mapErr (never_handle (h1 v1 rfl) hr)) fun r h2 => .seq fun _ => ?_
    cases hx : r.1 with
    | error x => exact .fail _
    | ok a => exact absurd hx (h2 a)

theorem never_mclose {V : Variadic} {v : MultiVec (fileOs u)} (hh : v.handle.Of o n) (hr : u.text (join o.path n) = false) :
    Never (v.close p e V) := by
  refine .bind (.attempt (ret_addToIndex hh)) fun r h1 => ?_
  cases r with
  | error x => exact .seq fun _ => .fail _
  | ok v1 =>
    refine .bind (.attempt (ret_mflush (h1 v1 rfl))) fun r h2 => ?_
    cases r with
    | error x => exact .seq fun _ => .fail _
    | ok v2 =>
      refine .seq fun r => ?_
      cases r with
      | error x => exact .seq fun _ => .fail _
      | ok i =>
        refine .bind (.mapErr (never_handle (h2 v2 rfl) hr)) fun r h3 => .seq fun _ => ?_
        cases hx : r.1 with
        | error x => exact .bind (P := fun _ => False) (.fail _) fun _ h => h.elim
        | ok a => exact absurd hx (h3 a)

theorem never_write {r : ResDecl} {s : Source} (hs : (∃ es, s = .elements es) ∨ ∃ its, s = .items its) (hr : u.text (join o.path r.name) = false) :
    Never (writeResource (fileOs u) p e o r s) := by
  have ub : ∀ {α : Type}, Never (Act.lift .ub : Act FileW RErr α) := fun _ _ _ h => by cases h
  unfold writeResource
  rcases hs with ⟨es, rfl⟩ | ⟨its, rfl⟩
  · cases r.type with
    | vector S =>
      refine .bind (P := fun v => v.handle.Of o r.name) (.mapErr ret_create) fun v h => ?_
      refine .bind (P := fun v => v.handle.Of o r.name) (.mapErr (.foldlM (fun _ _ h => ret_growOne h) es v h)) fun v h => ?_
      exact .bind (P := fun _ => False) (never_close h hr) fun _ h => h.elim
    | struct S => exact ub
    | multi V index => exact ub
    | raw => exact ub
  · cases r.type with
    | multi V index =>
      refine .bind (P := fun v => v.handle.Of o r.name) (.mapErr ret_createMulti) fun v h => ?_
      refine .bind (P := fun v => v.handle.Of o r.name) (.mapErr (.foldlM (fun _ _ h => ret_growItem h) its v h)) fun v h => ?_
      exact .bind (P := fun _ => False) (never_mclose h hr) fun _ h => h.elim
    | struct S => exact ub
    | vector S => exact ub
    | raw => exact ub

end

/-! ## Programs with vectors -/

/-- The names in the program are plain. -/
inductive PlainProg : Prog → Prop
  | mk {prog} (res : ∀ x ∈ prog.writes, PlainName x.1.name) (subs : ∀ x ∈ prog.builds, PlainName x.1) (inner : ∀ x ∈ prog.builds, PlainProg x.2.2) :
    PlainProg prog

theorem never_run [DiffLib] {u : RawBytes} {p : Profile} {e : Endian} {r : ResDecl} : ∀ {prog : Prog} (o : Obj), PlainProg prog →
    u.text o.path = false → Staged prog r → Never (prog.run (fileOs u) p e o)
  | .done, _, _, _, h => by
    cases h with
    | elements hm => cases hm
    | items hm => cases hm
    | sub hm _ => cases hm
  | .res r' s rest, o, hp, ho, h => by
    obtain ⟨h1, h2, h3⟩ := hp
    have hn := u.join_raw ho (h1 _ List.mem_cons_self)
    have tl : Staged rest r → Never (Prog.run (fileOs u) p e (.res r' s rest) o) := fun h =>
      .seq fun _ => never_run o ⟨fun x hx => h1 x (List.mem_cons_of_mem _ hx), h2, h3⟩ ho h
    have hd : ((∃ es, s = .elements es) ∨ ∃ its, s = .items its) → Never (Prog.run (fileOs u) p e (.res r' s rest) o) := fun h =>
      .bind (never_write h hn) fun _ h => h.elim
    cases h with
    | elements hm => cases hm with
      | head => exact hd (.inl ⟨_, rfl⟩)
      | tail _ hm => exact tl (.elements hm)
    | items hm => cases hm with
      | head => exact hd (.inr ⟨_, rfl⟩)
      | tail _ hm => exact tl (.items hm)
    | sub hm hs => exact tl (.sub hm hs)
  | .sub name D inner rest, o, hp, ho, h => by
    obtain ⟨h1, h2, h3⟩ := hp
    have tl : Staged rest r → Never (Prog.run (fileOs u) p e (.sub name D inner rest) o) := fun h =>
      .seq fun _ => .seq fun _ => never_run o ⟨h1, fun x hx => h2 x (List.mem_cons_of_mem _ hx), fun x hx => h3 x (List.mem_cons_of_mem _ hx)⟩ ho h
    cases h with
    | elements hm => exact tl (.elements hm)
    | items hm => exact tl (.items hm)
    | sub hm hs => cases hm with
      | head =>
        refine .bind (P := fun o' => o'.path = join o.path name) ?_ fun o' ho' => ?_
        · refine .bind (P := fun o' : Obj => o'.path = join o.path name) (.mapErr ?_) fun o' ho' => .seq fun _ => .pure ho'
          intro w a w' ha
          cases ha
          rfl
        · refine .bind (P := fun _ => False) ?_ fun _ h => h.elim
          exact never_run o' (h3 _ List.mem_cons_self) (by rw [ho']; exact u.join_raw ho (h2 _ List.mem_cons_self)) hs
      | tail _ hm => exact tl (.sub hm hs)

theorem plain_prog {p : Profile} {e : Endian} : ∀ (prog : Prog) {D : ArchiveDef} {c : Content}, Separate D → Prepares p e D prog c → PlainProg prog := by
  have key : ∀ (prog : Prog), Level p e prog → PlainProg prog := by
    intro prog
    induction prog with
    | done => exact fun _ => ⟨fun _ h => (by cases h), fun _ h => (by cases h), fun _ h => by cases h⟩
    | res r s rest ih =>
      intro h
      obtain ⟨h1, h2, h3⟩ := ih h.res
      refine ⟨fun x hx => ?_, h2, h3⟩
      cases hx with
      | tail _ hx => exact h1 x hx
      | head =>
        refine h.plain _ List.mem_cons_self _ ?_
        unfold resFiles parts
        cases r.type <;> simp
    | sub name D inner rest ih1 ih2 =>
      intro h
      obtain ⟨h1, h2, h3⟩ := ih2 h.sub
      refine ⟨h1, fun x hx => ?_, fun x hx => ?_⟩
      · cases hx with
        | head => exact h.plainSub _ List.mem_cons_self
        | tail _ hx => exact h2 x hx
      · cases hx with
        | tail _ hx => exact h3 x hx
        | head =>
          obtain ⟨hs, c, hc⟩ := h.inner _ List.mem_cons_self
          exact ih1 (hc.level hs).1
  exact fun prog _ _ hs hc => key prog (hc.level hs).1

theorem never_build [DiffLib] {u : RawBytes} {p : Profile} {e : Endian} {D : ArchiveDef} {prog : Prog} {c : Content} {o : Obj} {r : ResDecl}
    (hs : Separate D) (hc : Prepares p e D prog c) (ho : u.text o.path = false) (h : Staged prog r) :
    Never (buildArchive (fileOs u) p e o D prog) := by
  refine .bind (P := fun o' => o' = o) ?_ fun o' ho' => ?_
  · exact .seq fun _ => .pure rfl
  · rw [ho']
    exact never_run o (plain_prog prog hs hc) ho h

end Flatdata
