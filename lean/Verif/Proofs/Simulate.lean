import Verif.Spec.Program
import Verif.Proofs.ProgramRun
/-!
# Two storages that behave alike

If the required methods of two storages behave alike on certain names, then so does everything that is built on them.
-/
namespace Flatdata
open Spec

/-- The same kind of outcome, with related values and equal errors. -/
def Res.Rel {E α β : Type} (V : α → β → Prop) : Res E α → Res E β → Prop
  | .ok a, .ok b => V a b
  | .err x, .err y => x = y
  | .panic, .panic => True
  | .ub, .ub => True
  | _, _ => False

/-- From related worlds: outcomes of the same kind, with related values, and related worlds. -/
def Simul {W W' E α β : Type} (R : W → W' → Prop) (V : α → β → Prop) (x : Act W E α) (y : Act W' E β) : Prop :=
  ∀ w w', R w w' → (x w).1.Rel V (y w').1 ∧ R (x w).2 (y w').2

namespace Simul
variable {W W' E E' α β α' β' : Type} {R : W → W' → Prop} {V : α → β → Prop} {V' : α' → β' → Prop}

theorem pure {a : α} {b : β} (h : V a b) : Simul R V (Pure.pure a : Act W E α) (Pure.pure b) := fun _ _ hr => ⟨h, hr⟩

theorem fail (x : E) : Simul R V (Act.fail x : Act W E α) (Act.fail x) := fun _ _ hr => ⟨rfl, hr⟩

theorem lift (x : Out α) : Simul R (fun a b => a = b) (Act.lift x : Act W E α) (Act.lift x) := by
  intro w w' hr
  cases x
  · exact ⟨rfl, hr⟩
  · exact ⟨trivial, hr⟩
  · exact ⟨trivial, hr⟩

theorem mono {V₁ : α → β → Prop} {x : Act W E α} {y : Act W' E β} (h : Simul R V x y) (hv : ∀ a b, V a b → V₁ a b) : Simul R V₁ x y := by
  intro w w' hr
  obtain ⟨h1, h2⟩ := h w w' hr
  refine ⟨?_, h2⟩
  generalize (x w).1 = r at h1 ⊢
  generalize (y w').1 = r' at h1 ⊢
  cases r <;> cases r' <;> first | exact hv _ _ h1 | exact h1

theorem bind {x : Act W E α} {y : Act W' E β} {f : α → Act W E α'} {g : β → Act W' E β'} (h : Simul R V x y)
    (hf : ∀ a b, V a b → Simul R V' (f a) (g b)) : Simul R V' (x >>= f) (y >>= g) := by
  intro w w' hr
  obtain ⟨h1, h2⟩ := h w w' hr
  change (Act.bind x f w).1.Rel V' (Act.bind y g w').1 ∧ R (Act.bind x f w).2 (Act.bind y g w').2
  unfold Act.bind
  generalize x w = a at h1 h2 ⊢
  generalize y w' = b at h1 h2 ⊢
  obtain ⟨r, w1⟩ := a
  obtain ⟨r', w1'⟩ := b
  cases r <;> cases r' <;> first | exact hf _ _ h1 _ _ h2 | exact ⟨h1, h2⟩ | exact False.elim h1

theorem mapErr {x : Act W E α} {y : Act W' E β} (f : E → E') (h : Simul R V x y) : Simul R V (x.mapErr f) (y.mapErr f) := by
  intro w w' hr
  obtain ⟨h1, h2⟩ := h w w' hr
  unfold Act.mapErr
  generalize x w = a at h1 h2 ⊢
  generalize y w' = b at h1 h2 ⊢
  obtain ⟨r, w1⟩ := a
  obtain ⟨r', w1'⟩ := b
  cases r <;> cases r' <;> first | exact ⟨congrArg f h1, h2⟩ | exact ⟨h1, h2⟩

/-- Related results. -/
def exRel (V : α → β → Prop) : Except E α → Except E β → Prop
  | .ok a, .ok b => V a b
  | .error x, .error y => x = y
  | _, _ => False

theorem attempt {x : Act W E α} {y : Act W' E β} (h : Simul R V x y) :
    Simul R (exRel (E := E) V) (Act.attempt (E' := E') x) (Act.attempt y) := by
  intro w w' hr
  obtain ⟨h1, h2⟩ := h w w' hr
  unfold Act.attempt
  generalize x w = a at h1 h2 ⊢
  generalize y w' = b at h1 h2 ⊢
  obtain ⟨r, w1⟩ := a
  obtain ⟨r', w1'⟩ := b
  cases r <;> cases r' <;> exact ⟨h1, h2⟩

theorem ofExcept {a : Except E α} {b : Except E β} (h : exRel V a b) : Simul R V (Act.ofExcept a) (Act.ofExcept b) := by
  cases a <;> cases b <;> first | exact h.elim | skip
  · cases h; exact fail _
  · exact pure h

theorem ite {c : Prop} [Decidable c] {x x₁ : Act W E α} {y y₁ : Act W' E β} (h1 : c → Simul R V x y) (h2 : ¬ c → Simul R V x₁ y₁) :
    Simul R V (if c then x else x₁) (if c then y else y₁) := by
  by_cases h : c
  · rw [if_pos h, if_pos h]; exact h1 h
  · rw [if_neg h, if_neg h]; exact h2 h

theorem foldlM {γ : Type} {f : α → γ → Act W E α} {g : β → γ → Act W' E β} (h : ∀ a b c, V a b → Simul R V (f a c) (g b c)) :
    ∀ (l : List γ) (a : α) (b : β), V a b → Simul R V (l.foldlM f a) (l.foldlM g b)
  | [], _, _, hv => pure hv
  | c :: l, a, b, hv => by
    rw [List.foldlM_cons, List.foldlM_cons]
    exact bind (h a b c hv) fun _ _ hv => foldlM h l _ _ hv

end Simul

/-- Storages from which one reads alike, with the names allowed by `ok`. -/
structure ReadAlike (B B' : Backend) where
  R : B.W → B'.W → Prop
  obj : B.Obj → B'.Obj → Prop
  base : B.Base → B'.Base → Prop
  /-- the names that may be used with a storage object -/
  ok : B.Obj → String → Prop
  /-- what is known of the storage object of a subdirectory -/
  isSub : B.Obj → String → B.Obj → Prop
  subdir : ∀ o o' n, obj o o' → PlainName n → Simul R (fun a b => obj a b ∧ isSub o n a) (B.subdir o n) (B'.subdir o' n)
  existsRes : ∀ o o' n, obj o o' → ok o n → Simul R (fun a b => a = b) (B.existsRes o n) (B'.existsRes o' n)
  readResource : ∀ o o' n, obj o o' → ok o n →
    Simul R (fun a b => base a.base b.base ∧ a.off = b.off ∧ a.len = b.len) (B.readResource o n) (B'.readResource o' n)
  content : ∀ w w' b b', R w w' → base b b' → B.content w b = B'.content w' b'

namespace ReadAlike
variable {B B' : Backend} (S : ReadAlike B B') {p : Profile} {e : Endian}

/-- Related slices. -/
def slice (a : Slice B.Base) (b : Slice B'.Base) : Prop := S.base a.base b.base ∧ a.off = b.off ∧ a.len = b.len

theorem deref {w : B.W} {w' : B'.W} {s : Slice B.Base} {s' : Slice B'.Base} (hr : S.R w w') (h : S.slice s s') :
    B.deref w s = B'.deref w' s' := by
  unfold Backend.deref
  rw [S.content w w' _ _ hr h.1, h.2.1, h.2.2]

theorem load {E : Type} {s : Slice B.Base} {s' : Slice B'.Base} (h : S.slice s s') :
    Simul S.R (fun a b => a = b) (B.load s : Act B.W E Bytes) (B'.load s') := by
  intro w w' hr
  unfold Backend.load
  rw [S.deref hr h]
  exact Simul.lift _ w w' hr

/-- A name and that of its schema. -/
def both (o : B.Obj) (n : String) : Prop := S.ok o n ∧ S.ok o (Storage.schemaName n)

/-! ## Reading -/

theorem payload {a : Slice B.Base} {b : Slice B'.Base} {E : Type} (n : Nat) (h : S.slice a b) :
    Simul (E := E) S.R S.slice (Act.lift (Storage.payload B a n)) (Act.lift (Storage.payload B' b n)) := by
  unfold Storage.payload
  rw [h.2.2]
  by_cases hc : 8 ≤ b.len ∧ n ≤ b.len - 8
  · rw [if_pos hc, if_pos hc]
    exact .pure ⟨h.1, congrArg (· + 8) h.2.1, rfl⟩
  · rw [if_neg hc, if_neg hc]
    exact fun _ _ hr => ⟨trivial, hr⟩

theorem checkSchema [DiffLib] {a : Slice B.Base} {b : Slice B'.Base} (name expected : String) (n : Nat) (st : Bytes) (h : S.slice a b) :
    Simul S.R S.slice (Storage.checkSchema B name expected a n st) (Storage.checkSchema B' name expected b n st) := by
  unfold Storage.checkSchema
  cases fromUtf8 st with
  | none => exact .fail _
  | some s => exact .ite (fun _ => .fail _) fun _ => S.payload n h

theorem checkResource [DiffLib] {a s : Slice B.Base} {b t : Slice B'.Base} (name expected : String) (h : S.slice a b) (hs : S.slice s t) :
    Simul S.R S.slice (Storage.checkResource B p e name expected a s) (Storage.checkResource B' p e name expected b t) := by
  unfold Storage.checkResource
  rw [h.2.2]
  refine .ite (fun _ => .fail _) fun _ => .bind (S.load ⟨h.1, h.2.1, rfl⟩) fun _ _ hv => ?_
  cases hv
  refine .bind (.lift _) fun _ _ hv => ?_
  cases hv
  refine .bind (.lift _) fun _ _ hv => ?_
  cases hv
  refine .bind (.lift _) fun _ _ hv => ?_
  cases hv
  refine .ite (fun _ => .fail _) fun _ => .bind (S.load hs) fun _ _ hv => ?_
  cases hv
  exact S.checkSchema _ _ _ _ h

theorem read [DiffLib] {o : B.Obj} {o' : B'.Obj} {n : String} (expected : String) (h : S.obj o o') (hn : S.both o n) :
    Simul S.R S.slice (Storage.read B p e o n expected) (Storage.read B' p e o' n expected) :=
  .bind (.mapErr _ (S.readResource _ _ _ h hn.1)) fun _ _ h1 => .bind (.mapErr _ (S.readResource _ _ _ h hn.2)) fun _ _ h2 =>
    S.checkResource _ _ h1 h2

/-! ## Opening archives -/

variable {S}

variable (S) in
/-- Related slices, if any. -/
def descr : Option (Slice B.Base) → Option (Slice B'.Base) → Prop
  | none, none => True
  | some s, some s' => S.slice s s'
  | _, _ => False

theorem checkRes {α β : Type} {V : α → β → Prop} {V' : Option α → Option β → Prop} (opt : Bool) {x : Act B.W RErr α} {y : Act B'.W RErr β}
    (h : Simul S.R V x y) (hs : ∀ a b, V a b → V' (some a) (some b)) (hn : V' none none) :
    Simul S.R V' (Flatdata.checkRes B opt x) (Flatdata.checkRes B' opt y) := by
  unfold Flatdata.checkRes
  refine .bind (.attempt h) fun a b hv => ?_
  cases a <;> cases b <;> first | exact False.elim hv | skip
  · cases hv
    exact .ite (fun _ => .pure hn) fun _ => .fail _
  · exact .pure (hs _ _ hv)

variable (S) in
/-- Related accessors. -/
def opened : Opened B.Base → Opened B'.Base → Prop
  | .one d, .one d' => S.descr d d'
  | .two i d, .two i' d' => S.descr i i' ∧ S.descr d d'
  | _, _ => False

variable (S) in
/-- Related lists of accessors. -/
def openeds : List (Opened B.Base) → List (Opened B'.Base) → Prop
  | [], [] => True
  | x :: xs, y :: ys => S.opened x y ∧ openeds xs ys
  | _, _ => False

variable (S) in
mutual
/-- Related opened archives. -/
def archive : Archive B.Base → Archive B'.Base → Prop
  | .mk xs ss, .mk ys ts => S.openeds xs ys ∧ subs ss ts

/-- ... and their subarchives. -/
def subs : SubArchives B.Base → SubArchives B'.Base → Prop
  | .nil, .nil => True
  | .cons none ss, .cons none ts => subs ss ts
  | .cons (some a) ss, .cons (some b) ts => archive a b ∧ subs ss ts
  | _, _ => False
end

theorem openResource [DiffLib] {o : B.Obj} {o' : B'.Obj} {r : ResDecl} (h : S.obj o o') (hn : ∀ n ∈ resFiles r, S.ok o n) :
    Simul S.R S.opened (Flatdata.openResource B p e o r) (Flatdata.openResource B' p e o' r) := by
  have hb : S.both o r.name := ⟨hn _ (name_mem_resFiles r).1, hn _ (name_mem_resFiles r).2⟩
  have one : Simul S.R S.descr (Flatdata.checkRes B r.optional (Storage.read B p e o r.name r.schema))
    (Flatdata.checkRes B' r.optional (Storage.read B' p e o' r.name r.schema)) := checkRes _ (S.read _ h hb) (fun _ _ h => h) trivial
  unfold Flatdata.openResource
  rcases r with ⟨name, schema, opt, type⟩
  cases type with
  | multi V i =>
    have hi : S.both o i := ⟨hn _ (by simp [resFiles, parts]), hn _ (by simp [resFiles, parts, Storage.schemaName])⟩
    exact .bind (V := S.descr) (checkRes _ (S.read _ h hi) (fun _ _ h => h) trivial) fun _ _ h1 => .bind one fun _ _ h2 => .pure ⟨h1, h2⟩
  | _ => exact .bind one fun _ _ h2 => .pure h2

theorem openResources [DiffLib] {o : B.Obj} {o' : B'.Obj} (h : S.obj o o') : ∀ {rs : List ResDecl}, (∀ r ∈ rs, ∀ n ∈ resFiles r, S.ok o n) →
    Simul S.R S.openeds (Flatdata.openResources B p e o rs) (Flatdata.openResources B' p e o' rs)
  | [], _ => .pure trivial
  | r :: _, hn => .bind (openResource h (hn r List.mem_cons_self)) fun _ _ h1 =>
    .bind (openResources h fun r hr => hn r (List.mem_cons_of_mem _ hr)) fun _ _ h2 => .pure ⟨h1, h2⟩

variable (S) in
mutual
/-- The archive has only allowed names. -/
def Inside : ArchiveDef → B.Obj → Prop
  | .mk name schema rs subs, o => (∀ n ∈ files (.mk name schema rs subs), S.ok o n) ∧ SubsInside subs o

/-- ... and its subarchives. -/
def SubsInside : SubDefs → B.Obj → Prop
  | .nil, _ => True
  | .cons name _ D rest, o => PlainName name ∧ (∀ a, S.isSub o name a → Inside D a) ∧ SubsInside rest o
end

theorem Inside.sig {D : ArchiveDef} {o : B.Obj} (h : S.Inside D o) : S.both o D.signature := by
  cases D
  exact ⟨h.1 _ List.mem_cons_self, h.1 _ (List.mem_cons_of_mem _ List.mem_cons_self)⟩

theorem Inside.res {D : ArchiveDef} {o : B.Obj} (h : S.Inside D o) : ∀ r ∈ D.resources, ∀ n ∈ resFiles r, S.ok o n := by
  cases D
  exact fun r hr n hn => h.1 _ (List.mem_cons_of_mem _ (List.mem_cons_of_mem _ (List.mem_flatMap.2 ⟨r, hr, hn⟩)))

mutual
theorem openArchive [DiffLib] : ∀ {D : ArchiveDef} {o : B.Obj} {o' : B'.Obj}, S.obj o o' → S.Inside D o →
    Simul S.R S.archive (Flatdata.openArchive B p e o D) (Flatdata.openArchive B' p e o' D)
  | .mk _ _ _ _, _, _, h, hi =>
    .bind (S.read _ h (Inside.sig hi)) fun _ _ _ => .bind (openResources h (Inside.res hi)) fun _ _ h1 =>
      .bind (openSubs h hi.2) fun _ _ h2 => .pure ⟨h1, h2⟩

theorem openSubs [DiffLib] : ∀ {ss : SubDefs} {o : B.Obj} {o' : B'.Obj}, S.obj o o' → S.SubsInside ss o →
    Simul S.R S.subs (Flatdata.openSubs B p e o ss) (Flatdata.openSubs B' p e o' ss)
  | .nil, _, _, _, _ => .pure trivial
  | .cons _ _ _ _, _, _, h, hi =>
    .bind (.mapErr _ (S.subdir _ _ _ h hi.1)) fun _ _ hs =>
      .bind (checkRes (V' := fun a b => match a, b with | none, none => True | some a, some b => S.archive a b | _, _ => False) _
        (openArchive hs.1 (hi.2.1 _ hs.2)) (fun _ _ h => h) trivial) fun a b h1 =>
        .bind (openSubs h hi.2.2) fun _ _ h2 => .pure (by cases a <;> cases b <;> first | exact False.elim h1 | exact h2 | exact ⟨h1, h2⟩)
end

end ReadAlike

/-- Storages that behave alike on the names allowed by `ok`. -/
structure Alike (B B' : Backend) extends ReadAlike B B' where
  strm : B.Strm → B'.Strm → Prop
  createOutputStream : ∀ o o' n, obj o o' → ok o n → Simul R strm (B.createOutputStream o n) (B'.createOutputStream o' n)
  writeAll : ∀ s s' b, strm s s' → Simul R (fun _ _ => True) (B.writeAll s b) (B'.writeAll s' b)
  seekStart : ∀ s s', strm s s' → Simul R (fun _ _ => True) (B.seekStart s) (B'.seekStart s')

namespace Alike
variable {B B' : Backend} (S : Alike B B') {p : Profile} {e : Endian}

/-! ## Writing -/

theorem writeSize (v : Nat) {s : B.Strm} {s' : B'.Strm} (h : S.strm s s') :
    Simul S.R (fun _ _ => True) (Storage.writeSize B p e v s) (Storage.writeSize B' p e v s') :=
  .bind (.lift _) fun _ _ hv => by cases hv; exact S.writeAll _ _ _ h

theorem writePadding {s : B.Strm} {s' : B'.Strm} (h : S.strm s s') :
    Simul S.R (fun _ _ => True) (Storage.writePadding B s) (Storage.writePadding B' s') := S.writeAll _ _ _ h

theorem writeToStream (d : Bytes) {s : B.Strm} {s' : B'.Strm} (h : S.strm s s') :
    Simul S.R (fun _ _ => True) (Storage.writeToStream B p e d s) (Storage.writeToStream B' p e d s') :=
  .bind (S.writeSize _ h) fun _ _ _ => .bind (S.writeAll _ _ _ h) fun _ _ _ => S.writePadding h

theorem write {o : B.Obj} {o' : B'.Obj} {n schema : String} (d : Bytes) (h : S.obj o o') (hn : S.both o n) :
    Simul S.R (fun _ _ => True) (Storage.write B p e o n schema d) (Storage.write B' p e o' n schema d) :=
  .bind (S.createOutputStream _ _ _ h hn.1) fun _ _ hs => .bind (S.writeToStream d hs) fun _ _ _ =>
    .bind (S.createOutputStream _ _ _ h hn.2) fun _ _ hs => S.writeAll _ _ _ hs

theorem createArchive {o : B.Obj} {o' : B'.Obj} {n schema : String} (h : S.obj o o') (hn : S.both o n) :
    Simul S.R (fun _ _ => True) (Storage.createArchive B p e o n schema) (Storage.createArchive B' p e o' n schema) :=
  .bind (.mapErr _ (S.existsRes _ _ _ h hn.1)) fun a b hv => by
    cases hv
    exact .ite (fun _ => .fail _) fun _ => .mapErr _ (S.write _ h hn)

/-! ## Handles -/

/-- Related streams, if any. -/
def streams : Option B.Strm → Option B'.Strm → Prop
  | none, none => True
  | some s, some s' => S.strm s s'
  | _, _ => False

/-- Related handles. -/
structure handle (h : Handle B) (h' : Handle B') : Prop where
  stream : S.streams h.stream h'.stream
  size : h.size = h'.size
  obj : S.obj h.obj h'.obj
  name : h.name = h'.name
  schema : h.schema = h'.schema
  ok : S.both h.obj h.name

variable {S}

theorem handle.isOpen {h : Handle B} {h' : Handle B'} (r : S.handle h h') : h.isOpen = h'.isOpen := by
  have := r.stream
  unfold Handle.isOpen
  cases h1 : h.stream <;> cases h2 : h'.stream <;> rw [h1, h2] at this <;> first | rfl | exact this.elim

theorem handle.drop {E : Type} {h : Handle B} {h' : Handle B'} (r : S.handle h h') :
    Simul S.R (fun _ _ => True) (h.drop : Act B.W E Unit) (h'.drop : Act B'.W E Unit) := by
  unfold Handle.drop
  rw [r.isOpen]
  exact .ite (fun _ => (Simul.lift _).mono fun _ _ _ => trivial) fun _ => .pure trivial

theorem handle.write {h : Handle B} {h' : Handle B'} (r : S.handle h h') (d : Bytes) : Simul S.R S.handle (h.write p d) (h'.write p d) := by
  have hs := r.stream
  unfold Handle.write
  cases h1 : h.stream <;> cases h2 : h'.stream <;> rw [h1, h2] at hs <;> first | exact hs.elim | skip
  · exact .fail _
  · refine .bind (S.writeAll _ _ _ hs) fun _ _ _ => ?_
    rw [r.size]
    refine .bind (.lift _) fun _ _ hv => ?_
    cases hv
    exact .pure { stream := hs, size := rfl, obj := r.obj, name := r.name, schema := r.schema, ok := r.ok }

theorem handle.finish {h : Handle B} {h' : Handle B'} (r : S.handle h h') {s : B.Strm} {s' : B'.Strm} (hs : S.strm s s') :
    Simul S.R (fun _ _ => True) (h.finish p e s) (h'.finish p e s') := by
  unfold Handle.finish
  rw [r.size]
  exact .bind (S.writePadding hs) fun _ _ _ => .bind (S.seekStart _ _ hs) fun _ _ _ => S.writeSize _ hs

theorem handle.close [DiffLib] {h : Handle B} {h' : Handle B'} (r : S.handle h h') :
    Simul S.R (fun a b => Simul.exRel S.slice a.1 b.1 ∧ S.handle a.2 b.2) (h.close p e) (h'.close p e) := by
  have hs := r.stream
  unfold Handle.close
  cases h1 : h.stream <;> cases h2 : h'.stream <;> rw [h1, h2] at hs <;> first | exact hs.elim | skip
  · exact .pure ⟨by change RErr.io _ _ = RErr.io _ _; rw [r.name], r⟩
  · refine .bind (.attempt (r.finish hs)) fun a b hv => ?_
    cases a <;> cases b <;> first | exact hv.elim | skip
    · cases hv
      exact .pure ⟨by change RErr.io _ _ = RErr.io _ _; rw [r.name], r⟩
    · refine .bind (.attempt (V := S.slice) ?_) fun a b hv =>
        .pure ⟨hv, { stream := trivial, size := r.size, obj := r.obj, name := r.name, schema := r.schema, ok := r.ok }⟩
      rw [← r.name, ← r.schema]
      exact S.read _ r.obj r.ok

theorem tryNew {o : B.Obj} {o' : B'.Obj} {n schema : String} {s : B.Strm} {s' : B'.Strm} (h : S.obj o o') (hn : S.both o n) (hs : S.strm s s') :
    Simul S.R S.handle (Handle.tryNew p e o n schema s) (Handle.tryNew p e o' n schema s') :=
  .bind (S.writeSize _ hs) fun _ _ _ => .pure { stream := hs, size := rfl, obj := h, name := rfl, schema := rfl, ok := hn }

theorem createDataHandle {o : B.Obj} {o' : B'.Obj} {n schema : String} (h : S.obj o o') (hn : S.both o n) :
    Simul S.R S.handle (Flatdata.createDataHandle p e o n schema) (Flatdata.createDataHandle p e o' n schema) :=
  .bind (S.createOutputStream _ _ _ h hn.2) fun _ _ hs => .bind (S.writeAll _ _ _ hs) fun _ _ _ =>
    .bind (S.createOutputStream _ _ _ h hn.1) fun _ _ hs => tryNew h hn hs

/-! ## External vectors -/

variable (S) in
/-- Related external vectors. -/
structure ext (v : ExtVec B) (v' : ExtVec B') : Prop where
  data : v.data = v'.data
  len : v.len = v'.len
  handle : S.handle v.handle v'.handle

theorem ext.flush {v : ExtVec B} {v' : ExtVec B'} (r : S.ext v v') : Simul S.R S.ext (v.flush p) (v'.flush p) := by
  unfold ExtVec.flush
  rw [r.data]
  refine .bind (.lift _) fun _ _ hv => ?_
  cases hv
  refine .bind (.lift _) fun _ _ hv => ?_
  cases hv
  exact .bind (r.handle.write _) fun _ _ hv => .pure { data := rfl, len := r.len, handle := hv }

theorem ext.flushIfFull {v : ExtVec B} {v' : ExtVec B'} (r : S.ext v v') : Simul S.R S.ext (v.flushIfFull p) (v'.flushIfFull p) := by
  unfold ExtVec.flushIfFull
  rw [r.data]
  exact .ite (fun _ => r.flush) fun _ => .pure r

theorem ext.grow {v : ExtVec B} {v' : ExtVec B'} (r : S.ext v v') (n : Nat) :
    Simul S.R (fun a b => S.ext a.1 b.1 ∧ a.2 = b.2) (v.grow p n) (v'.grow p n) := by
  unfold ExtVec.grow
  refine .bind r.flushIfFull fun a b r => ?_
  rw [r.data, r.len]
  refine .bind (.lift _) fun _ _ hv => ?_
  cases hv
  refine .bind (.lift _) fun _ _ hv => ?_
  refine .bind (.lift _) fun _ _ hv => ?_
  cases hv
  refine .bind (.lift _) fun _ _ hv => ?_
  cases hv
  refine .bind (.lift _) fun _ _ hv => ?_
  exact .pure ⟨{ data := rfl, len := rfl, handle := r.handle }, rfl⟩

theorem ext.closeHandle [DiffLib] {v : ExtVec B} {v' : ExtVec B'} (r : S.ext v v') :
    Simul S.R S.slice (v.closeHandle p e) (v'.closeHandle p e) :=
  .bind (.mapErr _ r.handle.close) fun _ _ hv => .bind hv.2.drop fun _ _ _ => .ofExcept hv.1

theorem ext.close [DiffLib] {v : ExtVec B} {v' : ExtVec B'} (r : S.ext v v') : Simul S.R S.slice (v.close p e) (v'.close p e) := by
  unfold ExtVec.close
  refine .bind (.attempt r.flush) fun a b hv => ?_
  cases a <;> cases b <;> first | exact hv.elim | skip
  · cases hv
    refine .bind r.handle.drop fun _ _ _ => ?_
    rw [r.handle.name]
    exact .fail _
  · exact ext.closeHandle hv

theorem createExternalVector {o : B.Obj} {o' : B'.Obj} {n schema : String} (h : S.obj o o') (hn : S.both o n) :
    Simul S.R S.ext (Flatdata.createExternalVector p e o n schema) (Flatdata.createExternalVector p e o' n schema) :=
  .bind (S.createOutputStream _ _ _ h hn.2) fun _ _ hs => .bind (S.writeAll _ _ _ hs) fun _ _ _ =>
    .bind (S.createOutputStream _ _ _ h hn.1) fun _ _ hs => .bind (tryNew h hn hs) fun _ _ hv =>
      .pure { data := rfl, len := rfl, handle := hv }

/-! ## Multivectors -/

variable (S) in
/-- Related multivectors. -/
structure multi (v : MultiVec B) (v' : MultiVec B') : Prop where
  index : S.ext v.index v'.index
  data : v.data = v'.data
  handle : S.handle v.handle v'.handle
  sizeFlushed : v.sizeFlushed = v'.sizeFlushed

theorem multi.flush {v : MultiVec B} {v' : MultiVec B'} (r : S.multi v v') : Simul S.R S.multi (v.flush p) (v'.flush p) := by
  unfold MultiVec.flush
  rw [r.data, r.sizeFlushed]
  refine .bind (.lift _) fun _ _ hv => ?_
  cases hv
  refine .bind (.lift _) fun _ _ hv => ?_
  cases hv
  refine .bind (r.handle.write _) fun _ _ hv => .bind (.lift _) fun _ _ hm => ?_
  cases hm
  exact .pure { index := r.index, data := rfl, handle := hv, sizeFlushed := rfl }

theorem multi.flushIfFull {v : MultiVec B} {v' : MultiVec B'} (r : S.multi v v') : Simul S.R S.multi (v.flushIfFull p) (v'.flushIfFull p) := by
  unfold MultiVec.flushIfFull
  rw [r.data]
  exact .ite (fun _ => r.flush) fun _ => .pure r

theorem multi.addToIndex {v : MultiVec B} {v' : MultiVec B'} (r : S.multi v v') (V : Variadic) :
    Simul S.R S.multi (v.addToIndex p e V) (v'.addToIndex p e V) := by
  unfold MultiVec.addToIndex
  refine .bind (r.index.grow _) fun a b hi => ?_
  rw [r.data, r.sizeFlushed]
  refine .bind (.lift _) fun _ _ hv => ?_
  cases hv
  refine .bind (.lift _) fun _ _ hv => ?_
  cases hv
  rw [hi.1.data, hi.2]
  refine .bind (.lift _) fun _ _ hv => ?_
  cases hv
  exact .pure { index := { data := rfl, len := hi.1.len, handle := hi.1.handle }, data := rfl, handle := r.handle, sizeFlushed := rfl }

theorem multi.grow {v : MultiVec B} {v' : MultiVec B'} (r : S.multi v v') (V : Variadic) :
    Simul S.R (fun a b => Simul.exRel (fun _ _ => True) a.1 b.1 ∧ S.multi a.2 b.2) (v.grow p e V) (v'.grow p e V) := by
  unfold MultiVec.grow
  refine .bind (.attempt r.flushIfFull) fun a b hv => ?_
  cases a <;> cases b <;> first | exact hv.elim | skip
  · cases hv
    exact .pure ⟨rfl, r⟩
  · refine .bind (.attempt (multi.addToIndex hv V)) fun a b hv' => ?_
    cases a <;> cases b <;> first | exact hv'.elim | skip
    · cases hv'
      exact .pure ⟨rfl, hv⟩
    · exact .pure ⟨trivial, hv'⟩

theorem multi.drop {E : Type} {v : MultiVec B} {v' : MultiVec B'} (r : S.multi v v') :
    Simul S.R (fun _ _ => True) (v.drop : Act B.W E Unit) (v'.drop : Act B'.W E Unit) :=
  .bind r.index.handle.drop fun _ _ _ => r.handle.drop

variable (S) in
/-- Related pairs of slices. -/
def slices (a : Slice B.Base × Slice B.Base) (b : Slice B'.Base × Slice B'.Base) : Prop := S.slice a.1 b.1 ∧ S.slice a.2 b.2

theorem multi.close [DiffLib] {v : MultiVec B} {v' : MultiVec B'} (r : S.multi v v') (V : Variadic) :
    Simul S.R S.slices (v.close p e V) (v'.close p e V) := by
  unfold MultiVec.close
  refine .bind (.attempt (r.addToIndex V)) fun a b hv => ?_
  cases a <;> cases b <;> first | exact hv.elim | skip
  · cases hv
    refine .bind r.drop fun _ _ _ => ?_
    rw [r.handle.name]
    exact .fail _
  · rename_i a b
    change S.multi a b at hv
    dsimp only
    unfold MultiVec.closeFlush
    refine .bind (.attempt hv.flush) fun c d hw => ?_
    cases c <;> cases d <;> first | exact hw.elim | skip
    · cases hw
      refine .bind hv.drop fun _ _ _ => ?_
      rw [hv.handle.name]
      exact .fail _
    · rename_i c d
      change S.multi c d at hw
      dsimp only
      unfold MultiVec.closeIndex
      refine .bind (.attempt hw.index.close) fun i j hi => ?_
      cases i <;> cases j <;> first | exact hi.elim | skip
      · cases hi
        exact .bind hw.handle.drop fun _ _ _ => .fail _
      · exact .bind (.mapErr _ hw.handle.close) fun _ _ hv => .bind hv.2.drop fun _ _ _ => .bind (.ofExcept hv.1) fun _ _ hd => .pure ⟨hi, hd⟩

theorem createMultiVector {o : B.Obj} {o' : B'.Obj} {n schema : String} (h : S.obj o o') (hn : S.both o n)
    (hi : S.both o (Storage.indexName n)) :
    Simul S.R S.multi (Flatdata.createMultiVector p e o n schema) (Flatdata.createMultiVector p e o' n schema) := by
  unfold Flatdata.createMultiVector
  refine .bind (createExternalVector h hi) fun _ _ hx => .bind (.attempt (createDataHandle h hn)) fun a b hv => ?_
  cases a <;> cases b <;> first | exact hv.elim | skip
  · cases hv
    exact .bind hx.handle.drop fun _ _ _ => .fail _
  · exact .pure { index := hx, data := rfl, handle := hv, sizeFlushed := rfl }

/-! ## Building archives -/

theorem builderNew {o : B.Obj} {o' : B'.Obj} {D : ArchiveDef} (h : S.obj o o') (hn : S.both o D.signature) :
    Simul S.R (fun a b => a = o ∧ b = o') (Flatdata.builderNew B p e o D) (Flatdata.builderNew B' p e o' D) :=
  .bind (S.createArchive h hn) fun _ _ _ => .pure ⟨rfl, rfl⟩

theorem growOne {v : ExtVec B} {v' : ExtVec B'} (T : StructDef) (ops : List HandleOp) (r : S.ext v v') :
    Simul S.R S.ext (Spec.growOne B p e T v ops) (Spec.growOne B' p e T v' ops) := by
  unfold Spec.growOne
  refine .bind (r.grow _) fun a b hv => ?_
  rw [hv.1.data, hv.2]
  refine .bind (.lift _) fun _ _ hd => ?_
  cases hd
  exact .pure { data := rfl, len := hv.1.len, handle := hv.1.handle }

theorem addOne {v : MultiVec B} {v' : MultiVec B'} (a : Add) (r : S.multi v v') :
    Simul S.R S.multi (Spec.addOne B p e v a) (Spec.addOne B' p e v' a) := by
  unfold Spec.addOne
  rw [r.data]
  refine .bind (.lift _) fun _ _ hv => ?_
  cases hv
  refine .bind (.lift _) fun _ _ hv => ?_
  cases hv
  exact .pure { index := r.index, data := rfl, handle := r.handle, sizeFlushed := r.sizeFlushed }

theorem growItem {v : MultiVec B} {v' : MultiVec B'} (V : Variadic) (as : List Add) (r : S.multi v v') :
    Simul S.R S.multi (Spec.growItem B p e V v as) (Spec.growItem B' p e V v' as) :=
  .bind (.mapErr _ (r.grow V)) fun _ _ hv => .bind (.ofExcept hv.1) fun _ _ _ => .foldlM (fun _ _ c h => addOne c h) _ _ _ hv.2

theorem writeResource [DiffLib] {o : B.Obj} {o' : B'.Obj} {r : ResDecl} (s : Source) (h : S.obj o o') (hi : IndexNamed r)
    (hn : ∀ n ∈ resFiles r, S.ok o n) :
    Simul S.R (fun _ _ => True) (Spec.writeResource B p e o r s) (Spec.writeResource B' p e o' r s) := by
  have hb : S.both o r.name := ⟨hn _ (name_mem_resFiles r).1, hn _ (name_mem_resFiles r).2⟩
  have hx {V i} (ht : r.type = .multi V i) : S.both o (Storage.indexName r.name) :=
    ⟨hn _ (index_mem_resFiles hi ht).1, hn _ (index_mem_resFiles hi ht).2⟩
  unfold Spec.writeResource
  rcases r with ⟨name, schema, opt, type⟩
  cases type <;> cases s <;> first | exact (Simul.lift _).mono fun _ _ _ => trivial | skip
  · refine .mapErr _ ?_
    unfold setStruct
    exact .ite (fun _ => (Simul.lift _).mono fun _ _ _ => trivial) fun _ => S.write _ h hb
  · exact .mapErr _ (S.write _ h hb)
  · exact .bind (.mapErr _ (createExternalVector h hb)) fun _ _ hv => .bind (.mapErr _ (.foldlM (fun _ _ c h => growOne _ c h) _ _ _ hv))
      fun _ _ hv => .bind hv.close fun _ _ _ => .pure trivial
  · exact .bind (.mapErr _ (createMultiVector h hb (hx rfl))) fun _ _ hv => .bind (.mapErr _ (.foldlM (fun _ _ c h => growItem _ c h) _ _ _ hv))
      fun _ _ hv => .bind (hv.close _) fun _ _ _ => .pure trivial
  · exact .mapErr _ (S.write _ h hb)

variable (S) in
/-- The program uses only allowed names. -/
def Within : Prog → B.Obj → Prop
  | .done, _ => True
  | .res r _ rest, o => IndexNamed r ∧ (∀ n ∈ resFiles r, S.ok o n) ∧ Within rest o
  | .sub name D inner rest, o => PlainName name ∧ (∀ a, S.isSub o name a → S.both a D.signature ∧ Within inner a) ∧ Within rest o

theorem run [DiffLib] : ∀ {prog : Prog} {o : B.Obj} {o' : B'.Obj}, S.obj o o' → S.Within prog o →
    Simul S.R (fun _ _ => True) (prog.run B p e o) (prog.run B' p e o')
  | .done, _, _, _, _ => .pure trivial
  | .res _ s _, _, _, h, hw => .bind (writeResource s h hw.1 hw.2.1) fun _ _ _ => run h hw.2.2
  | .sub _ _ _ _, _, _, h, hw =>
    .bind (.bind (.mapErr _ (S.subdir _ _ _ h hw.1)) fun _ _ hs => (builderNew hs.1 (hw.2.1 _ hs.2).1).mono fun _ _ hv => hv.1 ▸ hv.2 ▸ hs)
      fun _ _ hs => .bind (run hs.1 (hw.2.1 _ hs.2).2) fun _ _ _ => run h hw.2.2

theorem buildArchive [DiffLib] {o : B.Obj} {o' : B'.Obj} {D : ArchiveDef} {prog : Prog} (h : S.obj o o') (hd : S.both o D.signature)
    (hw : S.Within prog o) : Simul S.R (fun _ _ => True) (Spec.buildArchive B p e o D prog) (Spec.buildArchive B' p e o' D prog) :=
  .bind (builderNew h hd) fun _ _ hv => by obtain ⟨rfl, rfl⟩ := hv; exact run h hw

end Alike
end Flatdata
