import Verif.Spec.Looks
import Verif.Proofs.Moved
import Verif.Proofs.Neighbours
/-!
# Opening and reading change nothing

Two states of a process, between which only reading took place: reading in the one and in the other gives the same.
-/
namespace Flatdata
open Spec

/-! ## Reading alike from two states of a storage -/

/-- Two states from which one reads alike. What has been read is known to stay (`le`). -/
structure Later (B : Backend) where
  R : B.W → B.W → Prop
  le : B.W → B.W → Prop
  le_refl : ∀ w, le w w
  le_trans : ∀ {a b c}, le a b → le b c → le a c
  obj : B.Obj → B.Obj → Prop

namespace Later
variable {B : Backend} (S : Later B) {E E' α β : Type}

/-- From related worlds after `w0`: outcomes of the same kind, values that are related from then on, and related worlds. -/
def Sim (V : B.W → α → α → Prop) (w0 : B.W) (x y : Act B.W E α) : Prop :=
  ∀ w w', S.le w0 w → S.R w w' → (x w).1.Rel (V (x w).2) (y w').1 ∧ S.R (x w).2 (y w').2 ∧ S.le w (x w).2

/-- The same is shown from now on. -/
def Shows {γ : Type} (f : B.W → α → γ) (w0 : B.W) (a b : α) : Prop := ∀ w w', S.le w0 w → S.R w w' → f w a = f w' b

/-- The same bytes from now on. -/
def slice (w0 : B.W) (a b : Slice B.Base) : Prop :=
  a.off = b.off ∧ a.len = b.len ∧ ∀ w w', S.le w0 w → S.R w w' → B.content w a.base = B.content w' b.base

variable {S} {V : B.W → α → α → Prop} {V' : B.W → β → β → Prop} {w0 : B.W}

theorem Shows.mono {γ : Type} {f : B.W → α → γ} {w1 : B.W} {a b : α} (h : S.Shows f w0 a b) (hl : S.le w0 w1) : S.Shows f w1 a b :=
  fun w w' h1 h2 => h w w' (S.le_trans hl h1) h2

theorem slice.mono {w1 : B.W} {a b : Slice B.Base} (h : S.slice w0 a b) (hl : S.le w0 w1) : S.slice w1 a b :=
  ⟨h.1, h.2.1, fun w w' h1 h2 => h.2.2 w w' (S.le_trans hl h1) h2⟩

theorem slice.deref {a b : Slice B.Base} (h : S.slice w0 a b) : S.Shows B.deref w0 a b := fun w w' h1 h2 => by
  unfold Backend.deref
  rw [h.2.2 w w' h1 h2, h.1, h.2.1]

namespace Sim

theorem pure {a b : α} (h : ∀ w, S.le w0 w → V w a b) : S.Sim V w0 (Pure.pure a : Act B.W E α) (Pure.pure b) :=
  fun w _ hl hr => ⟨h w hl, hr, S.le_refl w⟩

theorem fail (x : E) : S.Sim V w0 (Act.fail x : Act B.W E α) (Act.fail x) := fun w _ _ hr => ⟨rfl, hr, S.le_refl w⟩

theorem lift (x : Out α) : S.Sim (fun _ a b => a = b) w0 (Act.lift x : Act B.W E α) (Act.lift x) := by
  intro w w' _ hr
  cases x
  · exact ⟨rfl, hr, S.le_refl w⟩
  · exact ⟨trivial, hr, S.le_refl w⟩
  · exact ⟨trivial, hr, S.le_refl w⟩

theorem bind {x y : Act B.W E α} {f g : α → Act B.W E β} (h : S.Sim V w0 x y)
    (hf : ∀ w1 a b, S.le w0 w1 → V w1 a b → S.Sim V' w1 (f a) (g b)) : S.Sim V' w0 (x >>= f) (y >>= g) := by
  intro w w' hl hr
  obtain ⟨h1, h2, h3⟩ := h w w' hl hr
  change (Act.bind x f w).1.Rel (V' (Act.bind x f w).2) (Act.bind y g w').1 ∧ S.R (Act.bind x f w).2 (Act.bind y g w').2 ∧ S.le w (Act.bind x f w).2
  unfold Act.bind
  generalize x w = a at h1 h2 h3 ⊢
  generalize y w' = b at h1 h2 ⊢
  obtain ⟨r, w1⟩ := a
  obtain ⟨r', w1'⟩ := b
  cases r <;> cases r' <;> first | exact False.elim h1 | exact ⟨h1, h2, h3⟩ | skip
  obtain ⟨k1, k2, k3⟩ := hf w1 _ _ (S.le_trans hl h3) h1 w1 w1' (S.le_refl w1) h2
  exact ⟨k1, k2, S.le_trans h3 k3⟩

theorem mapErr {x y : Act B.W E α} (f : E → E') (h : S.Sim V w0 x y) : S.Sim V w0 (x.mapErr f) (y.mapErr f) := by
  intro w w' hl hr
  obtain ⟨h1, h2⟩ := h w w' hl hr
  unfold Act.mapErr
  generalize x w = a at h1 h2 ⊢
  generalize y w' = b at h1 h2 ⊢
  obtain ⟨r, w1⟩ := a
  obtain ⟨r', w1'⟩ := b
  cases r <;> cases r' <;> first | exact ⟨congrArg f h1, h2⟩ | exact ⟨h1, h2⟩

theorem attempt {x y : Act B.W E α} (h : S.Sim V w0 x y) :
    S.Sim (fun w => Simul.exRel (E := E) (V w)) w0 (Act.attempt (E' := E') x) (Act.attempt y) := by
  intro w w' hl hr
  obtain ⟨h1, h2⟩ := h w w' hl hr
  unfold Act.attempt
  generalize x w = a at h1 h2 ⊢
  generalize y w' = b at h1 h2 ⊢
  obtain ⟨r, w1⟩ := a
  obtain ⟨r', w1'⟩ := b
  cases r <;> cases r' <;> exact ⟨h1, h2⟩

theorem ite {c : Prop} [Decidable c] {x x₁ y y₁ : Act B.W E α} (h1 : S.Sim V w0 x y) (h2 : S.Sim V w0 x₁ y₁) :
    S.Sim V w0 (if c then x else x₁) (if c then y else y₁) := by
  by_cases h : c
  · rw [if_pos h, if_pos h]; exact h1
  · rw [if_neg h, if_neg h]; exact h2

end Sim

/-! ### What is built on the storage methods -/

theorem load {s s' : Slice B.Base} (h : S.slice w0 s s') : S.Sim (fun _ a b => a = b) w0 (B.load s : Act B.W E Bytes) (B.load s') := by
  intro w w' hl hr
  unfold Backend.load
  rw [h.deref w w' hl hr]
  exact Sim.lift _ w w' hl hr

theorem payload {a b : Slice B.Base} (n : Nat) (h : S.slice w0 a b) :
    S.Sim (E := E) S.slice w0 (Act.lift (Storage.payload B a n)) (Act.lift (Storage.payload B b n)) := by
  unfold Storage.payload
  rw [h.2.1]
  by_cases hc : 8 ≤ b.len ∧ n ≤ b.len - 8
  · rw [if_pos hc, if_pos hc]
    exact .pure fun w hl => ⟨congrArg (· + 8) h.1, rfl, (h.mono hl).2.2⟩
  · rw [if_neg hc, if_neg hc]
    exact fun w _ _ hr => ⟨trivial, hr, S.le_refl w⟩

theorem checkSchema [DiffLib] {a b : Slice B.Base} (name expected : String) (n : Nat) (st : Bytes) (h : S.slice w0 a b) :
    S.Sim S.slice w0 (Storage.checkSchema B name expected a n st) (Storage.checkSchema B name expected b n st) := by
  unfold Storage.checkSchema
  cases fromUtf8 st with
  | none => exact .fail _
  | some s => exact .ite (.fail _) (payload n h)

theorem checkResource [DiffLib] {p : Profile} {e : Endian} {a s b t : Slice B.Base} (name expected : String) (h : S.slice w0 a b) (hs : S.slice w0 s t) :
    S.Sim S.slice w0 (Storage.checkResource B p e name expected a s) (Storage.checkResource B p e name expected b t) := by
  unfold Storage.checkResource
  rw [h.2.1]
  refine .ite (.fail _) (.bind (load ⟨h.1, rfl, h.2.2⟩) fun w1 _ _ l1 hv => ?_)
  cases hv
  refine .bind (.lift _) fun w2 _ _ l2 hv => ?_
  cases hv
  refine .bind (.lift _) fun w3 _ _ l3 hv => ?_
  cases hv
  refine .bind (.lift _) fun w4 _ _ l4 hv => ?_
  cases hv
  have l : S.le w0 w4 := S.le_trans l1 (S.le_trans l2 (S.le_trans l3 l4))
  refine .ite (.fail _) (.bind (load (hs.mono l)) fun w5 _ _ l5 hv => ?_)
  cases hv
  exact checkSchema _ _ _ _ (h.mono (S.le_trans l l5))

/-- The storage methods used for reading give the same. -/
structure Good (S : Later B) : Prop where
  subdir : ∀ o o' n w0, S.obj o o' → S.Sim (fun _ => S.obj) w0 (B.subdir o n) (B.subdir o' n)
  readResource : ∀ o o' n w0, S.obj o o' → S.Sim S.slice w0 (B.readResource o n) (B.readResource o' n)

variable (G : S.Good) {p : Profile} {e : Endian} {o o' : B.Obj}
include G

theorem read [DiffLib] (n expected : String) (h : S.obj o o') :
    S.Sim S.slice w0 (Storage.read B p e o n expected) (Storage.read B p e o' n expected) :=
  .bind (.mapErr _ (G.readResource _ _ _ _ h)) fun _ _ _ _ h1 => .bind (.mapErr _ (G.readResource _ _ _ _ h)) fun _ _ _ l2 h2 =>
    checkResource _ _ (h1.mono l2) h2

omit G in
theorem checkRes {γ : Type} {f : B.W → Option α → γ} (opt : Bool) {x y : Act B.W RErr α} (h : S.Sim V w0 x y)
    (hs : ∀ w a b, V w a b → S.Shows f w (some a) (some b)) (hn : ∀ w w', f w none = f w' none) :
    S.Sim (S.Shows f) w0 (Flatdata.checkRes B opt x) (Flatdata.checkRes B opt y) := by
  unfold Flatdata.checkRes
  refine .bind (.attempt h) fun w1 a b _ hv => ?_
  cases a <;> cases b <;> first | exact False.elim hv | skip
  · cases hv
    exact .ite (.pure fun _ _ _ _ _ _ => hn _ _) (.fail _)
  · exact .pure fun w hl => (hs _ _ _ hv).mono hl

theorem checkRead [DiffLib] (opt : Bool) (n expected : String) (h : S.obj o o') :
    S.Sim (S.Shows fun w (d : Option (Slice B.Base)) => d.map (B.deref w)) w0 (Flatdata.checkRes B opt (Storage.read B p e o n expected))
      (Flatdata.checkRes B opt (Storage.read B p e o' n expected)) :=
  checkRes opt (read G n expected h) (fun _ _ _ hv w w' h1 h2 => congrArg some (hv.deref w w' h1 h2)) fun _ _ => rfl

theorem openResource [DiffLib] (r : ResDecl) (h : S.obj o o') :
    S.Sim (S.Shows (Spec.Opened.shown B)) w0 (Flatdata.openResource B p e o r) (Flatdata.openResource B p e o' r) := by
  unfold Flatdata.openResource
  rcases r with ⟨name, schema, opt, type⟩
  cases type with
  | multi V i =>
    refine .bind (checkRead G _ _ _ h) fun w1 a b l1 h1 => .bind (checkRead G _ _ _ h) fun w2 c d l2 h2 => .pure fun w hl w1 w1' k1 k2 => ?_
    change [_, _] = [_, _]
    have e1 := h1.mono (S.le_trans l2 hl) _ _ k1 k2
    have e2 := h2.mono hl _ _ k1 k2
    dsimp only at e1 e2
    rw [e1, e2]
  | _ => exact .bind (checkRead G _ _ _ h) fun w1 a b l1 h1 => .pure fun w hl w1 w1' k1 k2 => congrArg (fun z => [z]) (h1.mono hl _ _ k1 k2)

theorem openResources [DiffLib] (h : S.obj o o') : ∀ (rs : List ResDecl) {w0 : B.W},
    S.Sim (S.Shows fun w xs => xs.flatMap (Spec.Opened.shown B w)) w0 (Flatdata.openResources B p e o rs) (Flatdata.openResources B p e o' rs)
  | [], _ => .pure fun _ _ _ _ _ _ => rfl
  | r :: rs, _ => .bind (openResource G r h) fun w1 a b l1 h1 => .bind (openResources h rs) fun w2 c d l2 h2 => .pure fun w hl w1 w1' k1 k2 => by
    change List.flatMap _ _ = List.flatMap _ _
    rw [List.flatMap_cons, List.flatMap_cons, h1.mono (S.le_trans l2 hl) _ _ k1 k2]
    exact congrArg _ (h2.mono hl _ _ k1 k2)

/-- What an optional subarchive shows. -/
def maybe (B : Backend) (w : B.W) : Option (Archive B.Base) → List (Option (Out Bytes))
  | none => [none]
  | some a => some (.ok []) :: Spec.Archive.shown B w a

omit G in
theorem shown_cons (B : Backend) (w : B.W) (a : Option (Archive B.Base)) (ss : SubArchives B.Base) :
    Spec.SubArchives.shown B w (.cons a ss) = maybe B w a ++ Spec.SubArchives.shown B w ss := by
  cases a <;> (conv => lhs; unfold Spec.SubArchives.shown) <;> rfl

mutual
theorem openArchive [DiffLib] : ∀ (D : ArchiveDef) {o o' : B.Obj} {w0 : B.W}, S.obj o o' →
    S.Sim (S.Shows (Spec.Archive.shown B)) w0 (Flatdata.openArchive B p e o D) (Flatdata.openArchive B p e o' D)
  | .mk _ _ rs subs, _, _, _, h => by
    unfold Flatdata.openArchive
    refine .bind (read G _ _ h) fun _ _ _ _ _ => .bind (openResources G h rs) fun w1 a b l1 h1 => .bind (openSubs subs h) fun w2 c d l2 h2 =>
      .pure fun w hl w1 w1' k1 k2 => ?_
    unfold Spec.Archive.shown
    rw [h2.mono hl _ _ k1 k2]
    exact congrArg (· ++ _) (h1.mono (S.le_trans l2 hl) _ _ k1 k2)

theorem openSubs [DiffLib] : ∀ (subs : SubDefs) {o o' : B.Obj} {w0 : B.W}, S.obj o o' →
    S.Sim (S.Shows (Spec.SubArchives.shown B)) w0 (Flatdata.openSubs B p e o subs) (Flatdata.openSubs B p e o' subs)
  | .nil, _, _, _, _ => by
    unfold Flatdata.openSubs
    exact .pure fun _ _ _ _ _ _ => by unfold Spec.SubArchives.shown; rfl
  | .cons name opt D rest, _, _, _, h => by
    unfold Flatdata.openSubs
    refine .bind (.mapErr _ (G.subdir _ _ _ _ h)) fun _ _ _ _ ho => .bind (checkRes (f := maybe B) opt (openArchive D ho)
      (fun _ _ _ hv w w' k1 k2 => congrArg (some (Out.ok []) :: ·) (hv w w' k1 k2)) fun _ _ => rfl) fun w1 a b l1 h1 =>
      .bind (openSubs rest h) fun w2 c d l2 h2 => .pure fun w hl w1 w1' k1 k2 => ?_
    rw [shown_cons, shown_cons, h1.mono (S.le_trans l2 hl) _ _ k1 k2, h2.mono hl _ _ k1 k2]
end

theorem outcome_eq [DiffLib] (D : ArchiveDef) (h : S.obj o o') {w w' : B.W} (hr : S.R w w') :
    outcome (B := B) (Flatdata.openArchive B p e o D w) = outcome (B := B) (Flatdata.openArchive B p e o' D w') := by
  have := openArchive G D h (p := p) (e := e) w w' (S.le_refl w) hr
  generalize Flatdata.openArchive B p e o D w = a at this ⊢
  generalize Flatdata.openArchive B p e o' D w' = b at this ⊢
  obtain ⟨r, w1⟩ := a
  obtain ⟨r', w1'⟩ := b
  obtain ⟨h1, h2, h3⟩ := this
  cases r <;> cases r' <;> first | exact False.elim h1 | rfl | skip
  · exact congrArg Res.ok (h1 _ _ (S.le_refl _) h2)
  · exact congrArg Res.err h1

theorem readOutcome_eq [DiffLib] (n expected : String) (h : S.obj o o') {w w' : B.W} (hr : S.R w w') :
    readOutcome (B := B) (Storage.read B p e o n expected w) = readOutcome (B := B) (Storage.read B p e o' n expected w') := by
  have := read G n expected h (p := p) (e := e) w w' (S.le_refl w) hr
  generalize Storage.read B p e o n expected w = a at this ⊢
  generalize Storage.read B p e o' n expected w' = b at this ⊢
  obtain ⟨r, w1⟩ := a
  obtain ⟨r', w1'⟩ := b
  obtain ⟨h1, h2, h3⟩ := this
  cases r <;> cases r' <;> first | exact False.elim h1 | rfl | skip
  · exact congrArg Res.ok (h1.deref _ _ (S.le_refl _) h2)
  · exact congrArg Res.err h1

end Later

/-! ## Files -/

/-- Identities of storage objects in the later state: new ones come after those that exist by now. -/
def shift (N d i : Nat) : Nat := if i < N then i else i + d

theorem shift_inj {N d i j : Nat} (h : shift N d i = shift N d j) : i = j := by
  unfold shift at h
  split at h <;> split at h <;> omega

theorem shift_next {N d i : Nat} (h : N ≤ i) : shift N d i = i + d := if_neg (by omega)

/-- What has been mapped: the same, or the file has been mapped meanwhile. -/
def MappedSince (files : Key → Option Bytes) (p : Path) (x y : Option (Key × Nat)) : Prop :=
  y = x ∨ (x = none ∧ ∃ b, files (key p) = some b ∧ b.length ≠ 0 ∧ y = some (key p, b.length))

/-- The process at two times. -/
structure DiskLater (N d : Nat) (w w' : FileW) : Prop where
  files : w'.fs.files = w.fs.files
  dirs : w'.fs.isDir = w.fs.isDir
  quiet : ∀ t, w.fs.tick ≤ t → w.fs.fault t = none
  quiet' : ∀ t, w'.fs.tick ≤ t → w'.fs.fault t = none
  le : N ≤ w.next
  next : w'.next = w.next + d
  maps : ∀ i p, MappedSince w.fs.files p (w.maps i p) (w'.maps (shift N d i) p)

/-- After `n` more system calls. -/
def tock (n : Nat) (w : FileW) : FileW := { w with fs := { w.fs with tick := w.fs.tick + n } }

theorem DiskLater.tock {N d : Nat} {w w' : FileW} (h : DiskLater N d w w') (m n : Nat) : DiskLater N d (tock m w) (tock n w') :=
  ⟨h.files, h.dirs, fun t ht => h.quiet t (Nat.le_trans (Nat.le_add_right _ _) ht), fun t ht => h.quiet' t (Nat.le_trans (Nat.le_add_right _ _) ht),
    h.le, h.next, h.maps⟩

theorem pathExists_quiet (q : Path) {w : FileW} (h : w.fs.fault w.fs.tick = none) :
    FileSt.pathExists q w = (.ok ((w.fs.files (key q)).isSome || (q ≠ [] && FileSt.dirOK w.fs (key q))), tock 1 w) := by
  unfold FileSt.pathExists FileSt.syscall
  rw [h]
  rfl

theorem mapRead_hit {o : Obj} {q : Path} {w : FileW} {k : Key} {n : Nat} (h : w.maps o.id q = some (k, n)) :
    FileSt.mapRead o q w = (.ok ⟨k, 0, n⟩, w) := by
  unfold FileSt.mapRead
  rw [h]

theorem fileOpen_quiet {q : Path} {w : FileW} (h : w.fs.fault w.fs.tick = none) (hx : ((w.fs.files (key q)).isSome || FileSt.dirOK w.fs (key q)) = true) :
    FileSt.fileOpen q w = (.ok (key q), tock 1 w) := by
  unfold FileSt.fileOpen FileSt.syscall
  rw [h]
  have hx2 : ((w.fs.files (key q)).isSome || FileSt.dirOK { w.fs with tick := w.fs.tick + 1 } (key q)) = true := hx
  dsimp only
  rw [if_pos hx2]
  rfl

theorem mmapLen_quiet {k : Key} {w : FileW} (h : w.fs.fault w.fs.tick = none) : FileSt.mmapLen k w = (lengthOf (w.fs.files k), tock 1 w) := by
  rw [mmapLen_eq]
  unfold FileSt.syscall
  rw [h]
  rfl

/-- Mapping a file. -/
def addMap (o : Obj) (q : Path) (n : Nat) (w : FileW) : FileW := { w with maps := upd w.maps o.id (upd (w.maps o.id) q (some (key q, n))) }

theorem mapRead_miss {o : Obj} {q : Path} {w : FileW} (h : ∀ t, w.fs.tick ≤ t → w.fs.fault t = none) (hm : w.maps o.id q = none)
    (hx : ((w.fs.files (key q)).isSome || FileSt.dirOK w.fs (key q)) = true) : FileSt.mapRead o q w = match lengthOf (w.fs.files (key q)) with
      | .ok n => (.ok ⟨key q, 0, n⟩, addMap o q n (tock 2 w))
      | .err x => (.err x, tock 2 w)
      | .panic => (.panic, tock 2 w)
      | .ub => (.ub, tock 2 w) := by
  unfold FileSt.mapRead
  rw [hm]
  dsimp only
  change Act.bind _ _ w = _
  unfold Act.bind
  rw [fileOpen_quiet (h _ (Nat.le_refl _)) hx]
  dsimp only
  change Act.bind _ _ (tock 1 w) = _
  unfold Act.bind
  rw [mmapLen_quiet (w := tock 1 w) (h _ (Nat.le_succ _))]
  have e : (tock 1 w).fs.files = w.fs.files := rfl
  rw [e]
  cases lengthOf (w.fs.files (key q)) <;> rfl

/-- Reading files at two times. -/
def diskLater (N d : Nat) : Later file where
  R := DiskLater N d
  le _ _ := True
  le_refl _ := trivial
  le_trans _ _ := trivial
  obj o o' := o'.path = o.path ∧ o'.id = shift N d o.id

theorem disk_slice {N d : Nat} {w0 : FileW} (s : Slice Key) : (diskLater N d).slice w0 s s :=
  ⟨rfl, rfl, fun w w' _ hr => by change (w.fs.files _).getD [] = (w'.fs.files _).getD []; rw [hr.files]⟩

theorem MappedSince.add {N d : Nat} {w w' : FileW} {o o' : Obj} {q : Path} {n : Nat} (h : DiskLater N d w w') (ho : o'.id = shift N d o.id) :
    DiskLater N d (addMap o q n w) (addMap o' q n w') := by
  refine ⟨h.files, h.dirs, h.quiet, h.quiet', h.le, h.next, fun i p => ?_⟩
  change MappedSince w.fs.files p (upd w.maps o.id _ i p) (upd w'.maps o'.id _ (shift N d i) p)
  rw [ho]
  unfold upd
  by_cases hi : i = o.id
  · subst hi
    rw [if_pos rfl, if_pos rfl]
    by_cases hp : p = q
    · rw [if_pos hp, if_pos hp]; exact .inl rfl
    · rw [if_neg hp, if_neg hp, ← ho]
      have := h.maps o.id p
      rw [← ho] at this
      exact this
  · rw [if_neg hi, if_neg fun hj => hi (shift_inj hj)]
    exact h.maps i p

theorem MappedSince.addLeft {N d : Nat} {w w' : FileW} {o o' : Obj} {q : Path} {n : Nat} (h : DiskLater N d w w') (ho : o'.id = shift N d o.id)
    (hm : w'.maps o'.id q = some (key q, n)) : DiskLater N d (addMap o q n w) w' := by
  refine ⟨h.files, h.dirs, h.quiet, h.quiet', h.le, h.next, fun i p => ?_⟩
  change MappedSince w.fs.files p (upd w.maps o.id _ i p) (w'.maps (shift N d i) p)
  unfold upd
  by_cases hi : i = o.id
  · subst hi
    rw [if_pos rfl]
    by_cases hp : p = q
    · rw [if_pos hp, hp, ← ho, hm]; exact .inl rfl
    · rw [if_neg hp]
      exact h.maps o.id p
  · rw [if_neg hi]
    exact h.maps i p

theorem disk_good (N d : Nat) : (diskLater N d).Good where
  subdir o o' n w0 ho := by
    intro w w' _ hr
    have hr : DiskLater N d w w' := hr
    obtain ⟨h1, h2⟩ := ho
    refine ⟨⟨by change join o'.path n = join o.path n; rw [h1], by change w'.next = shift N d w.next; rw [hr.next, shift_next hr.le]⟩,
      ⟨hr.files, hr.dirs, hr.quiet, hr.quiet', Nat.le_succ_of_le hr.le, ?_, fun i p => ?_⟩, trivial⟩
    · change w'.next + 1 = w.next + 1 + d
      rw [hr.next]; omega
    · change MappedSince w.fs.files p (upd w.maps w.next _ i p) (upd w'.maps w'.next _ (shift N d i) p)
      rw [hr.next, ← shift_next (d := d) hr.le]
      unfold upd
      by_cases hi : i = w.next
      · rw [if_pos hi, if_pos (congrArg _ hi)]; exact .inl rfl
      · rw [if_neg hi, if_neg fun hj => hi (shift_inj hj)]; exact hr.maps i p
  readResource o o' n w0 ho := by
    intro w w' _ hr
    have hr : DiskLater N d w w' := hr
    obtain ⟨h1, h2⟩ := ho
    change Res.Rel _ (FileSt.readResource o n w).1 (FileSt.readResource o' n w').1 ∧ DiskLater N d (FileSt.readResource o n w).2 (FileSt.readResource o' n w').2 ∧ True
    unfold FileSt.readResource
    rw [h1]
    generalize hq : join o.path n = q
    have hk := hr.quiet _ (Nat.le_refl _)
    have hk' := hr.quiet' _ (Nat.le_refl _)
    rw [Act.bind_def, Act.bind_def]
    unfold Act.mapErr
    rw [pathExists_quiet q hk, pathExists_quiet q hk', hr.files]
    have hd : FileSt.dirOK w'.fs (key q) = FileSt.dirOK w.fs (key q) := by unfold FileSt.dirOK; rw [hr.dirs]
    rw [hd]
    dsimp only
    have ht := hr.tock 1 1
    rcases hx : ((w.fs.files (key q)).isSome || (decide (q ≠ []) && FileSt.dirOK w.fs (key q)))
    · exact ⟨rfl, ht, trivial⟩
    have hx' : ((w.fs.files (key q)).isSome || FileSt.dirOK w.fs (key q)) = true := by
      revert hx
      cases (w.fs.files (key q)).isSome <;> cases FileSt.dirOK w.fs (key q) <;> simp
    change Res.Rel _ (FileSt.mapRead o q (tock 1 w)).1 (FileSt.mapRead o' q (tock 1 w')).1 ∧ DiskLater N d (FileSt.mapRead o q (tock 1 w)).2 (FileSt.mapRead o' q (tock 1 w')).2 ∧ True
    have hm := ht.maps o.id q
    rw [← h2] at hm
    have hdisk : (tock 1 w).fs.files (key q) = w.fs.files (key q) := rfl
    rcases hl : (tock 1 w).maps o.id q with _ | ⟨k, m⟩
    · rw [mapRead_miss ht.quiet hl hx', hdisk]
      rcases hm with hm | ⟨_, b, hb, hb0, hm⟩
      · have hx'' : (((tock 1 w').fs.files (key q)).isSome || FileSt.dirOK (tock 1 w').fs (key q)) = true := by
          have e1 : (tock 1 w').fs.files = w.fs.files := hr.files
          have e2 : FileSt.dirOK (tock 1 w').fs (key q) = FileSt.dirOK w.fs (key q) := hd
          rw [e1, e2]; exact hx'
        rw [mapRead_miss ht.quiet' (hm.trans hl) hx'']
        have e1 : (tock 1 w').fs.files = w.fs.files := hr.files
        rw [e1]
        have h3 := ht.tock 2 2
        cases lengthOf (w.fs.files (key q)) with
        | ok m => exact ⟨disk_slice _, MappedSince.add h3 h2, trivial⟩
        | err x => exact ⟨rfl, h3, trivial⟩
        | panic => exact ⟨trivial, h3, trivial⟩
        | ub => exact ⟨trivial, h3, trivial⟩
      · rw [mapRead_hit hm]
        have e1 : lengthOf (w.fs.files (key q)) = .ok b.length := by
          change w.fs.files (key q) = some b at hb
          rw [hb]
          exact if_neg hb0
        rw [e1]
        exact ⟨disk_slice _, MappedSince.addLeft (ht.tock 2 0) h2 hm, trivial⟩
    · rw [mapRead_hit hl]
      rcases hm with hm | ⟨hm, _⟩
      · rw [mapRead_hit (hm.trans hl)]
        exact ⟨disk_slice _, ht, trivial⟩
      · rw [hl] at hm; cases hm

/-! ## Memory -/

/-- What has been read: the same, or the stream has been read meanwhile. -/
def CachedSince (stream : Option (Bytes × Nat)) (x y : Option Bytes) : Prop := y = x ∨ (x = none ∧ ∃ b n, stream = some (b, n) ∧ y = some b)

/-- The process at two times. -/
structure MemLater (N d : Nat) (w w' : MemW) : Prop where
  streams : ∀ i k, w'.streams (shift N d i, k) = w.streams (i, k)
  unborn : ∀ i k, w.next ≤ i → w.streams (i, k) = none ∧ w.resources (i, k) = none
  le : N ≤ w.next
  next : w'.next = w.next + d
  resources : ∀ i k, CachedSince (w.streams (i, k)) (w.resources (i, k)) (w'.resources (shift N d i, k))

/-- Reading memory at two times. -/
def memLater (N d : Nat) : Later mem where
  R := MemLater N d
  le w w1 := w.next ≤ w1.next ∧ ∀ l : MemLoc, l.1 < w.next → ∀ b, w.resources l = some b → w1.resources l = some b
  le_refl _ := ⟨Nat.le_refl _, fun _ _ _ h => h⟩
  le_trans h1 h2 := ⟨Nat.le_trans h1.1 h2.1, fun l hl b hb => h2.2 l (Nat.lt_of_lt_of_le hl h1.1) b (h1.2 l hl b hb)⟩
  obj o o' := o'.path = o.path ∧ o'.id = shift N d o.id

theorem mem_slice {N d i : Nat} {k : Key} {w0 : MemW} {b : Bytes} (hi : i < w0.next) (hb : w0.resources (i, k) = some b) (n : Nat) :
    (memLater N d).slice w0 ⟨(i, k), 0, n⟩ ⟨(shift N d i, k), 0, n⟩ := by
  refine ⟨rfl, rfl, fun w w' hl hr => ?_⟩
  have hr : MemLater N d w w' := hr
  change (w.resources (i, k)).getD [] = (w'.resources (shift N d i, k)).getD []
  have hw := hl.2 (i, k) hi b hb
  rcases hr.resources i k with h | ⟨h, _⟩
  · rw [h]
  · rw [hw] at h; cases h

/-- Reading a stream. -/
def addRes (l : MemLoc) (b : Bytes) (w : MemW) : MemW := { w with resources := upd w.resources l (some b) }

theorem addRes_le {N d : Nat} {l : MemLoc} {b : Bytes} {w : MemW} (h : w.resources l = none) : (memLater N d).le w (addRes l b w) := by
  refine ⟨Nat.le_refl _, fun l' _ b' hb => ?_⟩
  change upd w.resources l _ l' = _
  unfold upd
  rw [if_neg]
  · exact hb
  · rintro rfl; rw [h] at hb; cases hb

theorem mem_good (N d : Nat) : (memLater N d).Good where
  subdir o o' n w0 ho := by
    intro w w' _ hr
    have hr : MemLater N d w w' := hr
    obtain ⟨h1, h2⟩ := ho
    have hn : w'.next = shift N d w.next := by rw [hr.next, shift_next hr.le]
    refine ⟨⟨by change join o'.path n = join o.path n; rw [h1], hn⟩,
      ⟨fun i k => ?_, fun i k hi => ?_, Nat.le_succ_of_le hr.le, ?_, fun i k => ?_⟩, Nat.le_succ _, fun l hl b hb => ?_⟩
    · change (if shift N d i = w'.next then none else w'.streams (shift N d i, k)) = if i = w.next then none else w.streams (i, k)
      rw [hn]
      by_cases hi : i = w.next
      · rw [if_pos hi, if_pos (congrArg _ hi)]
      · rw [if_neg hi, if_neg fun hj => hi (shift_inj hj)]; exact hr.streams i k
    · change (if i = w.next then none else w.streams (i, k)) = none ∧ (if i = w.next then none else w.resources (i, k)) = none
      have hi : w.next + 1 ≤ i := hi
      rw [if_neg (by omega), if_neg (by omega)]
      exact hr.unborn i k (by omega)
    · change w'.next + 1 = w.next + 1 + d
      rw [hr.next]; omega
    · change CachedSince (if i = w.next then none else w.streams (i, k)) (if i = w.next then none else w.resources (i, k))
        (if shift N d i = w'.next then none else w'.resources (shift N d i, k))
      rw [hn]
      by_cases hi : i = w.next
      · rw [if_pos hi, if_pos hi, if_pos (congrArg _ hi)]; exact .inl rfl
      · rw [if_neg hi, if_neg hi, if_neg fun hj => hi (shift_inj hj)]; exact hr.resources i k
    · change (if l.1 = w.next then none else w.resources l) = some b
      rw [if_neg (by omega)]; exact hb
  readResource o o' n w0 ho := by
    intro w w' _ hr
    have hr : MemLater N d w w' := hr
    obtain ⟨h1, h2⟩ := ho
    obtain ⟨i, path⟩ := o
    obtain ⟨i', path'⟩ := o'
    cases h1
    cases h2
    change Res.Rel ((memLater N d).slice (MemSt.readResource ⟨i, path⟩ n w).2) (MemSt.readResource ⟨i, path⟩ n w).1 (MemSt.readResource ⟨shift N d i, path⟩ n w').1 ∧
      MemLater N d (MemSt.readResource ⟨i, path⟩ n w).2 (MemSt.readResource ⟨shift N d i, path⟩ n w').2 ∧ (memLater N d).le w (MemSt.readResource ⟨i, path⟩ n w).2
    unfold MemSt.readResource MemSt.loc
    dsimp only
    generalize key (join path n) = k
    have hs := hr.streams i k
    have hc := hr.resources i k
    have alive : ∀ {b}, w.resources (i, k) = some b ∨ (∃ m, w.streams (i, k) = some (b, m)) → i < w.next := by
      intro b hb
      refine Decidable.byContradiction fun hlt => ?_
      have := hr.unborn i k (by omega)
      rcases hb with hb | ⟨m, hb⟩
      · rw [this.2] at hb; cases hb
      · rw [this.1] at hb; cases hb
    rcases hl : w.resources (i, k) with _ | b
    · dsimp only
      rcases hst : w.streams (i, k) with _ | ⟨b, m⟩
      · rw [hst] at hs hc
        rcases hc with hc | ⟨_, _, _, h, _⟩
        · rw [hc, hl, hs]; exact ⟨rfl, hr, (memLater N d).le_refl w⟩
        · cases h
      · dsimp only
        have hi := alive (.inr ⟨m, hst⟩)
        have hle := addRes_le (N := N) (d := d) (l := (i, k)) (b := b) hl
        have hcache : (addRes (i, k) b w).resources (i, k) = some b := if_pos rfl
        have keep : ∀ (w1' : MemW), w1'.streams = w'.streams → w1'.next = w'.next → w1'.resources (shift N d i, k) = some b →
            (∀ j k', (j, k') ≠ (i, k) → w1'.resources (shift N d j, k') = w'.resources (shift N d j, k')) → MemLater N d (addRes (i, k) b w) w1' := by
          intro w1' e1 e2 e3 e4
          refine ⟨fun j k' => ?_, fun j k' hj => ⟨(hr.unborn j k' hj).1, ?_⟩, hr.le, ?_, fun j k' => ?_⟩
          · rw [e1]; exact hr.streams j k'
          · change upd w.resources (i, k) _ (j, k') = none
            unfold upd
            rw [if_neg]
            · exact (hr.unborn j k' hj).2
            · intro hjk
              cases hjk
              have hj : w.next ≤ i := hj
              omega
          · rw [e2]; exact hr.next
          · change CachedSince (w.streams (j, k')) (upd w.resources (i, k) _ (j, k')) _
            unfold upd
            by_cases hjk : (j, k') = (i, k)
            · cases hjk
              rw [if_pos rfl, e3]; exact .inl rfl
            · rw [if_neg hjk, e4 j k' hjk]; exact hr.resources j k'
        rcases hc with hc | ⟨_, b', m', h, hc⟩
        · rw [hc, hl, hs, hst]
          refine ⟨mem_slice (w0 := addRes (i, k) b w) hi hcache _, keep _ rfl rfl (if_pos rfl) fun j k' hjk => if_neg fun hq => hjk ?_, hle⟩
          have e1 : shift N d j = shift N d i := congrArg Prod.fst hq
          have e2 : k' = k := congrArg Prod.snd hq
          rw [shift_inj e1, e2]
        · rw [hst] at h
          cases h
          rw [hc]
          exact ⟨mem_slice (w0 := addRes (i, k) b w) hi hcache _, keep _ rfl rfl hc fun _ _ _ => rfl, hle⟩
    · rcases hc with hc | ⟨h, _⟩
      · rw [hc, hl]
        exact ⟨mem_slice (alive (.inl hl)) hl _, hr, (memLater N d).le_refl w⟩
      · rw [hl] at h; cases h

/-! ## Calls that read -/

theorem syscall_quiet {α : Type} (f : FS → Res IoErr α) (w : FileW) :
    ∃ r, FileSt.syscall (fun fs => (f fs, fs)) (fun _ fs => fs) w = (r, tock 1 w) ∧ (r = .err .other ∨ r = f (tock 1 w).fs) := by
  unfold FileSt.syscall
  cases w.fs.fault w.fs.tick with
  | none => exact ⟨_, rfl, .inr rfl⟩
  | some k => exact ⟨_, rfl, .inl rfl⟩

theorem pathExists_world (q : Path) (w : FileW) : ∃ b, FileSt.pathExists q w = (.ok b, tock 1 w) := by
  unfold FileSt.pathExists
  obtain ⟨r, h, _⟩ := syscall_quiet (fun fs => .ok ((fs.files (key q)).isSome || (q ≠ [] && FileSt.dirOK fs (key q)))) w
  rw [h]
  cases r <;> exact ⟨_, rfl⟩

theorem fileOpen_world (q : Path) (w : FileW) : ∃ r, FileSt.fileOpen q w = (r, tock 1 w) ∧ ∀ k, r = .ok k → k = key q := by
  unfold FileSt.fileOpen FileSt.syscall
  cases w.fs.fault w.fs.tick with
  | some k => exact ⟨_, rfl, fun _ h => by cases h⟩
  | none =>
    dsimp only
    split
    · exact ⟨_, rfl, fun _ h => by cases h; rfl⟩
    · exact ⟨_, rfl, fun _ h => by cases h⟩

theorem mmapLen_world (k : Key) (w : FileW) : ∃ r, FileSt.mmapLen k w = (r, tock 1 w) ∧ ∀ n, r = .ok n → ∃ b, w.fs.files k = some b ∧ b.length ≠ 0 ∧ n = b.length := by
  rw [mmapLen_eq]
  obtain ⟨r, h, hr⟩ := syscall_quiet (fun fs => lengthOf (fs.files k)) w
  refine ⟨r, h, fun n hn => ?_⟩
  subst hn
  rcases hr with hr | hr
  · cases hr
  · change _ = lengthOf (w.fs.files k) at hr
    unfold lengthOf at hr
    rcases hf : w.fs.files k with _ | b
    · rw [hf] at hr; cases hr
    · rw [hf] at hr
      dsimp only at hr
      split at hr
      · cases hr
      · next h0 => cases hr; exact ⟨b, rfl, h0, rfl⟩

/-- What reading may change: the number of calls, and a file may be mapped. -/
theorem readResource_world (o : Obj) (n : String) (w : FileW) : ∃ m, (FileSt.readResource o n w).2 = tock m w ∨
    ∃ b, w.maps o.id (join o.path n) = none ∧ w.fs.files (key (join o.path n)) = some b ∧ b.length ≠ 0 ∧
      (FileSt.readResource o n w).2 = addMap o (join o.path n) b.length (tock m w) := by
  unfold FileSt.readResource
  generalize join o.path n = q
  obtain ⟨x, hx⟩ := pathExists_world q w
  rw [Act.bind_def]
  unfold Act.mapErr
  rw [hx]
  dsimp only
  cases x
  · exact ⟨1, .inl rfl⟩
  change ∃ m, (FileSt.mapRead o q (tock 1 w)).2 = _ ∨ ∃ b, _ ∧ _ ∧ _ ∧ (FileSt.mapRead o q (tock 1 w)).2 = _
  unfold FileSt.mapRead
  rcases hm : (tock 1 w).maps o.id q with _ | ⟨k, l⟩
  · dsimp only
    rw [Act.bind_def]
    obtain ⟨r, hr, hk⟩ := fileOpen_world q (tock 1 w)
    rw [hr]
    cases r with
    | ok k =>
      cases hk k rfl
      dsimp only
      rw [Act.bind_def]
      obtain ⟨r, hr, hl⟩ := mmapLen_world (key q) (tock 1 (tock 1 w))
      rw [hr]
      cases r with
      | ok l =>
        obtain ⟨b, h1, h2, rfl⟩ := hl l rfl
        exact ⟨3, .inr ⟨b, hm, h1, h2, rfl⟩⟩
      | err _ => exact ⟨3, .inl rfl⟩
      | panic => exact ⟨3, .inl rfl⟩
      | ub => exact ⟨3, .inl rfl⟩
    | err _ => exact ⟨2, .inl rfl⟩
    | panic => exact ⟨2, .inl rfl⟩
    | ub => exact ⟨2, .inl rfl⟩
  · exact ⟨1, .inl rfl⟩

/-- What calls that read may change on disk. -/
structure DiskGrown (w w' : FileW) : Prop where
  files : w'.fs.files = w.fs.files
  dirs : w'.fs.isDir = w.fs.isDir
  fds : w'.fs.fds = w.fs.fds
  nextFd : w'.fs.nextFd = w.fs.nextFd
  fault : w'.fs.fault = w.fs.fault
  tick : w.fs.tick ≤ w'.fs.tick
  next : w.next ≤ w'.next
  maps : ∀ i p, i < w.next → MappedSince w.fs.files p (w.maps i p) (w'.maps i p)
  unborn : (∀ i p, w.next ≤ i → w.maps i p = none) → ∀ i p, w'.next ≤ i → w'.maps i p = none

theorem DiskGrown.refl (w : FileW) : DiskGrown w w :=
  ⟨rfl, rfl, rfl, rfl, rfl, Nat.le_refl _, Nat.le_refl _, fun _ _ _ => .inl rfl, fun h => h⟩

theorem MappedSince.trans {files : Key → Option Bytes} {p : Path} {x y z : Option (Key × Nat)} (h1 : MappedSince files p x y) (h2 : MappedSince files p y z) :
    MappedSince files p x z := by
  rcases h1 with rfl | ⟨rfl, b, h3, h4, rfl⟩
  · exact h2
  · rcases h2 with rfl | ⟨h, _⟩
    · exact .inr ⟨rfl, b, h3, h4, rfl⟩
    · cases h

theorem DiskGrown.trans {a b c : FileW} (h1 : DiskGrown a b) (h2 : DiskGrown b c) : DiskGrown a c :=
  ⟨h2.files.trans h1.files, h2.dirs.trans h1.dirs, h2.fds.trans h1.fds, h2.nextFd.trans h1.nextFd, h2.fault.trans h1.fault,
    Nat.le_trans h1.tick h2.tick, Nat.le_trans h1.next h2.next,
    fun i p hi => (h1.maps i p hi).trans (by have := h2.maps i p (Nat.lt_of_lt_of_le hi h1.next); rw [h1.files] at this; exact this),
    fun h => h2.unborn (h1.unborn h)⟩

theorem DiskGrown.tock (m : Nat) (w : FileW) : DiskGrown w (tock m w) :=
  ⟨rfl, rfl, rfl, rfl, rfl, Nat.le_add_right _ _, Nat.le_refl _, fun _ _ _ => .inl rfl, fun h => h⟩

theorem DiskGrown.addMap {o : Obj} {q : Path} {b : Bytes} {w : FileW} (ho : o.id < w.next) (h1 : w.maps o.id q = none) (h2 : w.fs.files (key q) = some b)
    (h3 : b.length ≠ 0) : DiskGrown w (addMap o q b.length w) := by
  refine ⟨rfl, rfl, rfl, rfl, rfl, Nat.le_refl _, Nat.le_refl _, fun i p _ => ?_, fun h i p hi => ?_⟩
  · change MappedSince w.fs.files p (w.maps i p) (upd w.maps o.id _ i p)
    unfold upd
    by_cases hi : i = o.id
    · subst hi
      rw [if_pos rfl]
      by_cases hp : p = q
      · subst hp
        rw [if_pos rfl]
        exact .inr ⟨h1, b, h2, h3, rfl⟩
      · rw [if_neg hp]; exact .inl rfl
    · rw [if_neg hi]; exact .inl rfl
  · change upd w.maps o.id _ i p = none
    unfold upd
    have hi : w.next ≤ i := hi
    rw [if_neg (by omega)]
    exact h i p hi

/-- What calls that read may change in memory. -/
structure MemGrown (w w' : MemW) : Prop where
  streams : ∀ l : MemLoc, l.1 < w.next → w'.streams l = w.streams l
  next : w.next ≤ w'.next
  resources : ∀ l : MemLoc, l.1 < w.next → CachedSince (w.streams l) (w.resources l) (w'.resources l)
  unborn : (∀ l : MemLoc, w.next ≤ l.1 → w.streams l = none ∧ w.resources l = none) → ∀ l : MemLoc, w'.next ≤ l.1 → w'.streams l = none ∧ w'.resources l = none

theorem MemGrown.refl (w : MemW) : MemGrown w w := ⟨fun _ _ => rfl, Nat.le_refl _, fun _ _ => .inl rfl, fun h => h⟩

theorem CachedSince.trans {s : Option (Bytes × Nat)} {x y z : Option Bytes} (h1 : CachedSince s x y) (h2 : CachedSince s y z) : CachedSince s x z := by
  rcases h1 with rfl | ⟨rfl, b, n, h3, rfl⟩
  · exact h2
  · rcases h2 with rfl | ⟨h, _⟩
    · exact .inr ⟨rfl, b, n, h3, rfl⟩
    · cases h

theorem MemGrown.trans {a b c : MemW} (h1 : MemGrown a b) (h2 : MemGrown b c) : MemGrown a c :=
  ⟨fun l hl => (h2.streams l (Nat.lt_of_lt_of_le hl h1.next)).trans (h1.streams l hl), Nat.le_trans h1.next h2.next,
    fun l hl => (h1.resources l hl).trans (by have := h2.resources l (Nat.lt_of_lt_of_le hl h1.next); rw [h1.streams l hl] at this; exact this),
    fun h => h2.unborn (h1.unborn h)⟩

/-- What calls that read may change. -/
def Grown : (k : Kind) → k.backend.W → k.backend.W → Prop
  | .memory => MemGrown
  | .disk => DiskGrown

variable {k : Kind}

theorem Grown.refl (w : k.backend.W) : Grown k w w := by
  cases k
  · exact MemGrown.refl _
  · exact DiskGrown.refl _

theorem Grown.trans {a b c : k.backend.W} (h1 : Grown k a b) (h2 : Grown k b c) : Grown k a c := by
  cases k
  · exact MemGrown.trans h1 h2
  · exact DiskGrown.trans h1 h2

theorem Spec.Look.grown {w w' : k.backend.W} (h : Look k w w') : Grown k w w' := by
  cases h with
  | @subdir o d w r w' h =>
    cases k
    · cases h
      refine ⟨fun l hl => if_neg (by omega), Nat.le_succ _, fun l hl => .inl (if_neg (by omega)), fun hu l hl => ?_⟩
      have hl : MemW.next w + 1 ≤ l.1 := hl
      change (if l.1 = MemW.next w then none else MemW.streams w l) = none ∧ (if l.1 = MemW.next w then none else MemW.resources w l) = none
      rw [if_neg (by omega), if_neg (by omega)]
      exact hu l (by omega)
    · cases h
      refine ⟨rfl, rfl, rfl, rfl, rfl, Nat.le_refl _, Nat.le_succ _, fun i p hi => .inl ?_, fun hu i p hi => ?_⟩
      · change upd (FileW.maps w) (FileW.next w) _ i p = _
        unfold upd
        rw [if_neg (by omega)]
      · have hi : FileW.next w + 1 ≤ i := hi
        change upd (FileW.maps w) (FileW.next w) _ i p = _
        unfold upd
        rw [if_neg (by omega)]
        exact hu i p (by omega)
  | @exists_ o n w r w' h =>
    cases k
    · cases h; exact MemGrown.refl _
    · obtain ⟨b, hb⟩ := pathExists_world (join (o : Obj).path n) w
      have : (FileSt.pathExists (join (o : Obj).path n) w) = (r, w') := h
      rw [hb] at this
      cases this
      exact DiskGrown.tock 1 w
  | @read o n w r w' ho h =>
    cases k
    · have h : MemSt.readResource o n w = (r, w') := h
      unfold MemSt.readResource at h
      rcases hr : MemW.resources w (MemSt.loc o n) with _ | b
      · rw [hr] at h
        dsimp only at h
        rcases hs : MemW.streams w (MemSt.loc o n) with _ | ⟨b, m⟩
        · rw [hs] at h
          cases h
          exact MemGrown.refl _
        · rw [hs] at h
          cases h
          refine ⟨fun _ _ => rfl, Nat.le_refl _, fun l _ => ?_, fun hu l hl => ⟨(hu l hl).1, ?_⟩⟩
          · change CachedSince _ _ (upd (MemW.resources w) (MemSt.loc o n) _ l)
            unfold upd
            by_cases hl : l = MemSt.loc o n
            · subst hl
              rw [if_pos rfl]
              exact .inr ⟨hr, b, m, hs, rfl⟩
            · rw [if_neg hl]; exact .inl rfl
          · change upd (MemW.resources w) (MemSt.loc o n) _ l = none
            unfold upd
            rw [if_neg]
            · exact (hu l hl).2
            · rintro rfl
              have h1 : MemW.next w ≤ (o : Obj).id := hl
              have h2 : (o : Obj).id < MemW.next w := ho
              omega
      · rw [hr] at h
        cases h
        exact MemGrown.refl _
    · have h : FileSt.readResource o n w = (r, w') := h
      obtain ⟨m, hw⟩ := readResource_world o n w
      rw [h] at hw
      rcases hw with hw | ⟨b, h1, h2, h3, hw⟩
      · have hw : w' = tock m w := hw
        rw [hw]; exact DiskGrown.tock m w
      · have hw : w' = addMap o _ b.length (tock m w) := hw
        rw [hw]
        exact (DiskGrown.tock m w).trans (DiskGrown.addMap (w := tock m w) ho h1 h2 h3)

theorem Spec.Looks.grown {w w' : k.backend.W} (h : Looks k w w') : Grown k w w' := by
  induction h with
  | refl => exact .refl _
  | step _ s ih => exact ih.trans s.grown

theorem Spec.Looks.trans {a b c : k.backend.W} (h1 : Looks k a b) (h2 : Looks k b c) : Looks k a c := by
  induction h2 with
  | refl => exact h1
  | step _ s ih => exact .step ih s

theorem Grown.alive {w w' : k.backend.W} {o : k.backend.Obj} (h : Grown k w w') (ho : k.alive w o) : k.alive w' o := by
  cases k
  · exact Nat.lt_of_lt_of_le ho (MemGrown.next h)
  · exact Nat.lt_of_lt_of_le ho (DiskGrown.next h)

theorem noFault_grown {w w' : k.backend.W} (h : Grown k w w') (hn : k.noFault w) : k.noFault w' := by
  cases k
  · trivial
  · have h : DiskGrown w w' := h
    intro t ht
    rw [h.fault]
    exact hn t (Nat.le_trans h.tick ht)

/-! ## What the two states have in common -/

theorem reads_same [DiffLib] {p : Profile} {e : Endian} {D : ArchiveDef} {n schema : String} {o : k.backend.Obj} {w v w' : k.backend.W}
    (hv : v = w ∧ k.noFault w ∨ v = calm k w) (hn : k.noFault w') (hu : k.unborn w) (ho : k.alive w o) (h : Grown k w w') :
    outcome (B := k.backend) (openArchive k.backend p e o D w') = outcome (B := k.backend) (openArchive k.backend p e o D v) ∧
    readOutcome (B := k.backend) (Storage.read k.backend p e o n schema w') = readOutcome (B := k.backend) (Storage.read k.backend p e o n schema v) := by
  cases k
  · have h : MemGrown w w' := h
    have ho : (o : Obj).id < MemW.next w := ho
    have hvw : v = w := by
      rcases hv with ⟨hv, _⟩ | hv
      · exact hv
      · exact hv
    subst hvw
    have hr : (memLater (MemW.next v) (MemW.next w' - MemW.next v)).R v w' := by
      refine ⟨fun i k => ?_, fun i k hi => hu (i, k) hi, Nat.le_refl _, (Nat.add_sub_cancel' h.next).symm, fun i k => ?_⟩
      · by_cases hi : i < MemW.next v
        · rw [show shift _ _ i = i from if_pos hi]; exact h.streams (i, k) hi
        · rw [shift_next (by omega), (hu (i, k) (by omega)).1]
          exact (h.unborn hu (_, k) (by have := h.next; change MemW.next w' ≤ i + _; omega)).1
      · by_cases hi : i < MemW.next v
        · rw [show shift _ _ i = i from if_pos hi]; exact h.resources (i, k) hi
        · rw [shift_next (by omega), (hu (i, k) (by omega)).2]
          exact .inl (h.unborn hu (_, k) (by have := h.next; change MemW.next w' ≤ i + _; omega)).2
    have hob : (memLater (MemW.next v) (MemW.next w' - MemW.next v)).obj o o := ⟨rfl, (if_pos ho).symm⟩
    exact ⟨(Later.outcome_eq (mem_good _ _) D hob hr).symm, (Later.readOutcome_eq (mem_good _ _) n schema hob hr).symm⟩
  · have h : DiskGrown w w' := h
    have ho : (o : Obj).id < FileW.next w := ho
    have key : (FileW.fs v).files = (FileW.fs w).files ∧ (FileW.fs v).isDir = (FileW.fs w).isDir ∧ FileW.maps v = FileW.maps w ∧ FileW.next v = FileW.next w ∧
        ∀ t, (FileW.fs v).tick ≤ t → (FileW.fs v).fault t = none := by
      rcases hv with ⟨rfl, hv⟩ | rfl
      · exact ⟨rfl, rfl, rfl, rfl, hv⟩
      · exact ⟨rfl, rfl, rfl, rfl, fun _ _ => rfl⟩
    obtain ⟨k1, k2, k3, k4, k5⟩ := key
    have hr : (diskLater (FileW.next w) (FileW.next w' - FileW.next w)).R v w' := by
      refine ⟨h.files.trans k1.symm, h.dirs.trans k2.symm, k5, hn, Nat.le_of_eq k4.symm, ?_, fun i p => ?_⟩
      · rw [k4]; exact (Nat.add_sub_cancel' h.next).symm
      · rw [k1, k3]
        by_cases hi : i < FileW.next w
        · rw [show shift _ _ i = i from if_pos hi]; exact h.maps i p hi
        · rw [shift_next (by omega), hu i p (by omega)]
          exact .inl (h.unborn hu _ p (by have := h.next; omega))
    have hob : (diskLater (FileW.next w) (FileW.next w' - FileW.next w)).obj o o := ⟨rfl, (if_pos ho).symm⟩
    exact ⟨(Later.outcome_eq (disk_good _ _) D hob hr).symm, (Later.readOutcome_eq (disk_good _ _) n schema hob hr).symm⟩

/-! ## Opening and reading are such calls -/

/-- Code that only makes calls that read. -/
def OnlyLooks {E α : Type} (k : Kind) (o : k.backend.Obj) (x : Act k.backend.W E α) : Prop := ∀ w, k.alive w o → Looks k w (x w).2

section
variable {p : Profile} {e : Endian} {o : k.backend.Obj}

theorem looks_read [DiffLib] {n schema : String} : OnlyLooks k o (Storage.read k.backend p e o n schema) := by
  intro w ho
  have step : ∀ {w w1 : k.backend.W} (n : String), Looks k w w1 ∧ k.alive w1 o → Looks k w (k.backend.readResource o n w1).2 ∧ k.alive (k.backend.readResource o n w1).2 o := by
    intro w w1 n ⟨h1, h2⟩
    have := Look.read (r := (k.backend.readResource o n w1).1) h2 rfl
    exact ⟨.step h1 this, this.grown.alive h2⟩
  have rd : Act.Pres (fun w1 => Looks k w w1 ∧ k.alive w1 o) (Storage.read k.backend p e o n schema) :=
    .bind (.mapErr fun _ h => step _ h) fun _ => .bind (.mapErr fun _ h => step _ h) fun _ => Kind.pres_checkResource'
  exact (rd w ⟨.refl w, ho⟩).1

theorem looks_checkRes {α : Type} {opt : Bool} {x : Act k.backend.W RErr α} (hx : OnlyLooks k o x) : OnlyLooks k o (checkRes k.backend opt x) := by
  intro w ho
  unfold checkRes
  refine Act.bind_post (R := Looks k) Looks.trans ?_ fun r w1 _ => ?_
  · have := hx w ho
    unfold Act.attempt
    rcases h : x w with ⟨r, w'⟩
    rw [h] at this
    cases r <;> exact this
  · cases r with
    | ok a => exact .refl _
    | error y => dsimp only; split <;> exact .refl _

theorem looks_openResource [DiffLib] (r : ResDecl) : OnlyLooks k o (openResource k.backend p e o r) := by
  intro w ho
  obtain ⟨name, schema, optional, type⟩ := r
  have rd : ∀ {n s}, OnlyLooks k o (checkRes k.backend optional (Storage.read k.backend p e o n s)) :=
    looks_checkRes (looks_read)
  cases type
  case multi V index =>
    refine Act.bind_post (R := Looks k) Looks.trans (rd w ho) fun i w1 h1 => ?_
    have h := rd (n := index) (s := Storage.indexSchema schema) w ho
    rw [h1] at h
    exact Act.bind_post (R := Looks k) Looks.trans (rd w1 (h.grown.alive ho)) fun _ _ _ => .refl _
  all_goals exact Act.bind_post (R := Looks k) Looks.trans (rd w ho) fun _ _ _ => .refl _

theorem looks_openResources [DiffLib] : ∀ rs : List ResDecl, OnlyLooks k o (openResources k.backend p e o rs)
  | [] => fun w _ => .refl w
  | r :: rs => by
    intro w ho
    refine Act.bind_post (R := Looks k) Looks.trans (looks_openResource r w ho) fun i w1 h1 => ?_
    have h := looks_openResource (p := p) (e := e) r w ho
    rw [h1] at h
    exact Act.bind_post (R := Looks k) Looks.trans (looks_openResources rs w1 (h.grown.alive ho)) fun _ _ _ => .refl _

mutual
theorem looks_openArchive [DiffLib] : ∀ (D : ArchiveDef) (o : k.backend.Obj), OnlyLooks k o (openArchive k.backend p e o D)
  | .mk name schema rs subs, o => by
    intro w ho
    unfold openArchive
    have rd : OnlyLooks k o (Storage.read k.backend p e o (name ++ ".archive") schema) := looks_read
    refine Act.bind_post (R := Looks k) Looks.trans (rd w ho) fun _ w1 h1 => ?_
    have h := rd w ho
    rw [h1] at h
    refine Act.bind_post (R := Looks k) Looks.trans (looks_openResources rs w1 (h.grown.alive ho)) fun _ w2 h2 => ?_
    have h' := looks_openResources (p := p) (e := e) rs w1 (h.grown.alive ho)
    rw [h2] at h'
    exact Act.bind_post (R := Looks k) Looks.trans (looks_openSubs subs o w2 (h'.grown.alive (h.grown.alive ho))) fun _ _ _ => .refl _

theorem looks_openSubs [DiffLib] : ∀ (D : SubDefs) (o : k.backend.Obj), OnlyLooks k o (openSubs k.backend p e o D)
  | .nil, o => fun w _ => by unfold openSubs; exact .refl w
  | .cons name optional D rest, o => by
    intro w ho
    unfold openSubs
    have s1 : Looks k w (k.backend.subdir o name w).2 := .step (.refl w) (.subdir (r := (k.backend.subdir o name w).1) rfl)
    refine Act.bind_post (R := Looks k) Looks.trans (by rw [mapErr_snd]; exact s1) fun o' w1 h1 => ?_
    have h1 := mapErr_eq_ok h1
    rw [h1] at s1
    have ho' : k.alive w1 o' := by cases k <;> cases h1 <;> exact Nat.lt_succ_self _
    have hc := looks_checkRes (opt := optional) (looks_openArchive D o')
    refine Act.bind_post (R := Looks k) Looks.trans (hc w1 ho') fun a w2 h2 => ?_
    have s2 := hc w1 ho'
    rw [h2] at s2
    exact Act.bind_post (R := Looks k) Looks.trans (looks_openSubs rest o w2 (s2.grown.alive (s1.grown.alive ho))) fun _ _ _ => .refl _
end

end

end Flatdata
