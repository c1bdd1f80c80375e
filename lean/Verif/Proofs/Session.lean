import Verif.Spec.Session
import Verif.Proofs.Simulate
/-!
# Sessions with two storages that behave alike
-/
namespace Flatdata
open Spec

/-- Both missing, or both there and related. -/
def optRel {α β : Type} (V : α → β → Prop) : Option α → Option β → Prop
  | none, none => True
  | some a, some b => V a b
  | _, _ => False

theorem optRel.upd {α β : Type} {V : α → β → Prop} {f : Nat → Option α} {g : Nat → Option β} (h : ∀ i, optRel V (f i) (g i)) (d : Nat)
    {a : Option α} {b : Option β} (hv : optRel V a b) : ∀ i, optRel V (upd f d a i) (upd g d b i) := by
  intro i
  unfold Flatdata.upd
  by_cases hi : i = d
  · rw [if_pos hi, if_pos hi]; exact hv
  · rw [if_neg hi, if_neg hi]; exact h i

theorem optRel.set {α β : Type} {V : α → β → Prop} {f : Nat → Option α} {g : Nat → Option β} (h : ∀ i, optRel V (f i) (g i)) (d : Nat)
    {a : α} {b : β} (hv : V a b) : ∀ i, optRel V (Flatdata.upd f d (some a) i) (Flatdata.upd g d (some b) i) := upd h d hv

theorem optRel.unset {α β : Type} {V : α → β → Prop} {f : Nat → Option α} {g : Nat → Option β} (h : ∀ i, optRel V (f i) (g i)) (d : Nat) :
    ∀ i, optRel V (Flatdata.upd f d none i) (Flatdata.upd g d none i) := upd h d (a := none) (b := none) trivial

/-- Lists of the same length with related members. -/
def listRel {α β : Type} (V : α → β → Prop) : List α → List β → Prop
  | [], [] => True
  | a :: l, b :: m => V a b ∧ listRel V l m
  | _, _ => False

namespace listRel
variable {α β : Type} {V : α → β → Prop}

theorem length : ∀ {l : List α} {m : List β}, listRel V l m → l.length = m.length
  | [], [], _ => rfl
  | _ :: _, _ :: _, h => by rw [List.length_cons, List.length_cons, length h.2]

theorem append : ∀ {l : List α} {m : List β} {l' m'}, listRel V l m → listRel V l' m' → listRel V (l ++ l') (m ++ m')
  | [], [], _, _, _, h => h
  | _ :: _, _ :: _, _, _, h, h' => ⟨h.1, append h.2 h'⟩

theorem getD {a : α} {b : β} (d : V a b) : ∀ {l : List α} {m : List β}, listRel V l m → ∀ i, V (l.getD i a) (m.getD i b)
  | [], [], _, _ => d
  | _ :: _, _ :: _, h, 0 => h.1
  | _ :: _, _ :: _, h, i + 1 => getD d h.2 i

theorem map_eq {γ : Type} {f : α → γ} {g : β → γ} (hf : ∀ a b, V a b → f a = g b) : ∀ {l : List α} {m : List β}, listRel V l m → l.map f = m.map g
  | [], [], _ => rfl
  | _ :: _, _ :: _, h => by rw [List.map_cons, List.map_cons, hf _ _ h.1, map_eq hf h.2]

end listRel

theorem optRel.putAll {α β : Type} {V : α → β → Prop} {f : Nat → Option α} {g : Nat → Option β} (h : ∀ i, optRel V (f i) (g i)) (d : Nat)
    {l : List (Option α)} {m : List (Option β)} (hl : listRel (optRel V) l m) : ∀ i, optRel V (putAll f d l i) (putAll g d m i) := by
  intro i
  unfold Spec.putAll
  rw [hl.length]
  by_cases hi : d ≤ i ∧ i < d + m.length
  · rw [if_pos hi, if_pos hi]; exact hl.getD trivial _
  · rw [if_neg hi, if_neg hi]; exact h i

namespace Alike
variable {B B' : Backend} (S : Alike B B') {p : Profile} {e : Endian}

/-- Related variables. -/
structure vars (v : Vars B) (v' : Vars B') : Prop where
  obj : ∀ i, optRel S.obj (v.obj i) (v'.obj i)
  strm : ∀ i, optRel S.strm (v.strm i) (v'.strm i)
  handle : ∀ i, optRel S.handle (v.handle i) (v'.handle i)
  vec : ∀ i, optRel S.ext (v.vec i) (v'.vec i)
  multi : ∀ i, optRel S.multi (v.multi i) (v'.multi i)
  slice : ∀ i, optRel S.slice (v.slice i) (v'.slice i)

/-- The same is seen, and related variables. -/
def seen (a : Seen × Vars B) (b : Seen × Vars B') : Prop := a.1 = b.1 ∧ S.vars a.2 b.2

variable {S}

section
variable {v : Vars B} {v' : Vars B'} (h : S.vars v v') (d : Nat)
include h

theorem vars.setObj {a b} (hv : S.obj a b) :
    S.vars { v with obj := upd v.obj d (some a) } { v' with obj := upd v'.obj d (some b) } := { h with obj := optRel.set h.obj d hv }

theorem vars.setStrm {a b} (hv : S.strm a b) :
    S.vars { v with strm := upd v.strm d (some a) } { v' with strm := upd v'.strm d (some b) } := { h with strm := optRel.set h.strm d hv }

theorem vars.setHandle {a b} (hv : S.handle a b) :
    S.vars { v with handle := upd v.handle d (some a) } { v' with handle := upd v'.handle d (some b) } :=
  { h with handle := optRel.set h.handle d hv }

theorem vars.noHandle : S.vars { v with handle := upd v.handle d none } { v' with handle := upd v'.handle d none } :=
  { h with handle := optRel.unset h.handle d }

theorem vars.setVec {a b} (hv : S.ext a b) :
    S.vars { v with vec := upd v.vec d (some a) } { v' with vec := upd v'.vec d (some b) } := { h with vec := optRel.set h.vec d hv }

theorem vars.noVec : S.vars { v with vec := upd v.vec d none } { v' with vec := upd v'.vec d none } :=
  { h with vec := optRel.unset h.vec d }

theorem vars.setMulti {a b} (hv : S.multi a b) :
    S.vars { v with multi := upd v.multi d (some a) } { v' with multi := upd v'.multi d (some b) } := { h with multi := optRel.set h.multi d hv }

theorem vars.noMulti : S.vars { v with multi := upd v.multi d none } { v' with multi := upd v'.multi d none } :=
  { h with multi := optRel.unset h.multi d }

theorem vars.setSlice {a b} (hv : S.slice a b) :
    S.vars { v with slice := upd v.slice d (some a) } { v' with slice := upd v'.slice d (some b) } := { h with slice := optRel.set h.slice d hv }

theorem vars.putAll {l m} (hv : listRel (optRel S.slice) l m) :
    S.vars { v with slice := Spec.putAll v.slice d l } { v' with slice := Spec.putAll v'.slice d m } :=
  { h with slice := optRel.putAll h.slice d hv }

end

theorem withVar {α β : Type} {V : α → β → Prop} {v : Vars B} {v' : Vars B'} (h : S.vars v v') {x : Option α} {y : Option β} (hx : optRel V x y)
    {f : α → Act B.W Empty (Seen × Vars B)} {g : β → Act B'.W Empty (Seen × Vars B')} (hf : ∀ a b, V a b → Simul S.R S.seen (f a) (g b)) :
    Simul S.R S.seen (Spec.withVar v x f) (Spec.withVar v' y g) := by
  cases x <;> cases y <;> first | exact hx.elim | skip
  · exact .pure ⟨rfl, h⟩
  · exact hf _ _ hx

theorem ioSeen {α β : Type} {V : α → β → Prop} {v : Vars B} {v' : Vars B'} (h : S.vars v v') {x : Act B.W IoErr α} {y : Act B'.W IoErr β}
    (hx : Simul S.R V x y) {f : α → Seen × Vars B} {g : β → Seen × Vars B'} (hf : ∀ a b, V a b → S.seen (f a) (g b)) :
    Simul S.R S.seen (Spec.ioSeen v x f) (Spec.ioSeen v' y g) := by
  refine .bind (.attempt hx) fun a b hv => ?_
  cases a <;> cases b <;> first | exact hv.elim | skip
  · cases hv; exact .pure ⟨rfl, h⟩
  · exact .pure (hf _ _ hv)

theorem errSeen {α β : Type} {V : α → β → Prop} {v : Vars B} {v' : Vars B'} (h : S.vars v v') {x : Act B.W RErr α} {y : Act B'.W RErr β}
    (hx : Simul S.R V x y) {f : α → Seen × Vars B} {g : β → Seen × Vars B'} (hf : ∀ a b, V a b → S.seen (f a) (g b)) :
    Simul S.R S.seen (Spec.errSeen v x f) (Spec.errSeen v' y g) := by
  refine .bind (.attempt hx) fun a b hv => ?_
  cases a <;> cases b <;> first | exact hv.elim | skip
  · cases hv; exact .pure ⟨rfl, h⟩
  · exact .pure (hf _ _ hv)

theorem descr_opt {a : Option (Slice B.Base)} {b : Option (Slice B'.Base)} (h : S.descr a b) : optRel S.slice a b := by
  cases a <;> cases b <;> exact h

theorem openedSlices {a : Opened B.Base} {b : Opened B'.Base} (h : S.opened a b) :
    listRel (optRel S.slice) (Spec.openedSlices a) (Spec.openedSlices b) := by
  cases a <;> cases b <;> first | exact h.elim | skip
  · exact ⟨descr_opt h, trivial⟩
  · exact ⟨descr_opt h.1, descr_opt h.2, trivial⟩

theorem openedsSlices : ∀ {a : List (Opened B.Base)} {b : List (Opened B'.Base)}, S.openeds a b →
    listRel (optRel S.slice) (a.flatMap Spec.openedSlices) (b.flatMap Spec.openedSlices)
  | [], [], _ => trivial
  | _ :: _, _ :: _, h => by
    rw [List.flatMap_cons, List.flatMap_cons]
    exact (openedSlices h.1).append (openedsSlices h.2)
  | [], _ :: _, h => h.elim
  | _ :: _, [], h => h.elim

mutual
theorem archiveSlices : ∀ {a : Archive B.Base} {b : Archive B'.Base}, S.archive a b →
    listRel (optRel S.slice) (Spec.archiveSlices a) (Spec.archiveSlices b)
  | .mk _ _, .mk _ _, h => (openedsSlices h.1).append (subSlices h.2)

theorem subSlices : ∀ {a : SubArchives B.Base} {b : SubArchives B'.Base}, S.subs a b →
    listRel (optRel S.slice) (Spec.subSlices a) (Spec.subSlices b)
  | .nil, .nil, _ => trivial
  | .cons (some _) _, .cons (some _) _, h => (archiveSlices h.1).append (subSlices h.2)
  | .cons none ss, .cons none ts, h => subSlices (a := ss) (b := ts) h
  | .cons none _, .cons (some _) _, h => (show False from h).elim
  | .cons (some _) _, .cons none _, h => (show False from h).elim
  | .nil, .cons _ _, h => (show False from h).elim
  | .cons none _, .nil, h => (show False from h).elim
  | .cons (some _) _, .nil, h => (show False from h).elim
end

/-- All names may be used, and all directories. -/
structure Total (S : Alike B B') : Prop where
  ok : ∀ o n, S.ok o n
  subdir : ∀ o o' n, S.obj o o' → Simul S.R S.obj (B.subdir o n) (B'.subdir o' n)

theorem Total.both (t : Total S) (o : B.Obj) (n : String) : S.both o n := ⟨t.ok _ _, t.ok _ _⟩

mutual
theorem Total.inside (t : Total S) : ∀ {D : ArchiveDef} {o : B.Obj}, PlainSubs D → S.Inside D o
  | .mk _ _ _ _, _, h => ⟨fun _ _ => t.ok _ _, t.subsInside h⟩

theorem Total.subsInside (t : Total S) : ∀ {ss : SubDefs} {o : B.Obj}, PlainSubsIn ss → S.SubsInside ss o
  | .nil, _, _ => trivial
  | .cons _ _ _ _, _, h => ⟨h.1, fun _ _ => t.inside h.2.1, t.subsInside h.2.2⟩
end

theorem cmd [DiffLib] (t : Total S) {v : Vars B} {v' : Vars B'} (h : S.vars v v') (c : Cmd) (hc : ∀ dst o D, c = .openArchive dst o D → PlainSubs D) :
    Simul S.R S.seen (c.run p e v) (c.run p e v') := by
  cases c with
  | subdir dst o n => exact withVar h (h.obj o) fun _ _ ho => .bind (t.subdir _ _ _ ho) fun _ _ ha => .pure ⟨rfl, (h.setObj _ ha)⟩
  | exists_ o n =>
    exact withVar h (h.obj o) fun _ _ ho => .bind (S.existsRes _ _ _ ho (t.ok _ _)) fun _ _ ha => .pure ⟨congrArg _ ha, h⟩
  | readRaw dst o n =>
    exact withVar h (h.obj o) fun _ _ ho => ioSeen h (S.readResource _ _ _ ho (t.ok _ _)) fun _ _ ha =>
      ⟨congrArg _ ha.2.2, (h.setSlice _ ha)⟩
  | read dst o n schema =>
    exact withVar h (h.obj o) fun _ _ ho => errSeen h (S.read _ ho (t.both _ _)) fun _ _ ha =>
      ⟨congrArg _ ha.2.2, (h.setSlice _ ha)⟩
  | look s =>
    exact withVar h (h.slice s) fun _ _ hs => .bind (S.load hs) fun _ _ ha => .pure ⟨congrArg _ ha, h⟩
  | write o n schema data =>
    exact withVar h (h.obj o) fun _ _ ho => ioSeen h (S.write _ ho (t.both _ _)) fun _ _ _ => ⟨rfl, h⟩
  | createArchive o n schema =>
    exact withVar h (h.obj o) fun _ _ ho => errSeen h (S.createArchive ho (t.both _ _)) fun _ _ _ => ⟨rfl, h⟩
  | stream dst o n =>
    exact withVar h (h.obj o) fun _ _ ho => ioSeen h (S.createOutputStream _ _ _ ho (t.ok _ _)) fun _ _ ha =>
      ⟨rfl, (h.setStrm _ ha)⟩
  | put s b => exact withVar h (h.strm s) fun _ _ hs => ioSeen h (S.writeAll _ _ _ hs) fun _ _ _ => ⟨rfl, h⟩
  | rewind s => exact withVar h (h.strm s) fun _ _ hs => ioSeen h (S.seekStart _ _ hs) fun _ _ _ => ⟨rfl, h⟩
  | handle dst o n schema s =>
    exact withVar h (h.obj o) fun _ _ ho => withVar h (h.strm s) fun _ _ hs => ioSeen h (tryNew ho (t.both _ _) hs) fun _ _ ha =>
      ⟨rfl, (h.setHandle _ ha)⟩
  | handleWrite i b =>
    exact withVar h (h.handle i) fun _ _ hx => ioSeen h (hx.write _) fun _ _ ha => ⟨rfl, (h.setHandle _ ha)⟩
  | handleClose dst i =>
    exact withVar h (h.handle i) fun _ _ hx => .bind hx.close fun _ _ ha =>
      errSeen (h.setHandle _ ha.2) (.ofExcept ha.1) fun _ _ hs =>
        ⟨congrArg _ hs.2.2, (h.setHandle _ ha.2).setSlice _ hs⟩
  | handleDrop i =>
    exact withVar h (h.handle i) fun _ _ hx => .bind hx.drop fun _ _ _ => .pure ⟨rfl, (h.noHandle _)⟩
  | vector dst o n schema =>
    exact withVar h (h.obj o) fun _ _ ho => ioSeen h (createExternalVector ho (t.both _ _)) fun _ _ ha =>
      ⟨rfl, (h.setVec _ ha)⟩
  | vectorGrow i T ops =>
    exact withVar h (h.vec i) fun _ _ hx => ioSeen h (growOne T ops hx) fun _ _ ha => ⟨rfl, (h.setVec _ ha)⟩
  | vectorClose dst i =>
    exact withVar h (h.vec i) fun _ _ hx => errSeen (h.noVec _) hx.close fun _ _ hs =>
      ⟨congrArg _ hs.2.2, (h.noVec _).setSlice _ hs⟩
  | multi dst o n schema =>
    exact withVar h (h.obj o) fun _ _ ho => ioSeen h (createMultiVector ho (t.both _ _) (t.both _ _)) fun _ _ ha =>
      ⟨rfl, (h.setMulti _ ha)⟩
  | multiGrow i V =>
    exact withVar h (h.multi i) fun _ _ hx => .bind (hx.grow V) fun _ _ ha =>
      ioSeen (h.setMulti _ ha.2) (.ofExcept ha.1) fun _ _ _ => ⟨rfl, (h.setMulti _ ha.2)⟩
  | multiAdd i a =>
    exact withVar h (h.multi i) fun _ _ hx => ioSeen h (addOne a hx) fun _ _ ha => ⟨rfl, (h.setMulti _ ha)⟩
  | multiClose di dd i V =>
    exact withVar h (h.multi i) fun _ _ hx => errSeen (h.noMulti _) (hx.close V) fun _ _ hs =>
      ⟨congrArg _ hs.2.2.2, ((h.noMulti _).setSlice _ hs.1).setSlice _ hs.2⟩
  | openArchive dst o D =>
    refine withVar h (h.obj o) fun _ _ ho => errSeen h (S.openArchive ho (t.inside (hc _ _ _ rfl))) fun a b ha =>
      ⟨congrArg _ ((archiveSlices ha).map_eq fun a b hs => ?_), h.putAll _ (archiveSlices ha)⟩
    cases a <;> cases b <;> first | exact hs.elim | skip
    · rfl
    · exact congrArg some hs.2.2

/-- A session sees the same with two storages that behave alike. -/
theorem session [DiffLib] (t : Total S) : ∀ (x : Session), x.Plain → ∀ {v : Vars B} {v' : Vars B'} {w : B.W} {w' : B'.W}, S.vars v v' → S.R w w' →
    (x.run p e v w).1 = (x.run p e v' w').1 ∧ S.R (x.run p e v w).2 (x.run p e v' w').2
  | .done, _, _, _, _, _, _, hr => ⟨rfl, hr⟩
  | .call c k, hp, v, v', w, w', hv, hr => by
    obtain ⟨h1, h2⟩ := cmd (p := p) (e := e) t hv c hp.1 w w' hr
    unfold Session.run
    generalize c.run p e v w = a at h1 h2 ⊢
    generalize c.run p e v' w' = b at h1 h2 ⊢
    obtain ⟨r, w1⟩ := a
    obtain ⟨r', w1'⟩ := b
    cases r with
    | err x => exact x.elim
    | ok a => cases r' with
      | ok b =>
        obtain ⟨s, v1⟩ := a
        obtain ⟨s', v1'⟩ := b
        obtain ⟨hs, hv1⟩ := h1
        change s = s' at hs
        subst hs
        obtain ⟨h3, h4⟩ := session t (k s) (hp.2 s) hv1 h2
        exact ⟨congrArg _ h3, h4⟩
      | err x => exact x.elim
      | panic => exact h1.elim
      | ub => exact h1.elim
    | panic => cases r' with
      | panic => exact ⟨rfl, h2⟩
      | err x => exact x.elim
      | ok _ => exact h1.elim
      | ub => exact h1.elim
    | ub => cases r' with
      | ub => exact ⟨rfl, h2⟩
      | err x => exact x.elim
      | ok _ => exact h1.elim
      | panic => exact h1.elim

end Alike
end Flatdata
