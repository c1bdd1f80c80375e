import Verif.Model.Borrow
import Verif.Proofs.Session
import Verif.Proofs.World
import Verif.Proofs.LawsFile
import Verif.Proofs.SafePure
import Verif.Proofs.Session
/-!
# Borrow checks that do not fail
-/
namespace Flatdata
open Spec

namespace Borrow
variable {W C E α β : Type} [DecidableEq C]

theorem upd_upd_self (b : C → Flag) (c : C) (x : Flag) {y : Flag} (h : b c = y) : upd (upd b c x) c y = b := by
  funext k
  unfold upd
  by_cases hk : k = c
  · rw [if_pos hk, hk, h]
  · rw [if_neg hk, if_neg hk]

theorem upd_same (b : C → Flag) (c : C) (x : Flag) : upd b c x c = x := by
  unfold upd; rw [if_pos rfl]

theorem upd_other (b : C → Flag) {c k : C} (x : Flag) (h : k ≠ c) : upd b c x k = b k := by
  unfold upd; rw [if_neg h]

theorem withMut_eq {c : C} {x : Act (W × (C → Flag)) E α} {w w' : W} {b : C → Flag} {r : Res E α} (hb : b c = .free)
    (hx : x (w, upd b c .exclusive) = (r, (w', upd b c .exclusive))) : withMut c x (w, b) = (r, (w', b)) := by
  unfold withMut
  rw [if_pos hb]
  change ((x (w, upd b c .exclusive)).1, (x (w, upd b c .exclusive)).2.1, upd (x (w, upd b c .exclusive)).2.2 c .free) = _
  rw [hx]
  change (r, w', upd (upd b c .exclusive) c .free) = _
  rw [upd_upd_self b c _ hb]

theorem withMut_inner {c : C} (x : Act W E α) {w : W} {b : C → Flag} (hb : b c = .free) :
    withMut c (inner x) (w, b) = inner x (w, b) := withMut_eq hb rfl

theorem withMut_not {c : C} (x : Act (W × (C → Flag)) E α) {w : W} {b : C → Flag} (hb : b c ≠ .free) :
    withMut c x (w, b) = (.panic, (w, b)) := by
  unfold withMut
  rw [if_neg hb]

theorem withShared_eq {c : C} {x : Act (W × (C → Flag)) E α} {w w' : W} {b : C → Flag} {r : Res E α} {n : Nat} (hb : b c = .shared n)
    (hx : x (w, upd b c (.shared (n + 1))) = (r, (w', upd b c (.shared (n + 1))))) : withShared c x (w, b) = (r, (w', b)) := by
  unfold withShared
  change (match b c with
    | .shared n => ((x (w, upd b c (.shared (n + 1)))).1, ((x (w, upd b c (.shared (n + 1)))).2.1,
      upd (x (w, upd b c (.shared (n + 1)))).2.2 c (unshare ((x (w, upd b c (.shared (n + 1)))).2.2 c))))
    | .exclusive => (.panic, (w, b))) = _
  rw [hb]
  change ((x (w, upd b c (.shared (n + 1)))).1, ((x (w, upd b c (.shared (n + 1)))).2.1,
      upd (x (w, upd b c (.shared (n + 1)))).2.2 c (unshare ((x (w, upd b c (.shared (n + 1)))).2.2 c)))) = _
  rw [hx]
  change (r, w', upd (upd b c (.shared (n + 1))) c (unshare (upd b c (.shared (n + 1)) c))) = _
  rw [upd_same]
  change (r, w', upd (upd b c (.shared (n + 1))) c (.shared n)) = _
  rw [upd_upd_self b c _ hb]

theorem withShared_mut {c : C} (x : Act (W × (C → Flag)) E α) {w : W} {b : C → Flag} (hb : b c = .exclusive) :
    withShared c x (w, b) = (.panic, (w, b)) := by
  unfold withShared
  change (match b c with
    | .shared n => ((x (w, upd b c (.shared (n + 1)))).1, ((x (w, upd b c (.shared (n + 1)))).2.1,
      upd (x (w, upd b c (.shared (n + 1)))).2.2 c (unshare ((x (w, upd b c (.shared (n + 1)))).2.2 c))))
    | .exclusive => (.panic, (w, b))) = _
  rw [hb]

omit [DecidableEq C] in
theorem inner_bind (x : Act W E α) (f : α → Act W E β) : (inner (x >>= f) : Act (W × (C → Flag)) E β) = inner x >>= fun a => inner (f a) := by
  funext w
  change ((Act.bind x f w.1).1, ((Act.bind x f w.1).2, w.2)) = Act.bind (inner x) (fun a => inner (f a)) w
  unfold Act.bind inner
  generalize x w.1 = a
  obtain ⟨r, w1⟩ := a
  cases r <;> rfl

theorem bind_ok {W E α β : Type} {x : Act W E α} {f : α → Act W E β} {w w' : W} {a : α} (h : x w = (.ok a, w')) : (x >>= f) w = f a w' := by
  change Act.bind x f w = _
  unfold Act.bind
  rw [h]

theorem bind_err {W E α β : Type} {x : Act W E α} {f : α → Act W E β} {w w' : W} {a : E} (h : x w = (.err a, w')) : (x >>= f) w = (.err a, w') := by
  change Act.bind x f w = _
  unfold Act.bind
  rw [h]

theorem bind_panic {W E α β : Type} {x : Act W E α} {f : α → Act W E β} {w w' : W} (h : x w = (.panic, w')) : (x >>= f) w = (.panic, w') := by
  change Act.bind x f w = _
  unfold Act.bind
  rw [h]

theorem bind_ub {W E α β : Type} {x : Act W E α} {f : α → Act W E β} {w w' : W} (h : x w = (.ub, w')) : (x >>= f) w = (.ub, w') := by
  change Act.bind x f w = _
  unfold Act.bind
  rw [h]

omit [DecidableEq C] in
theorem inner_lift (x : Out α) : (inner (Act.lift x) : Act (W × (C → Flag)) E α) = Act.lift x := by
  funext w
  cases x <;> rfl

end Borrow

/-! ## In memory -/

namespace MemSt
open Borrow

/-- The maps of the storages are not borrowed. -/
def Free (b : MemCell → Flag) : Prop := ∀ id, b (.streams id) = .free ∧ b (.resources id) = .free

variable {w : MemW} {b : MemCell → Flag}

theorem existsResB_eq (h : Free b) (o : Obj) (n : String) : existsResB o n (w, b) = inner (existsRes o n) (w, b) := by
  refine withShared_eq (h o.id).2 ?_
  by_cases hx : (w.resources (loc o n)).isSome = true
  · refine (bind_ok (a := true) (w' := (w, upd b (.resources o.id) (.shared (0 + 1)))) ?_).trans ?_
    · change (Res.ok (w.resources (loc o n)).isSome, _) = _
      rw [hx]
    · change (Res.ok true, _) = (Res.ok ((w.resources (loc o n)).isSome || _), _)
      rw [hx, Bool.true_or]; rfl
  · have hx : (w.resources (loc o n)).isSome = false := by simpa using hx
    refine (bind_ok (a := false) (w' := (w, upd b (.resources o.id) (.shared (0 + 1)))) ?_).trans ?_
    · change (Res.ok (w.resources (loc o n)).isSome, _) = _
      rw [hx]
    · refine withShared_eq (n := 0) ?_ ?_
      · rw [upd_other _ _ (by simp)]; exact (h o.id).1
      · change (Res.ok (w.streams (loc o n)).isSome, _) = (Res.ok (_ || (w.streams (loc o n)).isSome), _)
        rw [hx, Bool.false_or]; rfl

theorem createOutputStreamB_eq (h : Free b) (o : Obj) (n : String) :
    createOutputStreamB o n (w, b) = inner (createOutputStream o n) (w, b) := withMut_inner _ (h o.id).1

/-- Reading panics exactly if the resource has to be copied and its stream is mutably borrowed. -/
def Held (w : MemW) (b : MemCell → Flag) (l : MemLoc) : Prop :=
  w.resources l = none ∧ (w.streams l).isSome = true ∧ b (.stream l) = .exclusive

theorem indexResource_eq {o : Obj} {n : String} {d : Bytes} (hd : w.resources (loc o n) = some d) :
    indexResource o n (w, b) = (.ok ⟨loc o n, 0, d.length⟩, (w, b)) := by
  unfold indexResource
  rw [hd]

theorem readResourceB_cached (h : Free b) {o : Obj} {n : String} {d : Bytes} (hd : w.resources (loc o n) = some d) :
    readResourceB o n (w, b) = (.ok ⟨loc o n, 0, d.length⟩, (w, b)) := by
  refine (bind_ok (a := true) (w' := (w, b)) ?_).trans ?_
  · refine withShared_eq (h o.id).2 ?_
    change (Res.ok (w.resources (loc o n)).isSome, _) = _
    rw [hd]; rfl
  · refine (bind_ok (a := ()) (w' := (w, b)) rfl).trans ?_
    exact withShared_eq (h o.id).2 (indexResource_eq hd)

/-- The first step of a read of something that is not in the cache. -/
theorem readResourceB_new (h : Free b) {o : Obj} {n : String} (hd : w.resources (loc o n) = none) :
    readResourceB o n (w, b) = ((withShared (.streams o.id) (do
      let s ← peek fun w => w.streams (loc o n)
      copyStream o n s) : Act BW IoErr Unit) >>= fun _ => withShared (.resources o.id) (indexResource o n)) (w, b) := by
  refine (bind_ok (a := false) (w' := (w, b)) ?_).trans rfl
  refine withShared_eq (h o.id).2 ?_
  change (Res.ok (w.resources (loc o n)).isSome, _) = _
  rw [hd]; rfl

theorem readResourceB_eq (h : Free b) (o : Obj) (n : String) :
    (Held w b (loc o n) ∧ readResourceB o n (w, b) = (.panic, (w, b))) ∨
    (¬ Held w b (loc o n) ∧ readResourceB o n (w, b) = inner (readResource o n) (w, b)) := by
  cases hd : w.resources (loc o n) with
  | some d =>
    refine .inr ⟨(fun hh => by rw [hh.1] at hd; cases hd), (readResourceB_cached h hd).trans ?_⟩
    change _ = ((readResource o n w).1, ((readResource o n w).2, b))
    unfold readResource
    rw [hd]
  | none =>
    rw [readResourceB_new h hd]
    have hf : upd b (MemCell.streams o.id) (.shared (0 + 1)) (.resources o.id) = .free := by
      rw [upd_other _ _ (by simp)]; exact (h o.id).2
    cases hs : w.streams (loc o n) with
    | none =>
      refine .inr ⟨(fun hh => by have := hh.2.1; rw [hs] at this; cases this), ?_⟩
      refine (bind_err (a := IoErr.notFound) (w' := (w, b)) ?_).trans ?_
      · refine withShared_eq (h o.id).1 ((bind_ok (a := none) (w' := (w, upd b (.streams o.id) (.shared (0 + 1)))) ?_).trans rfl)
        change (Res.ok (w.streams (loc o n)), _) = _
        rw [hs]
      · change _ = ((readResource o n w).1, ((readResource o n w).2, b))
        unfold readResource
        rw [hd]
        simp only []
        rw [hs]
    | some dp =>
      obtain ⟨d, pos⟩ := dp
      have hread : inner (readResource o n) (w, b) =
          (.ok ⟨loc o n, 0, d.length⟩, ({ w with resources := upd w.resources (loc o n) (some d) }, b)) := by
        change ((readResource o n w).1, ((readResource o n w).2, b)) = _
        unfold readResource
        rw [hd]
        simp only []
        rw [hs]
      have hb' : upd b (MemCell.streams o.id) (.shared (0 + 1)) (.stream (loc o n)) = b (.stream (loc o n)) := upd_other _ _ (by simp)
      have hpeek : (peek fun w : MemW => w.streams (loc o n) : Act BW IoErr _) (w, upd b (.streams o.id) (.shared (0 + 1))) =
          (.ok (some (d, pos)), (w, upd b (.streams o.id) (.shared (0 + 1)))) := by
        change (Res.ok (w.streams (loc o n)), _) = _
        rw [hs]
      cases hc : b (.stream (loc o n)) with
      | exclusive =>
        refine .inl ⟨⟨hd, by rw [hs]; rfl, hc⟩, ?_⟩
        refine bind_panic (w' := (w, b)) (withShared_eq (h o.id).1 ((bind_ok hpeek).trans ?_))
        exact bind_panic (withShared_mut _ (hb'.trans hc))
      | shared k =>
        refine .inr ⟨(fun hh => by have := hh.2.2; rw [hc] at this; cases this), ?_⟩
        rw [hread]
        refine (bind_ok (a := ()) (w' := ({ w with resources := upd w.resources (loc o n) (some d) }, b)) ?_).trans ?_
        · refine withShared_eq (h o.id).1 ((bind_ok hpeek).trans ?_)
          refine (bind_ok (a := d) (w' := (w, upd b (.streams o.id) (.shared (0 + 1)))) ?_).trans ?_
          · exact withShared_eq (hb'.trans hc) rfl
          · exact withMut_eq hf rfl
        · refine withShared_eq (h o.id).2 (indexResource_eq ?_)
          exact if_pos rfl

end MemSt

/-! ## On disk -/

namespace FileSt
open Borrow

/-- The maps of the storages are not borrowed. -/
def Free (b : FileCell → Flag) : Prop := ∀ id, b (.maps id) = .free

variable {w : FileW} {b : FileCell → Flag}

theorem inner_eq {E α : Type} {x : Act FileW E α} {r : Res E α} {w' : FileW} (h : x w = (r, w')) :
    (inner x : Act BW E α) (w, b) = (r, (w', b)) := by
  change ((x w).1, ((x w).2, b)) = _
  rw [h]

theorem mapReadB_eq (h : Free b) (o : Obj) (p : Path) : mapReadB o p (w, b) = inner (mapRead o p) (w, b) := by
  cases hm : w.maps o.id p with
  | some kn =>
    obtain ⟨k, n⟩ := kn
    have h1 : mapRead o p w = (.ok ⟨k, 0, n⟩, w) := by unfold mapRead; rw [hm]
    rw [inner_eq h1]
    refine (bind_ok (a := true) (w' := (w, b)) ?_).trans ((bind_ok (a := ()) (w' := (w, b)) rfl).trans ?_)
    · refine withShared_eq (h o.id) ?_
      change (Res.ok (w.maps o.id p).isSome, _) = _
      rw [hm]; rfl
    · refine withShared_eq (h o.id) ?_
      change indexMap o p (w, _) = _
      unfold indexMap
      rw [hm]
  | none =>
    have h1 : mapRead o p w = (fileOpen p >>= fun k => mmapLen k >>= fun n => insertMap o p k n) w := by unfold mapRead; rw [hm]
    refine (bind_ok (a := false) (w' := (w, b)) ?_).trans ?_
    · refine withShared_eq (h o.id) ?_
      change (Res.ok (w.maps o.id p).isSome, _) = _
      rw [hm]; rfl
    change (mapNew o p >>= fun _ => withShared (.maps o.id) (indexMap o p)) (w, b) = _
    rcases hfo : fileOpen p w with ⟨r, w1⟩
    cases r with
    | err x => exact (bind_err (bind_err (inner_eq hfo))).trans (inner_eq (h1.trans (bind_err hfo))).symm
    | panic => exact (bind_panic (bind_panic (inner_eq hfo))).trans (inner_eq (h1.trans (bind_panic hfo))).symm
    | ub => exact (bind_ub (bind_ub (inner_eq hfo))).trans (inner_eq (h1.trans (bind_ub hfo))).symm
    | ok k =>
      rcases hml : mmapLen k w1 with ⟨r, w2⟩
      have h2 := h1.trans (bind_ok hfo)
      cases r with
      | err x =>
        exact (bind_err ((bind_ok (inner_eq hfo)).trans (bind_err (inner_eq hml)))).trans (inner_eq (h2.trans (bind_err hml))).symm
      | panic =>
        exact (bind_panic ((bind_ok (inner_eq hfo)).trans (bind_panic (inner_eq hml)))).trans (inner_eq (h2.trans (bind_panic hml))).symm
      | ub =>
        exact (bind_ub ((bind_ok (inner_eq hfo)).trans (bind_ub (inner_eq hml)))).trans (inner_eq (h2.trans (bind_ub hml))).symm
      | ok n =>
        have h3 : mapRead o p w = (.ok ⟨k, 0, n⟩, { w2 with maps := upd w2.maps o.id (upd (w2.maps o.id) p (some (k, n))) }) :=
          h2.trans ((bind_ok hml).trans rfl)
        rw [inner_eq h3]
        refine (bind_ok (a := ()) (w' := ({ w2 with maps := upd w2.maps o.id (upd (w2.maps o.id) p (some (k, n))) }, b)) ?_).trans ?_
        · exact (bind_ok (inner_eq hfo)).trans ((bind_ok (inner_eq hml)).trans (withMut_eq (h o.id) rfl))
        · refine withShared_eq (h o.id) ?_
          have hi : upd w2.maps o.id (upd (w2.maps o.id) p (some (k, n))) o.id p = some (k, n) := by
            unfold upd; rw [if_pos rfl, if_pos rfl]
          unfold indexMap
          simp only []
          rw [hi]

theorem readResourceB_eq (h : Free b) (o : Obj) (n : String) : readResourceB o n (w, b) = inner (readResource o n) (w, b) := by
  unfold readResourceB readResource
  rw [inner_bind]
  rcases hx : ((pathExists (join o.path n)).mapErr Empty.elim : Act FileW IoErr Bool) w with ⟨r, w1⟩
  cases r with
  | err x => exact (bind_err (inner_eq hx)).trans (bind_err (inner_eq hx)).symm
  | panic => exact (bind_panic (inner_eq hx)).trans (bind_panic (inner_eq hx)).symm
  | ub => exact (bind_ub (inner_eq hx)).trans (bind_ub (inner_eq hx)).symm
  | ok x =>
    refine (bind_ok (inner_eq hx)).trans (Eq.trans ?_ (bind_ok (inner_eq hx)).symm)
    cases x
    · rfl
    · exact mapReadB_eq h o _

end FileSt

/-! ## Long guards -/

namespace Borrowing
open Borrow
variable (G : Borrowing) (p : Profile) (e : Endian)

/-- With these flags the one does what the other does, and does not change them. -/
def Same {G : Borrowing} {E α : Type} (b : G.Cell → Flag) (y : Act G.backend.W E α) (x : Act G.plain.W E α) : Prop :=
  ∀ w, y (w, b) = inner x (w, b)

section
variable {G} {E E' α β : Type} {b : G.Cell → Flag}

theorem Same.bind {y : Act G.backend.W E α} {x : Act G.plain.W E α} {g : α → Act G.backend.W E β} {f : α → Act G.plain.W E β}
    (h : Same b y x) (hf : ∀ a, Same b (g a) (f a)) : Same b (y >>= g) (x >>= f) := by
  intro w
  rw [inner_bind]
  have hw := h w
  rcases hx : x w with ⟨r, w1⟩
  have hi : (inner x : Act G.backend.W E α) (w, b) = (r, (w1, b)) := by
    change ((x w).1, ((x w).2, b)) = _
    rw [hx]
  rw [hi] at hw
  cases r with
  | ok a => rw [bind_ok hw, bind_ok hi]; exact hf a w1
  | err a => rw [bind_err hw, bind_err hi]
  | panic => rw [bind_panic hw, bind_panic hi]
  | ub => rw [bind_ub hw, bind_ub hi]

theorem Same.lift (x : Out α) : Same b (Act.lift x : Act G.backend.W E α) (Act.lift x) := fun _ => by rw [inner_lift]

theorem Same.writeAll {s : G.plain.Strm} (h : b (G.cell s) = .free) (d : Bytes) :
    Same b (G.backend.writeAll s d) (G.plain.writeAll s d) := fun _ => withMut_inner _ h

theorem Same.seekStart {s : G.plain.Strm} (h : b (G.cell s) = .free) : Same b (G.backend.seekStart s) (G.plain.seekStart s) :=
  fun _ => withMut_inner _ h

theorem Same.writeSize {s : G.plain.Strm} (h : b (G.cell s) = .free) (n : Nat) :
    Same b (Storage.writeSize G.backend p e n s) (Storage.writeSize G.plain p e n s) :=
  .bind (.lift _) fun _ => .writeAll h _

theorem Same.writeToStream {s : G.plain.Strm} (h : b (G.cell s) = .free) (d : Bytes) :
    Same b (Storage.writeToStream G.backend p e d s) (Storage.writeToStream G.plain p e d s) :=
  .bind (.writeSize p e h _) fun _ => .bind (.writeAll h _) fun _ => .writeAll h _

/-- A write through a borrowed stream panics. -/
theorem writeSize_held {s : G.plain.Strm} (h : b (G.cell s) ≠ .free) (n : Nat) (w : G.plain.W) :
    Storage.writeSize G.backend p e n s (w, b) = (.panic, (w, b)) := by
  have hu : writeBytes p e false (n : Int) (List.replicate 8 0#8) 0 64 ≠ .ub := writeBytes_ne_ub (by decide) (by simp)
  unfold Storage.writeSize
  generalize writeBytes p e false (n : Int) (List.replicate 8 0#8) 0 64 = x at hu ⊢
  cases x with
  | ok d => exact withMut_not _ h
  | panic => rfl
  | ub => exact absurd rfl hu

end

/-- The guard of `try_new` could as well be that of the only write in its scope. -/
theorem reserve_eq (s : G.plain.Strm) : G.reserve p e s = Storage.writeSize G.backend p e 0 s := by
  funext ⟨w, b⟩
  by_cases h : b (G.cell s) = .free
  · exact (withMut_inner _ h).trans (Same.writeSize p e h 0 w).symm
  · exact (withMut_not _ h).trans (writeSize_held p e h 0 w).symm

/-- The guard of `close` could as well be taken anew for each of the calls in its scope. -/
theorem finish_eq (h : Handle G.backend) (s : G.plain.Strm) : G.finish p e h.size s = h.finish p e s := by
  funext ⟨w, b⟩
  by_cases hb : b (G.cell s) = .free
  · have hs : Same b (h.finish p e s : Act G.backend.W IoErr Unit) (do
        Storage.writePadding G.plain s
        G.plain.seekStart s
        Storage.writeSize G.plain p e h.size s) :=
      .bind (.writeAll hb _) fun _ => .bind (.seekStart hb) fun _ => .writeSize p e hb _
    exact (withMut_inner _ hb).trans (hs w).symm
  · exact (withMut_not _ hb).trans (bind_panic (withMut_not _ hb)).symm

/-- `create_output_stream` borrows no stream, and the streams of a resource and of its schema are different. -/
structure Apart (G : Borrowing) (After : G.plain.Obj → String → G.plain.Strm → G.plain.W → Prop) : Prop where
  flags : ∀ o n w b, (G.createOutputStream o n (w, b)).2.2 = b
  other : ∀ o n w b s x, (G.createOutputStream o n (w, upd b (G.cell s) x)) =
    ((G.createOutputStream o n (w, b)).1, ((G.createOutputStream o n (w, b)).2.1, upd b (G.cell s) x))
  made : ∀ o n w b s, (G.createOutputStream o n (w, b)).1 = .ok s → After o n s (G.createOutputStream o n (w, b)).2.1
  put : ∀ o n s w t d, After o n s w → After o n s (G.plain.writeAll t d w).2
  ne : ∀ o n s w b s', After o n s w → (G.createOutputStream o (Storage.schemaName n) (w, b)).1 = .ok s' → G.cell s' ≠ G.cell s

variable {G}

theorem Apart.writeToStream {After : G.plain.Obj → String → G.plain.Strm → G.plain.W → Prop} (A : Apart G After) {o : G.plain.Obj} {n : String}
    {s t : G.plain.Strm} (d : Bytes) (w : G.plain.W) (h : After o n s w) : After o n s (Storage.writeToStream G.plain p e d t w).2 := by
  have bind : ∀ {α β : Type} (x : Act G.plain.W IoErr α) (f : α → Act G.plain.W IoErr β), (∀ w, After o n s w → After o n s (x w).2) →
      (∀ a w, After o n s w → After o n s (f a w).2) → ∀ w, After o n s w → After o n s ((x >>= f) w).2 := by
    intro α β x f hx hf w hw
    have h1 := hx w hw
    change After o n s (Act.bind x f w).2
    unfold Act.bind
    generalize x w = r at h1 ⊢
    obtain ⟨r, w1⟩ := r
    cases r with
    | ok a => exact hf a w1 h1
    | err a => exact h1
    | panic => exact h1
    | ub => exact h1
  refine bind _ _ ?_ (fun _ => bind _ _ (fun w hw => A.put _ _ _ w _ _ hw) fun _ w hw => A.put _ _ _ w _ _ hw) w h
  refine bind _ _ ?_ fun _ w hw => A.put _ _ _ w _ _ hw
  intro w hw
  cases writeBytes p e false (d.length : Int) (List.replicate 8 0#8) 0 64 <;> exact hw

/-- The guard of `write` over the creation of the second stream could as well be released before. -/
theorem write_eq {After : G.plain.Obj → String → G.plain.Strm → G.plain.W → Prop} (A : Apart G After) (o : G.plain.Obj)
    (name schema : String) (data : Bytes) : G.write p e o name schema data = Storage.write G.backend p e o name schema data := by
  funext ⟨w, b⟩
  have hf := A.flags o name w b
  have hm := A.made o name w b
  rcases hc : G.createOutputStream o name (w, b) with ⟨r, w1, b1⟩
  rw [hc] at hf hm
  change b1 = b at hf
  subst hf
  cases r with
  | err x => exact (bind_err hc).trans (bind_err hc).symm
  | panic => exact (bind_panic hc).trans (bind_panic hc).symm
  | ub => exact (bind_ub hc).trans (bind_ub hc).symm
  | ok s =>
    have ha : After o name s w1 := hm s rfl
    refine (bind_ok hc).trans (Eq.trans ?_ (bind_ok hc).symm)
    by_cases hb : b1 (G.cell s) = .free
    · have ht := Same.writeToStream (G := G) p e hb data w1
      have hafter := A.writeToStream p e (t := s) data w1 ha
      rcases hw : Storage.writeToStream G.plain p e data s w1 with ⟨r, w2⟩
      have hi : ∀ b' : G.Cell → Flag, (inner (Storage.writeToStream G.plain p e data s) : Act G.backend.W IoErr Unit) (w1, b') = (r, (w2, b')) := by
        intro b'
        change ((Storage.writeToStream G.plain p e data s w1).1, ((Storage.writeToStream G.plain p e data s w1).2, b')) = _
        rw [hw]
      rw [hi] at ht
      rw [hw] at hafter
      cases r with
      | err x => exact (withMut_eq hb (bind_err (hi _))).trans (bind_err ht).symm
      | panic => exact (withMut_eq hb (bind_panic (hi _))).trans (bind_panic ht).symm
      | ub => exact (withMut_eq hb (bind_ub (hi _))).trans (bind_ub ht).symm
      | ok u =>
        refine Eq.trans ?_ (bind_ok ht).symm
        have hf2 := A.flags o (Storage.schemaName name) w2 b1
        have ho2 := A.other o (Storage.schemaName name) w2 b1 s .exclusive
        have hn2 := A.ne o name s w2 b1
        rcases hc2 : G.createOutputStream o (Storage.schemaName name) (w2, b1) with ⟨r, w3, b3⟩
        rw [hc2] at hf2 ho2 hn2
        change b3 = b1 at hf2
        subst hf2
        cases r with
        | err x => exact (withMut_eq hb ((bind_ok (hi _)).trans (bind_err ho2))).trans (bind_err hc2).symm
        | panic => exact (withMut_eq hb ((bind_ok (hi _)).trans (bind_panic ho2))).trans (bind_panic hc2).symm
        | ub => exact (withMut_eq hb ((bind_ok (hi _)).trans (bind_ub ho2))).trans (bind_ub hc2).symm
        | ok s' =>
          have hne := hn2 s' hafter rfl
          refine Eq.trans ?_ (bind_ok hc2).symm
          change _ = withMut (G.cell s') (inner (G.plain.writeAll s' (strBytes schema))) (w3, b3)
          by_cases hb' : b3 (G.cell s') = .free
          · refine (withMut_eq hb ((bind_ok (hi _)).trans ((bind_ok ho2).trans ?_))).trans (withMut_inner _ hb').symm
            exact withMut_inner _ ((upd_other _ _ hne).trans hb')
          · refine (withMut_eq hb ((bind_ok (hi _)).trans ((bind_ok ho2).trans ?_))).trans (withMut_not _ hb').symm
            exact withMut_not _ (by rw [upd_other _ _ hne]; exact hb')
    · exact (withMut_not _ hb).trans (bind_panic (bind_panic (writeSize_held p e hb _ w1))).symm

end Borrowing

theorem memB_apart : Borrowing.Apart memB (fun o n s _ => s = MemSt.loc o n) := by
  have hcases : ∀ (o : Obj) (n : String) (w : MemW) (b : MemCell → Flag),
      (b (.streams o.id) = .free ∧ MemSt.createOutputStreamB o n (w, b) = Borrow.inner (MemSt.createOutputStream o n) (w, b)) ∨
      (b (.streams o.id) ≠ .free ∧ MemSt.createOutputStreamB o n (w, b) = (.panic, (w, b))) := by
    intro o n w b
    by_cases h : b (.streams o.id) = .free
    · exact .inl ⟨h, Borrow.withMut_inner _ h⟩
    · exact .inr ⟨h, Borrow.withMut_not _ h⟩
  have hok : ∀ (o : Obj) (n : String) (w : MemW) (b : MemCell → Flag) (s : MemLoc),
      (MemSt.createOutputStreamB o n (w, b)).1 = .ok s → s = MemSt.loc o n := by
    intro o n w b s h
    rcases hcases o n w b with ⟨_, hc⟩ | ⟨_, hc⟩
    · rw [hc] at h
      change (MemSt.createOutputStream o n w).1 = .ok s at h
      unfold MemSt.createOutputStream at h
      cases hs : w.streams (MemSt.loc o n) <;> (rw [hs] at h; cases h; rfl)
    · rw [hc] at h; cases h
  refine ⟨fun o n w b => ?_, fun o n w b s x => ?_, fun o n w b s h => hok o n w b s h, fun _ _ _ _ _ _ h => h, fun o n s w b s' h h' => ?_⟩
  · change (MemSt.createOutputStreamB o n (w, b)).2.2 = b
    rcases hcases o n w b with ⟨_, hc⟩ | ⟨_, hc⟩ <;> rw [hc] <;> rfl
  · change MemSt.createOutputStreamB o n (w, upd b (.stream s) x) = ((MemSt.createOutputStreamB o n (w, b)).1,
      ((MemSt.createOutputStreamB o n (w, b)).2.1, upd b (.stream s) x))
    have hu : upd b (MemCell.stream s) x (.streams o.id) = b (.streams o.id) := Borrow.upd_other _ _ (by simp)
    rcases hcases o n w b with ⟨h1, hc⟩ | ⟨h1, hc⟩ <;> rcases hcases o n w (upd b (.stream s) x) with ⟨h2, hc'⟩ | ⟨h2, hc'⟩
    · rw [hc, hc']; rfl
    · exact absurd (hu.trans h1) h2
    · exact absurd (hu.symm.trans h2) h1
    · rw [hc, hc']
  · rw [h]
    have := hok o _ w b s' h'
    rw [this]
    intro he
    exact Kind.loc_schema_ne .memory o n (MemCell.stream.inj he)

theorem fileB_apart : Borrowing.Apart fileB (fun _ _ s w => s < w.fs.nextFd) := by
  have hok : ∀ (o : Obj) (n : String) (w : FileW) (s : Nat),
      (FileSt.createOutputStream o n w).1 = .ok s → s = w.fs.nextFd ∧ (FileSt.createOutputStream o n w).2.fs.nextFd = w.fs.nextFd + 1 := by
    intro o n w s h
    rcases FileSt.create_spec o n w with ⟨w1, q, _, hc⟩ | ⟨x, w1, q, hc⟩ | ⟨x, w1, q, hc⟩
    · rw [hc] at h ⊢
      cases h
      exact ⟨q.nextFd, congrArg (· + 1) q.nextFd⟩
    · rw [hc] at h; cases h
    · rw [hc] at h; cases h
  refine ⟨fun _ _ _ _ => rfl, fun _ _ _ _ _ _ => rfl, fun o n w b s h => ?_, fun o n s w t d h => ?_, fun o n s w b s' h h' => ?_⟩
  · obtain ⟨h1, h2⟩ := hok o n w s h
    change s < (FileSt.createOutputStream o n w).2.fs.nextFd
    rw [h1, h2]; exact Nat.lt_succ_self _
  · change s < (FileSt.writeAll t d w).2.fs.nextFd
    rcases FileSt.writeAll_spec t d w with hw | ⟨x, k, hw, _⟩ <;> rw [hw] <;> exact h
  · obtain ⟨h1, _⟩ := hok o _ w s' h'
    intro he
    cases he
    exact Nat.lt_irrefl _ (h1 ▸ h)

/-! ## With and without checks -/

namespace Borrowing
open Borrow Spec

/-- No cell is borrowed. -/
def noBorrow (G : Borrowing) : G.Cell → Flag := fun _ => .free

/-- With no cell borrowed, the methods do what they do without the checks. -/
structure Clean (G : Borrowing) : Prop where
  existsRes : ∀ o n, Same G.noBorrow (G.existsRes o n) (G.plain.existsRes o n)
  readResource : ∀ o n, Same G.noBorrow (G.readResource o n) (G.plain.readResource o n)
  createOutputStream : ∀ o n, Same G.noBorrow (G.createOutputStream o n) (G.plain.createOutputStream o n)

variable {G : Borrowing}

/-- The worlds without and with flags, no cell being borrowed. -/
def rel (G : Borrowing) (w : G.plain.W) (w' : G.backend.W) : Prop := w' = (w, G.noBorrow)

theorem Same.simul {E α : Type} {y : Act G.backend.W E α} {x : Act G.plain.W E α} (h : Same G.noBorrow y x) :
    Simul (rel G) (fun a b => a = b) x y := by
  intro w w' hr
  cases hr
  rw [h w]
  change (x w).1.Rel _ (x w).1 ∧ ((x w).2, G.noBorrow) = ((x w).2, G.noBorrow)
  refine ⟨?_, rfl⟩
  cases (x w).1 <;> first | rfl | trivial

/-- The storage without and the one with the checks. -/
def Clean.alike (c : Clean G) : Alike G.plain G.backend where
  R := rel G
  obj a b := a = b
  base a b := a = b
  ok _ _ := True
  isSub _ _ _ := True
  subdir o o' n h _ := by
    cases h
    exact (Same.simul fun _ => rfl).mono fun _ _ h => ⟨h, trivial⟩
  existsRes o o' n h _ := by
    cases h
    exact (c.existsRes o n).simul
  readResource o o' n h _ := by
    cases h
    exact (c.readResource o n).simul.mono fun a b h => by cases h; exact ⟨rfl, rfl, rfl⟩
  content w w' b b' h hb := by
    cases h
    cases hb
    rfl
  strm a b := a = b
  createOutputStream o o' n h _ := by
    cases h
    exact (c.createOutputStream o n).simul
  writeAll s s' b h := by
    cases h
    exact (Same.writeAll rfl b).simul.mono fun _ _ _ => trivial
  seekStart s s' h := by
    cases h
    exact (Same.seekStart rfl).simul.mono fun _ _ _ => trivial

theorem Clean.total (c : Clean G) : Alike.Total c.alike where
  ok _ _ := trivial
  subdir o o' n h := by
    cases h
    exact Same.simul fun _ => rfl

theorem Clean.init (c : Clean G) (objs : List G.plain.Obj) : c.alike.vars (Vars.init objs) (Vars.init (B := G.backend) objs) where
  obj i := by
    change optRel _ objs[i]? objs[i]?
    cases objs[i]? <;> trivial
  strm _ := trivial
  handle _ := trivial
  vec _ := trivial
  multi _ := trivial
  slice _ := trivial

theorem Clean.session [DiffLib] (c : Clean G) (p : Profile) (e : Endian) (x : Session) (hx : x.Plain) (objs : List G.plain.Obj) (w : G.plain.W) :
    x.run p e (Vars.init (B := G.backend) objs) (w, G.noBorrow) =
      ((x.run p e (Vars.init objs) w).1, ((x.run p e (Vars.init objs) w).2, G.noBorrow)) := by
  have h := Alike.session (p := p) (e := e) c.total x hx (c.init objs) (w := w) (w' := (w, G.noBorrow)) rfl
  exact Prod.ext h.1.symm h.2

end Borrowing

theorem memB_clean : Borrowing.Clean memB where
  existsRes o n w := MemSt.existsResB_eq (w := w) (b := fun _ => .free) (fun _ => ⟨rfl, rfl⟩) o n
  readResource o n w := by
    rcases MemSt.readResourceB_eq (w := w) (b := fun _ => .free) (fun _ => ⟨rfl, rfl⟩) o n with ⟨h, _⟩ | ⟨_, h⟩
    · cases h.2.2
    · exact h
  createOutputStream o n w := MemSt.createOutputStreamB_eq (w := w) (b := fun _ => .free) (fun _ => ⟨rfl, rfl⟩) o n

theorem fileB_clean : Borrowing.Clean fileB where
  existsRes _ _ _ := rfl
  readResource o n _ := FileSt.readResourceB_eq (fun _ => rfl) o n
  createOutputStream _ _ _ := rfl

end Flatdata
