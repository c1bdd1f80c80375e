import Verif.Spec.Moved
import Verif.Proofs.Parallel
import Verif.Proofs.Frame
/-!
# Opening an archive depends on its files only, not on where they are
-/
namespace Flatdata
open Spec

variable {D : ArchiveDef} {path1 path2 : Path}

/-- A file in a subdirectory. -/
def spot (path : Path) (ds : List String) (n : String) : Path := join (ds.foldl join path) n

/-- The name of a file of the archive in a subdirectory. -/
structure Spot (D : ArchiveDef) (ds : List String) (n : String) : Prop where
  dirs : ∀ d ∈ ds, PlainName d
  name : PlainName n
  has : HasFile D (ds.map String.toList ++ [n.toList])

theorem Spot.key {ds : List String} {n : String} (h : Spot D ds n) (q : Path) :
    key (spot q ds n) = key q ++ (ds.map String.toList ++ [n.toList]) := by
  unfold spot
  rw [key_spot ds q h.dirs h.name, List.append_assoc]

theorem Spot.inj {ds ds' : List String} {n n' : String} (h : Spot D ds n) (h' : Spot D ds' n') {q : Path} (he : spot q ds n = spot q ds' n') :
    ds = ds' ∧ n = n' := key_spot_inj h.dirs h.name h'.dirs h'.name (congrArg Flatdata.key he)

/-- Two processes that read the archive in two places. -/
structure Mirror (D : ArchiveDef) (path1 path2 : Path) (w w' : FileW) : Prop where
  same : Copied D w.fs.disk path1 w'.fs.disk path2
  fault : w'.fs.fault = w.fs.fault
  tick : w'.fs.tick = w.fs.tick
  next : w'.next = w.next
  maps : ∀ i ds n, Spot D ds n → w'.maps i (spot path2 ds n) = (w.maps i (spot path1 ds n)).map fun x => (key (spot path2 ds n), x.2)
  cached : ∀ i ds n, Spot D ds n → ∀ x, w.maps i (spot path1 ds n) = some x → x.1 = key (spot path1 ds n)

theorem Mirror.ticked {w w' : FileW} (h : Mirror D path1 path2 w w') :
    Mirror D path1 path2 { w with fs := { w.fs with tick := w.fs.tick + 1 } } { w' with fs := { w'.fs with tick := w'.fs.tick + 1 } } :=
  ⟨h.same, h.fault, congrArg (· + 1) h.tick, h.next, h.maps, h.cached⟩

/-- A call that changes nothing. -/
theorem syscall_mirror {α β : Type} {V : α → β → Prop} {f : FS → Res IoErr α} {g : FS → Res IoErr β}
    (h : ∀ fs fs', Copied D fs.disk path1 fs'.disk path2 → (f fs).Rel V (g fs')) :
    Simul (Mirror D path1 path2) V (FileSt.syscall (fun fs => (f fs, fs)) (fun _ fs => fs)) (FileSt.syscall (fun fs => (g fs, fs)) (fun _ fs => fs)) := by
  intro w w' hr
  have hf : w'.fs.fault w'.fs.tick = w.fs.fault w.fs.tick := by rw [hr.tick, hr.fault]
  unfold FileSt.syscall
  rw [hf]
  cases w.fs.fault w.fs.tick with
  | none => exact ⟨h _ _ hr.same, hr.ticked⟩
  | some k => exact ⟨rfl, hr.ticked⟩

theorem key_ne_nil {ds : List String} {n : String} (h : Spot D ds n) (q : Path) : key (spot q ds n) ≠ [] := by
  rw [h.key]; simp

theorem spot_ne_nil {ds : List String} {n : String} (h : Spot D ds n) (q : Path) : spot q ds n ≠ [] := by
  intro he
  exact key_ne_nil h q (by rw [he]; rfl)

theorem dirOK_mirror {ds : List String} {n : String} (h : Spot D ds n) {fs fs' : FS} (hc : Copied D fs.disk path1 fs'.disk path2) :
    FileSt.dirOK fs' (key (spot path2 ds n)) = FileSt.dirOK fs (key (spot path1 ds n)) := by
  unfold FileSt.dirOK
  rw [beq_false_of_ne (key_ne_nil h path1), beq_false_of_ne (key_ne_nil h path2), h.key, h.key]
  exact (hc _ h.has).2

theorem files_mirror {ds : List String} {n : String} (h : Spot D ds n) {fs fs' : FS} (hc : Copied D fs.disk path1 fs'.disk path2) :
    fs'.files (key (spot path2 ds n)) = fs.files (key (spot path1 ds n)) := by
  rw [h.key, h.key]
  exact (hc _ h.has).1

theorem pathExists_mirror {ds : List String} {n : String} (h : Spot D ds n) :
    Simul (Mirror D path1 path2) (fun a b => a = b) (FileSt.pathExists (spot path1 ds n)) (FileSt.pathExists (spot path2 ds n)) := by
  intro w w' hr
  have := syscall_mirror (V := fun a b => a = b)
    (f := fun fs => .ok ((fs.files (key (spot path1 ds n))).isSome || (decide (spot path1 ds n ≠ []) && FileSt.dirOK fs (key (spot path1 ds n)))))
    (g := fun fs => .ok ((fs.files (key (spot path2 ds n))).isSome || (decide (spot path2 ds n ≠ []) && FileSt.dirOK fs (key (spot path2 ds n)))))
    (fun fs fs' hc => by
      change _ = _
      rw [files_mirror h hc, dirOK_mirror h hc, decide_eq_true (spot_ne_nil h path1), decide_eq_true (spot_ne_nil h path2)]) w w' hr
  unfold FileSt.pathExists
  generalize FileSt.syscall _ _ w = a at this ⊢
  generalize FileSt.syscall _ _ w' = b at this ⊢
  obtain ⟨r, w1⟩ := a
  obtain ⟨r', w1'⟩ := b
  obtain ⟨h1, h2⟩ := this
  cases r <;> cases r' <;> first | exact False.elim h1 | exact ⟨h1, h2⟩ | exact ⟨rfl, h2⟩

theorem fileOpen_mirror {ds : List String} {n : String} (h : Spot D ds n) :
    Simul (Mirror D path1 path2) (fun a b => a = key (spot path1 ds n) ∧ b = key (spot path2 ds n)) (FileSt.fileOpen (spot path1 ds n))
      (FileSt.fileOpen (spot path2 ds n)) := by
  have := syscall_mirror (D := D) (path1 := path1) (path2 := path2) (V := fun a b => a = key (spot path1 ds n) ∧ b = key (spot path2 ds n))
    (f := fun fs => if (fs.files (key (spot path1 ds n))).isSome || FileSt.dirOK fs (key (spot path1 ds n)) then .ok (key (spot path1 ds n)) else .err .notFound)
    (g := fun fs => if (fs.files (key (spot path2 ds n))).isSome || FileSt.dirOK fs (key (spot path2 ds n)) then .ok (key (spot path2 ds n)) else .err .notFound)
    (fun fs fs' hc => by
      rw [files_mirror h hc, dirOK_mirror h hc]
      split
      · exact ⟨rfl, rfl⟩
      · exact rfl)
  have he : ∀ q : Path, FileSt.fileOpen q = FileSt.syscall (fun fs => (if (fs.files (key q)).isSome || FileSt.dirOK fs (key q) then .ok (key q)
      else .err .notFound, fs)) (fun _ fs => fs) := fun q => by
    unfold FileSt.fileOpen
    congr 1
    funext fs
    split <;> rfl
  rw [he, he]
  exact this

/-- The length of a file that can be mapped. -/
def lengthOf : Option Bytes → Res IoErr Nat
  | none => .err .other
  | some d => if d.length = 0 then .err .invalidInput else .ok d.length

theorem mmapLen_eq (k : Key) : FileSt.mmapLen k = FileSt.syscall (fun fs => (lengthOf (fs.files k), fs)) (fun _ fs => fs) := by
  unfold FileSt.mmapLen
  congr 1
  funext fs
  cases fs.files k with
  | none => rfl
  | some d => dsimp only [lengthOf]; split <;> rfl

theorem mmapLen_mirror {ds : List String} {n : String} (h : Spot D ds n) :
    Simul (Mirror D path1 path2) (fun a b => a = b) (FileSt.mmapLen (key (spot path1 ds n))) (FileSt.mmapLen (key (spot path2 ds n))) := by
  rw [mmapLen_eq, mmapLen_eq]
  refine syscall_mirror fun fs fs' hc => ?_
  rw [files_mirror h hc]
  cases lengthOf (fs.files (key (spot path1 ds n))) <;> first | exact rfl | trivial

theorem insertMap_mirror {i : Nat} {q q' : Path} {ds : List String} {n : String} (h : Spot D ds n) (m : Nat) :
    Simul (Mirror D path1 path2) (fun a b => (∃ ds n, Spot D ds n ∧ a.base = key (spot path1 ds n) ∧ b.base = key (spot path2 ds n)) ∧
        a.off = b.off ∧ a.len = b.len)
      (FileSt.insertMap ⟨i, q⟩ (spot path1 ds n) (key (spot path1 ds n)) m) (FileSt.insertMap ⟨i, q'⟩ (spot path2 ds n) (key (spot path2 ds n)) m) := by
  intro w w' hr
  refine ⟨⟨⟨ds, n, h, rfl, rfl⟩, rfl, rfl⟩, ⟨hr.same, hr.fault, hr.tick, hr.next, fun j ds' n' h' => ?_, fun j ds' n' h' x hx => ?_⟩⟩
  · change upd w'.maps i _ j _ = Option.map _ (upd w.maps i _ j _)
    unfold upd
    by_cases hj : j = i
    · subst hj
      rw [if_pos rfl, if_pos rfl]
      by_cases he : ds' = ds ∧ n' = n
      · obtain ⟨rfl, rfl⟩ := he
        rw [if_pos rfl, if_pos rfl]
        rfl
      · rw [if_neg fun hq => he (h'.inj h hq), if_neg fun hq => he (h'.inj h hq)]
        exact hr.maps _ _ _ h'
    · rw [if_neg hj, if_neg hj]
      exact hr.maps _ _ _ h'
  · change upd w.maps i _ j _ = some x at hx
    unfold upd at hx
    by_cases hj : j = i
    · subst hj
      rw [if_pos rfl] at hx
      by_cases he : spot path1 ds' n' = spot path1 ds n
      · rw [if_pos he] at hx
        cases hx
        rw [he]
      · rw [if_neg he] at hx
        exact hr.cached _ _ _ h' _ hx
    · rw [if_neg hj] at hx
      exact hr.cached _ _ _ h' _ hx

/-- The storage objects of the two processes. -/
def Placed (path1 path2 : Path) (o o' : Obj) : Prop :=
  o.id = o'.id ∧ ∃ ds : List String, (∀ d ∈ ds, PlainName d) ∧ o.path = ds.foldl join path1 ∧ o'.path = ds.foldl join path2

theorem Placed.spot {o o' : Obj} {n : String} (h : Placed path1 path2 o o') (hn : Named (FileOf D path1) o n) :
    ∃ ds, Spot D ds n ∧ join o.path n = spot path1 ds n ∧ join o'.path n = spot path2 ds n := by
  obtain ⟨_, ds, h1, h2, h3⟩ := h
  obtain ⟨h4, t, h5, h6⟩ := hn
  refine ⟨ds, ⟨h1, h4, ?_⟩, by rw [h2]; rfl, by rw [h3]; rfl⟩
  rw [← key_join_plain _ h4, h2, key_spot ds _ h1 h4, List.append_assoc] at h5
  rw [List.append_cancel_left h5]
  exact h6

/-- Reading the archive in two places. -/
def movedAlike (D : ArchiveDef) (path1 path2 : Path) : ReadAlike file file where
  R := Mirror D path1 path2
  obj := Placed path1 path2
  base a b := ∃ ds n, Spot D ds n ∧ a = key (spot path1 ds n) ∧ b = key (spot path2 ds n)
  ok := Named (FileOf D path1)
  isSub o n a := a.path = join o.path n
  subdir o o' n ho hn := by
    intro w w' hr
    obtain ⟨_, ds, h1, h2, h3⟩ := ho
    refine ⟨⟨⟨hr.next.symm, ds ++ [n], fun d hd => ?_, ?_, ?_⟩, rfl⟩, ⟨hr.same, hr.fault, hr.tick, congrArg (· + 1) hr.next, fun i ds n h => ?_, fun i ds n h x hx => ?_⟩⟩
    · rcases List.mem_append.1 hd with hd | hd
      · exact h1 d hd
      · rw [List.mem_singleton.1 hd]; exact hn
    · rw [List.foldl_append, ← h2]; rfl
    · rw [List.foldl_append, ← h3]; rfl
    · change upd w'.maps w'.next _ i _ = Option.map _ (upd w.maps w.next _ i _)
      rw [hr.next]
      unfold upd
      by_cases hi : i = w.next
      · rw [if_pos hi, if_pos hi]; rfl
      · rw [if_neg hi, if_neg hi]; exact hr.maps _ _ _ h
    · change upd w.maps w.next _ i _ = some x at hx
      unfold upd at hx
      by_cases hi : i = w.next
      · rw [if_pos hi] at hx; cases hx
      · rw [if_neg hi] at hx; exact hr.cached _ _ _ h _ hx
  existsRes o o' n ho hn := by
    obtain ⟨ds, h1, h2, h3⟩ := ho.spot hn
    change Simul _ _ (FileSt.pathExists (join o.path n)) (FileSt.pathExists (join o'.path n))
    rw [h2, h3]
    exact pathExists_mirror h1
  readResource o o' n ho hn := by
    obtain ⟨ds, h1, h2, h3⟩ := ho.spot hn
    change Simul _ _ (FileSt.readResource o n) (FileSt.readResource o' n)
    unfold FileSt.readResource
    rw [h2, h3]
    refine Simul.bind (Simul.mapErr _ (pathExists_mirror h1)) fun a b hv => ?_
    cases hv
    refine Simul.ite (fun _ => Simul.fail _) fun _ => ?_
    intro w w' hr
    unfold FileSt.mapRead
    rw [← ho.1, hr.maps _ _ _ h1]
    rcases hm : w.maps o.id (spot path1 ds n) with _ | ⟨k, m⟩
    · dsimp only [Option.map]
      refine Simul.bind (fileOpen_mirror h1) (fun a b hv => ?_) w w' hr
      obtain ⟨rfl, rfl⟩ := hv
      refine Simul.bind (mmapLen_mirror h1) (fun a b hv => ?_)
      cases hv
      obtain ⟨i, q⟩ := o
      obtain ⟨i', q'⟩ := o'
      obtain ⟨hi, _⟩ := ho
      cases hi
      exact insertMap_mirror h1 _
    · exact ⟨⟨⟨ds, n, h1, hr.cached _ _ _ h1 _ hm, rfl⟩, rfl, rfl⟩, hr⟩
  content w w' b b' hr hb := by
    obtain ⟨ds, n, h1, rfl, rfl⟩ := hb
    change (w.fs.files _).getD [] = (w'.fs.files _).getD []
    rw [files_mirror h1 hr.same]

namespace ReadAlike
variable {B B' : Backend} {S : ReadAlike B B'} {w : B.W} {w' : B'.W}

theorem descr_shown (hr : S.R w w') {a : Option (Slice B.Base)} {b : Option (Slice B'.Base)} (h : S.descr a b) :
    a.map (B.deref w) = b.map (B'.deref w') := by
  cases a <;> cases b <;> first | exact False.elim h | rfl | skip
  exact congrArg some (S.deref hr h)

theorem opened_shown (hr : S.R w w') {x : Opened B.Base} {y : Opened B'.Base} (h : S.opened x y) :
    Spec.Opened.shown B w x = Spec.Opened.shown B' w' y := by
  cases x <;> cases y <;> first | exact False.elim h | skip
  · exact congrArg (fun z => [z]) (descr_shown hr h)
  · change [_, _] = [_, _]
    rw [descr_shown hr h.1, descr_shown hr h.2]

theorem openeds_shown (hr : S.R w w') : ∀ {xs : List (Opened B.Base)} {ys : List (Opened B'.Base)}, S.openeds xs ys →
    xs.flatMap (Spec.Opened.shown B w) = ys.flatMap (Spec.Opened.shown B' w')
  | [], [], _ => rfl
  | _ :: _, _ :: _, h => by rw [List.flatMap_cons, List.flatMap_cons, opened_shown hr h.1, openeds_shown hr h.2]
  | [], _ :: _, h => False.elim h
  | _ :: _, [], h => False.elim h

mutual
theorem archive_shown (hr : S.R w w') : ∀ {a : Archive B.Base} {b : Archive B'.Base}, S.archive a b →
    Spec.Archive.shown B w a = Spec.Archive.shown B' w' b
  | .mk _ _, .mk _ _, h => by
    unfold ReadAlike.archive at h
    unfold Spec.Archive.shown
    rw [openeds_shown hr h.1, subs_shown hr h.2]

theorem subs_shown (hr : S.R w w') : ∀ {a : SubArchives B.Base} {b : SubArchives B'.Base}, S.subs a b →
    Spec.SubArchives.shown B w a = Spec.SubArchives.shown B' w' b
  | .nil, .nil, _ => by unfold Spec.SubArchives.shown; rfl
  | .cons none _, .cons none _, h => by
    unfold ReadAlike.subs at h
    unfold Spec.SubArchives.shown
    rw [subs_shown hr h]
  | .cons (some _) _, .cons (some _) _, h => by
    unfold ReadAlike.subs at h
    unfold Spec.SubArchives.shown
    rw [archive_shown hr h.1, subs_shown hr h.2]
  | .nil, .cons _ _, h => by unfold ReadAlike.subs at h; exact False.elim h
  | .cons a _, .nil, h => by cases a <;> (unfold ReadAlike.subs at h; exact False.elim h)
  | .cons none _, .cons (some _) _, h => by unfold ReadAlike.subs at h; exact False.elim h
  | .cons (some _) _, .cons none _, h => by unfold ReadAlike.subs at h; exact False.elim h
end

end ReadAlike

theorem outcome_alike {B B' : Backend} (S : ReadAlike B B') {x : Act B.W RErr (Archive B.Base)} {y : Act B'.W RErr (Archive B'.Base)} {w : B.W} {w' : B'.W}
    (h : Simul S.R S.archive x y) (hr : S.R w w') : outcome (x w) = outcome (y w') := by
  have := h w w' hr
  generalize x w = a at this ⊢
  generalize y w' = b at this ⊢
  obtain ⟨r, w1⟩ := a
  obtain ⟨r', w1'⟩ := b
  obtain ⟨h1, h2⟩ := this
  cases r <;> cases r' <;> first | exact False.elim h1 | rfl | skip
  · exact congrArg Res.ok (ReadAlike.archive_shown h2 h1)
  · exact congrArg Res.err h1

end Flatdata
