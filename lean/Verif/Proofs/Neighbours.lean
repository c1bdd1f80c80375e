import Verif.Spec.Neighbours
import Verif.Proofs.Frame
import Verif.Proofs.SafeArchive
import Verif.Proofs.Interrupt
/-!
# Archives side by side
-/
namespace Flatdata
open Spec

variable {k : Kind} {p : Profile} {e : Endian}

/-! ## what an archive shows depends on its own files only -/

/-- Two directories have the same files of the archive. -/
def Agree (D : ArchiveDef) (dir dir' : Dir) : Prop := ∀ ds n, (∀ d ∈ ds, PlainName d) → PlainName n → OwnFile D ds n → dir ds n = dir' ds n

theorem Agree.symm {D : ArchiveDef} {dir dir' : Dir} (h : Agree D dir dir') : Agree D dir' dir :=
  fun ds n hd hn ho => (h ds n hd hn ho).symm

/-- ... of the subarchives. -/
def AgreeSubs (subs : SubDefs) (dir dir' : Dir) : Prop :=
  ∀ x ∈ SubDefs.entries subs, ∀ ds n, (∀ d ∈ ds, PlainName d) → PlainName n → dir (x.1 :: ds) n = dir' (x.1 :: ds) n

section
variable {name schema : String} {rs : List ResDecl} {subs : SubDefs} {dir dir' : Dir}

theorem Agree.here (h : Agree (.mk name schema rs subs) dir dir') (hs : Separate (.mk name schema rs subs)) :
    ∀ n ∈ files (.mk name schema rs subs), dir [] n = dir' [] n := fun n hn => by
  unfold Separate at hs
  exact h [] n (fun _ h => by cases h) (hs.1 n (List.mem_append_left _ hn)) (.inl ⟨rfl, hn⟩)

theorem Agree.inSubs (h : Agree (.mk name schema rs subs) dir dir') (hs : Separate (.mk name schema rs subs)) : AgreeSubs subs dir dir' := by
  intro x hx ds n hd hn
  unfold Separate at hs
  refine h _ n (fun d hm => ?_) hn (.inr ⟨x, hx, ds, rfl⟩)
  rcases List.mem_cons.mp hm with rfl | hm
  · exact hs.1 _ (List.mem_append_right _ (List.mem_map.mpr ⟨x, hx, rfl⟩))
  · exact hd d hm

theorem AgreeSubs.head {optional : Bool} {D : ArchiveDef} {rest : SubDefs} (h : AgreeSubs (.cons name optional D rest) dir dir') :
    Agree D (dir.sub name) (dir'.sub name) := fun ds n hd hn _ => h (name, D) (by simp [SubDefs.entries]) ds n hd hn

theorem AgreeSubs.tail {optional : Bool} {D : ArchiveDef} {rest : SubDefs} (h : AgreeSubs (.cons name optional D rest) dir dir') :
    AgreeSubs rest dir dir' := fun x hx => h x (by simp only [SubDefs.entries, List.mem_cons]; exact .inr hx)

end

theorem Spec.Valid.congrIff {f g : String → Option Bytes} {n schema : String} {x : Bytes} (h1 : f n = g n) (h2 : f (n ++ ".schema") = g (n ++ ".schema")) :
    Valid k f n schema x ↔ Valid k g n schema x := by
  constructor
  · rintro ⟨a, b, c⟩; exact ⟨by rw [← h1]; exact a, by rw [← h2]; exact b, c⟩
  · rintro ⟨a, b, c⟩; exact ⟨by rw [h1]; exact a, by rw [h2]; exact b, c⟩

mutual
theorem complete_congr : ∀ {D : ArchiveDef} {dir dir' : Dir}, Separate D → Agree D dir dir' → Complete k D dir → Complete k D dir'
  | .mk name schema rs subs, dir, dir', hs, h, hc => by
    have hh := h.here hs
    have hb := h.inSubs hs
    unfold Complete at hc ⊢
    unfold Separate at hs
    have hf : ∀ r ∈ rs, ∀ q ∈ parts r, q.1 ∈ files (.mk name schema rs subs) ∧ q.1 ++ ".schema" ∈ files (.mk name schema rs subs) :=
      fun r hr q hq => ⟨res_mem_files hr (part_mem_resFiles hq).1, res_mem_files hr (part_mem_resFiles hq).2⟩
    obtain ⟨s1, s2⟩ := sig_mem_files (.mk name schema rs subs)
    refine ⟨hc.1.imp fun x => (Valid.congrIff (hh _ s1) (hh _ s2)).mp, fun r hr ho q hq => ?_, subsComplete_congr hs.2.2 hb hc.2.2⟩
    exact (hc.2.1 r hr ho q hq).imp fun x => (Valid.congrIff (hh _ (hf r hr q hq).1) (hh _ (hf r hr q hq).2)).mp

theorem subsComplete_congr : ∀ {subs : SubDefs} {dir dir' : Dir}, SubsSeparate subs → AgreeSubs subs dir dir' → SubsComplete k subs dir →
    SubsComplete k subs dir'
  | .nil, _, _, _, _, _ => by unfold SubsComplete; trivial
  | .cons name optional D rest, dir, dir', hs, h, hc => by
    unfold SubsSeparate at hs
    unfold SubsComplete at hc ⊢
    exact ⟨fun ho => complete_congr hs.1 h.head (hc.1 ho), subsComplete_congr hs.2 h.tail hc.2⟩
end

theorem Spec.Huge.congr {f g : String → Option Bytes} {n : String} (h : f n = g n) : Huge f n → Huge g n := by
  rintro ⟨d, a, b⟩
  exact ⟨d, by rw [← h]; exact a, b⟩

mutual
theorem someHuge_congr : ∀ {D : ArchiveDef} {dir dir' : Dir}, Separate D → Agree D dir dir' → SomeHuge D dir → SomeHuge D dir'
  | .mk name schema rs subs, dir, dir', hs, h, hc => by
    have hh := h.here hs
    have hb := h.inSubs hs
    unfold SomeHuge at hc ⊢
    unfold Separate at hs
    obtain ⟨s1, s2⟩ := sig_mem_files (.mk name schema rs subs)
    rcases hc with hc | ⟨r, hr, q, hq, hc⟩ | hc
    · exact .inl (hc.congr (hh _ s1))
    · exact .inr (.inl ⟨r, hr, q, hq, hc.congr (hh _ (res_mem_files hr (part_mem_resFiles hq).1))⟩)
    · exact .inr (.inr (subsHuge_congr hs.2.2 hb hc))

theorem subsHuge_congr : ∀ {subs : SubDefs} {dir dir' : Dir}, SubsSeparate subs → AgreeSubs subs dir dir' → SubsHuge subs dir → SubsHuge subs dir'
  | .nil, _, _, _, _, h => by unfold SubsHuge at h; exact h.elim
  | .cons name optional D rest, dir, dir', hs, h, hc => by
    unfold SubsSeparate at hs
    unfold SubsHuge at hc ⊢
    exact hc.imp (someHuge_congr hs.1 h.head) (subsHuge_congr hs.2 h.tail)
end

section
variable {Base : Type} {clean : Prop} {shows : Slice Base → Bytes → Prop}

theorem slotShows_congr {f g : String → Option Bytes} {optional : Bool} {n schema : String} {s : Option (Slice Base)} (h1 : f n = g n)
    (h2 : f (n ++ ".schema") = g (n ++ ".schema")) (h : SlotShows k clean shows optional f n schema s) :
    SlotShows k clean shows optional g n schema s := by
  cases s with
  | some s => exact h.imp fun x hx => ⟨(Valid.congrIff h1 h2).mp hx.1, hx.2⟩
  | none => exact ⟨h.1, fun c hx => h.2 c (hx.imp fun x => (Valid.congrIff h1 h2).mpr)⟩

theorem resShows_congr {f g : String → Option Bytes} {r : ResDecl} {x : Opened Base} (hh : ∀ n ∈ resFiles r, f n = g n)
    (h : ResShows k clean shows f r x) : ResShows k clean shows g r x := by
  have key : ∀ q ∈ parts r, f q.1 = g q.1 ∧ f (q.1 ++ ".schema") = g (q.1 ++ ".schema") := fun q hq =>
    ⟨hh _ (part_mem_resFiles hq).1, hh _ (part_mem_resFiles hq).2⟩
  unfold ResShows at h ⊢
  unfold parts at key
  cases ht : r.type <;> rw [ht] at h key <;> cases x <;> simp only at h key ⊢
  all_goals first
    | exact h.elim
    | exact slotShows_congr (key (r.name, r.schema) (by simp)).1 (key (r.name, r.schema) (by simp)).2 h
    | exact ⟨slotShows_congr (key _ (List.mem_cons_self)).1 (key _ (List.mem_cons_self)).2 h.1,
        slotShows_congr (key _ (List.mem_cons_of_mem _ List.mem_cons_self)).1 (key _ (List.mem_cons_of_mem _ List.mem_cons_self)).2 h.2⟩

theorem allShow_congr {f g : String → Option Bytes} : ∀ {rs : List ResDecl} {xs : List (Opened Base)}, (∀ r ∈ rs, ∀ n ∈ resFiles r, f n = g n) →
    AllShow k clean shows f rs xs → AllShow k clean shows g rs xs
  | [], [], _, _ => trivial
  | r :: rs, x :: xs, hh, h =>
    ⟨resShows_congr (hh r List.mem_cons_self) h.1, allShow_congr (fun r hr => hh r (List.mem_cons_of_mem _ hr)) h.2⟩
  | [], _ :: _, _, h => h.elim
  | _ :: _, [], _, h => h.elim

mutual
theorem archiveShows_congr : ∀ {D : ArchiveDef} {dir dir' : Dir} {a : Archive Base}, Separate D → Agree D dir dir' →
    ArchiveShows k clean shows D dir a → ArchiveShows k clean shows D dir' a
  | .mk name schema rs subs, dir, dir', .mk xs ss, hs, h, hc => by
    have hh := h.here hs
    have hb := h.inSubs hs
    unfold ArchiveShows at hc ⊢
    unfold Separate at hs
    obtain ⟨s1, s2⟩ := sig_mem_files (.mk name schema rs subs)
    exact ⟨hc.1.imp fun x => (Valid.congrIff (hh _ s1) (hh _ s2)).mp, allShow_congr (fun r hr n hn => hh n (res_mem_files hr hn)) hc.2.1,
      subsShow_congr hs.2.2 hb hc.2.2⟩

theorem subsShow_congr : ∀ {subs : SubDefs} {dir dir' : Dir} {ss : SubArchives Base}, SubsSeparate subs → AgreeSubs subs dir dir' →
    SubsShow k clean shows subs dir ss → SubsShow k clean shows subs dir' ss
  | .nil, _, _, .nil, _, _, _ => by unfold SubsShow; trivial
  | .cons name optional D rest, dir, dir', .cons a ss, hs, h, hc => by
    unfold SubsSeparate at hs
    unfold SubsShow at hc ⊢
    refine ⟨?_, subsShow_congr hs.2 h.tail hc.2⟩
    cases a with
    | some a => exact archiveShows_congr hs.1 h.head hc.1
    | none => exact ⟨hc.1.1, fun c hx => hc.1.2 c (complete_congr hs.1 h.head.symm hx)⟩
  | .nil, _, _, .cons _ _, _, _, h => by unfold SubsShow at h; exact h.elim
  | .cons _ _ _ _, _, _, .nil, _, _, h => by unfold SubsShow at h; exact h.elim
end
end

/-! ## building an archive stays away from the files of the other -/

theorem Mentions.own {prog : Prog} {D : ArchiveDef} {c : Content} (hc : Prepares p e D prog c) {ds : List String} {n : String}
    (h : Mentions prog ds n) : OwnFile D ds n := by
  obtain ⟨m1, m2⟩ := hc.mem
  cases h with
  | res hx hn => exact .inl ⟨rfl, res_mem_files (m1 _ hx) hn⟩
  | sig hx hn => exact .inr ⟨_, m2 _ hx, [], rfl⟩
  | sub hx hm => exact .inr ⟨_, m2 _ hx, _, rfl⟩

theorem free_memory_far {P : MemLoc → Prop} : ∀ {prog : Prog} {o : (Kind.backend .memory).Obj} {w : (Kind.backend .memory).W}, Level p e prog →
    (∀ l, P l → l.1 < (w : MemW).next) → (∀ n, Mentions prog [] n → ¬ P (Kind.place .memory o n)) → Free .memory P prog w o
  | .done, _, _, _, _, _ => trivial
  | .res r s rest, o, w, lv, hP, h =>
    ⟨lv.multi _ List.mem_cons_self, fun n hn => h n (.res (prog := .res r s rest) List.mem_cons_self hn),
      free_memory_far lv.res hP (fun n hm => h n (by
        cases hm with
        | res hx hn => exact .res (List.mem_cons_of_mem _ hx) hn))⟩
  | .sub name D inner rest, o, w, lv, hP, h => by
    refine ⟨fun o' a b hst hsd => ?_, free_memory_far lv.sub hP (fun n hm => h n (by
        cases hm with
        | res hx hn => exact .res (prog := .sub name D inner rest) hx hn))⟩
    have hn : (w : MemW).next ≤ (a : MemW).next := hst.next
    cases hsd
    have h' : ∀ l, P l → l.1 < (a : MemW).next := fun l hp => Nat.lt_of_lt_of_le (hP l hp) hn
    obtain ⟨hs, c, hc⟩ := lv.inner (name, D, inner) List.mem_cons_self
    exact ⟨fun hp => absurd (h' _ hp) (Nat.lt_irrefl _), fun hp => absurd (h' _ hp) (Nat.lt_irrefl _),
      free_memory_other (hc.level hs).1 h' (Nat.lt_succ_self _)⟩

/-- The place of a file of an archive. -/
theorem ownPlace_file {D : ArchiveDef} {o : k.backend.Obj} (hs : Separate D) {n : String} (hn : n ∈ files D) : k.OwnPlace D o (k.place o n) := by
  obtain ⟨name, schema, rs, subs⟩ := D
  unfold Separate at hs
  cases k
  · exact ⟨n, hn, rfl⟩
  · exact ⟨[], n, fun _ h => (by cases h), hs.1 n (List.mem_append_left _ hn), .inl ⟨rfl, hn⟩, rfl⟩

theorem buildArchive_away [DiffLib] {D1 D2 : ArchiveDef} {o1 o2 : k.backend.Obj} {prog : Prog} {c : Content} {w : k.backend.W}
    (hs2 : Separate D2) (hc : Prepares p e D2 prog c) (hr : k.Reachable w) (ho1 : k.alive w o1) (ho2 : k.alive w o2)
    (ha : k.Apart D1 o1 D2 o2) : k.StepsAway (k.OwnPlace D1 o1) w (buildArchive k.backend p e o2 D2 prog w).2 := by
  obtain ⟨lv, hsig⟩ := hc.level hs2
  obtain ⟨g1, g2⟩ := sig_mem_files D2
  have a1 : k.StepsAway (k.OwnPlace D1 o1) w (builderNew k.backend p e o2 D2 w).2 :=
    aside_builderNew rfl ho2 (fun h => ha _ h (ownPlace_file hs2 g1)) (fun h => ha _ h (ownPlace_file hs2 g2))
  unfold buildArchive
  refine Act.bind_post (R := fun a b => k.StepsAway (k.OwnPlace D1 o1) a b) Kind.StepsAway.trans a1 fun o' w1 hb => ?_
  obtain rfl := builderNew_ok hb
  rw [hb] at a1
  refine run_free prog ?_ (hr.steps a1.steps) (a1.steps.alive ho2)
  cases k
  · refine free_memory_far lv (fun l hl => ?_) fun n hm hl => ?_
    · obtain ⟨n, _, rfl⟩ := hl
      exact a1.steps.alive ho1
    · obtain ⟨_, hn⟩ | ⟨_, _, _, h⟩ := hm.own hc
      · exact ha _ hl (ownPlace_file (k := .memory) hs2 hn)
      · cases h
  · refine free_disk lv fun ds n hm hl => ?_
    obtain ⟨h1, h2⟩ := hm.plain lv
    exact ha _ hl ⟨ds, n, h1, h2, hm.own hc, rfl⟩

/-- What happens elsewhere does not change the files of an archive. -/
theorem away_agree {D : ArchiveDef} {o : k.backend.Obj} {w w' : k.backend.W} (h : k.StepsAway (k.OwnPlace D o) w w') :
    Agree D (k.dir w' o) (k.dir w o) := by
  intro ds n hd hn hf
  cases k
  · cases ds with
    | cons d ds => rfl
    | nil =>
      rcases hf with ⟨_, hf⟩ | ⟨_, _, _, he⟩
      · exact (h.keeps.1 o n ⟨n, hf, rfl⟩).medium
      · cases he
  · exact (h.keeps.1 ⟨0, ds.foldl join (o : Obj).path⟩ n ⟨ds, n, hd, hn, hf, rfl⟩).medium

theorem away_current {D : ArchiveDef} {o : k.backend.Obj} {w w' : k.backend.W} (hs : Separate D) (h : k.StepsAway (k.OwnPlace D o) w w')
    (hc : k.Current w o D) : k.Current w' o D := by
  intro n hn
  have hm : n ∈ files D ∧ n ++ ".schema" ∈ files D := by
    rcases hn with rfl | ⟨r, hr, q, hq, rfl⟩
    · exact sig_mem_files D
    · exact ⟨res_mem_files hr (part_mem_resFiles hq).1, res_mem_files hr (part_mem_resFiles hq).2⟩
  have hk := hc n hn
  exact ⟨(k.current_iff _ _ _).mpr (((k.current_iff _ _ _).mp hk.1).keeps (h.keeps.1 o n (ownPlace_file hs hm.1))),
    (k.current_iff _ _ _).mpr (((k.current_iff _ _ _).mp hk.2).keeps (h.keeps.1 o _ (ownPlace_file hs hm.2)))⟩

/-! ## the descriptors of an opened archive -/

/-- Mappings are those of their paths. -/
def Mapped (w : FileW) : Prop := ∀ i q x, w.maps i q = some x → x.1 = key q

/-- If it succeeds, the value satisfies `Q`. -/
def Gets {E α : Type} (x : Act FileW E α) (Q : α → Prop) : Prop := ∀ w, Mapped w → Mapped (x w).2 ∧ ∀ a w', x w = (.ok a, w') → Q a

namespace Gets
variable {E E' α β : Type}

theorem pure' {Q : α → Prop} {a : α} (h : Q a) : Gets (pure a : Act FileW E α) Q := fun w hw => ⟨hw, fun b w' hb => by cases hb; exact h⟩

theorem fail {Q : α → Prop} (x : E) : Gets (Act.fail x : Act FileW E α) Q := fun w hw => ⟨hw, fun b w' hb => by cases hb⟩

theorem lift {x : Out α} : Gets (Act.lift x : Act FileW E α) (fun _ => True) := fun w hw => by
  refine ⟨?_, fun _ _ _ => trivial⟩
  cases x <;> exact hw

theorem bind {x : Act FileW E α} {f : α → Act FileW E β} {Q : α → Prop} {R : β → Prop} (hx : Gets x Q) (hf : ∀ a, Q a → Gets (f a) R) :
    Gets (x >>= f) R := by
  intro w hw
  obtain ⟨h1, h2⟩ := hx w hw
  constructor
  · rw [Act.bind_def]
    split <;> (rename_i heq; rw [heq] at h1)
    · exact (hf _ (h2 _ _ heq) _ h1).1
    all_goals exact h1
  · intro b w' hb
    obtain ⟨a, w1, ha, hb⟩ := Act.bind_eq_ok hb
    rw [ha] at h1
    exact (hf a (h2 a w1 ha) w1 h1).2 b w' hb

theorem mapErr {x : Act FileW E α} {f : E → E'} {Q : α → Prop} (hx : Gets x Q) : Gets (x.mapErr f) Q := by
  intro w hw
  obtain ⟨h1, h2⟩ := hx w hw
  refine ⟨by rw [mapErr_snd]; exact h1, fun a w' h => ?_⟩
  exact h2 a w' (mapErr_eq_ok h)

theorem attempt {x : Act FileW E α} {Q : α → Prop} (hx : Gets x Q) : Gets (Act.attempt x : Act FileW E' (Except E α)) (fun r => ∀ a, r = .ok a → Q a) := by
  intro w hw
  obtain ⟨h1, h2⟩ := hx w hw
  unfold Act.attempt
  rcases h : x w with ⟨r, w'⟩
  rw [h] at h1 h2
  cases r with
  | ok a => exact ⟨h1, fun b w'' hb => by cases hb; intro a' ha; cases ha; exact h2 a _ rfl⟩
  | err y => exact ⟨h1, fun b w'' hb => by cases hb; intro a' ha; cases ha⟩
  | panic => exact ⟨h1, fun b w'' hb => by cases hb⟩
  | ub => exact ⟨h1, fun b w'' hb => by cases hb⟩

theorem checkRes {x : Act FileW RErr α} {Q : α → Prop} {opt : Bool} (hx : Gets x Q) : Gets (checkRes file opt x) (fun r => ∀ a, r = some a → Q a) := by
  refine .bind (attempt hx) fun r hr => ?_
  cases r with
  | ok a => exact pure' fun b hb => by cases hb; exact hr a rfl
  | error y =>
    dsimp only
    split
    · exact pure' fun b hb => by cases hb
    · exact fail _

theorem read (o : Obj) (n : String) : Gets (FileSt.readResource o n) (fun s => s.base = key (join o.path n)) := by
  intro w hw
  rcases FileSt.read_spec o n w with ⟨l, m, w1, hm, q, _, h2⟩ | ⟨d, w1, _, _, _, q, _, h2⟩ | ⟨x, w1, q, _, h2, _⟩ <;> rw [h2]
  · refine ⟨fun i p x hx => hw i p x (by rw [← q.maps]; exact hx), fun a w' h => ?_⟩
    cases h
    exact hw _ _ _ hm
  · refine ⟨fun i p x hx => ?_, fun a w' h => by cases h; rfl⟩
    change upd w1.maps o.id _ i p = some x at hx
    by_cases hi : i = o.id
    · subst hi
      rw [upd_same] at hx
      by_cases hp : p = join o.path n
      · subst hp
        rw [upd_same] at hx; cases hx; rfl
      · rw [upd_other _ _ hp, q.maps] at hx
        exact hw _ _ _ hx
    · rw [upd_other _ _ hi, q.maps] at hx
      exact hw _ _ _ hx
  · exact ⟨fun i p x hx => hw i p x (by rw [← q.maps]; exact hx), fun a w' h => by cases h⟩

theorem load (s : Slice Key) : Gets (file.load s : Act FileW RErr Bytes) (fun _ => True) := by
  intro w hw
  refine ⟨?_, fun _ _ _ => trivial⟩
  unfold Backend.load
  cases file.deref w s <;> exact hw

theorem storageRead [DiffLib] (o : Obj) (n schema : String) : Gets (Storage.read file p e o n schema) (fun s => s.base = key (join o.path n)) := by
  refine .bind (mapErr (read o n)) fun d hd => .bind (mapErr (read o _)) fun c _ => ?_
  unfold Storage.checkResource
  split
  · exact fail _
  refine .bind (load _) fun _ _ => .bind lift fun _ _ => .bind lift fun _ _ => .bind lift fun _ _ => ?_
  split
  · exact fail _
  refine .bind (load _) fun _ _ => ?_
  unfold Storage.checkSchema
  split
  · exact fail _
  split
  · exact fail _
  · intro w hw
    unfold Storage.payload
    split
    · exact ⟨hw, fun a w' h => by cases h; exact hd⟩
    · exact ⟨hw, fun a w' h => by cases h⟩

theorem subdir (o : Obj) (d : String) : Gets (FileSt.subdir o d) (fun o' => o'.path = join o.path d) := by
  intro w hw
  refine ⟨fun i q x hx => ?_, fun a w' h => by cases h; rfl⟩
  change upd w.maps w.next (fun _ => none) i q = some x at hx
  by_cases hi : i = w.next
  · subst hi; rw [upd_same] at hx; cases hx
  · rw [upd_other _ _ hi] at hx; exact hw _ _ _ hx

theorem openResource [DiffLib] (o : Obj) (r : ResDecl) : Gets (openResource file p e o r)
    (fun x => ∀ s ∈ x.slices, ∃ n ∈ resFiles r, s.base = key (join o.path n)) := by
  obtain ⟨name, schema, optional, type⟩ := r
  cases type
  case multi V index =>
    refine .bind (checkRes (storageRead _ _ _)) fun i hi => .bind (checkRes (storageRead _ _ _)) fun d hd => pure' fun s hs => ?_
    obtain hs | hs := List.mem_append.mp hs
    · exact ⟨index, (by simp [resFiles, parts]), hi s (by simpa using hs)⟩
    · exact ⟨name, (by simp [resFiles, parts]), hd s (by simpa using hs)⟩
  all_goals
    refine .bind (checkRes (storageRead _ _ _)) fun d hd => pure' fun s hs => ?_
    exact ⟨name, (by simp [resFiles, parts]), hd s (by simpa [Opened.slices] using hs)⟩

theorem openResources [DiffLib] (o : Obj) : ∀ rs : List ResDecl, Gets (openResources file p e o rs)
    (fun xs => ∀ s ∈ xs.flatMap Opened.slices, ∃ r ∈ rs, ∃ n ∈ resFiles r, s.base = key (join o.path n))
  | [] => pure' fun s hs => by cases hs
  | r :: rs => by
    refine .bind (openResource o r) fun x hx => .bind (openResources o rs) fun xs hxs => pure' fun s hs => ?_
    rw [List.flatMap_cons] at hs
    obtain hs | hs := List.mem_append.mp hs
    · exact ⟨r, List.mem_cons_self, hx s hs⟩
    · obtain ⟨r', h1, h2⟩ := hxs s hs
      exact ⟨r', List.mem_cons_of_mem _ h1, h2⟩

mutual
theorem openArchive [DiffLib] : ∀ (D : ArchiveDef) (o : Obj), Separate D → Gets (openArchive file p e o D)
    (fun a => ∀ s ∈ a.slices, Kind.OwnPlace .disk D o s.base)
  | .mk name schema rs subs, o, hs => by
    unfold Flatdata.openArchive
    have hs' := hs
    unfold Separate at hs'
    refine .bind (storageRead _ _ _) fun _ _ => .bind (openResources o rs) fun xs hx => .bind (openSubs subs o hs'.2.2) fun ss hss =>
      pure' fun s h => ?_
    unfold Archive.slices at h
    obtain h | h := List.mem_append.mp h
    · obtain ⟨r, hr, n, hn, hb⟩ := hx s h
      have hf := res_mem_files (D := .mk name schema rs subs) hr hn
      exact ⟨[], n, fun _ h => (by cases h), hs'.1 n (List.mem_append_left _ hf), .inl ⟨rfl, hf⟩, hb⟩
    · obtain ⟨x, hx, ds, n, h1, h2, h3⟩ := hss s h
      refine ⟨x.1 :: ds, n, fun d hd => ?_, h2, .inr ⟨x, hx, ds, rfl⟩, h3⟩
      obtain rfl | hd := List.mem_cons.mp hd
      · exact hs'.1 _ (List.mem_append_right _ (List.mem_map.mpr ⟨x, hx, rfl⟩))
      · exact h1 d hd

theorem openSubs [DiffLib] : ∀ (subs : SubDefs) (o : Obj), SubsSeparate subs → Gets (openSubs file p e o subs)
    (fun ss => ∀ s ∈ ss.slices, ∃ x ∈ SubDefs.entries subs, ∃ ds n, (∀ d ∈ ds, PlainName d) ∧ PlainName n ∧
      s.base = key (join ((x.1 :: ds).foldl join o.path) n))
  | .nil, o, hs => by
    unfold Flatdata.openSubs
    exact pure' fun s h => by unfold SubArchives.slices at h; cases h
  | .cons name optional D rest, o, hs => by
    unfold Flatdata.openSubs
    unfold SubsSeparate at hs
    refine .bind (mapErr (subdir o name)) fun o' ho' => .bind (checkRes (openArchive D o' hs.1)) fun a ha => .bind (openSubs rest o hs.2)
      fun ss hss => pure' fun s h => ?_
    have htail : ∀ s ∈ ss.slices, ∃ x ∈ SubDefs.entries (.cons name optional D rest), ∃ ds n, (∀ d ∈ ds, PlainName d) ∧ PlainName n ∧
        s.base = key (join ((x.1 :: ds).foldl join o.path) n) := by
      intro s h
      obtain ⟨x, hx, h⟩ := hss s h
      exact ⟨x, by unfold SubDefs.entries; exact List.mem_cons_of_mem _ hx, h⟩
    cases a with
    | none => unfold SubArchives.slices at h; exact htail s h
    | some a =>
      unfold SubArchives.slices at h
      obtain h | h := List.mem_append.mp h
      · obtain ⟨ds, n, h1, h2, _, h3⟩ := ha a rfl s h
        rw [ho'] at h3
        exact ⟨(name, D), by unfold SubDefs.entries; exact List.mem_cons_self, ds, n, h1, h2, h3⟩
      · exact htail s h
end

end Gets

/-! ## Opening only reads -/

namespace Spec.Kind
variable {o : k.backend.Obj}

theorem calls_checkRes {α : Type} {opt : Bool} {x : Act k.backend.W RErr α} (hx : Calls k o x) : Calls k o (checkRes k.backend opt x) := by
  intro w ho
  unfold checkRes
  refine Act.bind_post (R := Steps k) Steps.trans ?_ fun r w1 _ => ?_
  · have := hx w ho
    unfold Act.attempt
    rcases h : x w with ⟨r, w'⟩
    rw [h] at this
    cases r <;> exact this
  · cases r with
    | ok a => exact .refl _
    | error y => dsimp only; split <;> exact .refl _

theorem calls_openResource [DiffLib] (r : ResDecl) : Calls k o (openResource k.backend p e o r) := by
  intro w ho
  obtain ⟨name, schema, optional, type⟩ := r
  have rd : ∀ {n s}, Calls k o (checkRes k.backend optional (Storage.read k.backend p e o n s)) :=
    calls_checkRes (Calls.of fun _ => pres_storageRead)
  cases type
  case multi V index =>
    refine Act.bind_post (R := Steps k) Steps.trans (rd w ho) fun i w1 h1 => ?_
    have h := rd (n := index) (s := Storage.indexSchema schema) w ho
    rw [h1] at h
    exact Act.bind_post (R := Steps k) Steps.trans (rd w1 (h.alive ho)) fun _ _ _ => .refl _
  all_goals exact Act.bind_post (R := Steps k) Steps.trans (rd w ho) fun _ _ _ => .refl _

theorem calls_openResources [DiffLib] : ∀ rs : List ResDecl, Calls k o (openResources k.backend p e o rs)
  | [] => fun w _ => .refl w
  | r :: rs => by
    intro w ho
    refine Act.bind_post (R := Steps k) Steps.trans (calls_openResource r w ho) fun i w1 h1 => ?_
    have h := calls_openResource (p := p) (e := e) r w ho
    rw [h1] at h
    exact Act.bind_post (R := Steps k) Steps.trans (calls_openResources rs w1 (h.alive ho)) fun _ _ _ => .refl _

mutual
theorem calls_openArchive [DiffLib] : ∀ (D : ArchiveDef) (o : k.backend.Obj), Calls k o (openArchive k.backend p e o D)
  | .mk name schema rs subs, o => by
    intro w ho
    unfold openArchive
    have rd : Calls k o (Storage.read k.backend p e o (name ++ ".archive") schema) := Calls.of fun _ => pres_storageRead
    refine Act.bind_post (R := Steps k) Steps.trans (rd w ho) fun _ w1 h1 => ?_
    have h := rd w ho
    rw [h1] at h
    refine Act.bind_post (R := Steps k) Steps.trans (calls_openResources rs w1 (h.alive ho)) fun _ w2 h2 => ?_
    have h' := calls_openResources (p := p) (e := e) rs w1 (h.alive ho)
    rw [h2] at h'
    exact Act.bind_post (R := Steps k) Steps.trans (calls_openSubs subs o w2 (h'.alive (h.alive ho))) fun _ _ _ => .refl _

theorem calls_openSubs [DiffLib] : ∀ (D : SubDefs) (o : k.backend.Obj), Calls k o (openSubs k.backend p e o D)
  | .nil, o => fun w _ => by unfold openSubs; exact .refl w
  | .cons name optional D rest, o => by
    intro w ho
    unfold openSubs
    have s1 : Steps k w (k.backend.subdir o name w).2 := .step (.refl w) (.subdir (r := (k.backend.subdir o name w).1) rfl)
    refine Act.bind_post (R := Steps k) Steps.trans (by rw [mapErr_snd]; exact s1) fun o' w1 h1 => ?_
    have h1 := mapErr_eq_ok h1
    rw [h1] at s1
    have ho' : k.alive w1 o' := by cases k <;> cases h1 <;> exact Nat.lt_succ_self _
    have hc := calls_checkRes (opt := optional) (calls_openArchive D o')
    refine Act.bind_post (R := Steps k) Steps.trans (hc w1 ho') fun a w2 h2 => ?_
    have s2 := hc w1 ho'
    rw [h2] at s2
    exact Act.bind_post (R := Steps k) Steps.trans (calls_openSubs rest o w2 (s2.alive (s1.alive ho))) fun _ _ _ => .refl _
end

end Spec.Kind

/-! ## ... in memory -/

theorem allFine_slices {w : k.backend.W} : ∀ {rs : List ResDecl} {xs : List (Opened k.backend.Base)}, AllFine w rs xs →
    ∀ s ∈ xs.flatMap Opened.slices, k.held w s
  | [], [], _, s, hs => by cases hs
  | r :: rs, x :: xs, h, s, hs => by
    rw [List.flatMap_cons] at hs
    obtain hs | hs := List.mem_append.mp hs
    · refine h.1.2.2 s ?_
      cases x with
      | one d => simpa [Opened.slices, descriptors, eq_comm] using hs
      | two i d => simpa [Opened.slices, descriptors, eq_comm] using hs
    · exact allFine_slices h.2 s hs
  | [], _ :: _, h, _, _ => h.elim
  | _ :: _, [], h, _, _ => h.elim

mutual
theorem archiveFine_slices {w : k.backend.W} : ∀ (D : ArchiveDef) (a : Archive k.backend.Base), ArchiveFine w D a →
    ∀ s ∈ a.slices, k.held w s
  | .mk _ _ rs subs, .mk xs ss, h, s, hs => by
    unfold ArchiveFine at h
    unfold Archive.slices at hs
    obtain hs | hs := List.mem_append.mp hs
    · exact allFine_slices h.1 s hs
    · exact subsFine_slices subs ss h.2 s hs

theorem subsFine_slices {w : k.backend.W} : ∀ (D : SubDefs) (a : SubArchives k.backend.Base), SubsFine w D a →
    ∀ s ∈ a.slices, k.held w s
  | .nil, .nil, _, s, hs => by unfold SubArchives.slices at hs; cases hs
  | .cons _ _ D rest, .cons none ss, h, s, hs => by
    unfold SubsFine at h
    unfold SubArchives.slices at hs
    exact subsFine_slices rest ss h.2 s hs
  | .cons _ _ D rest, .cons (some a) ss, h, s, hs => by
    unfold SubsFine at h
    unfold SubArchives.slices at hs
    obtain hs | hs := List.mem_append.mp hs
    · exact archiveFine_slices D a h.1 s hs
    · exact subsFine_slices rest ss h.2 s hs
  | .nil, .cons _ _, h, _, _ => by unfold SubsFine at h; exact h.elim
  | .cons _ _ _ _, .nil, h, _, _ => by unfold SubsFine at h; exact h.elim
end

/-- A resource in memory is never replaced once it is read. -/
theorem resources_steps {w w' : (Kind.backend .memory).W} (hr : Kind.Reachable .memory w) (h : Kind.Steps .memory w w') {l : MemLoc} {d : Bytes}
    (hd : (w : MemW).resources l = some d) : (w' : MemW).resources l = some d := by
  induction h with
  | refl => exact hd
  | @step b c st s ih =>
    have hr' := hr.steps st
    refine (s.mem.2 l ?_).2 d ih
    refine Decidable.byContradiction fun hc => ?_
    have := (hr'.unborn l (by omega)).2
    rw [ih] at this; cases this

theorem slices_memory [DiffLib] {D : ArchiveDef} {o : (Kind.backend .memory).Obj} {w w1 w2 : (Kind.backend .memory).W}
    {a : Archive (Kind.backend .memory).Base} (hr : Kind.Reachable .memory w) (ho : Kind.alive .memory w o)
    (h : openArchive (Kind.backend .memory) p e o D w = (.ok a, w1)) (hs : Kind.Steps .memory w1 w2) :
    ∀ s ∈ a.slices, (Kind.backend .memory).deref w2 s = (Kind.backend .memory).deref w1 s := by
  intro s hm
  obtain ⟨_, h2, _, h4⟩ := Kind.safe_openArchive (p := p) (e := e) D (k := .memory) (o := o) (J := fun w => Kind.alive .memory w o)
    (fun _ _ _ h ha => h.alive ha) (fun _ h => h) w hr trivial ho
  rw [h] at h2 h4
  obtain ⟨d, hd, _⟩ := archiveFine_slices D a (h4 a rfl).2 s hm
  apply deref_keeps
  change ((w2 : MemW).resources s.base).getD [] = ((w1 : MemW).resources s.base).getD []
  rw [hd, resources_steps (hr.steps h2) hs hd]

theorem reachable_mapped {w : (Kind.backend .disk).W} (hr : Kind.Reachable .disk w) : Mapped w := fun i q x hx => by
  have h := hr.inv
  exact (h.maps i q x.1 x.2 hx).1

theorem slices_disk [DiffLib] {D : ArchiveDef} {o : (Kind.backend .disk).Obj} {w w1 w2 : (Kind.backend .disk).W}
    {a : Archive (Kind.backend .disk).Base} (hD : Separate D) (hr : Kind.Reachable .disk w)
    (h : openArchive (Kind.backend .disk) p e o D w = (.ok a, w1)) (hs : Kind.StepsAway .disk (Kind.OwnPlace .disk D o) w1 w2) :
    ∀ s ∈ a.slices, (Kind.backend .disk).deref w2 s = (Kind.backend .disk).deref w1 s := by
  intro s hm
  obtain ⟨ds, n, h1, h2, h3, h4⟩ := ((Gets.openArchive (p := p) (e := e) D o hD) w (reachable_mapped hr)).2 a w1 h s hm
  apply deref_keeps
  exact (hs.keeps.1 ⟨0, ds.foldl join (o : Obj).path⟩ n ⟨ds, n, h1, h2, h3, rfl⟩).content s.base h4

end Flatdata
