import Verif.Proofs.Archive
/-!
# Opening archives: the whole
-/
namespace Flatdata
open Spec

section
variable {k : Kind} {p : Profile} {e : Endian}

theorem Outcome.mono {α : Type} {good good' : α → Prop} {bad bad' huge huge' : Prop} {r : Res RErr α} (h : Outcome p good bad huge r)
    (hg : ∀ a, good a → good' a) (hb : bad → bad') (hh : huge → huge') : Outcome p good' bad' huge' r := by
  cases r with
  | ok a => exact hg a h
  | err => exact hb h
  | panic => exact ⟨h.1, hh h.2⟩
  | ub => exact h

/-- One descriptor. -/
theorem readSlot [DiffLib] {w : k.backend.W} {o : k.backend.Obj} {N : String → Prop} {name : String} (u : Usable k w o N) (hN : N name)
    (schema : String) (optional : Bool) :
    ∃ r w', checkRes k.backend optional (Storage.read k.backend p e o name schema) w = (r, w') ∧ Went k w w' ∧
      Outcome p (SlotShows k (k.noFault w) (Shown k.laws w') optional (k.stored w o) name schema)
        (optional = false ∧ (k.noFault w → ¬ ∃ x, Valid k (k.stored w o) name schema x)) (Huge (k.stored w o) name) r := by
  obtain ⟨r, w', h, g, out⟩ := readArchived (p := p) (e := e) u hN schema
  obtain ⟨r', h', out'⟩ := checkRes_spec (optional := optional) h out
  refine ⟨r', w', h', g, out'.mono ?_ id id⟩
  intro a ha
  cases a with
  | some s => exact ha
  | none => exact ha

theorem openResource_spec [DiffLib] {w : k.backend.W} {o : k.backend.Obj} {N : String → Prop} (r : ResDecl) (u : Usable k w o N)
    (hN : ∀ q ∈ parts r, N q.1) : ∃ x w', openResource k.backend p e o r w = (x, w') ∧ Went k w w' ∧
      Outcome p (ResShows k (k.noFault w) (Shown k.laws w') (k.stored w o) r)
        (k.noFault w → ¬ (r.optional = false → ∀ q ∈ parts r, ∃ x, Valid k (k.stored w o) q.1 q.2 x))
        (∃ q ∈ parts r, Huge (k.stored w o) q.1) x := by
  have plain : (∀ V i, r.type ≠ .multi V i) → ∃ x w', (checkRes k.backend r.optional (Storage.read k.backend p e o r.name r.schema) >>=
      fun d => pure (Opened.one d) : Act k.backend.W RErr (Opened k.backend.Base)) w = (x, w') ∧ Went k w w' ∧
      Outcome p (ResShows k (k.noFault w) (Shown k.laws w') (k.stored w o) r)
        (k.noFault w → ¬ (r.optional = false → ∀ q ∈ parts r, ∃ x, Valid k (k.stored w o) q.1 q.2 x))
        (∃ q ∈ parts r, Huge (k.stored w o) q.1) x := by
    intro hr
    have hp : parts r = [(r.name, r.schema)] := by
      unfold parts; split
      · rename_i V i ht; exact absurd ht (hr V i)
      · rfl
    have hs : ∀ d w', ResShows k (k.noFault w) (Shown k.laws w') (k.stored w o) r (.one d) ↔
        SlotShows k (k.noFault w) (Shown k.laws w') r.optional (k.stored w o) r.name r.schema d := by
      intro d w'
      unfold ResShows
      cases ht : r.type with
      | multi V i => exact absurd ht (hr V i)
      | _ => exact Iff.rfl
    obtain ⟨x, w', h, g, out⟩ := readSlot (p := p) (e := e) u (hN (r.name, r.schema) (by rw [hp]; simp)) r.schema r.optional
    cases x with
    | ok d => exact ⟨_, w', Act.bind_ok h, g, (hs d w').mpr out⟩
    | err y =>
      refine ⟨_, w', Act.bind_err h, g, fun hn hv => out.2 hn ?_⟩
      exact hv out.1 (r.name, r.schema) (by rw [hp]; simp)
    | panic => exact ⟨_, w', Act.bind_panic h, g, out.1, (r.name, r.schema), by rw [hp]; simp, out.2⟩
    | ub => exact out.elim
  unfold openResource
  cases ht : r.type with
  | struct S => exact plain (by rw [ht]; intro _ _ h; cases h)
  | vector S => exact plain (by rw [ht]; intro _ _ h; cases h)
  | raw => exact plain (by rw [ht]; intro _ _ h; cases h)
  | multi V i =>
    have hp : parts r = [(i, "index(" ++ r.schema ++ ")"), (r.name, r.schema)] := by unfold parts; rw [ht]
    simp only
    obtain ⟨x1, w1, h1, g1, out1⟩ := readSlot (p := p) (e := e) u (hN (i, _) (by rw [hp]; exact List.mem_cons_self ..))
      (Storage.indexSchema r.schema) r.optional
    cases x1 with
    | ok a =>
      rw [Act.bind_ok h1]
      obtain ⟨x2, w2, h2, g2, out2⟩ := readSlot (p := p) (e := e) (u.went g1) (hN (r.name, r.schema) (by rw [hp]; simp)) r.schema r.optional
      rw [g1.ro.stored] at out2
      have nf : k.noFault w → k.noFault w1 := g1.steps.noFault
      cases x2 with
      | ok d =>
        rw [Act.bind_ok h2]
        refine ⟨_, w2, rfl, g1.trans g2, ?_⟩
        change ResShows _ _ _ _ r (.two a d)
        unfold ResShows
        rw [ht]
        exact ⟨SlotShows.mono id (fun s x hs => hs.mono g2.ro) out1, SlotShows.mono nf (fun _ _ h => h) out2⟩
      | err y =>
        refine ⟨_, w2, Act.bind_err h2, g1.trans g2, fun hn hv => out2.2 (nf hn) ?_⟩
        exact hv out2.1 (r.name, r.schema) (by rw [hp]; simp)
      | panic => exact ⟨_, w2, Act.bind_panic h2, g1.trans g2, out2.1, (r.name, r.schema), by rw [hp]; simp, out2.2⟩
      | ub => exact out2.elim
    | err y =>
      refine ⟨_, w1, Act.bind_err h1, g1, fun hn hv => out1.2 hn ?_⟩
      exact hv out1.1 (i, _) (by rw [hp]; exact List.mem_cons_self ..)
    | panic => exact ⟨_, w1, Act.bind_panic h1, g1, out1.1, (i, _), by rw [hp]; exact List.mem_cons_self .., out1.2⟩
    | ub => exact out1.elim

theorem openResources_spec [DiffLib] {o : k.backend.Obj} {N : String → Prop} : ∀ (rs : List ResDecl) {w : k.backend.W}, Usable k w o N →
    (∀ r ∈ rs, ∀ q ∈ parts r, N q.1) → ∃ x w', openResources k.backend p e o rs w = (x, w') ∧ Went k w w' ∧
      Outcome p (AllShow k (k.noFault w) (Shown k.laws w') (k.stored w o) rs)
        (k.noFault w → ¬ ∀ r ∈ rs, r.optional = false → ∀ q ∈ parts r, ∃ x, Valid k (k.stored w o) q.1 q.2 x)
        (∃ r ∈ rs, ∃ q ∈ parts r, Huge (k.stored w o) q.1) x
  | [], w, _, _ => ⟨.ok [], w, rfl, .refl w, trivial⟩
  | r :: rs, w, u, hN => by
    unfold openResources
    obtain ⟨x1, w1, h1, g1, out1⟩ := openResource_spec (p := p) (e := e) r u (hN r (by simp))
    cases x1 with
    | ok a =>
      rw [Act.bind_ok h1]
      obtain ⟨x2, w2, h2, g2, out2⟩ := openResources_spec rs (u.went g1) (fun r hr => hN r (by simp [hr]))
      rw [g1.ro.stored] at out2
      have nf : k.noFault w → k.noFault w1 := g1.steps.noFault
      cases x2 with
      | ok d =>
        rw [Act.bind_ok h2]
        exact ⟨_, w2, rfl, g1.trans g2, ResShows.mono id (fun s x hs => hs.mono g2.ro) out1, AllShow.mono nf (fun _ _ h => h) out2⟩
      | err y => exact ⟨_, w2, Act.bind_err h2, g1.trans g2, fun hn hv => out2 (nf hn) fun r hr => hv r (by simp [hr])⟩
      | panic =>
        obtain ⟨hp, r', hr', q⟩ := out2
        exact ⟨_, w2, Act.bind_panic h2, g1.trans g2, hp, r', by simp [hr'], q⟩
      | ub => exact out2.elim
    | err y => exact ⟨_, w1, Act.bind_err h1, g1, fun hn hv => out1 hn (hv r (by simp))⟩
    | panic => exact ⟨_, w1, Act.bind_panic h1, g1, out1.1, r, by simp, out1.2⟩
    | ub => exact out1.elim

/-- A subdirectory. -/
theorem subdir_spec {o : k.backend.Obj} (d : String) {w : k.backend.W} (hu : k.unborn w) :
    ∃ o' w', k.backend.subdir o d w = (.ok o', w') ∧ Went k w w' ∧ k.alive w' o' ∧ k.dir w' o' = (k.dir w o).sub d ∧
      ∀ n, k.laws.cache w' o' n = none := by
  have key : ∀ {o' w'}, k.backend.subdir o d w = (.ok o', w') → Went k w w' := fun h =>
    ⟨.of_keeps (fun l => Kind.subdir_unborn hu h l) (fun hn => (k.noFault_iff _).mp ((Kind.Step.subdir h).noFault ((k.noFault_iff _).mpr hn))),
      .step (.refl w) (.subdir h)⟩
  cases k
  · refine ⟨_, _, rfl, key rfl, Nat.lt_succ_self _, ?_, fun n => ?_⟩
    · funext ds n
      cases ds with
      | nil =>
        change Option.map Prod.fst (if (MemW.next w) = MemW.next w then none else _) = none
        rw [if_pos rfl]; rfl
      | cons => rfl
    · change Option.map _ (if (MemW.next w) = MemW.next w then none else _) = none
      rw [if_pos rfl]; rfl
  · refine ⟨_, _, rfl, key rfl, Nat.lt_succ_self _, rfl, fun n => ?_⟩
    change Option.map _ (upd (FileW.maps w) (FileW.next w) (fun _ => none) (FileW.next w) _) = none
    rw [upd_same]; rfl

/-- The names of an archive. -/
def NamesOf (D : ArchiveDef) (n : String) : Prop := n = D.name ++ ".archive" ∨ ∃ r ∈ D.resources, ∃ q ∈ parts r, q.1 = n

mutual
theorem openArchive_spec [DiffLib] : ∀ (D : ArchiveDef) {o : k.backend.Obj} {w : k.backend.W}, Usable k w o (NamesOf D) →
    ∃ x w', openArchive k.backend p e o D w = (x, w') ∧ Went k w w' ∧
      Outcome p (ArchiveShows k (k.noFault w) (Shown k.laws w') D (k.dir w o))
        (k.noFault w → ¬ Complete k D (k.dir w o)) (SomeHuge D (k.dir w o)) x
  | .mk name schema rs subs, o, w, u => by
    unfold openArchive
    obtain ⟨x1, w1, h1, g1, out1⟩ := readArchived (p := p) (e := e) u (name := name ++ ".archive") (.inl rfl) schema
    cases x1 with
    | ok s =>
      rw [Act.bind_ok h1]
      obtain ⟨x2, w2, h2, g2, out2⟩ := openResources_spec (p := p) (e := e) rs (u.went g1) (fun r hr q hq => .inr ⟨r, hr, q, hq, rfl⟩)
      rw [g1.ro.stored] at out2
      have nf1 : k.noFault w → k.noFault w1 := g1.steps.noFault
      cases x2 with
      | ok xs =>
        rw [Act.bind_ok h2]
        obtain ⟨x3, w3, h3, g3, out3⟩ := openSubs_spec subs (u.went (g1.trans g2)).reach (u.went (g1.trans g2)).alive
        rw [(g1.trans g2).ro.dir] at out3
        have nf2 : k.noFault w → k.noFault w2 := fun h => g2.steps.noFault (nf1 h)
        cases x3 with
        | ok ss =>
          rw [Act.bind_ok h3]
          refine ⟨_, w3, rfl, (g1.trans g2).trans g3, ?_⟩
          change ArchiveShows _ _ _ _ _ _
          unfold ArchiveShows
          rw [k.dir_nil]
          obtain ⟨x, hx, _⟩ := out1
          exact ⟨⟨x, hx⟩, AllShow.mono nf1 (fun s x hs => hs.mono g3.ro) out2, SubsShow.mono nf2 (fun _ _ h => h) out3⟩
        | err y =>
          refine ⟨_, w3, Act.bind_err h3, (g1.trans g2).trans g3, fun hn hc => ?_⟩
          unfold Complete at hc
          exact out3 (nf2 hn) hc.2.2
        | panic =>
          refine ⟨_, w3, Act.bind_panic h3, (g1.trans g2).trans g3, out3.1, ?_⟩
          unfold SomeHuge
          exact .inr (.inr out3.2)
        | ub => exact out3.elim
      | err y =>
        refine ⟨_, w2, Act.bind_err h2, g1.trans g2, fun hn hc => ?_⟩
        unfold Complete at hc
        rw [k.dir_nil] at hc
        exact out2 (nf1 hn) hc.2.1
      | panic =>
        refine ⟨_, w2, Act.bind_panic h2, g1.trans g2, out2.1, ?_⟩
        unfold SomeHuge
        rw [k.dir_nil]
        exact .inr (.inl out2.2)
      | ub => exact out2.elim
    | err y =>
      refine ⟨_, w1, Act.bind_err h1, g1, fun hn hc => ?_⟩
      unfold Complete at hc
      rw [k.dir_nil] at hc
      exact out1 hn hc.1
    | panic =>
      refine ⟨_, w1, Act.bind_panic h1, g1, out1.1, ?_⟩
      unfold SomeHuge
      rw [k.dir_nil]
      exact .inl out1.2
    | ub => exact out1.elim

theorem openSubs_spec [DiffLib] : ∀ (D : SubDefs) {o : k.backend.Obj} {w : k.backend.W}, k.Reachable w → k.alive w o →
    ∃ x w', openSubs k.backend p e o D w = (x, w') ∧ Went k w w' ∧
      Outcome p (SubsShow k (k.noFault w) (Shown k.laws w') D (k.dir w o)) (k.noFault w → ¬ SubsComplete k D (k.dir w o))
        (SubsHuge D (k.dir w o)) x
  | .nil, o, w, _, _ => ⟨.ok .nil, w, rfl, .refl w, by unfold Outcome SubsShow; trivial⟩
  | .cons name optional D rest, o, w, hr, ho => by
    unfold openSubs
    obtain ⟨o', w1, h1, g1, a1, d1, c1⟩ := subdir_spec (o := o) name hr.unborn
    have h1' : (k.backend.subdir o name).mapErr (Empty.elim : Empty → RErr) w = (.ok o', w1) := FileSt.mapErr_ok h1
    rw [Act.bind_ok h1']
    have cur : ∀ n, Cur k.laws w1 o' n := fun n s hs => by rw [c1] at hs; cases hs
    have u1 : Usable k w1 o' (NamesOf D) := ⟨hr.steps g1.steps, a1, fun n _ => ⟨cur _, cur _⟩⟩
    obtain ⟨x2, w2, h2, g2, out2⟩ := openArchive_spec D u1
    rw [d1] at out2
    have nf1 : k.noFault w → k.noFault w1 := g1.steps.noFault
    have nf2 : k.noFault w → k.noFault w2 := fun h => g2.steps.noFault (nf1 h)
    obtain ⟨x2', h2', out2'⟩ := checkRes_spec (optional := optional) h2 out2
    cases x2' with
    | ok a =>
      rw [Act.bind_ok h2']
      have g12 := g1.trans g2
      obtain ⟨x3, w3, h3, g3, out3⟩ := openSubs_spec rest (hr.steps g12.steps) (g12.steps.alive ho)
      rw [g12.ro.dir] at out3
      cases x3 with
      | ok ss =>
        rw [Act.bind_ok h3]
        refine ⟨_, w3, rfl, g12.trans g3, ?_⟩
        change SubsShow _ _ _ _ _ _
        unfold SubsShow
        refine ⟨?_, SubsShow.mono nf2 (fun _ _ h => h) out3⟩
        cases a with
        | some a => exact ArchiveShows.mono nf1 (fun s x hs => hs.mono g3.ro) out2'
        | none => exact ⟨out2'.1, fun hn => out2'.2 (nf1 hn)⟩
      | err y =>
        refine ⟨_, w3, Act.bind_err h3, g12.trans g3, fun hn hc => ?_⟩
        unfold SubsComplete at hc
        exact out3 (nf2 hn) hc.2
      | panic =>
        refine ⟨_, w3, Act.bind_panic h3, g12.trans g3, out3.1, ?_⟩
        unfold SubsHuge
        exact .inr out3.2
      | ub => exact out3.elim
    | err y =>
      refine ⟨_, w2, Act.bind_err h2', g1.trans g2, fun hn hc => ?_⟩
      unfold SubsComplete at hc
      exact out2'.2 (nf1 hn) (hc.1 out2'.1)
    | panic =>
      refine ⟨_, w2, Act.bind_panic h2', g1.trans g2, out2'.1, ?_⟩
      unfold SubsHuge
      exact .inl out2'.2
    | ub => exact out2'.elim
end

/-! ## What shows is complete -/

theorem Spec.ResShows.complete {Base : Type} {clean : Prop} {shows : Slice Base → Bytes → Prop} {dir} {r : ResDecl} {x : Opened Base}
    (h : ResShows k clean shows dir r x) (ho : r.optional = false) : ∀ q ∈ parts r, ∃ x, Valid k dir q.1 q.2 x := by
  have slot : ∀ {name schema} {s : Option (Slice Base)}, SlotShows k clean shows r.optional dir name schema s →
      ∃ x, Valid k dir name schema x := by
    intro name schema s hs
    cases s with
    | some s => obtain ⟨x, h, _⟩ := hs; exact ⟨x, h⟩
    | none => rw [ho] at hs; cases hs.1
  unfold ResShows at h
  unfold parts
  cases hr : r.type <;> cases x <;> simp only [hr] at h ⊢
  all_goals intro q hq
  case multi.two =>
    rcases List.mem_cons.mp hq with rfl | hq
    · exact slot h.1
    · obtain rfl : q = (r.name, r.schema) := by simpa using hq
      exact slot h.2
  all_goals
    obtain rfl : q = (r.name, r.schema) := by simpa using hq
    exact slot h

theorem Spec.AllShow.complete {Base : Type} {clean : Prop} {shows : Slice Base → Bytes → Prop} {dir} : ∀ {rs : List ResDecl} {xs : List (Opened Base)},
    AllShow k clean shows dir rs xs → ∀ r ∈ rs, r.optional = false → ∀ q ∈ parts r, ∃ x, Valid k dir q.1 q.2 x
  | [], [], _ => fun r hr => by cases hr
  | r' :: rs, x :: xs, h => fun r hr ho => by
    rcases List.mem_cons.mp hr with rfl | hr
    · exact h.1.complete ho
    · exact AllShow.complete h.2 r hr ho
  | [], _ :: _, h => h.elim
  | _ :: _, [], h => h.elim

mutual
theorem Spec.ArchiveShows.complete {Base : Type} {clean : Prop} {shows : Slice Base → Bytes → Prop} :
    ∀ {D dir} {a : Archive Base}, ArchiveShows k clean shows D dir a → Complete k D dir
  | .mk _ _ _ _, _, .mk _ _, h => by
    unfold ArchiveShows at h
    unfold Complete
    exact ⟨h.1, h.2.1.complete, Spec.SubsShow.complete h.2.2⟩

theorem Spec.SubsShow.complete {Base : Type} {clean : Prop} {shows : Slice Base → Bytes → Prop} :
    ∀ {D dir} {a : SubArchives Base}, SubsShow k clean shows D dir a → SubsComplete k D dir
  | .nil, _, .nil, _ => by unfold SubsComplete; trivial
  | .cons _ _ D rest, _, .cons a ss, h => by
    unfold SubsShow at h
    unfold SubsComplete
    refine ⟨fun ho => ?_, Spec.SubsShow.complete h.2⟩
    cases a with
    | some a => exact Spec.ArchiveShows.complete h.1
    | none => rw [ho] at h; cases h.1.1
  | .nil, _, .cons _ _, h => by unfold SubsShow at h; exact h.elim
  | .cons _ _ _ _, _, .nil, h => by unfold SubsShow at h; exact h.elim
end

end
end Flatdata
