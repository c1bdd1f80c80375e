import Verif.Proofs.SharedWrite
import Verif.Proofs.Succeeds
/-!
# The moments of building an archive
-/
namespace Flatdata
open Spec

variable {p : Profile} {e : Endian}

/-- The files of resources that a program writes step by step. -/
inductive SoftAt : Prog → List String → String → Prop
  | res {prog x q} (hx : x ∈ prog.writes) (hs : Stepwise x.2) (hq : q ∈ parts x.1) : SoftAt prog [] q.1
  | sub {prog x ds n} (hx : x ∈ prog.builds) (h : SoftAt x.2.2 ds n) : SoftAt prog (x.1 :: ds) n

/-- There is none of the files of a program. -/
def NoFiles (dir : Dir) (prog : Prog) : Prop :=
  (∀ x ∈ prog.writes, ∀ n ∈ resFiles x.1, dir [] n = none) ∧
  ∀ x ∈ prog.builds, ∀ ds n, (∀ d ∈ ds, PlainName d) → PlainName n → dir (x.1 :: ds) n = none

theorem Spec.Prepares.gives {D : ArchiveDef} {prog : Prog} {c : Content} (h : Prepares p e D prog c) :
    ∀ x ∈ prog.writes, ∃ c, Gives p e x.1 x.2 c := by
  obtain ⟨name, schema, rs, subs⟩ := D
  obtain ⟨cs, ts⟩ := c
  unfold Prepares at h
  exact fun x hx => prepares_gives h.1 h.2.2.2.2.1 x hx (h.2.2.1 x hx)

theorem Level.nodup_res {r s rest} (lv : Level p e (.res r s rest)) : (resFiles r).Nodup := by
  have ap := lv.apart
  simp only [Prog.writes, Prog.builds, List.flatMap_cons, List.append_assoc] at ap
  exact (List.nodup_append.mp ap).1

variable {soft : Key → Prop}

theorem goes_builderNew {o : Obj} {D : ArchiveDef} {w : FileW} (hc : Clean w) (h1 : PlainName (D.name ++ ".archive"))
    (h2 : PlainName (D.name ++ ".archive" ++ ".schema")) (n1 : w.fs.files (key (join o.path (D.name ++ ".archive"))) = none)
    (n2 : w.fs.files (key (join o.path (D.name ++ ".archive" ++ ".schema"))) = none) : Advances soft (builderNew file p e o D) w := by
  have hne : key (join o.path (Storage.schemaName (D.name ++ ".archive"))) ≠ key (join o.path (D.name ++ ".archive")) := fun h => by
    have := key_join_plain_inj o.path h2 h1 h
    have := congrArg String.length this
    simp at this
  unfold builderNew Storage.createArchive
  refine .bind (.bind (.mapErr (FileSt.tame_pathExists _)) fun x => ?_) (fun _ => .pure _) hc (.bind (.mapErr (FileSt.tame_pathExists _)) (fun x => ?_) hc
    (.mapErr (.of_still (still_pathExists _) w)) fun x w1 h1 c1 => ?_) fun _ _ _ _ => .pure _ _
  · split
    · exact .fail _
    · exact .mapErr (tame_write _ _ _ _)
  · split
    · exact .fail _
    · exact .mapErr (tame_write _ _ _ _)
  · have e1 : w1.fs.files = w.fs.files := by
      have := still_pathExists (join o.path D.signature) w
      have h3 := mapErr_eq_ok h1
      change FileSt.pathExists (join o.path D.signature) w = _ at h3
      rw [h3] at this
      exact this
    split
    · exact .fail _ _
    · refine .mapErr (goes_write (by decide) c1 hne ?_ ?_).adv
      · rw [e1]; exact n1
      · rw [e1]; exact n2

variable [DiffLib]

theorem build_advances {D : ArchiveDef} {prog : Prog} {c : Content} {o : (Kind.backend .disk).Obj}
    {w : (Kind.backend .disk).W} (hs : Separate D) (hc : Prepares p e D prog c) (hr : Kind.Reachable .disk w) (ho : Kind.alive .disk w o)
    (hv : Kind.Vacant .disk D w o) (hcl : Clean w)
    (ih : ∀ w1, Kind.Reachable .disk w1 → Kind.alive .disk w1 o → Clean w1 → Ready .disk w1 o prog → NoFiles (Kind.dir .disk w1 o) prog →
      Advances soft (prog.run file p e o) w1) :
    Advances soft (buildArchive file p e o D prog) w := by
  obtain ⟨lv, hsig⟩ := hc.level hs
  have sg1 := hsig (D.name ++ ".archive") (by simp)
  have sg2 := hsig (D.name ++ ".archive" ++ ".schema") (by simp)
  obtain ⟨mm1, mm2⟩ := hc.mem
  have hd1 : ∀ ds n, OwnFile D ds n → (∀ d ∈ ds, PlainName d) → PlainName n →
      ¬ (ds = [] ∧ (n = D.name ++ ".archive" ∨ n = D.name ++ ".archive" ++ ".schema")) →
      Kind.dir .disk (builderNew (Kind.backend .disk) p e o D w).2 o ds n = none := fun ds n hw hd hn h =>
    (builderNew_dir (p := p) (e := e) ho sg1.1 sg2.1 hd hn h).trans (by
      rcases hw with ⟨rfl, hw⟩ | ⟨x, hx, t, rfl⟩
      · rw [dir_stored]; exact hv.noFiles n hw
      · exact hv.noSubs x hx t n (fun d h => hd d (List.mem_cons_of_mem _ h)) hn)
  have hem : NoFiles (Kind.dir .disk (builderNew (Kind.backend .disk) p e o D w).2 o) prog := by
    refine ⟨fun x hx n hm => ?_, fun x hx ds n hd hn => ?_⟩
    · refine hd1 [] _ (.inl ⟨rfl, res_mem_files (mm1 x hx) hm⟩) plain_nil (lv.plain x hx _ hm) ?_
      rintro ⟨_, h | h⟩
      · exact sg1.2.1 x hx (h ▸ hm)
      · exact sg2.2.1 x hx (h ▸ hm)
    · refine hd1 (x.1 :: ds) n (.inr ⟨_, mm2 x hx, ds, rfl⟩) (fun d hm => ?_) hn fun h => (by cases h.1)
      rcases List.mem_cons.mp hm with rfl | hm
      · exact lv.plainSub x hx
      · exact hd d hm
  unfold buildArchive
  refine .bind (tame_builderNew o D) (fun o => tame_run prog o) hcl
    (goes_builderNew hcl sg1.1 sg2.1 (hv.noFiles _ (sig_mem_files _).1) (hv.noFiles _ (sig_mem_files _).2)) fun o1 w1 h1 c1 => ?_
  have h1 : builderNew (Kind.backend .disk) p e o D w = (.ok o1, w1) := h1
  obtain rfl := builderNew_ok h1
  have rd := hv.ready hs hc ho h1
  rw [h1] at hem
  have st := (aside_builderNew (P := fun _ => False) h1 ho id id).steps
  exact ih w1 (hr.steps st) (st.alive ho) c1 rd hem

theorem run_advances : ∀ (prog : Prog) {o : (Kind.backend .disk).Obj} {w : (Kind.backend .disk).W},
    (∀ ds n, SoftAt prog ds n → soft (key (join (ds.foldl join (o : Obj).path) n))) → (∀ x ∈ prog.writes, ∃ c, Gives p e x.1 x.2 c) →
    Level p e prog → Kind.Reachable .disk w → Kind.alive .disk w o → Clean w → Ready .disk w o prog →
    NoFiles (Kind.dir .disk w o) prog → Advances soft (prog.run file p e o) w
  | .done, _, w, _, _, _, _, _, _, _, _ => .pure _ w
  | .res r s rest, o, w, hsoft, hg, lv, hr, ho, hcl, rd, em => by
    have fw := lv.apart_res
    have plr := lv.plain _ List.mem_cons_self
    obtain ⟨c, hg1⟩ := hg _ List.mem_cons_self
    refine .bind (tame_writeResource o r s) (fun _ => tame_run rest o) hcl ?_ fun u w1 h1 c1 => ?_
    · exact goes_writeResource hg1 (lv.multi _ List.mem_cons_self) hcl plr lv.nodup_res (fun n hn => em.1 _ List.mem_cons_self n hn)
        fun st q hq => hsoft [] q.1 (.res (prog := .res r s rest) List.mem_cons_self st hq)
    · have h1 : writeResource (Kind.backend .disk) p e o r s w = (.ok u, w1) := h1
      have s1 := Kind.aside_writeResource (k := .disk) (o := o) (p := p) (e := e) (P := Holds' .disk w w o rest) (w0 := w) (s := s)
        (lv.multi _ List.mem_cons_self) (fun n hn => by
          rintro (⟨y, hy, m, hm, he⟩ | ⟨y, hy, hre⟩)
          · exact Kind.place_plain_ne (plr n hn) (lv.res.plain y hy m hm) (fun he => (fw n hn).1 y hy (he ▸ hm)) he
          · exact Kind.place_not_region ho (plr n hn) (lv.res.plainSub y hy) ((fw n hn).2 y hy) hre) w ⟨.refl w, ho⟩
      rw [h1] at s1
      have rd1 : Ready .disk w1 o rest := Ready.after ⟨fun x hx => rd.unused x (List.mem_cons_of_mem _ hx), rd.vacant⟩ s1.1
      refine run_advances rest (fun ds n h => hsoft ds n ?_) (fun x hx => hg x (List.mem_cons_of_mem _ hx)) lv.res (hr.steps s1.1.steps) s1.2 c1 rd1
        ⟨fun x hx n hn => ?_, rd1.vacant⟩
      · cases h with
        | res hx hs hq => exact .res (List.mem_cons_of_mem _ hx) hs hq
        | sub hx h => exact .sub (prog := .res r s rest) hx h
      · have := s1.1.keeps.1 o n (.inl ⟨x, hx, _, hn, rfl⟩)
        exact this.medium.trans (em.1 x (List.mem_cons_of_mem _ hx) n hn)
  | .sub name D inner rest, o, w, hsoft, hg, lv, hr, ho, hcl, rd, em => by
    have fw := lv.apart_sub
    have pln : PlainName name := lv.plainSub _ List.mem_cons_self
    obtain ⟨hsD, c0, hc0⟩ := lv.inner _ List.mem_cons_self
    obtain ⟨lvi, hsig⟩ := hc0.level hsD
    have e0 : (Prog.sub name D inner rest).run file p e o = (((FileSt.subdir o name).mapErr Empty.elim : Act FileW RErr Obj) >>= fun o1 =>
        (buildArchive file p e o1 D inner >>= fun _ => rest.run file p e o)) := by
      rw [show (Prog.sub name D inner rest).run file p e o = (builderSub file p e o name D >>= fun o' =>
        inner.run file p e o' >>= fun _ => rest.run file p e o) from rfl]
      unfold builderSub buildArchive
      rw [Act.bind_assoc]
      congr 1
      funext o1
      rw [Act.bind_assoc]
    rw [e0]
    refine .bind (.mapErr (FileSt.tame_subdir _ _)) (fun o1 => .bind (tame_build _ _ _) fun _ => tame_run rest o) hcl
      (.mapErr (.of_still (fun _ => rfl) w)) fun o1 wa h5 ca => ?_
    obtain ⟨o1', wa', h5', g1, al, hdir, hcache⟩ := subdir_spec (k := .disk) (o := o) name hr.unborn
    have h5 := mapErr_eq_ok h5
    have he : ((.ok o1, wa) : Res Empty Obj × FileW) = (.ok o1', wa') := h5.symm.trans h5'
    cases he
    have hpath : (o1 : Obj).path = join (o : Obj).path name := by cases h5; rfl
    have h5 := h5'
    have ra := hr.steps g1.steps
    have va : Kind.Vacant .disk D wa o1 := by
      refine vacant_of_empty hsD (fun ds n hd hn => ?_) fun n => (Kind.unread_iff .disk _ _ _).mpr (hcache n)
      rw [hdir]
      exact rd.vacant _ List.mem_cons_self ds n hd hn
    refine .bind (tame_build _ _ _) (fun _ => tame_run rest o) ca ?_ fun u w1 h1 c1 => ?_
    · exact build_advances hsD hc0 ra al va ca fun w1 r1 a1 c1 rd1 em1 => run_advances inner (fun ds n h => by
        rw [hpath]
        exact hsoft (name :: ds) n (.sub (prog := .sub name D inner rest) (x := (name, D, inner)) List.mem_cons_self h)) hc0.gives lvi r1 a1 c1 rd1 em1
    · have h1 : buildArchive (Kind.backend .disk) p e o1 D inner wa = (.ok u, w1) := h1
      have s1 : Kind.StepsAway .disk (Holds' .disk w w o rest) w (buildArchive (Kind.backend .disk) p e o1 D inner wa).2 := by
        have lv1 : Level p e (.sub name D inner .done) := by
          refine ⟨fun x hx => (by cases hx), fun x hx => (by cases hx), fun x hx => ?_, ?_, fun x hx => ?_⟩
          · rw [List.mem_singleton.mp hx]; exact pln
          · simp [Prog.writes, Prog.builds]
          · rw [List.mem_singleton.mp hx]; exact ⟨hsD, c0, hc0⟩
        have hP : ∀ l, Kind.Area .disk w o name l → ¬ Holds' .disk w w o rest l := by
          intro l ha
          rintro (⟨y, hy, m, hm, rfl⟩ | ⟨y, hy, hre⟩)
          · exact Kind.place_not_area ho (lv.sub.plain y hy m hm) pln (fun he => fw.1 y hy (he ▸ hm)) ha
          · exact Kind.area_not_region pln (lv.sub.plainSub y hy) (fw.2 y hy) (.refl w) ha hre
        have n1 := hP _ (Kind.area_place h5 (hsig _ (List.mem_cons_self)).1)
        have n2 := hP _ (Kind.area_place h5 (hsig (D.name ++ ".archive" ++ ".schema") (by simp)).1)
        have a1 : Kind.StepsAway .disk (Holds' .disk w w o rest) w wa := .step (.refl w) (.subdir hr.unborn h5)
        unfold buildArchive
        refine a1.trans (Act.bind_post (R := fun a b => Kind.StepsAway .disk (Holds' .disk w w o rest) a b) Kind.StepsAway.trans
          (aside_builderNew rfl al n1 n2) fun o' w2 h2 => ?_)
        obtain rfl := builderNew_ok h2
        have s2 := aside_builderNew (P := Holds' .disk w w o rest) h2 al n1 n2
        refine run_free inner (free_disk lvi fun ds n hm => hP _ ?_) (ra.steps s2.steps) (s2.steps.alive al)
        obtain ⟨m1, m2⟩ := hm.plain lvi
        change key (join (o : Obj).path name) <+: _
        rw [key_spot ds _ m1 m2, List.append_assoc, hpath]
        exact List.prefix_append _ _
      rw [h1] at s1
      have rd1 : Ready .disk w1 o rest := Ready.after ⟨rd.unused, fun x hx => rd.vacant x (List.mem_cons_of_mem _ hx)⟩ s1
      refine run_advances rest (fun ds n h => hsoft ds n ?_) hg lv.sub (hr.steps s1.steps) (s1.steps.alive ho) c1 rd1 ⟨fun x hx n hn => ?_, rd1.vacant⟩
      · cases h with
        | res hx hs hq => exact .res (prog := .sub name D inner rest) hx hs hq
        | sub hx h => exact .sub (List.mem_cons_of_mem _ hx) h
      · have := s1.keeps.1 o n (.inl ⟨x, hx, _, hn, rfl⟩)
        exact this.medium.trans (em.1 x hx n hn)

/-- While an archive is built, its files go forward. -/
theorem buildArchive_advances {D : ArchiveDef} {prog : Prog} {c : Content} {o : (Kind.backend .disk).Obj} {w : (Kind.backend .disk).W}
    (hsoft : ∀ ds n, SoftAt prog ds n → soft (key (join (ds.foldl join (o : Obj).path) n))) (hs : Separate D) (hc : Prepares p e D prog c)
    (hr : Kind.Reachable .disk w) (ho : Kind.alive .disk w o) (hv : Kind.Vacant .disk D w o) (hcl : Clean w) :
    Advances soft (buildArchive file p e o D prog) w :=
  build_advances hs hc hr ho hv hcl fun _ r1 a1 c1 rd em => run_advances prog hsoft hc.gives (hc.level hs).1 r1 a1 c1 rd em

omit [DiffLib] in
/-- What watching shows: files go forward, towards what is there in the end. -/
theorem Advances.watched {E α : Type} {x : Act FileW E α} {w : FileW} (h : Advances soft x w) (tx : Tame x) (hc : Clean w) {s : View} (hs : Watches s x w) :
    (∀ t t', t ≤ t' → Forward soft (s t).files (s t').files) ∧ ∀ t, Forward soft (s t).files (x w).2.fs.files := by
  obtain ⟨m, h1, h2⟩ := hs
  refine ⟨fun t t' ht => by rw [h2, h2]; exact h _ _ (h1 t t' ht), fun t => ?_⟩
  have := h (m t) ⟨(x w).2.fs.tick + (m t).call + 1, 0⟩ (.inl (by simp only; omega))
  rw [h2]
  refine this.trans ?_
  have e : during x w ⟨(x w).2.fs.tick + (m t).call + 1, 0⟩ = (stoppedAt ⟨(x w).2.fs.tick + (m t).call + 1, 0⟩ (x w).2).fs := by
    unfold during
    rw [tx.before hc (by simp only; omega)]
  rw [e]
  exact .refl _ _

end Flatdata
