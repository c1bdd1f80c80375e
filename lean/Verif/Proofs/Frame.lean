import Verif.Proofs.ProgramRun
/-!
# Running a building program concerns only the files it is meant to write, whether it succeeds or not
-/
namespace Flatdata
open Spec

variable {k : Kind} {p : Profile} {e : Endian} {o : k.backend.Obj}

theorem Act.bind_post {W E α β : Type} {R : W → W → Prop} (ht : ∀ {a b c}, R a b → R b c → R a c) {x : Act W E α} {f : α → Act W E β} {w : W}
    (h1 : R w (x w).2) (h2 : ∀ a w1, x w = (.ok a, w1) → R w1 (f a w1).2) : R w ((x >>= f) w).2 := by
  rw [Act.bind_def]
  split <;> (rename_i heq; rw [heq] at h1)
  · exact ht h1 (h2 _ _ heq)
  all_goals exact h1

/-- The program mentions a file, as a path of subdirectories and a name. -/
inductive Mentions : Prog → List String → String → Prop
  | res {prog x n} (hx : x ∈ prog.writes) (hn : n ∈ resFiles x.1) : Mentions prog [] n
  | sig {prog x n} (hx : x ∈ prog.builds) (hn : n = x.2.1.name ++ ".archive" ∨ n = x.2.1.name ++ ".archive" ++ ".schema") :
      Mentions prog [x.1] n
  | sub {prog x ds n} (hx : x ∈ prog.builds) (h : Mentions x.2.2 ds n) : Mentions prog (x.1 :: ds) n

/-- The program, run with the builder `o` in `w`, does not concern the places `P`. -/
def Free (k : Kind) (P : k.Place → Prop) : Prog → k.backend.W → k.backend.Obj → Prop
  | .done, _, _ => True
  | .res r _ rest, w, o => IndexNamed r ∧ (∀ n ∈ resFiles r, ¬ P (k.place o n)) ∧ Free k P rest w o
  | .sub name D inner rest, w, o =>
    (∀ o' a b, k.Steps w a → k.backend.subdir o name a = (.ok o', b) → ¬ P (k.place o' (D.name ++ ".archive")) ∧
      ¬ P (k.place o' (D.name ++ ".archive" ++ ".schema")) ∧ Free k P inner b o') ∧ Free k P rest w o

theorem Free.mono {P : k.Place → Prop} : ∀ {prog : Prog} {a b : k.backend.W} {o : k.backend.Obj}, Free k P prog a o → k.Steps a b →
    Free k P prog b o
  | .done, _, _, _, _, _ => trivial
  | .res _ _ _, _, _, _, h, s => ⟨h.1, h.2.1, Free.mono h.2.2 s⟩
  | .sub _ _ _ _, _, _, _, h, s => ⟨fun o' c d hs hd => h.1 o' c d (s.trans hs) hd, Free.mono h.2 s⟩

theorem run_free [DiffLib] {P : k.Place → Prop} : ∀ (prog : Prog) {o : k.backend.Obj} {w : k.backend.W}, Free k P prog w o → k.Reachable w →
    k.alive w o → k.StepsAway P w (prog.run k.backend p e o w).2
  | .done, _, w, _, _, _ => .refl w
  | .res r s rest, o, w, h, hr, ho => by
    have a1 := Kind.aside_writeResource (k := k) (o := o) (p := p) (e := e) (P := P) (w0 := w) (s := s) h.1 h.2.1 w ⟨.refl w, ho⟩
    unfold Prog.run
    refine Act.bind_post (R := fun a b => k.StepsAway P a b) Kind.StepsAway.trans a1.1 fun _ w1 h1 => ?_
    rw [h1] at a1
    exact run_free rest (h.2.2.mono a1.1.steps) (hr.steps a1.1.steps) a1.2
  | .sub name D inner rest, o, w, h, hr, ho => by
    obtain ⟨o1, w1, h5, _, al, _⟩ := subdir_spec (o := o) name hr.unborn
    obtain ⟨n1, n2, fi⟩ := h.1 o1 w w1 (.refl w) h5
    have s1 : k.StepsAway P w w1 := .step (.refl w) (.subdir hr.unborn h5)
    have s2 : k.StepsAway P w1 (builderNew k.backend p e o1 D w1).2 := aside_builderNew (P := P) rfl al n1 n2
    have e1 : builderSub k.backend p e o name D w = builderNew k.backend p e o1 D w1 := by
      unfold builderSub
      rw [Act.bind_def]
      unfold Act.mapErr
      rw [h5]
    unfold Prog.run
    refine Act.bind_post (R := fun a b => k.StepsAway P a b) Kind.StepsAway.trans (by rw [e1]; exact s1.trans s2) fun o' w2 h2 => ?_
    rw [e1] at h2
    obtain rfl := builderNew_ok h2
    rw [h2] at s2
    have r2 := (hr.steps s1.steps).steps s2.steps
    have s3 := run_free inner (fi.mono s2.steps) r2 (s2.steps.alive al)
    refine Act.bind_post (R := fun a b => k.StepsAway P a b) Kind.StepsAway.trans s3 fun _ w3 h3 => ?_
    rw [h3] at s3
    have s123 := (s1.trans s2).trans s3
    exact run_free rest (h.2.mono s123.steps) (r2.steps s3.steps) (s123.steps.alive ho)

/-! ## on disk -/

/-- The key of a file. -/
theorem key_spot : ∀ (ds : List String) (q : Path) {n : String}, (∀ d ∈ ds, PlainName d) → PlainName n →
    key (join (ds.foldl join q) n) = key q ++ ds.map String.toList ++ [n.toList]
  | [], q, n, _, hn => by simpa using key_join_plain q hn
  | d :: ds, q, n, hd, hn => by
    rw [List.foldl_cons, key_spot ds (join q d) (fun x hx => hd x (List.mem_cons_of_mem _ hx)) hn, key_join_plain q (hd d List.mem_cons_self)]
    simp

theorem key_spot_inj {ds ds' : List String} {q : Path} {n n' : String} (hd : ∀ d ∈ ds, PlainName d) (hn : PlainName n)
    (hd' : ∀ d ∈ ds', PlainName d) (hn' : PlainName n') (h : key (join (ds.foldl join q) n) = key (join (ds'.foldl join q) n')) :
    ds = ds' ∧ n = n' := by
  rw [key_spot ds q hd hn, key_spot ds' q hd' hn', List.append_assoc, List.append_assoc] at h
  have h := List.append_cancel_left h
  have h2 := congrArg List.getLast? h
  simp only [List.getLast?_append, List.getLast?_singleton, Option.some_or, Option.some.injEq] at h2
  rw [h2] at h
  have h := List.append_cancel_right h
  exact ⟨(List.map_inj_right fun a b hab => String.toList_inj.mp hab).mp h, String.toList_inj.mp h2⟩

theorem Mentions.plain {prog : Prog} {ds : List String} {n : String} (h : Mentions prog ds n) (lv : Level p e prog) :
    (∀ d ∈ ds, PlainName d) ∧ PlainName n := by
  induction h with
  | res hx hn => exact ⟨fun d hd => (by cases hd), lv.plain _ hx _ hn⟩
  | sig hx hn =>
    obtain ⟨hs, c, hc⟩ := lv.inner _ hx
    refine ⟨fun d hd => ?_, ((hc.level hs).2 _ (by simpa using hn)).1⟩
    rw [List.mem_singleton] at hd
    rw [hd]; exact lv.plainSub _ hx
  | sub hx _ ih =>
    obtain ⟨hs, c, hc⟩ := lv.inner _ hx
    obtain ⟨h1, h2⟩ := ih (hc.level hs).1
    refine ⟨fun d hd => ?_, h2⟩
    rcases List.mem_cons.mp hd with rfl | hd
    · exact lv.plainSub _ hx
    · exact h1 d hd

theorem free_disk {P : Key → Prop} : ∀ {prog : Prog} {o : (Kind.backend .disk).Obj} {w : (Kind.backend .disk).W}, Level p e prog →
    (∀ ds n, Mentions prog ds n → ¬ P (key (join (ds.foldl join (o : Obj).path) n))) → Free .disk P prog w o
  | .done, _, _, _, _ => trivial
  | .res r s rest, o, w, lv, h =>
    ⟨lv.multi _ List.mem_cons_self, fun n hn => h [] n (.res (prog := .res r s rest) List.mem_cons_self hn),
      free_disk lv.res fun ds n hm => h ds n (by
        cases hm with
        | res hx hn => exact .res (List.mem_cons_of_mem _ hx) hn
        | sig hx hn => exact .sig (prog := .res r s rest) hx hn
        | sub hx hm => exact .sub (prog := .res r s rest) hx hm)⟩
  | .sub name D inner rest, o, w, lv, h => by
    have hx : (name, D, inner) ∈ (Prog.sub name D inner rest).builds := List.mem_cons_self
    refine ⟨fun o' a b _ hsd => ?_, free_disk lv.sub fun ds n hm => h ds n (by
        cases hm with
        | res hx hn => exact .res (prog := .sub name D inner rest) hx hn
        | sig hx hn => exact .sig (List.mem_cons_of_mem _ hx) hn
        | sub hx hm => exact .sub (List.mem_cons_of_mem _ hx) hm)⟩
    cases hsd
    obtain ⟨hs, c, hc⟩ := lv.inner _ hx
    exact ⟨h [name] _ (.sig hx (.inl rfl)), h [name] _ (.sig hx (.inr rfl)),
      free_disk (hc.level hs).1 fun ds n hm => h (name :: ds) n (.sub hx hm)⟩

/-! ## in memory -/

theorem free_memory_other {P : MemLoc → Prop} : ∀ {prog : Prog} {o : (Kind.backend .memory).Obj} {w : (Kind.backend .memory).W}, Level p e prog →
    (∀ l, P l → l.1 < (o : Obj).id) → Kind.alive .memory w o → Free .memory P prog w o
  | .done, _, _, _, _, _ => trivial
  | .res r s rest, o, w, lv, h, ho =>
    ⟨lv.multi _ List.mem_cons_self, fun n _ hp => absurd (h _ hp) (Nat.lt_irrefl _), free_memory_other lv.res h ho⟩
  | .sub name D inner rest, o, w, lv, h, ho => by
    refine ⟨fun o' a b hst hsd => ?_, free_memory_other lv.sub h ho⟩
    have hlt := hst.alive ho
    have hn : (w : MemW).next ≤ (a : MemW).next := hst.next
    cases hsd
    have h' : ∀ l, P l → l.1 < (a : MemW).next := fun l hp => Nat.lt_trans (h l hp) hlt
    obtain ⟨hs, c, hc⟩ := lv.inner (name, D, inner) List.mem_cons_self
    exact ⟨fun hp => absurd (h' _ hp) (Nat.lt_irrefl _), fun hp => absurd (h' _ hp) (Nat.lt_irrefl _),
      free_memory_other (hc.level hs).1 h' (Nat.lt_succ_self _)⟩

theorem free_memory {P : MemLoc → Prop} : ∀ {prog : Prog} {o : (Kind.backend .memory).Obj} {w : (Kind.backend .memory).W}, Level p e prog →
    (∀ l, P l → l.1 = (o : Obj).id) → (∀ n, Mentions prog [] n → ¬ P (Kind.place .memory o n)) → Kind.alive .memory w o →
    Free .memory P prog w o
  | .done, _, _, _, _, _, _ => trivial
  | .res r s rest, o, w, lv, hP, h, ho =>
    ⟨lv.multi _ List.mem_cons_self, fun n hn => h n (.res (prog := .res r s rest) List.mem_cons_self hn),
      free_memory lv.res hP (fun n hm => h n (by
        cases hm with
        | res hx hn => exact .res (List.mem_cons_of_mem _ hx) hn)) ho⟩
  | .sub name D inner rest, o, w, lv, hP, h, ho => by
    refine ⟨fun o' a b hst hsd => ?_, free_memory lv.sub hP (fun n hm => h n (by
        cases hm with
        | res hx hn => exact .res (prog := .sub name D inner rest) hx hn)) ho⟩
    have hlt := hst.alive ho
    cases hsd
    have h' : ∀ l, P l → l.1 < (a : MemW).next := fun l hp => by rw [hP l hp]; exact hlt
    obtain ⟨hs, c, hc⟩ := lv.inner (name, D, inner) List.mem_cons_self
    exact ⟨fun hp => absurd (h' _ hp) (Nat.lt_irrefl _), fun hp => absurd (h' _ hp) (Nat.lt_irrefl _),
      free_memory_other (hc.level hs).1 h' (Nat.lt_succ_self _)⟩

/-! ## files -/

/-- A program changes no file that it does not mention. -/
theorem run_dir [DiffLib] {prog : Prog} {w : k.backend.W} (lv : Level p e prog) (hr : k.Reachable w) (ho : k.alive w o) {ds : List String}
    {n : String} (hd : ∀ d ∈ ds, PlainName d) (hn : PlainName n) (h : ¬ Mentions prog ds n) :
    k.dir (prog.run k.backend p e o w).2 o ds n = k.dir w o ds n := by
  cases k
  · cases ds with
    | cons d ds => rfl
    | nil =>
      have := run_free (p := p) (e := e) (P := fun l => l = Kind.place .memory o n) prog
        (free_memory lv (fun l hl => by rw [hl]; rfl) (fun m hm he => by
          refine h ?_
          by_cases hmn : m = n
          · rw [← hmn]; exact hm
          · exact absurd he (Kind.place_plain_ne (hm.plain lv).2 hn hmn)) ho) hr ho
      have := (this.keeps).1 o n rfl
      exact this.medium
  · have := run_free (p := p) (e := e) (P := fun l => l = key (join (ds.foldl join (o : Obj).path) n)) prog
      (free_disk lv fun ds' n' hm he => by
        obtain ⟨h1, h2⟩ := hm.plain lv
        obtain ⟨rfl, rfl⟩ := key_spot_inj h1 h2 hd hn he
        exact h hm) hr ho
    have := (this.keeps).1 ⟨0, ds.foldl join (o : Obj).path⟩ n rfl
    exact this.medium

/-- ... nor does creating a builder. -/
theorem builderNew_dir {D : ArchiveDef} {w : k.backend.W} (ho : k.alive w o) (h1 : PlainName (D.name ++ ".archive"))
    (h2 : PlainName (D.name ++ ".archive" ++ ".schema")) {ds : List String} {n : String} (hd : ∀ d ∈ ds, PlainName d) (hn : PlainName n)
    (h : ¬ (ds = [] ∧ (n = D.name ++ ".archive" ∨ n = D.name ++ ".archive" ++ ".schema"))) :
    k.dir (builderNew k.backend p e o D w).2 o ds n = k.dir w o ds n := by
  cases k
  · cases ds with
    | cons d ds => rfl
    | nil =>
      have := aside_builderNew (P := fun l => l = Kind.place .memory o n) (rfl : builderNew (Kind.backend .memory) p e o D w = _) ho
        (fun he => Kind.place_plain_ne h1 hn (fun hh => h ⟨rfl, .inl hh.symm⟩) he)
        (fun he => Kind.place_plain_ne h2 hn (fun hh => h ⟨rfl, .inr hh.symm⟩) he)
      exact ((this.keeps).1 o n rfl).medium
  · have hne : ∀ m, PlainName m → (m = D.name ++ ".archive" ∨ m = D.name ++ ".archive" ++ ".schema") →
        ¬ (Kind.place .disk o m = key (join (ds.foldl join (o : Obj).path) n)) := by
      intro m hm hs he
      obtain ⟨h1, h2⟩ := key_spot_inj (ds := []) (fun d hd => by cases hd) hm hd hn he
      exact h ⟨h1.symm, by rw [← h2]; exact hs⟩
    have := aside_builderNew (P := fun l => l = key (join (ds.foldl join (o : Obj).path) n))
      (rfl : builderNew (Kind.backend .disk) p e o D w = _) ho (hne _ h1 (.inl rfl)) (hne _ h2 (.inr rfl))
    exact ((this.keeps).1 ⟨0, ds.foldl join (o : Obj).path⟩ n rfl).medium

/-! ## what is mentioned is listed -/

theorem allListing_mem {prog : Prog} : ∀ {rs : List ResDecl} {cs : List (Option Payload)}, ResPrepare p e prog rs cs →
    ∀ x ∈ prog.writes, x.1 ∈ rs → ∃ s c, Gives p e x.1 s c ∧ ∀ y ∈ resListing x.1 (some c), y ∈ allListing rs cs
  | [], [], _, x, _, hm => by cases hm
  | r :: rs, none :: cs, h, x, hx, hm => by
    rcases List.mem_cons.mp hm with h1 | h1
    · obtain ⟨a, b⟩ := x
      cases h1
      exact absurd hx (h.1.2 _)
    · exact allListing_mem h.2 x hx h1
  | r :: rs, some c :: cs, h, x, hx, hm => by
    rcases List.mem_cons.mp hm with h1 | h1
    · obtain ⟨s, _, hg⟩ := h.1
      rw [h1]
      exact ⟨s, c, hg, fun y hy => List.mem_append_left _ hy⟩
    · obtain ⟨s, c', hg, hy⟩ := allListing_mem h.2 x hx h1
      exact ⟨s, c', hg, fun y hm => List.mem_append_right _ (hy y hm)⟩
  | [], _ :: _, h, _, _, _ => h.elim
  | _ :: _, [], h, _, _, _ => h.elim

theorem mem_filesOf {name schema n : String} {x : Bytes} (h : n = name ∨ n = name ++ ".schema") : ∃ b, ([], n, b) ∈ filesOf name schema x := by
  rcases h with rfl | rfl
  · exact ⟨_, .head _⟩
  · exact ⟨_, .tail _ (.head _)⟩

theorem resListing_mem {r : ResDecl} {s : Source} {c : Payload} (hg : Gives p e r s c) {n : String} (hn : n ∈ resFiles r) :
    ∃ b, ([], n, b) ∈ resListing r (some c) := by
  have one : ∀ {b}, (∀ V i, r.type ≠ .multi V i) → ∃ b', ([], n, b') ∈ filesOf r.name r.schema b := by
    intro b hr
    unfold resFiles at hn
    rw [parts_of_one hr] at hn
    exact mem_filesOf (by simpa using hn)
  cases s <;> cases c <;> simp only [Gives] at hg
  · obtain ⟨S, h, _⟩ := hg; exact one fun V i hv => by rw [h] at hv; cases hv
  · rcases hg.1 with ⟨S, h⟩ | h <;> exact one fun V i hv => by rw [h] at hv; cases hv
  · obtain ⟨S, _, h, _⟩ := hg; exact one fun V i hv => by rw [h] at hv; cases hv
  · obtain ⟨V, h, _⟩ := hg
    unfold resFiles at hn
    rw [parts_of_multi h] at hn
    unfold resListing
    simp only [h]
    have hn : (n = r.name ++ "_index" ∨ n = r.name ++ "_index" ++ ".schema") ∨ (n = r.name ∨ n = r.name ++ ".schema") := by
      simp only [List.flatMap_cons, List.flatMap_nil, List.append_nil, List.mem_append, List.mem_cons, List.not_mem_nil, or_false] at hn
      exact hn
    rcases hn with hn | hn
    · obtain ⟨b, hb⟩ := mem_filesOf (schema := "index(" ++ r.schema ++ ")") hn
      exact ⟨b, List.mem_append_left _ hb⟩
    · obtain ⟨b, hb⟩ := mem_filesOf (schema := r.schema) hn
      exact ⟨b, List.mem_append_right _ hb⟩

theorem subsListing_mem {prog : Prog} : ∀ {subs : SubDefs} {ts : SubContents}, SubsPrepare p e subs prog ts →
    ((SubDefs.entries subs).map Prod.fst).Nodup → (prog.builds.map (·.1)).Nodup →
    ∀ x ∈ prog.builds, (x.1, x.2.1) ∈ SubDefs.entries subs → ∃ c, Prepares p e x.2.1 x.2.2 c ∧
      ∀ y ∈ listing x.2.1 c, (x.1 :: y.1, y.2) ∈ subsListing subs ts
  | .nil, .nil, _, _, _, x, _, hm => by simp [SubDefs.entries] at hm
  | .cons name optional D rest, .cons c ts, h, hn, hb, x, hx, hm => by
    unfold SubsPrepare at h
    rw [entry_of_mem] at hm
    simp only [SubDefs.entries, List.map_cons, List.nodup_cons] at hn
    rcases hm with ⟨h1, h2⟩ | hm
    · cases c with
      | none =>
        obtain ⟨a, b, d⟩ := x
        cases h1
        exact absurd hx (h.1.2 _ _)
      | some c =>
        obtain ⟨inner, h3, h4⟩ := h.1
        have : x = (name, D, inner) := List.inj_on_of_nodup_map hb hx h3 h1
        rw [this]
        refine ⟨c, h4, fun y hy => ?_⟩
        unfold subsListing
        exact List.mem_append_left _ (List.mem_map.mpr ⟨y, hy, rfl⟩)
    · obtain ⟨c', h3, h4⟩ := subsListing_mem h.2 hn.2 hb x hx hm
      refine ⟨c', h3, fun y hy => ?_⟩
      unfold subsListing
      exact List.mem_append_right _ (h4 y hy)
  | .nil, .cons _ _, h, _, _, _, _, _ => by unfold SubsPrepare at h; exact h.elim
  | .cons _ _ _ _, .nil, h, _, _, _, _, _ => by unfold SubsPrepare at h; exact h.elim

theorem sig_listed (D : ArchiveDef) (c : Content) {n : String} (h : n = D.name ++ ".archive" ∨ n = D.name ++ ".archive" ++ ".schema") :
    ∃ b, ([], n, b) ∈ listing D c := by
  obtain ⟨name, schema, rs, subs⟩ := D
  obtain ⟨cs, ts⟩ := c
  obtain ⟨b, hb⟩ := mem_filesOf (schema := schema) (x := []) h
  unfold listing
  exact ⟨b, List.mem_append_left _ (List.mem_append_left _ hb)⟩

theorem Mentions.listed {prog : Prog} {ds : List String} {n : String} (h : Mentions prog ds n) : ∀ {D : ArchiveDef} {c : Content},
    Separate D → Prepares p e D prog c → ∃ b, (ds, n, b) ∈ listing D c := by
  induction h with
  | @res prog x n hx hn =>
    rintro ⟨name, schema, rs, subs⟩ ⟨cs, ts⟩ hs hc
    unfold Prepares at hc
    obtain ⟨s, c, hg, hy⟩ := allListing_mem hc.2.2.2.2.1 x hx (hc.2.2.1 x hx)
    obtain ⟨b, hb⟩ := resListing_mem hg hn
    unfold listing
    exact ⟨b, List.mem_append_left _ (List.mem_append_right _ (hy _ hb))⟩
  | @sig prog x n hx hn =>
    rintro ⟨name, schema, rs, subs⟩ ⟨cs, ts⟩ hs hc
    unfold Prepares at hc
    have nd := (List.nodup_append.mp hs.2.1).2.1
    obtain ⟨c, _, hy⟩ := subsListing_mem hc.2.2.2.2.2 nd hc.2.1 x hx (hc.2.2.2.1 x hx)
    obtain ⟨b, hb⟩ := sig_listed x.2.1 c hn
    unfold listing
    exact ⟨b, List.mem_append_right _ (hy _ hb)⟩
  | @sub prog x ds n hx _ ih =>
    rintro ⟨name, schema, rs, subs⟩ ⟨cs, ts⟩ hs hc
    unfold Prepares at hc
    have nd := (List.nodup_append.mp hs.2.1).2.1
    obtain ⟨c, hp, hy⟩ := subsListing_mem hc.2.2.2.2.2 nd hc.2.1 x hx (hc.2.2.2.1 x hx)
    obtain ⟨b, hb⟩ := ih (separate_entry hs.2.2 _ (hc.2.2.2.1 x hx)) hp
    unfold listing
    exact ⟨b, List.mem_append_right _ (hy _ hb)⟩

/-- Building an archive changes no other files, whether it succeeds or not. -/
theorem buildArchive_dir [DiffLib] {D : ArchiveDef} {prog : Prog} {c : Content} {w : k.backend.W} (hs : Separate D) (hc : Prepares p e D prog c)
    (hr : k.Reachable w) (ho : k.alive w o) {ds : List String} {n : String} (hd : ∀ d ∈ ds, PlainName d) (hn : PlainName n)
    (h : ∀ b, (ds, n, b) ∉ listing D c) : k.dir (buildArchive k.backend p e o D prog w).2 o ds n = k.dir w o ds n := by
  obtain ⟨lv, hsig⟩ := hc.level hs
  have h1 := builderNew_dir (p := p) (e := e) (D := D) ho (hsig _ (by simp)).1 (hsig _ (by simp)).1 hd hn (fun ⟨h1, h2⟩ => by
    obtain ⟨b, hb⟩ := sig_listed D c h2
    exact h b (by rw [h1]; exact hb))
  unfold buildArchive
  refine Act.bind_post (R := fun a b => k.dir b o ds n = k.dir a o ds n) (fun h1 h2 => h2.trans h1) h1 fun o1 w1 hb => ?_
  obtain rfl := builderNew_ok hb
  have st := aside_builderNew (P := fun _ => False) hb ho id id
  refine run_dir lv (hr.steps st.steps) (st.steps.alive ho) hd hn fun hm => ?_
  obtain ⟨b, hb⟩ := hm.listed hs hc
  exact h b hb

end Flatdata
