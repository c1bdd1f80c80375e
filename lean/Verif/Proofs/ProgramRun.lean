import Verif.Proofs.Program
/-!
# Running a whole building program

`Area` and `Region` describe where the calls for a subarchive may write: on disk below its directory, in memory in storage
objects that are created from now on.
-/
namespace Flatdata
open Spec

variable {k : Kind} {p : Profile} {e : Endian} {o : k.backend.Obj}

namespace Spec.Kind

/-- Places in a subdirectory (on disk), or of storage objects that do not exist yet (memory). -/
def Area : (k : Kind) → k.backend.W → k.backend.Obj → String → k.Place → Prop
  | .memory, a, _, _, l => (a : MemW).next ≤ (l : MemLoc).1
  | .disk, _, o, name, l => key (join (o : Obj).path name) <+: (l : Key)

/-- ... of storage objects created between the two states. -/
def Region : (k : Kind) → k.backend.W → k.backend.W → k.backend.Obj → String → k.Place → Prop
  | .memory, a, b, _, _, l => (a : MemW).next ≤ (l : MemLoc).1 ∧ (l : MemLoc).1 < (b : MemW).next
  | .disk, _, _, o, name, l => key (join (o : Obj).path name) <+: (l : Key)

theorem Steps.next {w w' : (backend memory).W} (h : Steps memory w w') : (w : MemW).next ≤ (w' : MemW).next := by
  induction h with
  | refl => exact Nat.le_refl _
  | step _ s ih => exact Nat.le_trans ih s.mem.1

theorem Area.mono {a b : k.backend.W} {name : String} {l : k.Place} (h : k.Area b o name l) (s : k.Steps a b) : k.Area a o name l := by
  cases k
  · exact Nat.le_trans s.next h
  · exact h

theorem Region.mono {a b c d : k.backend.W} {name : String} {l : k.Place} (h : k.Region b c o name l) (s : k.Steps a b)
    (t : k.Steps c d) : k.Region a d o name l := by
  cases k
  · exact ⟨Nat.le_trans s.next h.1, Nat.lt_of_lt_of_le h.2 t.next⟩
  · exact h

/-- A plain name is not inside a subdirectory. -/
theorem place_not_area {a : k.backend.W} {name n : String} (ho : k.alive a o) (hn : PlainName n) (hm : PlainName name) (h : n ≠ name) :
    ¬ k.Area a o name (k.place o n) := by
  cases k
  · exact Nat.not_le.mpr ho
  · intro ha
    have ha : key (join (o : Obj).path name) <+: key (join (o : Obj).path n) := ha
    rw [key_join_plain _ hn, key_join_plain _ hm] at ha
    obtain ⟨t, ht⟩ := ha
    rw [List.append_assoc] at ht
    have := List.append_cancel_left ht
    cases t with
    | nil =>
      apply h
      have h2 : name.toList = n.toList := by simpa using this
      exact (String.toList_inj.mp h2).symm
    | cons c t => simp at this

theorem place_not_region {a b : k.backend.W} {name n : String} (ho : k.alive a o) (hn : PlainName n) (hm : PlainName name) (h : n ≠ name) :
    ¬ k.Region a b o name (k.place o n) := by
  intro hr
  refine place_not_area ho hn hm h ?_
  cases k
  · exact hr.1
  · exact hr

/-- Different subdirectories. -/
theorem area_not_region {a b c : k.backend.W} {n m : String} {l : k.Place} (hn : PlainName n) (hm : PlainName m) (h : n ≠ m)
    (s : k.Steps b c) (ha : k.Area c o n l) : ¬ k.Region a b o m l := by
  cases k
  · intro hr
    exact absurd (Nat.lt_of_lt_of_le hr.2 (Nat.le_trans s.next ha)) (Nat.lt_irrefl _)
  · intro hr
    have ha : key (join (o : Obj).path n) <+: l := ha
    have hr : key (join (o : Obj).path m) <+: l := hr
    rw [key_join_plain _ hn] at ha
    rw [key_join_plain _ hm] at hr
    obtain ⟨t, rfl⟩ := ha
    obtain ⟨u, hu⟩ := hr
    rw [List.append_assoc, List.append_assoc] at hu
    have := List.append_cancel_left hu
    simp at this
    exact h (String.toList_inj.mp this.1.symm)

variable {o' : k.backend.Obj} {w w1 : k.backend.W} {name : String}

theorem area_place {n : String} (h : k.backend.subdir o name w = (.ok o', w1)) (hn : PlainName n) :
    k.Area w o name (k.place o' n) := by
  cases k
  · cases h; exact Nat.le_refl _
  · cases h
    change key (join (o : Obj).path name) <+: key (join (join (o : Obj).path name) n)
    rw [key_join_plain (join (o : Obj).path name) hn]
    exact ⟨_, rfl⟩

theorem region_place {n : String} {w2 : k.backend.W} (h : k.backend.subdir o name w = (.ok o', w1)) (hn : PlainName n) (s : k.Steps w1 w2) :
    k.Region w w2 o name (k.place o' n) := by
  have ha := area_place h hn
  cases k
  · cases h
    exact ⟨ha, Nat.lt_of_lt_of_le (Nat.lt_succ_self _) s.next⟩
  · exact ha

theorem area_area {w2 : k.backend.W} {m : String} {l : k.Place} (h : k.backend.subdir o name w = (.ok o', w1)) (hm : PlainName m)
    (s : k.Steps w1 w2) (ha : k.Area w2 o' m l) : k.Area w o name l := by
  cases k
  · cases h
    exact Nat.le_trans (Nat.le_succ _) (Nat.le_trans s.next ha)
  · cases h
    have ha : key (join (join (o : Obj).path name) m) <+: l := ha
    rw [key_join_plain _ hm] at ha
    exact (List.prefix_append _ _).trans ha

theorem region_region {w2 w3 : k.backend.W} {m : String} {l : k.Place} (h : k.backend.subdir o name w = (.ok o', w1)) (hm : PlainName m)
    (s : k.Steps w1 w2) (ha : k.Region w2 w3 o' m l) : k.Region w w3 o name l := by
  cases k
  · cases h
    exact ⟨Nat.le_trans (Nat.le_succ _) (Nat.le_trans s.next ha.1), ha.2⟩
  · cases h
    have ha : key (join (join (o : Obj).path name) m) <+: l := ha
    rw [key_join_plain _ hm] at ha
    exact (List.prefix_append _ _).trans ha

theorem place_plain_ne {n m : String} (hn : PlainName n) (hm : PlainName m) (h : n ≠ m) : k.place o n ≠ k.place o m := by
  intro he
  refine k.loc_plain_ne o hn hm h ?_
  cases k <;> exact he

end Spec.Kind

/-! ## one level of a program -/

/-- What is known about the calls on one builder. -/
structure Level (p : Profile) (e : Endian) (prog : Prog) : Prop where
  multi : ∀ x ∈ prog.writes, IndexNamed x.1
  plain : ∀ x ∈ prog.writes, ∀ n ∈ resFiles x.1, PlainName n
  plainSub : ∀ x ∈ prog.builds, PlainName x.1
  apart : (prog.writes.flatMap (fun x => resFiles x.1) ++ prog.builds.map (·.1)).Nodup
  inner : ∀ x ∈ prog.builds, Separate x.2.1 ∧ ∃ c, Prepares p e x.2.1 x.2.2 c

theorem Level.res {r s rest} (h : Level p e (.res r s rest)) : Level p e rest := by
  refine ⟨fun x hx => h.multi x (List.mem_cons_of_mem _ hx), fun x hx => h.plain x (List.mem_cons_of_mem _ hx), h.plainSub, ?_, h.inner⟩
  have := h.apart
  simp only [Prog.writes, Prog.builds, List.flatMap_cons, List.append_assoc] at this
  exact (List.nodup_append.mp this).2.1

theorem Level.sub {name D inner rest} (h : Level p e (.sub name D inner rest)) : Level p e rest := by
  refine ⟨h.multi, h.plain, fun x hx => h.plainSub x (List.mem_cons_of_mem _ hx), ?_, fun x hx => h.inner x (List.mem_cons_of_mem _ hx)⟩
  have := h.apart
  simp only [Prog.writes, Prog.builds, List.map_cons] at this
  exact this.sublist (List.Sublist.append (List.Sublist.refl _) (List.sublist_cons_self _ _))

/-- The names of the archive's own files. -/
theorem files_eq (name schema : String) (rs : List ResDecl) (subs : SubDefs) :
    files (.mk name schema rs subs) = (name ++ ".archive") :: (name ++ ".archive" ++ ".schema") :: rs.flatMap resFiles := rfl

theorem entry_of_mem {optional : Bool} {name n : String} {D D' : ArchiveDef} {rest : SubDefs} :
    (n, D') ∈ SubDefs.entries (.cons name optional D rest) ↔ (n = name ∧ D' = D) ∨ (n, D') ∈ SubDefs.entries rest := by
  simp [SubDefs.entries]

theorem separate_entry : ∀ {subs : SubDefs}, SubsSeparate subs → ∀ x ∈ SubDefs.entries subs, Separate x.2
  | .nil, _, x, hx => by simp [SubDefs.entries] at hx
  | .cons name optional D rest, h, x, hx => by
    unfold SubsSeparate at h
    simp only [SubDefs.entries, List.mem_cons] at hx
    rcases hx with rfl | hx
    · exact h.1
    · exact separate_entry h.2 x hx

theorem prepares_entry {prog : Prog} : ∀ {subs : SubDefs} {ts : SubContents}, SubsPrepare p e subs prog ts →
    ((SubDefs.entries subs).map Prod.fst).Nodup → (prog.builds.map (·.1)).Nodup →
    ∀ x ∈ prog.builds, (x.1, x.2.1) ∈ SubDefs.entries subs → ∃ c, Prepares p e x.2.1 x.2.2 c
  | .nil, .nil, _, _, _, x, _, hm => by simp [SubDefs.entries] at hm
  | .cons name optional D rest, .cons c ts, h, hn, hb, x, hx, hm => by
    unfold SubsPrepare at h
    rw [entry_of_mem] at hm
    simp only [SubDefs.entries, List.map_cons, List.nodup_cons] at hn
    rcases hm with ⟨h1, h2⟩ | hm
    · cases c with
      | none =>
        obtain ⟨a, b, d⟩ := x
        cases h1
        exact absurd hx (h.1.2 _ _)
      | some c =>
        obtain ⟨inner, h3, h4⟩ := h.1
        have : x = (name, D, inner) := by
          refine List.inj_on_of_nodup_map hb hx h3 ?_
          exact h1
        rw [this]
        exact ⟨c, h4⟩
    · exact prepares_entry h.2 hn.2 hb x hx hm
  | .nil, .cons _ _, h, _, _, _, _, _ => by unfold SubsPrepare at h; exact h.elim
  | .cons _ _ _ _, .nil, h, _, _, _, _, _ => by unfold SubsPrepare at h; exact h.elim

theorem gives_index {r : ResDecl} {s : Source} {x : Payload} (h : Gives p e r s x) : IndexNamed r := by
  intro V i hv
  cases s <;> cases x <;> simp only [Gives] at h
  · obtain ⟨S, h, _⟩ := h; rw [h] at hv; cases hv
  · rcases h.1 with ⟨S, h⟩ | h <;> rw [h] at hv <;> cases hv
  · obtain ⟨S, _, h, _⟩ := h; rw [h] at hv; cases hv
  · obtain ⟨V', h, _⟩ := h; rw [h] at hv; cases hv; rfl

theorem prepares_res {prog : Prog} : ∀ {rs : List ResDecl} {cs : List (Option Payload)}, ResPrepare p e prog rs cs →
    ∀ x ∈ prog.writes, x.1 ∈ rs → IndexNamed x.1
  | [], [], _, x, _, hm => by cases hm
  | r :: rs, none :: cs, h, x, hx, hm => by
    rcases List.mem_cons.mp hm with h1 | h1
    · obtain ⟨a, b⟩ := x
      cases h1
      exact absurd hx (h.1.2 _)
    · exact prepares_res h.2 x hx h1
  | r :: rs, some c :: cs, h, x, hx, hm => by
    rcases List.mem_cons.mp hm with h1 | h1
    · obtain ⟨s, _, hg⟩ := h.1
      rw [h1]; exact gives_index hg
    · exact prepares_res h.2 x hx h1
  | [], _ :: _, h, _, _, _ => h.elim
  | _ :: _, [], h, _, _, _ => h.elim

/-- A program that prepares an archive. -/
theorem Spec.Prepares.level {D : ArchiveDef} {prog : Prog} {c : Content} (hs : Separate D) (h : Prepares p e D prog c) :
    Level p e prog ∧ ∀ n ∈ [D.name ++ ".archive", D.name ++ ".archive" ++ ".schema"], PlainName n ∧
      (∀ x ∈ prog.writes, n ∉ resFiles x.1) ∧ ∀ x ∈ prog.builds, n ≠ x.1 := by
  obtain ⟨name, schema, rs, subs⟩ := D
  obtain ⟨cs, ts⟩ := c
  unfold Separate at hs
  unfold Prepares at h
  obtain ⟨hp, hnd, hsub⟩ := hs
  obtain ⟨h1, h2, h3, h4, h5, h6⟩ := h
  rw [files_eq] at hp hnd
  have nd := List.nodup_append.mp hnd
  have nf := nd.1
  rw [List.nodup_cons, List.nodup_cons] at nf
  obtain ⟨nf1, nf2, nf3⟩ := nf
  have nr := List.nodup_flatMap.mp nf3
  have memR : ∀ x ∈ prog.writes, ∀ n ∈ resFiles x.1, n ∈ rs.flatMap resFiles := fun x hx n hn => List.mem_flatMap.mpr ⟨x.1, h3 x hx, hn⟩
  have memF : ∀ x ∈ prog.writes, ∀ n ∈ resFiles x.1,
      n ∈ (name ++ ".archive") :: (name ++ ".archive" ++ ".schema") :: rs.flatMap resFiles := fun x hx n hn =>
    List.mem_cons_of_mem _ (List.mem_cons_of_mem _ (memR x hx n hn))
  have memS : ∀ x ∈ prog.builds, x.1 ∈ (SubDefs.entries subs).map Prod.fst := fun x hx => List.mem_map.mpr ⟨_, h4 x hx, rfl⟩
  refine ⟨⟨prepares_res h5 |> fun f x hx => f x hx (h3 x hx), fun x hx n hn => hp n (List.mem_append_left _ (memF x hx n hn)),
    fun x hx => hp _ (List.mem_append_right _ (memS x hx)), ?_, fun x hx => ⟨separate_entry hsub _ (h4 x hx), ?_⟩⟩, ?_⟩
  · refine List.nodup_append.mpr ⟨List.nodup_flatMap.mpr ⟨fun x hx => nr.1 _ (h3 x hx), ?_⟩, h2, ?_⟩
    · have hpw : prog.writes.Pairwise fun a b => a.1.name ≠ b.1.name := List.pairwise_map.mp h1
      refine hpw.imp_of_mem fun {a b} ha hb hab => ?_
      have hne : a.1 ≠ b.1 := fun he => hab (by rw [he])
      have : Std.Symm (Function.onFun List.Disjoint resFiles) := ⟨fun a b h x hx hy => h hy hx⟩
      exact nr.2.forall (h3 a ha) (h3 b hb) hne
    · intro a ha b hb
      obtain ⟨x, hx, hn⟩ := List.mem_flatMap.mp ha
      obtain ⟨y, hy, rfl⟩ := List.mem_map.mp hb
      exact nd.2.2 a (memF x hx a hn) _ (memS y hy)
  · exact prepares_entry h6 nd.2.1 h2 x hx (h4 x hx)
  · intro n hn
    have hn' : n ∈ (name ++ ".archive") :: (name ++ ".archive" ++ ".schema") :: rs.flatMap resFiles := by
      simp only [List.mem_cons, List.not_mem_nil, or_false] at hn
      rcases hn with rfl | rfl
      · exact List.mem_cons_self
      · exact List.mem_cons_of_mem _ List.mem_cons_self
    refine ⟨hp n (List.mem_append_left _ hn'), fun x hx hm => ?_, fun x hx => nd.2.2 n hn' _ (memS x hx)⟩
    have hm' := memR x hx n hm
    simp only [List.mem_cons, List.not_mem_nil, or_false] at hn
    rcases hn with rfl | rfl
    · exact nf1 (List.mem_cons_of_mem _ hm')
    · exact nf2 hm'

variable [DiffLib]

/-- The places that the calls of a program may concern. -/
def Touch (k : Kind) (a : k.backend.W) (o : k.backend.Obj) (prog : Prog) (l : k.Place) : Prop :=
  (∃ x ∈ prog.writes, ∃ n ∈ resFiles x.1, l = k.place o n) ∨ ∃ x ∈ prog.builds, k.Area a o x.1 l

/-- The places where it has stored something. -/
def Holds' (k : Kind) (a b : k.backend.W) (o : k.backend.Obj) (prog : Prog) (l : k.Place) : Prop :=
  (∃ x ∈ prog.writes, ∃ n ∈ resFiles x.1, l = k.place o n) ∨ ∃ x ∈ prog.builds, k.Region a b o x.1 l

omit [DiffLib] in
theorem Touch.mono {a b : k.backend.W} {prog : Prog} {l : k.Place} (h : Touch k b o prog l) (s : k.Steps a b) : Touch k a o prog l :=
  h.imp id fun ⟨x, hx, ha⟩ => ⟨x, hx, ha.mono s⟩

omit [DiffLib] in
theorem builderNew_ok {D : ArchiveDef} {o1 : k.backend.Obj} {w w' : k.backend.W} (h : builderNew k.backend p e o D w = (.ok o1, w')) :
    o1 = o := by
  unfold builderNew at h
  obtain ⟨_, w1, _, h⟩ := Act.bind_eq_ok h
  cases h; rfl

omit [DiffLib] in
theorem aside_builderNew {D : ArchiveDef} {P : k.Place → Prop} {r} {w w' : k.backend.W} (h : builderNew k.backend p e o D w = (r, w'))
    (ho : k.alive w o) (h1 : ¬ P (k.place o (D.name ++ ".archive"))) (h2 : ¬ P (k.place o (D.name ++ ".archive" ++ ".schema"))) :
    k.StepsAway P w w' := by
  have : Act.Pres (Kind.Aside k o P w) (builderNew k.backend p e o D) :=
    .bind (Kind.aside_createArchive h1 h2) fun _ => .pure _
  have := this w ⟨.refl w, ho⟩
  rw [h] at this
  exact this.1

omit [DiffLib] in
theorem builderSub_ok {D : ArchiveDef} {name : String} {o' : k.backend.Obj} {w w' : k.backend.W}
    (h : builderSub k.backend p e o name D w = (.ok o', w')) :
    ∃ w1, k.backend.subdir o name w = (.ok o', w1) ∧ builderNew k.backend p e o' D w1 = (.ok o', w') := by
  unfold builderSub at h
  obtain ⟨o1, w1, h1, h2⟩ := Act.bind_eq_ok h
  have := builderNew_ok h2
  rw [this] at h2 ⊢
  exact ⟨w1, mapErr_eq_ok h1, h2⟩

/-- A program keeps away from everything that is not its own. -/
theorem run_aside : ∀ (prog : Prog) {o : k.backend.Obj} {w w' : k.backend.W} {P : k.Place → Prop}, Level p e prog → k.Reachable w →
    k.alive w o → prog.run k.backend p e o w = (.ok (), w') → (∀ l, Touch k w o prog l → ¬ P l) → k.StepsAway P w w'
  | .done, o, w, w', P, _, _, _, h, _ => by cases h; exact .refl _
  | .res r s rest, o, w, w', P, lv, hr, ho, h, hP => by
    unfold Prog.run at h
    obtain ⟨_, w1, h1, h2⟩ := Act.bind_eq_ok h
    have a1 := Kind.aside_writeResource (k := k) (o := o) (p := p) (e := e) (P := P) (w0 := w) (s := s) (lv.multi _ List.mem_cons_self)
      (fun n hn => hP _ (.inl ⟨_, List.mem_cons_self, n, hn, rfl⟩)) w ⟨.refl w, ho⟩
    rw [h1] at a1
    refine a1.1.trans (run_aside rest lv.res (hr.steps a1.1.steps) a1.2 h2 fun l hl => hP l ?_)
    rcases hl with ⟨x, hx, hn⟩ | ⟨x, hx, ha⟩
    · exact .inl ⟨x, List.mem_cons_of_mem _ hx, hn⟩
    · exact .inr ⟨x, hx, ha.mono a1.1.steps⟩
  | .sub name D inner rest, o, w, w', P, lv, hr, ho, h, hP => by
    unfold Prog.run at h
    obtain ⟨o', w2, h1, h2⟩ := Act.bind_eq_ok h
    obtain ⟨_, w3, h3, h4⟩ := Act.bind_eq_ok h2
    obtain ⟨w1, h5, h6⟩ := builderSub_ok h1
    have hD := lv.inner _ List.mem_cons_self
    obtain ⟨hs, c, hc⟩ := hD
    obtain ⟨lvi, hsig⟩ := hc.level hs
    have hA : ∀ l, k.Area w o name l → ¬ P l := fun l hl => hP l (.inr ⟨_, List.mem_cons_self, hl⟩)
    obtain ⟨o1, w1', e1, _, al, _⟩ := subdir_spec (o := o) name hr.unborn
    rw [h5] at e1; cases e1
    have s1 : k.StepsAway P w w1 := .step (.refl w) (.subdir hr.unborn h5)
    have s2 : k.StepsAway P w1 w2 := aside_builderNew h6 al
      (hA _ (Kind.area_place h5 (hsig _ (by simp)).1)) (hA _ (Kind.area_place h5 (hsig _ (by simp)).1))
    have r2 := (hr.steps s1.steps).steps s2.steps
    have s3 : k.StepsAway P w2 w3 := by
      refine run_aside inner lvi r2 (s2.steps.alive al) h3 fun l hl => hA l ?_
      rcases hl with ⟨x, hx, n, hn, rfl⟩ | ⟨x, hx, ha⟩
      · exact Kind.area_place h5 (lvi.plain x hx n hn)
      · exact Kind.area_area h5 (lvi.plainSub x hx) s2.steps ha
    have s123 := (s1.trans s2).trans s3
    refine s123.trans (run_aside rest lv.sub (r2.steps s3.steps) (s123.steps.alive ho) h4 fun l hl => hP l ?_)
    rcases hl with ⟨x, hx, hn⟩ | ⟨x, hx, ha⟩
    · exact .inl ⟨x, hx, hn⟩
    · exact .inr ⟨x, List.mem_cons_of_mem _ hx, ha.mono s123.steps⟩

/-! ## what has been built -/

omit [DiffLib] in
theorem dir_keeps {P : k.Place → Prop} {w w' : k.backend.W} {name : String} (h : k.StepsAway P w w')
    (hP : ∀ l, k.Region w w o name l → P l) {ds : List String} {n : String} (hd : ∀ d ∈ ds, PlainName d) (hn : PlainName n) :
    k.dir w' o (name :: ds) n = k.dir w o (name :: ds) n := by
  cases k
  · rfl
  · have key_pre : ∀ (ds : List String) (q : Path), (∀ d ∈ ds, PlainName d) → key q <+: key (ds.foldl join q) := by
      intro ds
      induction ds with
      | nil => intro q _; exact List.prefix_refl _
      | cons d ds ih =>
        intro q hd
        refine List.IsPrefix.trans ?_ (ih (join q d) fun d' h' => hd d' (List.mem_cons_of_mem _ h'))
        rw [key_join_plain q (hd d List.mem_cons_self)]
        exact List.prefix_append _ _
    have hk := (h.keeps).1 ⟨0, ds.foldl join (join (o : Obj).path name)⟩ n (hP _ (by
      change key (join (o : Obj).path name) <+: key (join (ds.foldl join (join (o : Obj).path name)) n)
      rw [key_join_plain _ hn]
      exact (key_pre ds _ hd).trans (List.prefix_append _ _)))
    exact hk.medium

/-- Nothing is in the way of the calls. -/
structure Ready (k : Kind) (w : k.backend.W) (o : k.backend.Obj) (prog : Prog) : Prop where
  unused : ∀ x ∈ prog.writes, ∀ q ∈ parts x.1, k.Unused w o q.1
  vacant : ∀ x ∈ prog.builds, ∀ ds n, (∀ d ∈ ds, PlainName d) → PlainName n → k.dir w o (x.1 :: ds) n = none

omit [DiffLib] in
theorem part_mem_resFiles {r : ResDecl} {q : String × String} (h : q ∈ parts r) : q.1 ∈ resFiles r ∧ q.1 ++ ".schema" ∈ resFiles r := by
  unfold resFiles
  exact ⟨List.mem_flatMap.mpr ⟨q, h, by simp⟩, List.mem_flatMap.mpr ⟨q, h, by simp⟩⟩

/-- The remaining calls stay possible. -/
theorem Ready.after {w w' : k.backend.W} {prog : Prog} (h : Ready k w o prog) (s : k.StepsAway (Holds' k w w o prog) w w') :
    Ready k w' o prog := by
  refine ⟨fun x hx q hq => (h.unused x hx q hq).keeps ?_ ?_, fun x hx ds n hd hn => ?_⟩
  · exact s.keeps.1 o _ (.inl ⟨x, hx, _, (part_mem_resFiles hq).1, rfl⟩)
  · exact s.keeps.1 o _ (.inl ⟨x, hx, _, (part_mem_resFiles hq).2, rfl⟩)
  · rw [dir_keeps s (fun l hl => .inr ⟨x, hx, hl⟩) hd hn]
    exact h.vacant x hx ds n hd hn

omit [DiffLib] in
theorem sig_mem_files (D : ArchiveDef) : D.name ++ ".archive" ∈ files D ∧ D.name ++ ".archive" ++ ".schema" ∈ files D := by
  obtain ⟨name, schema, rs, subs⟩ := D
  rw [files_eq]
  exact ⟨List.mem_cons_self, List.mem_cons_of_mem _ List.mem_cons_self⟩

omit [DiffLib] in
theorem res_mem_files {D : ArchiveDef} {r : ResDecl} (hr : r ∈ D.resources) {n : String} (hn : n ∈ resFiles r) : n ∈ files D := by
  obtain ⟨name, schema, rs, subs⟩ := D
  rw [files_eq]
  exact List.mem_cons_of_mem _ (List.mem_cons_of_mem _ (List.mem_flatMap.mpr ⟨r, hr, hn⟩))

omit [DiffLib] in
theorem Spec.Kind.Vacant.unused {D : ArchiveDef} {w : k.backend.W} (h : k.Vacant D w o) {n : String} (hn : n ∈ files D)
    (hn' : n ++ ".schema" ∈ files D) : k.Unused w o n := by
  have hrep : k.replaceable none := by cases k <;> trivial
  exact ⟨by rw [h.noFiles n hn]; exact hrep, by rw [h.noFiles _ hn']; exact hrep, h.unread _ hn, h.unread _ hn'⟩

omit [DiffLib] in
/-- An empty directory has place for every archive. -/
theorem vacant_of_empty {D : ArchiveDef} {w : k.backend.W} (hs : Separate D)
    (h : ∀ ds n, (∀ d ∈ ds, PlainName d) → PlainName n → k.dir w o ds n = none) (hu : ∀ n, k.unread w o n) : k.Vacant D w o := by
  obtain ⟨name, schema, rs, subs⟩ := D
  unfold Separate at hs
  refine ⟨fun n hn => ?_, fun x hx ds n hd hn => h _ n (fun d hm => ?_) hn, fun n _ => hu n⟩
  · have := h [] n (fun d hd => by cases hd) (hs.1 n (List.mem_append_left _ hn))
    cases k <;> exact this
  · rcases List.mem_cons.mp hm with rfl | hm
    · exact hs.1 _ (List.mem_append_right _ (List.mem_map.mpr ⟨x, hx, rfl⟩))
    · exact hd d hm

/-- The names of this level keep their places apart from a file that is none of them. -/
theorem touch_other {prog : Prog} {w : k.backend.W} (lv : Level p e prog) (ho : k.alive w o) {n : String} (hn : PlainName n)
    (h1 : ∀ x ∈ prog.writes, n ∉ resFiles x.1) (h2 : ∀ x ∈ prog.builds, n ≠ x.1) {l : k.Place} (ht : Touch k w o prog l) :
    l ≠ k.place o n := by
  rcases ht with ⟨x, hx, m, hm, rfl⟩ | ⟨x, hx, ha⟩
  · exact Kind.place_plain_ne (lv.plain x hx m hm) hn fun he => h1 x hx (he ▸ hm)
  · intro he
    rw [he] at ha
    exact Kind.place_not_area ho hn (lv.plainSub x hx) (h2 x hx) ha

/-- ... and from a subdirectory that is none of them. -/
theorem touch_region {prog : Prog} {w : k.backend.W} (lv : Level p e prog) (ho : k.alive w o) {n : String} (hn : PlainName n)
    (h1 : ∀ x ∈ prog.writes, n ∉ resFiles x.1) (h2 : ∀ x ∈ prog.builds, n ≠ x.1) {l : k.Place} (ht : Touch k w o prog l) :
    ¬ k.Region w w o n l := by
  rcases ht with ⟨x, hx, m, hm, rfl⟩ | ⟨x, hx, ha⟩
  · exact Kind.place_not_region ho (lv.plain x hx m hm) hn fun he => h1 x hx (he ▸ hm)
  · exact Kind.area_not_region (lv.plainSub x hx) hn (fun he => h2 x hx he.symm) (.refl w) ha

omit [DiffLib] in
mutual
theorem notStored_of_empty : ∀ {D : ArchiveDef} {dir : Dir}, Separate D →
    (∀ ds n, (∀ d ∈ ds, PlainName d) → PlainName n → dir ds n = none) → NotStored D dir
  | .mk name schema rs subs, dir, hs, h => by
    unfold Separate at hs
    unfold NotStored
    rw [files_eq] at hs
    refine ⟨h [] _ (fun d hd => by cases hd) (hs.1 _ (by simp)), fun r hr q hq => ?_, subsNotStored_of_empty (fun x hx => hs.1 _ ?_) hs.2.2 h⟩
    · refine h [] _ (fun d hd => by cases hd) (hs.1 _ ?_)
      exact List.mem_append_left _ (List.mem_cons_of_mem _ (List.mem_cons_of_mem _ (List.mem_flatMap.mpr ⟨r, hr, (part_mem_resFiles hq).1⟩)))
    · exact List.mem_append_right _ (List.mem_map.mpr ⟨x, hx, rfl⟩)

theorem subsNotStored_of_empty : ∀ {subs : SubDefs} {dir : Dir}, (∀ x ∈ SubDefs.entries subs, PlainName x.1) → SubsSeparate subs →
    (∀ ds n, (∀ d ∈ ds, PlainName d) → PlainName n → dir ds n = none) → SubsNotStored subs dir
  | .nil, _, _, _, _ => by unfold SubsNotStored; trivial
  | .cons name optional D rest, dir, hp, hs, h => by
    unfold SubsSeparate at hs
    unfold SubsNotStored
    refine ⟨notStored_of_empty hs.1 fun ds n hd hn => ?_, subsNotStored_of_empty (fun x hx => hp x ?_) hs.2 h⟩
    · refine h (name :: ds) n (fun d hm => ?_) hn
      rcases List.mem_cons.mp hm with rfl | hm
      · exact hp (d, D) (by simp [SubDefs.entries])
      · exact hd d hm
    · simp only [SubDefs.entries, List.mem_cons]; exact .inr hx
end

/-- What the calls on one builder have achieved, at some later time. -/
structure Achieved (k : Kind) (p : Profile) (e : Endian) (o : k.backend.Obj) (prog : Prog) (w : k.backend.W) : Prop where
  writes : ∀ x ∈ prog.writes, ∀ c, Gives p e x.1 x.2 c → Written k p e o x.1 w c
  builds : ∀ x ∈ prog.builds, ∀ c, Prepares p e x.2.1 x.2.2 c →
    ∃ o' a b, k.backend.subdir o x.1 a = (.ok o', b) ∧ k.Steps b w ∧ Built k p e w x.2.1 o' c

section
variable {name schema : String} {rs : List ResDecl} {subs : SubDefs} {prog : Prog} {w : k.backend.W}

theorem allBuilt_of (ha : Achieved k p e o prog w)
    (hu : ∀ r ∈ rs, (∀ s, (r, s) ∉ prog.writes) → Unwritten k o r w) : ∀ {rs' : List ResDecl} {cs : List (Option Payload)},
    (∀ r ∈ rs', r ∈ rs) → ResPrepare p e prog rs' cs → AllBuilt k p e o w rs' cs
  | [], [], _, _ => trivial
  | r :: rs', none :: cs, hm, h =>
    ⟨⟨h.1.1, hu r (hm r List.mem_cons_self) h.1.2⟩, allBuilt_of ha hu (fun r hr => hm r (List.mem_cons_of_mem _ hr)) h.2⟩
  | r :: rs', some c :: cs, hm, h => by
    obtain ⟨s, h1, h2⟩ := h.1
    exact ⟨ha.writes _ h1 _ h2, allBuilt_of ha hu (fun r hr => hm r (List.mem_cons_of_mem _ hr)) h.2⟩
  | [], _ :: _, _, h => h.elim
  | _ :: _, [], _, h => h.elim

theorem subsBuilt_of (ha : Achieved k p e o prog w)
    (hu : ∀ x ∈ SubDefs.entries subs, (∀ D inner, (x.1, D, inner) ∉ prog.builds) → NotStored x.2 ((k.dir w o).sub x.1)) :
    ∀ {subs' : SubDefs} {ts : SubContents}, (∀ x ∈ SubDefs.entries subs', x ∈ SubDefs.entries subs) → SubsPrepare p e subs' prog ts →
    SubsBuilt k p e w subs' o ts
  | .nil, .nil, _, _ => by unfold SubsBuilt; trivial
  | .cons name optional D rest, .cons none ts, hm, h => by
    unfold SubsPrepare at h
    unfold SubsBuilt
    exact ⟨⟨h.1.1, hu (name, D) (hm _ (by simp [SubDefs.entries])) h.1.2⟩,
      subsBuilt_of ha hu (fun x hx => hm x (by simp only [SubDefs.entries, List.mem_cons]; exact .inr hx)) h.2⟩
  | .cons name optional D rest, .cons (some c) ts, hm, h => by
    unfold SubsPrepare at h
    unfold SubsBuilt
    obtain ⟨inner, h1, h2⟩ := h.1
    exact ⟨ha.builds _ h1 _ h2,
      subsBuilt_of ha hu (fun x hx => hm x (by simp only [SubDefs.entries, List.mem_cons]; exact .inr hx)) h.2⟩
  | .nil, .cons _ _, _, h => by unfold SubsPrepare at h; exact h.elim
  | .cons _ _ _ _, .nil, _, h => by unfold SubsPrepare at h; exact h.elim
end

/-- An archive whose program has run is built. -/
theorem built_of_run {D : ArchiveDef} {prog : Prog} {c : Content} {w0 w1 w' w2 : k.backend.W} {P : k.Place → Prop} (hs : Separate D)
    (hc : Prepares p e D prog c) (hr : k.Reachable w0) (ho : k.alive w0 o) (hv : k.Vacant D w0 o)
    (hb : builderNew k.backend p e o D w0 = (.ok o, w1)) (hrun : prog.run k.backend p e o w1 = (.ok (), w'))
    (s : k.StepsAway P w' w2) (hP1 : ∀ n, PlainName n → P (k.place o n))
    (hP2 : ∀ m l, PlainName m → k.Region w1 w' o m l → P l) (ha : Achieved k p e o prog w2) : Built k p e w2 D o c := by
  obtain ⟨lv, hsig⟩ := hc.level hs
  have sg1 := hsig (D.name ++ ".archive") (by simp)
  have sg2 := hsig (D.name ++ ".archive" ++ ".schema") (by simp)
  have st1 : k.Steps w0 w1 := (aside_builderNew (P := fun _ => False) hb ho id id).steps
  have r1 := hr.steps st1
  have o1 := st1.alive ho
  have st2 : k.Steps w1 w' := (run_aside (P := fun _ => False) prog lv r1 o1 hrun fun _ _ => id).steps
  -- nothing happens to the places of other files
  have other : ∀ n, PlainName n → n ≠ D.name ++ ".archive" → n ≠ D.name ++ ".archive" ++ ".schema" →
      (∀ x ∈ prog.writes, n ∉ resFiles x.1) → (∀ x ∈ prog.builds, n ≠ x.1) → Keeps k.laws w0 w2 (k.laws.loc o n) := by
    intro n hn n1 n2 n3 n4
    have a1 := (aside_builderNew (P := fun l => l = k.place o n) hb ho (Kind.place_plain_ne sg1.1 hn n1.symm)
      (Kind.place_plain_ne sg2.1 hn n2.symm)).keeps.1 o n rfl
    have a2 := (run_aside (P := fun l => l = k.place o n) prog lv r1 o1 hrun fun l ht => touch_other lv o1 hn n3 n4 ht).keeps.1 o n rfl
    exact (a1.trans a2).trans (s.keeps.1 o n (hP1 n hn))
  have otherDir : ∀ x ∈ SubDefs.entries D.subs, ∀ m, m = x.1 → PlainName m → m ≠ D.name ++ ".archive" → m ≠ D.name ++ ".archive" ++ ".schema" →
      (∀ x ∈ prog.writes, m ∉ resFiles x.1) → (∀ x ∈ prog.builds, m ≠ x.1) → ∀ ds n, (∀ d ∈ ds, PlainName d) → PlainName n →
      k.dir w2 o (m :: ds) n = none := by
    rintro x hx m he hm n1 n2 n3 n4 ds n hd hn
    have a1 := dir_keeps (aside_builderNew (P := fun l => k.Region w0 w0 o m l) hb ho (Kind.place_not_region ho sg1.1 hm n1.symm)
      (Kind.place_not_region ho sg2.1 hm n2.symm)) (fun _ h => h) hd hn
    have a2 := dir_keeps (run_aside (P := fun l => k.Region w1 w1 o m l) prog lv r1 o1 hrun
      fun l ht => touch_region lv o1 hm n3 n4 ht) (fun _ h => h) hd hn
    have a3 := dir_keeps (o := o) (name := m) s (fun l hl => by
      refine hP2 m l hm ?_
      cases k
      · exact absurd (Nat.lt_of_lt_of_le hl.2 hl.1) (Nat.lt_irrefl _)
      · exact hl) hd hn
    rw [a3, a2, a1]
    rw [he]
    exact hv.noSubs x hx ds n hd hn
  obtain ⟨name, schema, rs, subs⟩ := D
  obtain ⟨cs, ts⟩ := c
  have hs' := hs
  have hc' := hc
  unfold Separate at hs'
  unfold Prepares at hc'
  obtain ⟨hp, hnd, hsub⟩ := hs'
  obtain ⟨c1, c2, c3, c4, c5, c6⟩ := hc'
  rw [files_eq] at hp hnd
  have nd := List.nodup_append.mp hnd
  have nf := nd.1
  rw [List.nodup_cons, List.nodup_cons] at nf
  obtain ⟨nf1, nf2, nf3⟩ := nf
  have nr := List.nodup_flatMap.mp nf3
  have memR : ∀ r ∈ rs, ∀ n ∈ resFiles r, n ∈ rs.flatMap resFiles := fun r hr n hn => List.mem_flatMap.mpr ⟨r, hr, hn⟩
  unfold Built
  refine ⟨?_, allBuilt_of (rs := rs) ha ?_ (fun _ h => h) c5, subsBuilt_of (subs := subs) ha ?_ (fun _ h => h) c6⟩
  · refine ⟨w0, w1, hr, ho, hv.unused (sig_mem_files _).1 (sig_mem_files _).2, hb, Kind.Quiet.aways (.refl w1) (Kind.StepsAway.trans ?_ (s.mono ?_))⟩
    · refine run_aside prog lv r1 o1 hrun fun l ht => ?_
      rintro (h | h)
      · exact touch_other lv o1 sg1.1 sg1.2.1 sg1.2.2 ht h
      · exact touch_other lv o1 sg2.1 sg2.2.1 sg2.2.2 ht h
    · rintro l (rfl | rfl)
      · exact hP1 _ sg1.1
      · exact hP1 _ sg2.1
  · intro r hr' hnw q hq
    have key : ∀ n ∈ resFiles r, PlainName n ∧ Keeps k.laws w0 w2 (k.laws.loc o n) := by
      intro n hn
      have hin := memR r hr' n hn
      have hpl : PlainName n := hp n (List.mem_append_left _ (List.mem_cons_of_mem _ (List.mem_cons_of_mem _ hin)))
      refine ⟨hpl, other n hpl (fun he => nf1 ?_) (fun he => nf2 ?_) (fun x hx hm => ?_) fun x hx => ?_⟩
      · exact he ▸ List.mem_cons_of_mem _ hin
      · exact he ▸ hin
      · have hne : x.1 ≠ r := by
          rintro rfl
          exact hnw x.2 hx
        have : Std.Symm (Function.onFun List.Disjoint resFiles) := ⟨fun a b h x hx hy => h hy hx⟩
        exact nr.2.forall (c3 x hx) hr' hne hm hn
      · exact nd.2.2 n (List.mem_cons_of_mem _ (List.mem_cons_of_mem _ hin)) _ (List.mem_map.mpr ⟨_, c4 x hx, rfl⟩)
    obtain ⟨k1, k2⟩ := key _ (part_mem_resFiles hq).1
    obtain ⟨k3, k4⟩ := key _ (part_mem_resFiles hq).2
    refine ⟨?_, ?_, ?_⟩
    · have h0 : k.stored w0 o q.1 = none := hv.noFiles _ (res_mem_files hr' (part_mem_resFiles hq).1)
      rw [Kind.stored_eq] at h0 ⊢
      exact k2.medium.trans h0
    · exact (k.unread_iff _ _ _).mpr ((k2.cache _ _ rfl).trans ((k.unread_iff _ _ _).mp (hv.unread _ (res_mem_files hr' (part_mem_resFiles hq).1))))
    · exact (k.unread_iff _ _ _).mpr ((k4.cache _ _ rfl).trans ((k.unread_iff _ _ _).mp (hv.unread _ (res_mem_files hr' (part_mem_resFiles hq).2))))
  · intro x hx hnb
    have hin : x.1 ∈ (SubDefs.entries subs).map Prod.fst := List.mem_map.mpr ⟨x, hx, rfl⟩
    have hpl := hp x.1 (List.mem_append_right _ hin)
    refine notStored_of_empty (separate_entry hsub x hx) fun ds n hd hn => ?_
    refine otherDir x hx x.1 rfl hpl (fun he => ?_) (fun he => ?_) (fun y hy hm => ?_) (fun y hy he => ?_) ds n hd hn
    · exact nd.2.2 _ List.mem_cons_self _ hin he.symm
    · exact nd.2.2 _ (List.mem_cons_of_mem _ List.mem_cons_self) _ hin he.symm
    · exact nd.2.2 _ (List.mem_cons_of_mem _ (List.mem_cons_of_mem _ (memR y.1 (c3 y hy) _ hm))) _ hin rfl
    · exact hnb y.2.1 y.2.2 (by rw [he]; exact hy)

omit [DiffLib] in
theorem Spec.Prepares.mem {D : ArchiveDef} {prog : Prog} {c : Content} (hc : Prepares p e D prog c) :
    (∀ x ∈ prog.writes, x.1 ∈ D.resources) ∧ ∀ x ∈ prog.builds, (x.1, x.2.1) ∈ SubDefs.entries D.subs := by
  obtain ⟨name, schema, rs, subs⟩ := D
  obtain ⟨cs, ts⟩ := c
  unfold Prepares at hc
  exact ⟨hc.2.2.1, hc.2.2.2.1⟩

/-- A vacant place is ready for any program. -/
theorem Spec.Kind.Vacant.ready {D : ArchiveDef} {prog : Prog} {c : Content} {w0 w1 : k.backend.W} (hs : Separate D)
    (hc : Prepares p e D prog c) (ho : k.alive w0 o) (hv : k.Vacant D w0 o) (hb : builderNew k.backend p e o D w0 = (.ok o, w1)) :
    Ready k w1 o prog := by
  obtain ⟨lv, hsig⟩ := hc.level hs
  have sg1 := hsig (D.name ++ ".archive") (by simp)
  have sg2 := hsig (D.name ++ ".archive" ++ ".schema") (by simp)
  have h0 : Ready k w0 o prog := by
    obtain ⟨m1, m2⟩ := hc.mem
    exact ⟨fun x hx q hq => hv.unused (res_mem_files (m1 x hx) (part_mem_resFiles hq).1) (res_mem_files (m1 x hx) (part_mem_resFiles hq).2),
      fun x hx ds n hd hn => hv.noSubs _ (m2 x hx) ds n hd hn⟩
  have out : ∀ n, PlainName n → (∀ x ∈ prog.writes, n ∉ resFiles x.1) → (∀ x ∈ prog.builds, n ≠ x.1) →
      ¬ Holds' k w0 w0 o prog (k.place o n) := by
    rintro n hn h1 h2 (⟨x, hx, m, hm, he⟩ | ⟨x, hx, ha⟩)
    · exact Kind.place_plain_ne hn (lv.plain x hx m hm) (fun h => h1 x hx (h ▸ hm)) he
    · exact Kind.place_not_region ho hn (lv.plainSub x hx) (h2 x hx) ha
  exact h0.after (aside_builderNew hb ho (out _ sg1.1 sg1.2.1 sg1.2.2) (out _ sg2.1 sg2.2.1 sg2.2.2))

/-! ## the first call keeps away from the rest -/

omit [DiffLib] in
theorem Level.apart_res {r s rest} (lv : Level p e (.res r s rest)) :
    ∀ n ∈ resFiles r, (∀ x ∈ rest.writes, n ∉ resFiles x.1) ∧ ∀ x ∈ rest.builds, n ≠ x.1 := by
  have ap := lv.apart
  simp only [Prog.writes, Prog.builds, List.flatMap_cons, List.append_assoc] at ap
  have nd := (List.nodup_append.mp ap).2.2
  intro n hn
  refine ⟨fun x hx hm => nd n hn n (List.mem_append_left _ (List.mem_flatMap.mpr ⟨x, hx, hm⟩)) rfl, fun x hx => ?_⟩
  exact nd n hn _ (List.mem_append_right _ (List.mem_map.mpr ⟨x, hx, rfl⟩))

omit [DiffLib] in
theorem Level.apart_sub {name D inner rest} (lv : Level p e (.sub name D inner rest)) :
    (∀ x ∈ rest.writes, name ∉ resFiles x.1) ∧ ∀ x ∈ rest.builds, name ≠ x.1 := by
  have ap := lv.apart
  simp only [Prog.writes, Prog.builds, List.map_cons] at ap
  have nd := List.nodup_append.mp ap
  refine ⟨fun x hx hm => nd.2.2 name (List.mem_flatMap.mpr ⟨x, hx, hm⟩) name List.mem_cons_self rfl, fun x hx he => ?_⟩
  exact (List.nodup_cons.mp nd.2.1).1 (he ▸ List.mem_map.mpr ⟨x, hx, rfl⟩)

theorem Level.first_res {r s rest} {w w1 : k.backend.W} (lv : Level p e (.res r s rest)) (hr : k.Reachable w) (ho : k.alive w o)
    (h1 : writeResource k.backend p e o r s w = (.ok (), w1)) : k.StepsAway (Holds' k w w o rest) w w1 := by
  have lv1 : Level p e (.res r s .done) := by
    refine ⟨fun x hx => lv.multi x ?_, fun x hx => lv.plain x ?_, fun x hx => (by cases hx), ?_, fun x hx => (by cases hx)⟩
    · rw [List.mem_singleton.mp hx]; exact List.mem_cons_self
    · rw [List.mem_singleton.mp hx]; exact List.mem_cons_self
    · have ap := lv.apart
      simp only [Prog.writes, Prog.builds, List.flatMap_cons, List.append_assoc] at ap
      simp only [Prog.writes, Prog.builds, List.flatMap_cons, List.flatMap_nil, List.append_nil, List.map_nil]
      exact (List.nodup_append.mp ap).1
  have run1 : (Prog.res r s .done).run k.backend p e o w = (.ok (), w1) := by
    unfold Prog.run
    rw [Act.bind_ok h1]; rfl
  have fw := lv.apart_res
  have plr := lv.plain _ List.mem_cons_self
  refine run_aside _ lv1 hr ho run1 ?_
  rintro l (⟨x, hx, n, hn, rfl⟩ | ⟨x, hx, _⟩)
  · obtain rfl := List.mem_singleton.mp hx
    rintro (⟨y, hy, m, hm, he⟩ | ⟨y, hy, hre⟩)
    · exact Kind.place_plain_ne (plr n hn) (lv.res.plain y hy m hm) (fun he => (fw n hn).1 y hy (he ▸ hm)) he
    · exact Kind.place_not_region ho (plr n hn) (lv.res.plainSub y hy) ((fw n hn).2 y hy) hre
  · cases hx

theorem Level.first_sub {name D inner rest} {o' : k.backend.Obj} {w wb wc : k.backend.W} (lv : Level p e (.sub name D inner rest))
    (hr : k.Reachable w) (ho : k.alive w o) (h1 : builderSub k.backend p e o name D w = (.ok o', wb))
    (h3 : inner.run k.backend p e o' wb = (.ok (), wc)) : k.StepsAway (Holds' k w w o rest) w wc := by
  have fw := lv.apart_sub
  have pln : PlainName name := lv.plainSub _ List.mem_cons_self
  have hD := lv.inner _ List.mem_cons_self
  have lv1 : Level p e (.sub name D inner .done) := by
    refine ⟨fun x hx => (by cases hx), fun x hx => (by cases hx), fun x hx => ?_, ?_, fun x hx => ?_⟩
    · rw [List.mem_singleton.mp hx]; exact pln
    · simp [Prog.writes, Prog.builds]
    · rw [List.mem_singleton.mp hx]; exact hD
  have run1 : (Prog.sub name D inner .done).run k.backend p e o w = (.ok (), wc) := by
    unfold Prog.run
    rw [Act.bind_ok h1, Act.bind_ok h3]; rfl
  refine run_aside _ lv1 hr ho run1 ?_
  rintro l (⟨x, hx, _⟩ | ⟨x, hx, ha⟩)
  · cases hx
  · obtain rfl := List.mem_singleton.mp hx
    rintro (⟨y, hy, m, hm, rfl⟩ | ⟨y, hy, hre⟩)
    · exact Kind.place_not_area ho (lv.sub.plain y hy m hm) pln (fun he => fw.1 y hy (he ▸ hm)) ha
    · exact Kind.area_not_region pln (lv.sub.plainSub y hy) (fw.2 y hy) (.refl w) ha hre

/-- A program that has run has achieved what it is for, and still has as long as nobody interferes. -/
theorem run_built : ∀ (prog : Prog) {o : k.backend.Obj} {w w' w2 : k.backend.W} {P : k.Place → Prop}, Level p e prog → k.Reachable w →
    k.alive w o → Ready k w o prog → prog.run k.backend p e o w = (.ok (), w') → k.StepsAway P w' w2 →
    (∀ l, Holds' k w w' o prog l → P l) → Achieved k p e o prog w2
  | .done, o, w, w', w2, P, _, _, _, _, _, _, _ => ⟨fun x hx => (by cases hx), fun x hx => (by cases hx)⟩
  | .res r s rest, o, w, w', w2, P, lv, hr, ho, rd, h, st, hP => by
    unfold Prog.run at h
    obtain ⟨_, w1, h1, h2⟩ := Act.bind_eq_ok h
    have fw := lv.apart_res
    have plr := lv.plain _ List.mem_cons_self
    have s1 := lv.first_res hr ho h1
    have r1 := hr.steps s1.steps
    have o1 := s1.steps.alive ho
    have s2 : k.Steps w1 w' := (run_aside (P := fun _ => False) rest lv.res r1 o1 h2 fun _ _ => id).steps
    have ih := run_built rest lv.res r1 o1
      (Ready.after ⟨fun x hx => rd.unused x (List.mem_cons_of_mem _ hx), rd.vacant⟩ s1) h2 st (fun l hl => hP l (by
        rcases hl with ⟨x, hx, hn⟩ | ⟨x, hx, hre⟩
        · exact .inl ⟨x, List.mem_cons_of_mem _ hx, hn⟩
        · exact .inr ⟨x, hx, hre.mono s1.steps (.refl _)⟩))
    refine ⟨fun x hx c hg => ?_, ih.builds⟩
    rcases List.mem_cons.mp hx with rfl | hx
    · have wr := written_of_run hr ho (rd.unused _ List.mem_cons_self) hg h1
      have s3 : k.StepsAway (fun l => ∃ n ∈ resFiles r, l = k.place o n) w1 w' := by
        refine run_aside rest lv.res r1 o1 h2 fun l ht => ?_
        rintro ⟨n, hn, rfl⟩
        exact touch_other lv.res o1 (plr n hn) (fw n hn).1 (fw n hn).2 ht rfl
      refine (wr.away s3 fun n hn => ⟨n, hn, rfl⟩).away st fun n hn => hP _ (.inl ⟨_, List.mem_cons_self, n, hn, rfl⟩)
    · exact ih.writes x hx c hg
  | .sub name D inner rest, o, w, w', w2, P, lv, hr, ho, rd, h, st, hP => by
    have hrun := h
    unfold Prog.run at h
    obtain ⟨o', wb, h1, h2⟩ := Act.bind_eq_ok h
    obtain ⟨_, wc, h3, h4⟩ := Act.bind_eq_ok h2
    obtain ⟨wa, h5, h6⟩ := builderSub_ok h1
    have fw := lv.apart_sub
    have pln : PlainName name := lv.plainSub _ List.mem_cons_self
    obtain ⟨hsD, c0, hc0⟩ := lv.inner _ List.mem_cons_self
    obtain ⟨lvi, hsig⟩ := hc0.level hsD
    have s1 := lv.first_sub hr ho h1 h3
    obtain ⟨o1, wa', e1, g1, al, hdir, hcache⟩ := subdir_spec (o := o) name hr.unborn
    rw [h5] at e1; cases e1
    have ra := hr.steps g1.steps
    have va : k.Vacant D wa o' := by
      refine vacant_of_empty hsD (fun ds n hd hn => ?_) fun n => (k.unread_iff _ _ _).mpr (hcache n)
      rw [hdir]
      exact rd.vacant _ List.mem_cons_self ds n hd hn
    have sb : k.Steps wa wb := (aside_builderNew (P := fun _ => False) h6 al id id).steps
    have rb := ra.steps sb
    have ab := sb.alive al
    have rdi : Ready k wb o' inner := va.ready hsD hc0 al h6
    have sc : k.Steps wb wc := (run_aside (P := fun _ => False) inner lvi rb ab h3 fun _ _ => id).steps
    have rc := rb.steps sc
    have oc := s1.steps.alive ho
    have s2 : k.StepsAway (k.Region w wc o name) wc w' := by
      refine run_aside rest lv.sub rc oc h4 ?_
      rintro l (⟨x, hx, n, hn, rfl⟩ | ⟨x, hx, ha⟩)
      · exact Kind.place_not_region ho (lv.sub.plain x hx n hn) pln fun he => fw.1 x hx (he ▸ hn)
      · exact Kind.area_not_region (lv.sub.plainSub x hx) pln (fun he => fw.2 x hx he.symm) (.refl wc) ha
    have s3 : k.StepsAway (k.Region w wc o name) wc w2 :=
      s2.trans (st.mono fun l hl => hP l (.inr ⟨_, List.mem_cons_self, hl.mono (.refl w) s2.steps⟩))
    have ihr := run_built rest lv.sub rc oc
      (Ready.after ⟨rd.unused, fun x hx => rd.vacant x (List.mem_cons_of_mem _ hx)⟩ s1) h4 st (fun l hl => hP l (by
        rcases hl with ⟨x, hx, hn⟩ | ⟨x, hx, hre⟩
        · exact .inl ⟨x, hx, hn⟩
        · exact .inr ⟨x, List.mem_cons_of_mem _ hx, hre.mono s1.steps (.refl _)⟩))
    have ihi := run_built inner lvi rb ab rdi h3 s3 (fun l hl => by
      rcases hl with ⟨x, hx, n, hn, rfl⟩ | ⟨x, hx, hre⟩
      · exact Kind.region_place h5 (lvi.plain x hx n hn) (sb.trans sc)
      · exact Kind.region_region h5 (lvi.plainSub x hx) sb hre)
    refine ⟨ihr.writes, fun x hx c hc => ?_⟩
    rcases List.mem_cons.mp hx with rfl | hx
    · refine ⟨o', w, wa, h5, (sb.trans sc).trans s3.steps, ?_⟩
      exact built_of_run hsD hc ra al va h6 h3 s3 (fun n hn => Kind.region_place h5 hn (sb.trans sc))
        (fun m l hm hre => Kind.region_region h5 hm sb hre) ihi
    · exact ihr.builds x hx c hc

/-- The program of a whole archive. -/
theorem buildArchive_built {D : ArchiveDef} {prog : Prog} {c : Content} {w0 w : k.backend.W} (hs : Separate D)
    (hc : Prepares p e D prog c) (hr : k.Reachable w0) (ho : k.alive w0 o) (hv : k.Vacant D w0 o)
    (h : buildArchive k.backend p e o D prog w0 = (.ok (), w)) : Built k p e w D o c := by
  unfold buildArchive at h
  obtain ⟨o1, w1, h1, h2⟩ := Act.bind_eq_ok h
  have ho1 := builderNew_ok h1
  rw [ho1] at h1 h2
  have st1 : k.Steps w0 w1 := (aside_builderNew (P := fun _ => False) h1 ho id id).steps
  obtain ⟨lv, _⟩ := hc.level hs
  have ha := run_built (P := fun _ => True) prog lv (hr.steps st1) (st1.alive ho) (hv.ready hs hc ho h1) h2 (.refl w) fun _ _ => trivial
  exact built_of_run (P := fun _ => True) hs hc hr ho hv h1 h2 (.refl w) (fun _ _ => trivial) (fun _ _ _ _ => trivial) ha

end Flatdata
