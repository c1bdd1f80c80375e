import Verif.Proofs.Interrupt
/-!
# What is left of an archive when the program building it is interrupted
-/
namespace Flatdata
open Spec

variable {p : Profile} {e : Endian}

/-- What is left of a resource that was to get a content. -/
def ResLeft (soft : ResDecl → Prop) (dir : String → Option Bytes) (r : ResDecl) : Option Payload → Prop
  | none => ∀ q ∈ parts r, dir q.1 = none
  | some (.bytes b) => (∀ V i, r.type ≠ .multi V i) ∧ PartLeft (soft r) (dir r.name) (dir (r.name ++ ".schema")) b r.schema
  | some (.items xss) => ∃ V, r.type = .multi V (r.name ++ "_index") ∧ Shows V ⟨indexBytes V.indexSize xss, encodeItems xss⟩ xss ∧
      PartLeft (soft r) (dir (r.name ++ "_index")) (dir (r.name ++ "_index" ++ ".schema")) (indexBytes V.indexSize xss)
        ("index(" ++ r.schema ++ ")") ∧
      PartLeft (soft r) (dir r.name) (dir (r.name ++ ".schema")) (encodeItems xss) r.schema

/-- ... of all resources. -/
def AllLeft (soft : ResDecl → Prop) (dir : String → Option Bytes) : List ResDecl → List (Option Payload) → Prop
  | [], [] => True
  | r :: rs, c :: cs => ResLeft soft dir r c ∧ AllLeft soft dir rs cs
  | _, _ => False

mutual
/-- ... of an archive. -/
def Left (soft : ResDecl → Prop) : ArchiveDef → Dir → Content → Prop
  | .mk name schema rs subs, dir, .mk cs ts =>
    PartLeft False (dir [] (name ++ ".archive")) (dir [] (name ++ ".archive" ++ ".schema")) [] schema ∧ AllLeft soft (dir []) rs cs ∧ SubsLeft soft subs dir ts

/-- ... of subarchives. -/
def SubsLeft (soft : ResDecl → Prop) : SubDefs → Dir → SubContents → Prop
  | .nil, _, .nil => True
  | .cons name _ D rest, dir, .cons c ts =>
    (match c with
      | some c => Left soft D (dir.sub name) c
      | none => NotStored D (dir.sub name)) ∧ SubsLeft soft rest dir ts
  | _, _, _ => False
end

/-! ## other directories with the same files -/

theorem ResLeft.congr {soft : ResDecl → Prop} {dir dir' : String → Option Bytes} {r : ResDecl} {c : Option Payload} (h : ResLeft soft dir r c)
    (hd : ∀ n ∈ resFiles r, dir' n = dir n) : ResLeft soft dir' r c := by
  match c, h with
  | none, h => exact fun q hq => (hd _ (part_mem_resFiles hq).1).trans (h q hq)
  | some (.bytes b), h =>
    refine ⟨h.1, ?_⟩
    have hq := part_mem_resFiles (q := (r.name, r.schema)) (r := r) (by rw [parts_of_one h.1]; simp)
    rw [hd _ hq.1, hd _ hq.2]
    exact h.2
  | some (.items xss), ⟨V, h1, h2, h3, h4⟩ =>
    have hp := parts_of_multi h1
    refine ⟨V, h1, h2, ?_, ?_⟩
    · have hq := part_mem_resFiles (q := (r.name ++ "_index", "index(" ++ r.schema ++ ")")) (r := r) (by rw [hp]; simp)
      rw [hd _ hq.1, hd _ hq.2]; exact h3
    · have hq := part_mem_resFiles (q := (r.name, r.schema)) (r := r) (by rw [hp]; simp)
      rw [hd _ hq.1, hd _ hq.2]; exact h4

theorem AllLeft.congr {soft : ResDecl → Prop} {dir dir' : String → Option Bytes} : ∀ {rs : List ResDecl} {cs : List (Option Payload)},
    AllLeft soft dir rs cs → (∀ r ∈ rs, ∀ n ∈ resFiles r, dir' n = dir n) → AllLeft soft dir' rs cs
  | [], [], _, _ => trivial
  | r :: _, _ :: _, h, hd => ⟨h.1.congr (hd r List.mem_cons_self), AllLeft.congr h.2 fun r hr => hd r (List.mem_cons_of_mem _ hr)⟩
  | [], _ :: _, h, _ => h.elim
  | _ :: _, [], h, _ => h.elim

/-- The same files. -/
def SameDir (dir dir' : Dir) : Prop := ∀ ds n, (∀ d ∈ ds, PlainName d) → PlainName n → dir' ds n = dir ds n

theorem SameDir.sub {dir dir' : Dir} (h : SameDir dir dir') {name : String} (hn : PlainName name) : SameDir (dir.sub name) (dir'.sub name) := by
  intro ds n hd hp
  refine h (name :: ds) n (fun d hm => ?_) hp
  rcases List.mem_cons.mp hm with rfl | hm
  · exact hn
  · exact hd d hm

theorem plain_nil : ∀ d ∈ ([] : List String), PlainName d := fun d hd => by cases hd

theorem part_plain {name schema : String} {rs : List ResDecl} {subs : SubDefs} (hs : Separate (.mk name schema rs subs)) {r : ResDecl}
    (hr : r ∈ rs) {n : String} (hn : n ∈ resFiles r) : PlainName n := by
  unfold Separate at hs
  rw [files_eq] at hs
  exact hs.1 _ (List.mem_append_left _ (List.mem_cons_of_mem _ (List.mem_cons_of_mem _ (List.mem_flatMap.mpr ⟨r, hr, hn⟩))))

theorem sig_plain {name schema : String} {rs : List ResDecl} {subs : SubDefs} (hs : Separate (.mk name schema rs subs)) :
    PlainName (name ++ ".archive") ∧ PlainName (name ++ ".archive" ++ ".schema") := by
  unfold Separate at hs
  rw [files_eq] at hs
  exact ⟨hs.1 _ (by simp), hs.1 _ (by simp)⟩

theorem sub_plain {name schema : String} {rs : List ResDecl} {subs : SubDefs} (hs : Separate (.mk name schema rs subs)) :
    ∀ x ∈ SubDefs.entries subs, PlainName x.1 := by
  unfold Separate at hs
  exact fun x hx => hs.1 _ (List.mem_append_right _ (List.mem_map.mpr ⟨x, hx, rfl⟩))

mutual
theorem NotStored.congr : ∀ {D : ArchiveDef} {dir dir' : Dir}, NotStored D dir → Separate D → SameDir dir dir' → NotStored D dir'
  | .mk _ _ _ _, dir, dir', h, hs, hd => by
    unfold NotStored at h ⊢
    refine ⟨(hd [] _ plain_nil (sig_plain hs).1).trans h.1, fun r hr q hq => ?_, SubsNotStored.congr h.2.2 (sub_plain hs) hs.2.2 hd⟩
    exact (hd [] _ plain_nil (part_plain hs hr (part_mem_resFiles hq).1)).trans (h.2.1 r hr q hq)

theorem SubsNotStored.congr : ∀ {D : SubDefs} {dir dir' : Dir}, SubsNotStored D dir → (∀ x ∈ SubDefs.entries D, PlainName x.1) →
    SubsSeparate D → SameDir dir dir' → SubsNotStored D dir'
  | .nil, _, _, _, _, _, _ => by unfold SubsNotStored; trivial
  | .cons name _ D rest, dir, dir', h, hp, hs, hd => by
    unfold SubsNotStored at h ⊢
    unfold SubsSeparate at hs
    refine ⟨NotStored.congr h.1 hs.1 (hd.sub (hp (name, D) (by simp [SubDefs.entries]))), SubsNotStored.congr h.2 (fun x hx => hp x ?_) hs.2 hd⟩
    simp only [SubDefs.entries, List.mem_cons]; exact .inr hx
end

mutual
theorem Left.congr {soft : ResDecl → Prop} : ∀ {D : ArchiveDef} {dir dir' : Dir} {c : Content}, Left soft D dir c → Separate D → SameDir dir dir' →
    Left soft D dir' c
  | .mk _ _ _ _, dir, dir', .mk _ _, h, hs, hd => by
    unfold Left at h ⊢
    refine ⟨?_, h.2.1.congr fun r hr n hn => hd [] _ plain_nil (part_plain hs hr hn),
      SubsLeft.congr h.2.2 (sub_plain hs) hs.2.2 hd⟩
    rw [hd [] _ plain_nil (sig_plain hs).1, hd [] _ plain_nil (sig_plain hs).2]; exact h.1

theorem SubsLeft.congr {soft : ResDecl → Prop} : ∀ {D : SubDefs} {dir dir' : Dir} {c : SubContents}, SubsLeft soft D dir c →
    (∀ x ∈ SubDefs.entries D, PlainName x.1) → SubsSeparate D → SameDir dir dir' → SubsLeft soft D dir' c
  | .nil, _, _, .nil, _, _, _, _ => by unfold SubsLeft; trivial
  | .cons name _ D rest, dir, dir', .cons c ts, h, hp, hs, hd => by
    unfold SubsLeft at h ⊢
    unfold SubsSeparate at hs
    refine ⟨?_, SubsLeft.congr h.2 (fun x hx => hp x (by simp only [SubDefs.entries, List.mem_cons]; exact .inr hx)) hs.2 hd⟩
    have hd' := hd.sub (hp (name, D) (by simp [SubDefs.entries]))
    match c, h.1 with
    | some c, h1 => exact Left.congr h1 hs.1 hd'
    | none, h1 => exact NotStored.congr h1 hs.1 hd'
  | .nil, _, _, .cons _ _, h, _, _, _ => by unfold SubsLeft at h; exact h.elim
  | .cons _ _ _ _, _, _, .nil, h, _, _, _ => by unfold SubsLeft at h; exact h.elim
end

/-! ## one archive -/

/-- What is left of the resources and subarchives of a program. -/
structure Rests (soft : ResDecl → Prop) (p : Profile) (e : Endian) (dir : Dir) (prog : Prog) : Prop where
  writes : ∀ x ∈ prog.writes, ∀ c, Gives p e x.1 x.2 c → ResLeft soft (dir []) x.1 (some c)
  builds : ∀ x ∈ prog.builds, ∀ c, Prepares p e x.2.1 x.2.2 c → Left soft x.2.1 (dir.sub x.1) c

section
variable {soft : ResDecl → Prop} {dir : Dir} {prog : Prog}

theorem allLeft_of {rs : List ResDecl} (ha : Rests soft p e dir prog)
    (hu : ∀ r ∈ rs, (∀ s, (r, s) ∉ prog.writes) → ∀ q ∈ parts r, dir [] q.1 = none) : ∀ {rs' : List ResDecl} {cs : List (Option Payload)},
    (∀ r ∈ rs', r ∈ rs) → ResPrepare p e prog rs' cs → AllLeft soft (dir []) rs' cs
  | [], [], _, _ => trivial
  | r :: rs', none :: cs, hm, h =>
    ⟨hu r (hm r List.mem_cons_self) h.1.2, allLeft_of ha hu (fun r hr => hm r (List.mem_cons_of_mem _ hr)) h.2⟩
  | r :: rs', some c :: cs, hm, h => by
    obtain ⟨s, h1, h2⟩ := h.1
    exact ⟨ha.writes _ h1 _ h2, allLeft_of ha hu (fun r hr => hm r (List.mem_cons_of_mem _ hr)) h.2⟩
  | [], _ :: _, _, h => h.elim
  | _ :: _, [], _, h => h.elim

theorem subsLeft_of {subs : SubDefs} (ha : Rests soft p e dir prog)
    (hu : ∀ x ∈ SubDefs.entries subs, (∀ D inner, (x.1, D, inner) ∉ prog.builds) → NotStored x.2 (dir.sub x.1)) :
    ∀ {subs' : SubDefs} {ts : SubContents}, (∀ x ∈ SubDefs.entries subs', x ∈ SubDefs.entries subs) → SubsPrepare p e subs' prog ts →
    SubsLeft soft subs' dir ts
  | .nil, .nil, _, _ => by unfold SubsLeft; trivial
  | .cons name optional D rest, .cons none ts, hm, h => by
    unfold SubsPrepare at h
    unfold SubsLeft
    exact ⟨hu (name, D) (hm _ (by simp [SubDefs.entries])) h.1.2,
      subsLeft_of ha hu (fun x hx => hm x (by simp only [SubDefs.entries, List.mem_cons]; exact .inr hx)) h.2⟩
  | .cons name optional D rest, .cons (some c) ts, hm, h => by
    unfold SubsPrepare at h
    unfold SubsLeft
    obtain ⟨inner, h1, h2⟩ := h.1
    exact ⟨ha.builds _ h1 _ h2,
      subsLeft_of ha hu (fun x hx => hm x (by simp only [SubDefs.entries, List.mem_cons]; exact .inr hx)) h.2⟩
  | .nil, .cons _ _, _, h => by unfold SubsPrepare at h; exact h.elim
  | .cons _ _ _ _, .nil, _, h => by unfold SubsPrepare at h; exact h.elim

/-- An archive of which a program has written some parts. -/
theorem left_of {D : ArchiveDef} {c : Content} (hs : Separate D) (hc : Prepares p e D prog c) (ha : Rests soft p e dir prog)
    (hsig : PartLeft False (dir [] (D.name ++ ".archive")) (dir [] (D.name ++ ".archive" ++ ".schema")) [] D.schema)
    (other : ∀ ds n, OwnFile D ds n → (∀ d ∈ ds, PlainName d) → PlainName n → ¬ Mentions prog ds n →
      ¬ (ds = [] ∧ (n = D.name ++ ".archive" ∨ n = D.name ++ ".archive" ++ ".schema")) → dir ds n = none) : Left soft D dir c := by
  obtain ⟨name, schema, rs, subs⟩ := D
  obtain ⟨cs, ts⟩ := c
  have hs' := hs
  have hc' := hc
  unfold Separate at hs'
  unfold Prepares at hc'
  obtain ⟨hp, hnd, hsub⟩ := hs'
  obtain ⟨c1, c2, c3, c4, c5, c6⟩ := hc'
  rw [files_eq] at hp hnd
  have nd := List.nodup_append.mp hnd
  have nf := nd.1
  rw [List.nodup_cons, List.nodup_cons] at nf
  obtain ⟨nf1, nf2, nf3⟩ := nf
  have nr := List.nodup_flatMap.mp nf3
  unfold Left
  refine ⟨hsig, allLeft_of (rs := rs) ha ?_ (fun _ h => h) c5, subsLeft_of (subs := subs) ha ?_ (fun _ h => h) c6⟩
  · intro r hr hnw q hq
    have hn := (part_mem_resFiles hq).1
    have hin : q.1 ∈ rs.flatMap resFiles := List.mem_flatMap.mpr ⟨r, hr, hn⟩
    refine other [] q.1 (.inl ⟨rfl, res_mem_files hr hn⟩) plain_nil (part_plain hs hr hn) (fun hm => ?_) ?_
    · generalize hds : ([] : List String) = ds at hm
      cases hm with
      | @res _ x _ hx hn' =>
        have hne : x.1 ≠ r := by
          rintro rfl
          exact hnw x.2 hx
        have : Std.Symm (Function.onFun List.Disjoint resFiles) := ⟨fun a b h x hx hy => h hy hx⟩
        exact nr.2.forall (c3 x hx) hr hne hn' hn
      | sig => cases hds
      | sub => cases hds
    · rintro ⟨_, he | he⟩
      · exact nf1 (he ▸ List.mem_cons_of_mem _ hin)
      · exact nf2 (he ▸ hin)
  · intro x hx hnb
    have hpl := sub_plain hs x hx
    refine notStored_of_empty (separate_entry hsub x hx) fun ds n hd hn => ?_
    refine other (x.1 :: ds) n (.inr ⟨x, hx, ds, rfl⟩) (fun d hm => ?_) hn (fun hm => ?_) fun h => (by cases h.1)
    · rcases List.mem_cons.mp hm with rfl | hm
      · exact hpl
      · exact hd d hm
    · generalize hds : x.1 :: ds = ds' at hm
      cases hm with
      | res => cases hds
      | @sig _ y _ hy _ =>
        have he := (List.cons.inj hds).1
        exact hnb y.2.1 y.2.2 (by rw [he]; exact hy)
      | @sub _ y _ _ hy _ =>
        have he := (List.cons.inj hds).1
        exact hnb y.2.1 y.2.2 (by rw [he]; exact hy)

end

/-! ## one resource -/

theorem dir_stored (k : Kind) (w : k.backend.W) (o : k.backend.Obj) (n : String) : k.dir w o [] n = k.stored w o n := by
  cases k <;> rfl

/-- Nothing of it is there. -/
theorem resLeft_empty {soft : ResDecl → Prop} {dir : String → Option Bytes} {r : ResDecl} {s : Source} {c : Payload} (hg : Gives p e r s c)
    (hd : ∀ n ∈ resFiles r, dir n = none) : ResLeft soft dir r (some c) := by
  have part : ∀ {P : Prop} {b : Bytes} {q : String × String}, q ∈ parts r → PartLeft P (dir q.1) (dir (q.1 ++ ".schema")) b q.2 := fun hq => by
    rw [hd _ (part_mem_resFiles hq).1, hd _ (part_mem_resFiles hq).2]
    exact partLeft_none _ _ _
  have one : ∀ {b}, (∀ V i, r.type ≠ .multi V i) → ResLeft soft dir r (some (.bytes b)) := fun h =>
    ⟨h, part (q := (r.name, r.schema)) (by rw [parts_of_one h]; simp)⟩
  cases s <;> cases c <;> try simp only [Gives] at hg
  · obtain ⟨S, h, _⟩ := hg; exact one fun V i hv => by rw [h] at hv; cases hv
  · rcases hg.1 with ⟨S, h⟩ | h <;> exact one fun V i hv => by rw [h] at hv; cases hv
  · obtain ⟨S, _, h, _⟩ := hg; exact one fun V i hv => by rw [h] at hv; cases hv
  · have hg' := hg
    obtain ⟨V, h, _⟩ := hg
    have hp := parts_of_multi h
    exact ⟨V, h, gives_shows hg' h, part (q := (r.name ++ "_index", "index(" ++ r.schema ++ ")")) (by rw [hp]; simp),
      part (q := (r.name, r.schema)) (by rw [hp]; simp)⟩

variable [DiffLib]

/-- The calls that write a resource, however they end. -/
theorem writeResource_left {k : Kind} {o : k.backend.Obj} {soft : ResDecl → Prop} {r : ResDecl} {s : Source} {c : Payload} {w : k.backend.W}
    (hsoft : (∃ es, s = .elements es) ∨ (∃ its, s = .items its) → soft r) (hg : Gives p e r s c)
    (hu : ∀ q ∈ parts r, k.Unused w o q.1) (hn : ∀ n ∈ resFiles r, k.stored w o n = none) :
    ResLeft soft (k.stored (writeResource k.backend p e o r s w).2 o) r (some c) := by
  have one : (∀ V i, r.type ≠ .multi V i) → k.Unused w o r.name ∧ k.stored w o r.name = none ∧
      k.stored w o (r.name ++ ".schema") = none := fun h => by
    have hm : (r.name, r.schema) ∈ parts r := by rw [parts_of_one h]; simp
    exact ⟨hu _ hm, hn _ (part_mem_resFiles hm).1, hn _ (part_mem_resFiles hm).2⟩
  cases s <;> cases c <;> try simp only [Gives] at hg
  · obtain ⟨S, h, hb, hl, rfl⟩ := hg
    have hm : ∀ V i, r.type ≠ .multi V i := fun V i hv => by rw [h] at hv; cases hv
    refine ⟨hm, ?_⟩
    unfold writeResource
    simp only [h]
    rw [mapErr_snd]
    unfold setStruct
    rw [if_neg (by omega)]
    exact write_left (by simp; omega) (one hm).1 (one hm).2.1 (one hm).2.2
  · rcases hg with ⟨⟨S, h⟩ | h, hb, rfl⟩
    · have hm : ∀ V i, r.type ≠ .multi V i := fun V i hv => by rw [h] at hv; cases hv
      refine ⟨hm, ?_⟩
      unfold writeResource
      simp only [h]
      rw [mapErr_snd]
      exact write_left hb (one hm).1 (one hm).2.1 (one hm).2.2
    · have hm : ∀ V i, r.type ≠ .multi V i := fun V i hv => by rw [h] at hv; cases hv
      refine ⟨hm, ?_⟩
      unfold writeResource
      simp only [h]
      rw [mapErr_snd]
      exact write_left hb (one hm).1 (one hm).2.1 (one hm).2.2
  · obtain ⟨S, xs, h, hs, hx, hb, rfl⟩ := hg
    have hm : ∀ V i, r.type ≠ .multi V i := fun V i hv => by rw [h] at hv; cases hv
    exact ⟨hm, elements_left (hsoft (.inl ⟨_, rfl⟩)) h hs hx hb (one hm).1 (one hm).2.1 (one hm).2.2⟩
  · have hg' := hg
    obtain ⟨V, h, _⟩ := hg
    have hp := parts_of_multi h
    have hI : (r.name ++ "_index", "index(" ++ r.schema ++ ")") ∈ parts r := by rw [hp]; simp
    have hD : (r.name, r.schema) ∈ parts r := by rw [hp]; simp
    obtain ⟨h1, h2, h3⟩ := items_left (hsoft (.inr ⟨_, rfl⟩)) hg' h ⟨hu _ hD, hu _ hI⟩ (hn _ (part_mem_resFiles hD).1) (hn _ (part_mem_resFiles hI).1)
      (hn _ (part_mem_resFiles hD).2) (hn _ (part_mem_resFiles hI).2)
    exact ⟨V, h, h3, h1, h2⟩


/-! ## programs -/

/-- Nothing is stored at the places of a program. -/
def EmptyFor (dir : Dir) (prog : Prog) : Prop :=
  (∀ x ∈ prog.writes, ∀ n ∈ resFiles x.1, dir [] n = none) ∧
  ∀ x ∈ prog.builds, ∀ ds n, (∀ d ∈ ds, PlainName d) → PlainName n → dir (x.1 :: ds) n = none

omit [DiffLib] in
theorem EmptyFor.rests {soft : ResDecl → Prop} : ∀ {prog : Prog} {dir : Dir}, Level p e prog → EmptyFor dir prog → Rests soft p e dir prog
  | .done, _, _, _ => ⟨fun x hx => (by cases hx), fun x hx => (by cases hx)⟩
  | .res r s rest, dir, lv, h => by
    have ih := EmptyFor.rests (soft := soft) lv.res ⟨fun x hx => h.1 x (List.mem_cons_of_mem _ hx), h.2⟩
    refine ⟨fun x hx c hg => ?_, ih.builds⟩
    exact resLeft_empty hg fun q hq => h.1 x hx q hq
  | .sub name D inner rest, dir, lv, h => by
    have ih := EmptyFor.rests (soft := soft) lv.sub ⟨h.1, fun x hx => h.2 x (List.mem_cons_of_mem _ hx)⟩
    refine ⟨ih.writes, fun x hx c hc => ?_⟩
    rcases List.mem_cons.mp hx with rfl | hx
    · have hs := (lv.inner _ List.mem_cons_self).1
      have he := h.2 _ List.mem_cons_self
      obtain ⟨lvi, hsig⟩ := hc.level hs
      refine left_of hs hc (EmptyFor.rests lvi ⟨fun x hx q hq => ?_, fun x hx ds n hd hn => ?_⟩) ?_ fun ds n _ hd hn _ _ => he ds n hd hn
      · exact he [] _ plain_nil (lvi.plain x hx _ hq)
      · refine he (x.1 :: ds) n (fun d hm => ?_) hn
        rcases List.mem_cons.mp hm with rfl | hm
        · exact lvi.plainSub x hx
        · exact hd d hm
      · have : dir.sub name [] (D.name ++ ".archive") = none := he [] _ plain_nil (hsig _ (by simp)).1
        have this' : dir.sub name [] (D.name ++ ".archive" ++ ".schema") = none := he [] _ plain_nil (hsig _ (by simp)).1
        rw [this, this']
        exact partLeft_none _ _ _
    · exact ih.builds x hx c hc

omit [DiffLib] in
/-- The signature of an archive, however creating the builder ends. -/
theorem signature_left {k : Kind} {o : k.backend.Obj} {D : ArchiveDef} {w : k.backend.W} (hu : k.Unused w o (D.name ++ ".archive"))
    (hn : k.stored w o (D.name ++ ".archive") = none) (hn' : k.stored w o (D.name ++ ".archive" ++ ".schema") = none) :
    PartLeft False (k.stored (builderNew k.backend p e o D w).2 o (D.name ++ ".archive"))
      (k.stored (builderNew k.backend p e o D w).2 o (D.name ++ ".archive" ++ ".schema")) [] D.schema := by
  unfold builderNew Storage.createArchive
  rw [pure_snd]
  have hx : ∀ r w', k.backend.existsRes o D.signature w = (r, w') → k.Unused w' o (D.name ++ ".archive") ∧
      k.stored w' o (D.name ++ ".archive") = none ∧ k.stored w' o (D.name ++ ".archive" ++ ".schema") = none := by
    intro r w' h
    have s1 : k.StepAway (k.Own o D.signature) w w' := .exists_ h
    have kp := (Kind.StepAway.keeps s1).1
    refine ⟨hu.keeps (kp o _ (.inl rfl)) (kp o _ (.inr rfl)), ?_, ?_⟩
    · rw [Kind.stored_eq] at hn ⊢
      exact (kp o _ (.inl rfl)).medium.trans hn
    · rw [Kind.stored_eq] at hn' ⊢
      exact (kp o _ (.inr rfl)).medium.trans hn'
  obtain ⟨r, w', h⟩ : ∃ r w', k.backend.existsRes o D.signature w = (r, w') := ⟨_, _, rfl⟩
  obtain ⟨u', n', m'⟩ := hx r w' h
  rw [Act.bind_def]
  unfold Act.mapErr
  rw [h]
  cases r with
  | ok b =>
    cases b with
    | true =>
      change PartLeft False (k.stored w' o _) (k.stored w' o _) [] _
      rw [n', m']; exact partLeft_none _ _ _
    | false =>
      change PartLeft False (k.stored ((Storage.write k.backend p e o D.signature D.schema []).mapErr _ w').2 o _)
        (k.stored ((Storage.write k.backend p e o D.signature D.schema []).mapErr _ w').2 o _) [] _
      rw [mapErr_snd]
      exact write_left (by decide) u' n' m'
  | err x => cases x
  | panic => change PartLeft False (k.stored w' o _) (k.stored w' o _) [] _; rw [n', m']; exact partLeft_none _ _ _
  | ub => change PartLeft False (k.stored w' o _) (k.stored w' o _) [] _; rw [n', m']; exact partLeft_none _ _ _

theorem left_build {soft : ResDecl → Prop} {D : ArchiveDef} {prog : Prog} {c : Content} {o : (Kind.backend .disk).Obj}
    {w : (Kind.backend .disk).W} (hs : Separate D) (hc : Prepares p e D prog c) (hr : Kind.Reachable .disk w) (ho : Kind.alive .disk w o)
    (hv : Kind.Vacant .disk D w o)
    (ih : ∀ w1, Kind.Reachable .disk w1 → Kind.alive .disk w1 o → Ready .disk w1 o prog → EmptyFor (Kind.dir .disk w1 o) prog →
      Rests soft p e (Kind.dir .disk (prog.run (Kind.backend .disk) p e o w1).2 o) prog) :
    Left soft D (Kind.dir .disk (buildArchive (Kind.backend .disk) p e o D prog w).2 o) c := by
  obtain ⟨lv, hsig⟩ := hc.level hs
  have sg1 := hsig (D.name ++ ".archive") (by simp)
  have sg2 := hsig (D.name ++ ".archive" ++ ".schema") (by simp)
  obtain ⟨mm1, mm2⟩ := hc.mem
  have hd1 : ∀ ds n, OwnFile D ds n → (∀ d ∈ ds, PlainName d) → PlainName n →
      ¬ (ds = [] ∧ (n = D.name ++ ".archive" ∨ n = D.name ++ ".archive" ++ ".schema")) →
      Kind.dir .disk (builderNew (Kind.backend .disk) p e o D w).2 o ds n = none := fun ds n hw hd hn h =>
    (builderNew_dir (p := p) (e := e) ho sg1.1 sg2.1 hd hn h).trans (by
      rcases hw with ⟨rfl, hw⟩ | ⟨x, hx, t, rfl⟩
      · rw [dir_stored]; exact hv.noFiles n hw
      · exact hv.noSubs x hx t n (fun d h => hd d (List.mem_cons_of_mem _ h)) hn)
  have hsg : PartLeft False (Kind.dir .disk (builderNew (Kind.backend .disk) p e o D w).2 o [] (D.name ++ ".archive"))
      (Kind.dir .disk (builderNew (Kind.backend .disk) p e o D w).2 o [] (D.name ++ ".archive" ++ ".schema")) [] D.schema := by
    rw [dir_stored, dir_stored]
    exact signature_left (hv.unused (sig_mem_files _).1 (sig_mem_files _).2) (hv.noFiles _ (sig_mem_files _).1) (hv.noFiles _ (sig_mem_files _).2)
  have hem : EmptyFor (Kind.dir .disk (builderNew (Kind.backend .disk) p e o D w).2 o) prog := by
    refine ⟨fun x hx q hq => ?_, fun x hx ds n hd hn => ?_⟩
    · have hm := hq
      refine hd1 [] _ (.inl ⟨rfl, res_mem_files (mm1 x hx) hm⟩) plain_nil (lv.plain x hx _ hm) ?_
      rintro ⟨_, h | h⟩
      · exact sg1.2.1 x hx (h ▸ hm)
      · exact sg2.2.1 x hx (h ▸ hm)
    · refine hd1 (x.1 :: ds) n (.inr ⟨_, mm2 x hx, ds, rfl⟩) (fun d hm => ?_) hn fun h => (by cases h.1)
      rcases List.mem_cons.mp hm with rfl | hm
      · exact lv.plainSub x hx
      · exact hd d hm
  unfold buildArchive
  by_cases hok : ∃ o1 w1, builderNew (Kind.backend .disk) p e o D w = (.ok o1, w1)
  · obtain ⟨o1, w1, h1⟩ := hok
    obtain rfl := builderNew_ok h1
    have rd := hv.ready hs hc ho h1
    rw [Act.bind_ok h1]
    rw [h1] at hd1 hsg hem
    have st := (aside_builderNew (P := fun _ => False) h1 ho id id).steps
    have r1 := hr.steps st
    have a1 := st.alive ho
    have hsame : ∀ ds n, (∀ d ∈ ds, PlainName d) → PlainName n → ¬ Mentions prog ds n →
        Kind.dir .disk (prog.run (Kind.backend .disk) p e o1 w1).2 o1 ds n = Kind.dir .disk w1 o1 ds n := fun ds n hd hn h =>
      run_dir lv r1 a1 hd hn h
    refine left_of hs hc (ih w1 r1 a1 rd hem) ?_ fun ds n hw hd hn hm hns => (hsame ds n hd hn hm).trans (hd1 ds n hw hd hn hns)
    have not : ∀ n, (∀ x ∈ prog.writes, n ∉ resFiles x.1) → ¬ Mentions prog [] n := fun n hx hm => by
      generalize hds : ([] : List String) = ds at hm
      cases hm with
      | @res _ x _ hx' hn => exact hx x hx' hn
      | sig => cases hds
      | sub => cases hds
    rw [hsame [] _ plain_nil sg1.1 (not _ sg1.2.1), hsame [] _ plain_nil sg2.1 (not _ sg2.2.1)]
    exact hsg
  · rw [bind_snd_of_not_ok fun a b h => hok ⟨a, b, h⟩]
    exact left_of hs hc (hem.rests lv) hsg fun ds n hw hd hn _ hns => hd1 ds n hw hd hn hns

theorem run_left {soft : ResDecl → Prop} : ∀ (prog : Prog) {o : (Kind.backend .disk).Obj} {w : (Kind.backend .disk).W},
    (∀ r, Staged prog r → soft r) → Level p e prog → Kind.Reachable .disk w → Kind.alive .disk w o → Ready .disk w o prog →
    EmptyFor (Kind.dir .disk w o) prog → Rests soft p e (Kind.dir .disk (prog.run (Kind.backend .disk) p e o w).2 o) prog
  | .done, _, _, _, _, _, _, _, _ => ⟨fun x hx => (by cases hx), fun x hx => (by cases hx)⟩
  | .res r s rest, o, w, hsoft, lv, hr, ho, rd, em => by
    have fw := lv.apart_res
    have plr := lv.plain _ List.mem_cons_self
    have s1 := Kind.aside_writeResource (k := .disk) (o := o) (p := p) (e := e) (P := Holds' .disk w w o rest) (w0 := w) (s := s)
      (lv.multi _ List.mem_cons_self) (fun n hn => by
        rintro (⟨y, hy, m, hm, he⟩ | ⟨y, hy, hre⟩)
        · exact Kind.place_plain_ne (plr n hn) (lv.res.plain y hy m hm) (fun he => (fw n hn).1 y hy (he ▸ hm)) he
        · exact Kind.place_not_region ho (plr n hn) (lv.res.plainSub y hy) ((fw n hn).2 y hy) hre) w ⟨.refl w, ho⟩
    have hX : ∀ c, Gives p e r s c → ResLeft soft (Kind.dir .disk (writeResource (Kind.backend .disk) p e o r s w).2 o []) r (some c) := by
      intro c hg
      have := writeResource_left (k := .disk) (soft := soft) (w := w) (fun h => ?_) hg (rd.unused _ List.mem_cons_self)
        (fun q hq => by rw [← dir_stored]; exact em.1 _ List.mem_cons_self q hq)
      · exact this
      · refine hsoft r ?_
        rcases h with ⟨es, rfl⟩ | ⟨its, rfl⟩
        · exact .elements (prog := .res r _ rest) List.mem_cons_self
        · exact .items (prog := .res r _ rest) List.mem_cons_self
    have rd1 : Ready .disk (writeResource (Kind.backend .disk) p e o r s w).2 o rest :=
      Ready.after ⟨fun x hx => rd.unused x (List.mem_cons_of_mem _ hx), rd.vacant⟩ s1.1
    have em1 : EmptyFor (Kind.dir .disk (writeResource (Kind.backend .disk) p e o r s w).2 o) rest := by
      refine ⟨fun x hx q hq => ?_, rd1.vacant⟩
      have := s1.1.keeps.1 o q (.inl ⟨x, hx, _, hq, rfl⟩)
      exact this.medium.trans (em.1 x (List.mem_cons_of_mem _ hx) q hq)
    have hsoft' : ∀ r, Staged rest r → soft r := fun r' h => hsoft r' (by
      cases h with
      | elements h => exact .elements (List.mem_cons_of_mem _ h)
      | items h => exact .items (List.mem_cons_of_mem _ h)
      | sub h hs => exact .sub (prog := .res r s rest) h hs)
    unfold Prog.run
    by_cases hok : ∃ w1, writeResource (Kind.backend .disk) p e o r s w = (.ok (), w1)
    · obtain ⟨w1, h1⟩ := hok
      rw [Act.bind_ok h1]
      rw [h1] at s1 hX rd1 em1
      have r1 := hr.steps s1.1.steps
      have ih := run_left rest hsoft' lv.res r1 s1.2 rd1 em1
      refine ⟨fun x hx c hg => ?_, ih.builds⟩
      rcases List.mem_cons.mp hx with rfl | hx
      · refine (hX c hg).congr fun q hq => run_dir lv.res r1 s1.2 plain_nil (plr _ hq) fun hm => ?_
        generalize hds : ([] : List String) = ds at hm
        cases hm with
        | @res _ x _ hx hn => exact (fw _ hq).1 x hx hn
        | sig => cases hds
        | sub => cases hds
      · exact ih.writes x hx c hg
    · rw [bind_snd_of_not_ok fun a b h => hok ⟨b, h⟩]
      have ih := em1.rests (soft := soft) lv.res
      refine ⟨fun x hx c hg => ?_, ih.builds⟩
      rcases List.mem_cons.mp hx with rfl | hx
      · exact hX c hg
      · exact ih.writes x hx c hg
  | .sub name D inner rest, o, w, hsoft, lv, hr, ho, rd, em => by
    have fw := lv.apart_sub
    have pln : PlainName name := lv.plainSub _ List.mem_cons_self
    obtain ⟨hsD, c0, hc0⟩ := lv.inner _ List.mem_cons_self
    obtain ⟨lvi, hsig⟩ := hc0.level hsD
    obtain ⟨o1, wa, h5, g1, al, hdir, hcache⟩ := subdir_spec (k := .disk) (o := o) name hr.unborn
    have ra := hr.steps g1.steps
    have va : Kind.Vacant .disk D wa o1 := by
      refine vacant_of_empty hsD (fun ds n hd hn => ?_) fun n => (Kind.unread_iff .disk _ _ _).mpr (hcache n)
      rw [hdir]
      exact rd.vacant _ List.mem_cons_self ds n hd hn
    have hsofti : ∀ r, Staged inner r → soft r := fun r h => hsoft r (.sub (prog := .sub name D inner rest) List.mem_cons_self h)
    have hsoft' : ∀ r, Staged rest r → soft r := fun r' h => hsoft r' (by
      cases h with
      | elements h => exact .elements (prog := .sub name D inner rest) h
      | items h => exact .items (prog := .sub name D inner rest) h
      | sub h hs => exact .sub (List.mem_cons_of_mem _ h) hs)
    have hb : ∀ c, Prepares p e D inner c → Left soft D (Kind.dir .disk (buildArchive (Kind.backend .disk) p e o1 D inner wa).2 o1) c :=
      fun c hc => left_build hsD hc ra al va fun w1 r1 a1 rd1 em1 => run_left inner hsofti lvi r1 a1 rd1 em1
    have e0 : (Prog.sub name D inner rest).run (Kind.backend .disk) p e o w =
        (buildArchive (Kind.backend .disk) p e o1 D inner >>= fun _ => rest.run (Kind.backend .disk) p e o) wa := by
      have e1 : builderSub (Kind.backend .disk) p e o name D w = builderNew (Kind.backend .disk) p e o1 D wa := by
        unfold builderSub
        rw [Act.bind_def]
        unfold Act.mapErr
        rw [h5]
      rw [show (Prog.sub name D inner rest).run (Kind.backend .disk) p e o = (builderSub (Kind.backend .disk) p e o name D >>= fun o' =>
        inner.run (Kind.backend .disk) p e o' >>= fun _ => rest.run (Kind.backend .disk) p e o) from rfl]
      unfold buildArchive
      rw [Act.bind_def, e1, Act.bind_def, Act.bind_def]
      generalize builderNew (Kind.backend .disk) p e o1 D wa = x
      obtain ⟨x, wx⟩ := x
      cases x <;> rfl
    -- the first part
    have s1 : Kind.StepsAway .disk (Holds' .disk w w o rest) w (buildArchive (Kind.backend .disk) p e o1 D inner wa).2 := by
      have lv1 : Level p e (.sub name D inner .done) := by
        refine ⟨fun x hx => (by cases hx), fun x hx => (by cases hx), fun x hx => ?_, ?_, fun x hx => ?_⟩
        · rw [List.mem_singleton.mp hx]; exact pln
        · simp [Prog.writes, Prog.builds]
        · rw [List.mem_singleton.mp hx]; exact ⟨hsD, c0, hc0⟩
      have hP : ∀ l, Kind.Area .disk w o name l → ¬ Holds' .disk w w o rest l := by
        intro l ha
        rintro (⟨y, hy, m, hm, rfl⟩ | ⟨y, hy, hre⟩)
        · exact Kind.place_not_area ho (lv.sub.plain y hy m hm) pln (fun he => fw.1 y hy (he ▸ hm)) ha
        · exact Kind.area_not_region pln (lv.sub.plainSub y hy) (fw.2 y hy) (.refl w) ha hre
      have n1 := hP _ (Kind.area_place h5 (hsig _ (List.mem_cons_self)).1)
      have n2 := hP _ (Kind.area_place h5 (hsig (D.name ++ ".archive" ++ ".schema") (by simp)).1)
      have a1 : Kind.StepsAway .disk (Holds' .disk w w o rest) w wa := .step (.refl w) (.subdir hr.unborn h5)
      unfold buildArchive
      refine a1.trans (Act.bind_post (R := fun a b => Kind.StepsAway .disk (Holds' .disk w w o rest) a b) Kind.StepsAway.trans
        (aside_builderNew rfl al n1 n2) fun o' w2 h2 => ?_)
      obtain rfl := builderNew_ok h2
      have s2 := aside_builderNew (P := Holds' .disk w w o rest) h2 al n1 n2
      refine run_free inner (free_disk lvi fun ds n hm => hP _ ?_) (ra.steps s2.steps) (s2.steps.alive al)
      obtain ⟨m1, m2⟩ := hm.plain lvi
      change key (join (o : Obj).path name) <+: _
      cases h5
      rw [key_spot ds _ m1 m2, List.append_assoc]
      exact List.prefix_append _ _
    have rd1 : Ready .disk (buildArchive (Kind.backend .disk) p e o1 D inner wa).2 o rest :=
      Ready.after ⟨rd.unused, fun x hx => rd.vacant x (List.mem_cons_of_mem _ hx)⟩ s1
    have em1 : EmptyFor (Kind.dir .disk (buildArchive (Kind.backend .disk) p e o1 D inner wa).2 o) rest := by
      refine ⟨fun x hx q hq => ?_, rd1.vacant⟩
      have := s1.keeps.1 o q (.inl ⟨x, hx, _, hq, rfl⟩)
      exact this.medium.trans (em.1 x hx q hq)
    rw [e0]
    by_cases hok : ∃ w1, buildArchive (Kind.backend .disk) p e o1 D inner wa = (.ok (), w1)
    · obtain ⟨w1, h1⟩ := hok
      rw [Act.bind_ok h1]
      rw [h1] at s1 hb rd1 em1
      have r1 := hr.steps s1.steps
      have a1 := s1.steps.alive ho
      have ih := run_left rest hsoft' lv.sub r1 a1 rd1 em1
      refine ⟨ih.writes, fun x hx c hc => ?_⟩
      rcases List.mem_cons.mp hx with rfl | hx
      · refine (hb c hc).congr hsD fun ds n hd hn => ?_
        rw [nested_disk h5 w1]
        refine run_dir lv.sub r1 a1 (fun d hm => ?_) hn fun hm => ?_
        · rcases List.mem_cons.mp hm with rfl | hm
          · exact pln
          · exact hd d hm
        · generalize hds : name :: ds = ds' at hm
          cases hm with
          | res => cases hds
          | @sig _ y _ hy _ => exact fw.2 y hy (List.cons.inj hds).1
          | @sub _ y _ _ hy _ => exact fw.2 y hy (List.cons.inj hds).1
      · exact ih.builds x hx c hc
    · rw [bind_snd_of_not_ok fun a b h => hok ⟨b, h⟩]
      have ih := em1.rests (soft := soft) lv.sub
      refine ⟨ih.writes, fun x hx c hc => ?_⟩
      rcases List.mem_cons.mp hx with rfl | hx
      · have := hb c hc
        rw [nested_disk h5] at this
        exact this
      · exact ih.builds x hx c hc

/-- What building an archive leaves, however it ends. -/
theorem buildArchive_left {soft : ResDecl → Prop} {D : ArchiveDef} {prog : Prog} {c : Content} {o : (Kind.backend .disk).Obj}
    {w : (Kind.backend .disk).W} (hsoft : ∀ r, Staged prog r → soft r) (hs : Separate D) (hc : Prepares p e D prog c)
    (hr : Kind.Reachable .disk w) (ho : Kind.alive .disk w o) (hv : Kind.Vacant .disk D w o) :
    Left soft D (Kind.dir .disk (buildArchive (Kind.backend .disk) p e o D prog w).2 o) c :=
  left_build hs hc hr ho hv fun _ r1 a1 rd em => run_left prog hsoft (hc.level hs).1 r1 a1 rd em


/-! ## opening what is left -/

omit [DiffLib] in
theorem PartLeft.notHuge {soft : Prop} {dir : String → Option Bytes} {n : String} {t : Option Bytes} {b : Bytes} {s : String}
    (h : PartLeft soft (dir n) t b s) : ¬ Huge dir n := by
  rintro ⟨d, h1, h2, h3⟩
  exact absurd (h.small d h1 h2) (by omega)

omit [DiffLib] in
theorem notHuge_none {dir : String → Option Bytes} {n : String} (h : dir n = none) : ¬ Huge dir n := by
  rintro ⟨d, h1, _⟩
  rw [h] at h1; cases h1

section
omit [DiffLib]
variable {soft : ResDecl → Prop} {dir : String → Option Bytes} {r : ResDecl} {c : Option Payload}

theorem ResLeft.notHuge (h : ResLeft soft dir r c) : ∀ q ∈ parts r, ¬ Huge dir q.1 := by
  match c, h with
  | none, h => exact fun q hq => notHuge_none (h q hq)
  | some (.bytes b), h =>
    intro q hq
    rw [parts_of_one h.1, List.mem_singleton] at hq
    rw [hq]; exact h.2.notHuge
  | some (.items xss), ⟨V, h1, _, h3, h4⟩ =>
    intro q hq
    rw [parts_of_multi h1] at hq
    simp only [List.mem_cons, List.not_mem_nil, or_false] at hq
    rcases hq with rfl | rfl
    · exact h3.notHuge
    · exact h4.notHuge

theorem AllLeft.notHuge : ∀ {rs : List ResDecl} {cs : List (Option Payload)}, AllLeft soft dir rs cs → ∀ r ∈ rs, ∀ q ∈ parts r, ¬ Huge dir q.1
  | [], [], _, r, hr => by cases hr
  | r :: _, _ :: _, h, r', hr => by
    rcases List.mem_cons.mp hr with rfl | hr
    · exact h.1.notHuge
    · exact AllLeft.notHuge h.2 r' hr
  | [], _ :: _, h, _, _ => h.elim
  | _ :: _, [], h, _, _ => h.elim

mutual
theorem NotStored.notHuge : ∀ {D : ArchiveDef} {dir : Dir}, NotStored D dir → ¬ SomeHuge D dir
  | .mk _ _ _ _, dir, h => by
    unfold NotStored at h
    unfold SomeHuge
    rintro (h1 | ⟨r, hr, q, hq, h1⟩ | h1)
    · exact notHuge_none h.1 h1
    · exact notHuge_none (h.2.1 r hr q hq) h1
    · exact SubsNotStored.notHuge h.2.2 h1

theorem SubsNotStored.notHuge : ∀ {D : SubDefs} {dir : Dir}, SubsNotStored D dir → ¬ SubsHuge D dir
  | .nil, _, _ => by unfold SubsHuge; exact id
  | .cons _ _ _ _, _, h => by
    unfold SubsNotStored at h
    unfold SubsHuge
    rintro (h1 | h1)
    · exact NotStored.notHuge h.1 h1
    · exact SubsNotStored.notHuge h.2 h1
end

mutual
theorem Left.notHuge : ∀ {D : ArchiveDef} {dir : Dir} {c : Content}, Left soft D dir c → ¬ SomeHuge D dir
  | .mk _ _ _ _, dir, .mk _ _, h => by
    unfold Left at h
    unfold SomeHuge
    rintro (h1 | ⟨r, hr, q, hq, h1⟩ | h1)
    · exact h.1.notHuge h1
    · exact h.2.1.notHuge r hr q hq h1
    · exact SubsLeft.notHuge h.2.2 h1

theorem SubsLeft.notHuge : ∀ {D : SubDefs} {dir : Dir} {c : SubContents}, SubsLeft soft D dir c → ¬ SubsHuge D dir
  | .nil, _, _, _ => by unfold SubsHuge; exact id
  | .cons _ _ _ _, _, .cons c _, h => by
    unfold SubsLeft at h
    unfold SubsHuge
    rintro (h1 | h1)
    · match c, h.1 with
      | some c, h2 => exact Left.notHuge h2 h1
      | none, h2 => exact NotStored.notHuge h2 h1
    · exact SubsLeft.notHuge h.2 h1
  | .cons _ _ _ _, _, .nil, h => by unfold SubsLeft at h; exact h.elim
end

variable {k : Kind} {w' : k.backend.W}

theorem SlotShows.missing {optional : Bool} {name schema : String} {x : Option (Slice k.backend.Base)}
    (h : SlotShows k False (fun s x => k.backend.deref w' s = .ok x) optional dir name schema x) (hv : dir name = none) : x = none := by
  cases x with
  | none => rfl
  | some s =>
    obtain ⟨y, h1, h2⟩ := h
    obtain ⟨d, e1, _⟩ := h1.data
    rw [hv] at e1; cases e1

theorem SlotShows.left {P : Prop} {optional : Bool} {name schema : String} {x : Option (Slice k.backend.Base)} {t : Option Bytes} {b : Bytes}
    {s : String}
    (h : SlotShows k False (fun s x => k.backend.deref w' s = .ok x) optional dir name schema x) (hv : PartLeft P (dir name) t b s) :
    (x = none ∧ optional = true) ∨ ∃ s, x = some s ∧ (k.backend.deref w' s = .ok b ∨ (P ∧ k.backend.deref w' s = .ok [])) := by
  cases x with
  | none => exact .inl ⟨rfl, h.1⟩
  | some s =>
    obtain ⟨y, h1, h2⟩ := h
    obtain ⟨d, e1, e2, _⟩ := h1.data
    refine .inr ⟨s, rfl, ?_⟩
    rcases hv.reads d y e1 e2 with rfl | ⟨hp, rfl⟩
    · exact .inl h2
    · exact .inr ⟨hp, h2⟩

theorem ResLeft.remains {x : Opened k.backend.Base} (h : ResLeft soft dir r c)
    (hs : ResShows k False (fun s x => k.backend.deref w' s = .ok x) dir r x) : Remains k.backend w' soft r x c := by
  unfold ResShows at hs
  match c, h with
  | none, h =>
    unfold Remains Yields
    have hp := h
    unfold ResLeft at hp
    cases hr : r.type <;> cases x <;> simp only [hr] at hs ⊢
    case multi.two V index i d =>
      rw [parts_of_multi hr] at hp
      rw [SlotShows.missing hs.1 (hp _ List.mem_cons_self)]
      rfl
    all_goals
      rw [parts_of_one (fun V i h => by rw [hr] at h; cases h)] at hp
      rw [SlotShows.missing hs (hp _ List.mem_cons_self)]
      rfl
  | some (.bytes b), h =>
    unfold Remains
    cases hr' : r.type <;> cases x <;> simp only [hr'] at hs
    case multi.two => exact absurd hr' (h.1 _ _)
    all_goals
      rcases SlotShows.left hs h.2 with ⟨rfl, ho⟩ | ⟨s, rfl, hd | ⟨hp, hd⟩⟩
      · exact .inr (.inl ⟨ho, rfl⟩)
      · refine .inl ?_
        change (k.backend.deref w' s).bind _ = _
        rw [hd]; rfl
      · refine .inr (.inr ⟨hp, ?_⟩)
        change (k.backend.deref w' s).bind _ = _
        rw [hd]; rfl
  | some (.items xss), ⟨V, h1, h2, h3, h4⟩ =>
    unfold Remains
    rw [h1] at hs
    cases x with
    | one => exact hs.elim
    | two i d =>
      rcases SlotShows.left hs.1 h3 with ⟨rfl, ho⟩ | ⟨si, rfl, hi⟩
      · exact .inl ⟨ho, by cases d <;> rfl⟩
      · rcases SlotShows.left hs.2 h4 with ⟨rfl, ho⟩ | ⟨sd, rfl, hd⟩
        · exact .inl ⟨ho, rfl⟩
        · have hm : ∀ a b, k.backend.deref w' si = .ok a → k.backend.deref w' sd = .ok b →
              (Opened.two (some si) (some sd)).multi k.backend w' = .ok (some ⟨a, b⟩) := by
            intro a b ha hb
            change (k.backend.deref w' si).bind _ = _
            rw [ha]
            change (k.backend.deref w' sd).bind _ = _
            rw [hb]; rfl
          rcases hi with hi | ⟨hp, hi⟩ <;> rcases hd with hd | ⟨hp', hd⟩
          · exact .inr ⟨V, _, _, h1, hm _ _ hi hd, .inl h2⟩
          · exact .inr ⟨V, _, _, h1, hm _ _ hi hd, .inr (.inr ⟨hp', rfl, rfl⟩)⟩
          · exact .inr ⟨V, _, _, h1, hm _ _ hi hd, .inr (.inl ⟨hp, rfl, .inr rfl⟩)⟩
          · exact .inr ⟨V, _, _, h1, hm _ _ hi hd, .inr (.inl ⟨hp, rfl, .inl rfl⟩)⟩

theorem AllLeft.remains : ∀ {rs : List ResDecl} {xs : List (Opened k.backend.Base)} {cs : List (Option Payload)}, AllLeft soft dir rs cs →
    AllShow k False (fun s x => k.backend.deref w' s = .ok x) dir rs xs → AllRemain k.backend w' soft rs xs cs
  | [], [], [], _, _ => trivial
  | _ :: _, _ :: _, _ :: _, h, hs => ⟨h.1.remains hs.1, AllLeft.remains h.2 hs.2⟩
  | [], _ :: _, _, _, hs => hs.elim
  | [], [], _ :: _, h, _ => h.elim
  | _ :: _, [], _, _, hs => hs.elim
  | _ :: _, _ :: _, [], h, _ => h.elim

mutual
theorem Left.remains : ∀ {D : ArchiveDef} {dir : Dir} {a : Archive k.backend.Base} {c : Content}, Left soft D dir c →
    ArchiveShows k False (fun s x => k.backend.deref w' s = .ok x) D dir a → ArchiveRemains k.backend w' soft D a c
  | .mk _ _ _ _, _, .mk _ _, .mk _ _, h, hs => by
    unfold Left at h
    unfold ArchiveShows at hs
    unfold ArchiveRemains
    exact ⟨h.2.1.remains hs.2.1, SubsLeft.remains h.2.2 hs.2.2⟩

theorem SubsLeft.remains : ∀ {D : SubDefs} {dir : Dir} {a : SubArchives k.backend.Base} {c : SubContents}, SubsLeft soft D dir c →
    SubsShow k False (fun s x => k.backend.deref w' s = .ok x) D dir a → SubsRemain k.backend w' soft D a c
  | .nil, _, .nil, .nil, _, _ => by unfold SubsRemain; trivial
  | .cons _ _ _ _, _, .cons a _, .cons c _, h, hs => by
    unfold SubsLeft at h
    unfold SubsShow at hs
    unfold SubsRemain
    refine ⟨?_, SubsLeft.remains h.2 hs.2⟩
    match a, c, h.1, hs.1 with
    | some a, some c, h1, hs1 => exact Left.remains h1 hs1
    | none, none, _, _ => trivial
    | none, some c, h1, hs1 => exact hs1.1
    | some a, none, h1, hs1 =>
      have hc := ArchiveShows.complete hs1
      rename_i D _ _ _ _ _
      cases D
      unfold Complete at hc
      obtain ⟨x, hv⟩ := hc.1
      obtain ⟨d, hd, _⟩ := hv.data
      unfold NotStored at h1
      rw [h1.1] at hd; cases hd
  | .nil, _, .cons _ _, _, _, hs => by unfold SubsShow at hs; exact hs.elim
  | .nil, _, .nil, .cons _ _, h, _ => by unfold SubsLeft at h; exact h.elim
  | .cons _ _ _ _, _, .nil, _, _, hs => by unfold SubsShow at hs; exact hs.elim
  | .cons _ _ _ _, _, .cons _ _, .nil, h, _ => by unfold SubsLeft at h; exact h.elim
end
end

/-- Opening what is left: an error, or an archive that shows what remains. -/
theorem open_left {soft : ResDecl → Prop} {k : Kind} {o : k.backend.Obj} {w : k.backend.W} {D : ArchiveDef} {c : Content}
    (u : Usable k w o (NamesOf D)) (h : Left soft D (k.dir w o) c) :
    (∃ a w', openArchive k.backend p e o D w = (.ok a, w') ∧ ArchiveRemains k.backend w' soft D a c) ∨
    ∃ x w', openArchive k.backend p e o D w = (.err x, w') := by
  obtain ⟨x, w', h1, g, out⟩ := openArchive_spec (p := p) (e := e) D u
  cases x with
  | ok a => exact .inl ⟨a, w', h1, h.remains (ArchiveShows.mono (fun h => h.elim) (fun s x hs => hs.1) out)⟩
  | err x => exact .inr ⟨x, w', h1⟩
  | panic => exact absurd out.2 h.notHuge
  | ub => exact out.elim

end Flatdata
