import Verif.Spec.Written
import Verif.Proofs.ProgramRun
/-!
# Schemas of written and of shown data
-/
namespace Flatdata
open Spec

/-! ## The files of what is written -/

/-- The two files of an entry. -/
def entryFiles (q : Labelled Bytes) : List File :=
  [(q.1, q.2.1, le64 q.2.2.2.length ++ q.2.2.2 ++ zeros 8), (q.1, q.2.1 ++ ".schema", strBytes q.2.2.1)]

theorem resListing_eq (r : ResDecl) (c : Option Payload) : resListing r c = (resWritten r c).flatMap entryFiles := by
  cases c with
  | none => rfl
  | some x =>
    cases x with
    | bytes b => rfl
    | items xss => unfold resListing resWritten; cases r.type <;> rfl

theorem allListing_eq : ∀ (rs : List ResDecl) (cs : List (Option Payload)), allListing rs cs = (allWritten rs cs).flatMap entryFiles
  | r :: rs, c :: cs => by rw [allListing, allWritten, List.flatMap_append, resListing_eq, allListing_eq rs cs]
  | [], _ => by simp [allListing, allWritten]
  | _ :: _, [] => by simp [allListing, allWritten]

theorem nest_files (name : String) (l : List (Labelled Bytes)) : (l.flatMap entryFiles).map (fun x : File => (name :: x.1, x.2)) =
    (l.map fun x => (name :: x.1, x.2)).flatMap entryFiles := by
  induction l with
  | nil => rfl
  | cons a l ih => simp only [List.flatMap_cons, List.map_append, List.map_cons, ih]; rfl

mutual
theorem listing_eq : ∀ (D : ArchiveDef) (c : Content), listing D c = (archiveWritten D c).flatMap entryFiles
  | .mk name schema rs subs, .mk cs ts => by
    unfold listing archiveWritten
    rw [List.flatMap_cons, List.flatMap_append, allListing_eq, subsListing_eq subs ts, List.append_assoc]
    rfl

theorem subsListing_eq : ∀ (D : SubDefs) (c : SubContents), subsListing D c = (subsWritten D c).flatMap entryFiles
  | .cons name _ D rest, .cons none ts => by
    unfold subsListing subsWritten
    rw [subsListing_eq rest ts]; rfl
  | .cons name _ D rest, .cons (some c) ts => by
    unfold subsListing subsWritten
    rw [subsListing_eq rest ts, List.flatMap_append]
    simp only
    rw [listing_eq D c, nest_files]
  | .nil, _ => by simp [subsListing, subsWritten]
  | .cons _ _ _ _, .nil => by simp [subsListing, subsWritten]
end

/-! ## Names -/

/-- A signature, or something with a name without dot. -/
def Plainly (q : Labelled Bytes) : Prop := '.' ∉ q.2.1.toList ∨ ((∃ m, q.2.1 = m ++ ".archive") ∧ q.2.2.2 = [])

theorem resWritten_plainly {r : ResDecl} {c : Option Payload} (hr : '.' ∉ r.name.toList) : ∀ q ∈ resWritten r c, '.' ∉ q.2.1.toList := by
  intro q hq
  cases c with
  | none => cases hq
  | some x =>
    cases x with
    | bytes b => simp only [resWritten, List.mem_singleton] at hq; rw [hq]; exact hr
    | items xss =>
      unfold resWritten at hq
      cases ht : r.type <;> simp only [ht, List.not_mem_nil, List.mem_cons, or_false] at hq
      rcases hq with rfl | rfl
      · simp only [String.toList_append, List.mem_append, not_or]
        exact ⟨hr, by decide⟩
      · exact hr

theorem undotted_name {r : ResDecl} (h : ∀ q ∈ parts r, '.' ∉ q.1.toList) : '.' ∉ r.name.toList := by
  refine h (r.name, r.schema) ?_
  unfold parts
  cases r.type <;> simp

theorem allWritten_plainly : ∀ {rs : List ResDecl} {cs : List (Option Payload)}, (∀ r ∈ rs, ∀ q ∈ parts r, '.' ∉ q.1.toList) →
    ∀ q ∈ allWritten rs cs, '.' ∉ q.2.1.toList
  | r :: rs, c :: cs, h, q, hq => by
    rcases List.mem_append.mp hq with hq | hq
    · exact resWritten_plainly (undotted_name (h r (by simp))) q hq
    · exact allWritten_plainly (fun r hr => h r (by simp [hr])) q hq
  | [], _, _, q, hq => by simp [allWritten] at hq
  | _ :: _, [], _, q, hq => by simp [allWritten] at hq

mutual
theorem archiveWritten_plainly : ∀ {D : ArchiveDef} {c : Content}, Undotted D → ∀ q ∈ archiveWritten D c, Plainly q
  | .mk name schema rs subs, .mk cs ts, h, q, hq => by
    unfold Undotted at h
    unfold archiveWritten at hq
    rcases List.mem_cons.mp hq with rfl | hq
    · exact .inr ⟨⟨name, rfl⟩, rfl⟩
    rcases List.mem_append.mp hq with hq | hq
    · exact .inl (allWritten_plainly h.1 q hq)
    · exact subsWritten_plainly h.2 q hq

theorem subsWritten_plainly : ∀ {D : SubDefs} {c : SubContents}, SubsUndotted D → ∀ q ∈ subsWritten D c, Plainly q
  | .cons name _ D rest, .cons none ts, h, q, hq => by
    unfold SubsUndotted at h
    unfold subsWritten at hq
    exact subsWritten_plainly h.2 q hq
  | .cons name _ D rest, .cons (some c) ts, h, q, hq => by
    unfold SubsUndotted at h
    unfold subsWritten at hq
    rcases List.mem_append.mp hq with hq | hq
    · obtain ⟨z, hz, rfl⟩ := List.mem_map.mp hq
      exact archiveWritten_plainly h.1 z hz
    · exact subsWritten_plainly h.2 q hq
  | .nil, _, _, q, hq => by simp [subsWritten] at hq
  | .cons _ _ _ _, .nil, _, q, hq => by simp [subsWritten] at hq
end

theorem mem_schema_dot (n : String) : '.' ∈ (n ++ ".schema").toList := by
  rw [String.toList_append]; exact List.mem_append_right _ (by decide)

theorem schema_ne_archive (m n : String) : m ++ ".archive" ≠ n ++ ".schema" := by
  intro h
  have := congrArg (fun s : String => s.toList.reverse.head?) h
  simp [String.toList_append] at this

theorem Plainly.ne_schema {q : Labelled Bytes} {m : String} (h : Plainly q) : q.2.1 ≠ m ++ ".schema" := by
  intro hq
  rcases h with h | ⟨⟨x, hx⟩, _⟩
  · exact h (by rw [hq]; exact mem_schema_dot m)
  · exact schema_ne_archive x m (by rw [← hq, hx])

theorem mem_archive_dot (n : String) : '.' ∈ (n ++ ".archive").toList := by
  rw [String.toList_append]; exact List.mem_append_right _ (by decide)

theorem Plainly.signature {q : Labelled Bytes} {m : String} (h : Plainly q) (hq : q.2.1 = m ++ ".archive") : q.2.2.2 = [] := by
  rcases h with h | h
  · exact absurd (by rw [hq]; exact mem_archive_dot m) h
  · exact h.2

theorem append_right_cancel' {a b c : String} (h : a ++ c = b ++ c) : a = b := by
  have := congrArg String.toList h
  rw [String.toList_append, String.toList_append] at this
  exact String.toList_inj.mp (List.append_cancel_right this)

theorem subsWritten_path : ∀ {D : SubDefs} {c : SubContents}, ∀ q ∈ subsWritten D c, q.1 ≠ []
  | .cons name _ D rest, .cons none ts, q, hq => by
    unfold subsWritten at hq
    exact subsWritten_path q hq
  | .cons name _ D rest, .cons (some c) ts, q, hq => by
    unfold subsWritten at hq
    rcases List.mem_append.mp hq with hq | hq
    · obtain ⟨z, hz, rfl⟩ := List.mem_map.mp hq
      simp
    · exact subsWritten_path q hq
  | .nil, _, q, hq => by simp [subsWritten] at hq
  | .cons _ _ _ _, .nil, q, hq => by simp [subsWritten] at hq

/-- The only signature at the top. -/
theorem top_signature {D : ArchiveDef} {c : Content} {m s : String} {x : Bytes} (hu : Undotted D)
    (h : ([], m ++ ".archive", s, x) ∈ archiveWritten D c) : m = D.name ∧ s = D.schema := by
  obtain ⟨name, schema, rs, subs⟩ := D
  obtain ⟨cs, ts⟩ := c
  unfold Undotted at hu
  unfold archiveWritten at h
  rcases List.mem_cons.mp h with h | h
  · simp only [Prod.mk.injEq, true_and] at h
    exact ⟨append_right_cancel' h.1, h.2.1⟩
  rcases List.mem_append.mp h with h | h
  · exact absurd (mem_archive_dot m) (allWritten_plainly hu.1 _ h)
  · exact absurd rfl (subsWritten_path _ h)

/-! ## What is shown -/
section
variable {Base : Type} {k : Kind} {clean : Prop} {shows : Slice Base → Bytes → Prop}

/-- The data are stored under the path, name and schema. -/
def Backed (k : Kind) (shows : Slice Base → Bytes → Prop) (dir : Dir) (q : Labelled (Slice Base)) : Prop :=
  ∃ x, Valid k (dir q.1) q.2.1 q.2.2.1 x ∧ shows q.2.2.2 x

theorem slot_backed {optional : Bool} {dir : Dir} {name schema : String} {d : Option (Slice Base)}
    (h : SlotShows k clean shows optional (dir []) name schema d) :
    ∀ q ∈ d.toList.map (fun s => (([], name, schema, s) : Labelled (Slice Base))), Backed k shows dir q := by
  intro q hq
  obtain ⟨s, hs, rfl⟩ := List.mem_map.mp hq
  cases d with
  | none => cases hs
  | some s' =>
    simp only [Option.toList_some, List.mem_singleton] at hs
    rw [hs]; exact h

theorem res_backed {dir : Dir} {r : ResDecl} {x : Opened Base} (h : ResShows k clean shows (dir []) r x) :
    ∀ q ∈ resAccess r x, Backed k shows dir q := by
  unfold ResShows at h
  unfold resAccess
  cases ht : r.type with
  | multi V i =>
    rw [ht] at h
    cases x with
    | one d => exact h.elim
    | two a d =>
      simp only
      intro q hq
      rcases List.mem_append.mp hq with hq | hq
      · exact slot_backed h.1 q hq
      · exact slot_backed h.2 q hq
  | _ =>
    rw [ht] at h
    cases x with
    | one d => exact slot_backed h
    | two a d => exact h.elim

theorem all_backed {dir : Dir} : ∀ {rs : List ResDecl} {xs : List (Opened Base)}, AllShow k clean shows (dir []) rs xs →
    ∀ q ∈ allAccess rs xs, Backed k shows dir q
  | r :: rs, x :: xs, h, q, hq => by
    rcases List.mem_append.mp hq with hq | hq
    · exact res_backed h.1 q hq
    · exact all_backed h.2 q hq
  | [], [], _, q, hq => by simp [allAccess] at hq
  | [], _ :: _, h, _, _ => h.elim
  | _ :: _, [], h, _, _ => h.elim

mutual
theorem archive_backed : ∀ {D : ArchiveDef} {dir : Dir} {a : Archive Base}, ArchiveShows k clean shows D dir a →
    ∀ q ∈ archiveAccess D a, Backed k shows dir q
  | .mk name schema rs subs, dir, .mk xs ss, h, q, hq => by
    unfold ArchiveShows at h
    unfold archiveAccess at hq
    rcases List.mem_append.mp hq with hq | hq
    · exact all_backed h.2.1 q hq
    · exact subs_backed h.2.2 q hq

theorem subs_backed : ∀ {D : SubDefs} {dir : Dir} {ss : SubArchives Base}, SubsShow k clean shows D dir ss →
    ∀ q ∈ subsAccess D ss, Backed k shows dir q
  | .nil, _, .nil, _, q, hq => by simp [subsAccess] at hq
  | .cons name optional D rest, dir, .cons none ss, h, q, hq => by
    unfold SubsShow at h
    unfold subsAccess at hq
    exact subs_backed h.2 q hq
  | .cons name optional D rest, dir, .cons (some a) ss, h, q, hq => by
    unfold SubsShow at h
    unfold subsAccess at hq
    rcases List.mem_append.mp hq with hq | hq
    · obtain ⟨z, hz, rfl⟩ := List.mem_map.mp hq
      exact archive_backed h.1 z hz
    · exact subs_backed h.2 q hq
  | .nil, _, .cons _ _, h, _, _ => by unfold SubsShow at h; exact h.elim
  | .cons _ _ _ _, _, .nil, h, _, _ => by unfold SubsShow at h; exact h.elim
end

mutual
theorem archive_signed : ∀ {D : ArchiveDef} {dir : Dir} {a : Archive Base}, ArchiveShows k clean shows D dir a →
    ∀ q ∈ archivesOpen D a, ∃ x, Valid k (dir q.1) (q.2.1 ++ ".archive") q.2.2.1 x
  | .mk name schema rs subs, dir, .mk xs ss, h, q, hq => by
    unfold ArchiveShows at h
    unfold archivesOpen at hq
    rcases List.mem_cons.mp hq with rfl | hq
    · exact h.1
    · exact subs_signed h.2.2 q hq

theorem subs_signed : ∀ {D : SubDefs} {dir : Dir} {ss : SubArchives Base}, SubsShow k clean shows D dir ss →
    ∀ q ∈ subsOpen D ss, ∃ x, Valid k (dir q.1) (q.2.1 ++ ".archive") q.2.2.1 x
  | .nil, _, .nil, _, q, hq => by simp [subsOpen] at hq
  | .cons name optional D rest, dir, .cons none ss, h, q, hq => by
    unfold SubsShow at h
    unfold subsOpen at hq
    exact subs_signed h.2 q hq
  | .cons name optional D rest, dir, .cons (some a) ss, h, q, hq => by
    unfold SubsShow at h
    unfold subsOpen at hq
    rcases List.mem_append.mp hq with hq | hq
    · obtain ⟨z, hz, rfl⟩ := List.mem_map.mp hq
      exact archive_signed h.1 z hz
    · exact subs_signed h.2 q hq
  | .nil, _, .cons _ _, h, _, _ => by unfold SubsShow at h; exact h.elim
  | .cons _ _ _ _, _, .nil, h, _, _ => by unfold SubsShow at h; exact h.elim
end
end

/-! ## Names of accessors are plain -/

/-- Path and name, with the schema file, are plain. -/
def PlainEntry {α : Type} (q : Labelled α) : Prop := (∀ d ∈ q.1, PlainName d) ∧ PlainName q.2.1 ∧ PlainName (q.2.1 ++ ".schema")

theorem separate_here {name schema : String} {rs : List ResDecl} {subs : SubDefs} (hs : Separate (.mk name schema rs subs)) :
    (∀ r ∈ rs, ∀ q ∈ parts r, PlainName q.1 ∧ PlainName (q.1 ++ ".schema")) ∧
    PlainName (name ++ ".archive") ∧ PlainName (name ++ ".archive" ++ ".schema") ∧
    (∀ x ∈ SubDefs.entries subs, PlainName x.1) ∧ SubsSeparate subs := by
  unfold Separate at hs
  refine ⟨fun r hr q hq => ⟨hs.1 _ ?_, hs.1 _ ?_⟩, hs.1 _ (by simp [files, ArchiveDef.name]), hs.1 _ (by simp [files, ArchiveDef.name]),
    fun x hx => hs.1 _ (List.mem_append_right _ (List.mem_map.mpr ⟨x, hx, rfl⟩)), hs.2.2⟩
  all_goals
    refine List.mem_append_left _ (List.mem_cons_of_mem _ (List.mem_cons_of_mem _ (List.mem_flatMap.mpr ⟨r, hr, List.mem_flatMap.mpr ⟨q, hq, ?_⟩⟩)))
    simp

section
variable {Base : Type}

theorem resAccess_parts {r : ResDecl} {x : Opened Base} : ∀ q ∈ resAccess r x, q.1 = [] ∧ ∃ s, (q.2.1, s) ∈ parts r := by
  intro q hq
  have aux : ∀ {d : Option (Slice Base)} {n s : String}, q ∈ d.toList.map (fun x => (([], n, s, x) : Labelled (Slice Base))) →
      q.1 = [] ∧ q.2.1 = n := by
    intro d n s h
    obtain ⟨_, _, rfl⟩ := List.mem_map.mp h
    exact ⟨rfl, rfl⟩
  cases x with
  | one d =>
    obtain ⟨h1, h2⟩ := aux hq
    refine ⟨h1, r.schema, ?_⟩
    rw [h2]
    unfold parts
    cases r.type <;> simp
  | two i d =>
    unfold resAccess at hq
    unfold parts
    cases ht : r.type <;> simp only [ht, List.not_mem_nil] at hq
    rcases List.mem_append.mp hq with hq | hq
    · obtain ⟨h1, h2⟩ := aux hq
      exact ⟨h1, _, by rw [h2]; exact List.mem_cons_self ..⟩
    · obtain ⟨h1, h2⟩ := aux hq
      exact ⟨h1, _, by rw [h2]; exact List.mem_cons_of_mem _ (List.mem_cons_self ..)⟩

theorem allAccess_plain : ∀ {rs : List ResDecl} {xs : List (Opened Base)},
    (∀ r ∈ rs, ∀ q ∈ parts r, PlainName q.1 ∧ PlainName (q.1 ++ ".schema")) → ∀ q ∈ allAccess rs xs, PlainEntry q
  | r :: rs, x :: xs, h, q, hq => by
    rcases List.mem_append.mp hq with hq | hq
    · obtain ⟨h1, s, h2⟩ := resAccess_parts q hq
      obtain ⟨h3, h4⟩ := h r (by simp) _ h2
      exact ⟨by rw [h1]; simp, h3, h4⟩
    · exact allAccess_plain (fun r hr => h r (by simp [hr])) q hq
  | [], _, _, q, hq => by simp [allAccess] at hq
  | _ :: _, [], _, q, hq => by simp [allAccess] at hq

mutual
theorem archiveAccess_plain : ∀ {D : ArchiveDef} {a : Archive Base}, Separate D → ∀ q ∈ archiveAccess D a, PlainEntry q
  | .mk name schema rs subs, .mk xs ss, h, q, hq => by
    obtain ⟨h1, _, _, h2, h3⟩ := separate_here h
    unfold archiveAccess at hq
    rcases List.mem_append.mp hq with hq | hq
    · exact allAccess_plain h1 q hq
    · exact subsAccess_plain h2 h3 q hq

theorem subsAccess_plain : ∀ {D : SubDefs} {ss : SubArchives Base}, (∀ x ∈ SubDefs.entries D, PlainName x.1) → SubsSeparate D →
    ∀ q ∈ subsAccess D ss, PlainEntry q
  | .cons name _ D rest, .cons none ss, hp, hs, q, hq => by
    unfold SubsSeparate at hs
    unfold subsAccess at hq
    exact subsAccess_plain (fun x hx => hp x (List.mem_cons_of_mem _ hx)) hs.2 q hq
  | .cons name _ D rest, .cons (some a) ss, hp, hs, q, hq => by
    unfold SubsSeparate at hs
    unfold subsAccess at hq
    rcases List.mem_append.mp hq with hq | hq
    · obtain ⟨z, hz, rfl⟩ := List.mem_map.mp hq
      obtain ⟨h1, h2⟩ := archiveAccess_plain hs.1 z hz
      refine ⟨fun d hd => ?_, h2⟩
      rcases List.mem_cons.mp hd with rfl | hd
      · exact hp _ (List.mem_cons_self ..)
      · exact h1 d hd
    · exact subsAccess_plain (fun x hx => hp x (List.mem_cons_of_mem _ hx)) hs.2 q hq
  | .nil, _, _, _, q, hq => by simp [subsAccess] at hq
  | .cons _ _ _ _, .nil, _, _, q, hq => by simp [subsAccess] at hq
end

mutual
theorem archivesOpen_plain : ∀ {D : ArchiveDef} {a : Archive Base}, Separate D → ∀ q ∈ archivesOpen D a,
    PlainEntry (q.1, q.2.1 ++ ".archive", q.2.2)
  | .mk name schema rs subs, .mk xs ss, h, q, hq => by
    obtain ⟨_, h1, h1', h2, h3⟩ := separate_here h
    unfold archivesOpen at hq
    rcases List.mem_cons.mp hq with rfl | hq
    · exact ⟨by simp, h1, h1'⟩
    · exact subsOpen_plain h2 h3 q hq

theorem subsOpen_plain : ∀ {D : SubDefs} {ss : SubArchives Base}, (∀ x ∈ SubDefs.entries D, PlainName x.1) → SubsSeparate D →
    ∀ q ∈ subsOpen D ss, PlainEntry (q.1, q.2.1 ++ ".archive", q.2.2)
  | .cons name _ D rest, .cons none ss, hp, hs, q, hq => by
    unfold SubsSeparate at hs
    unfold subsOpen at hq
    exact subsOpen_plain (fun x hx => hp x (List.mem_cons_of_mem _ hx)) hs.2 q hq
  | .cons name _ D rest, .cons (some a) ss, hp, hs, q, hq => by
    unfold SubsSeparate at hs
    unfold subsOpen at hq
    rcases List.mem_append.mp hq with hq | hq
    · obtain ⟨z, hz, rfl⟩ := List.mem_map.mp hq
      obtain ⟨h1, h2⟩ := archivesOpen_plain hs.1 z hz
      refine ⟨fun d hd => ?_, h2⟩
      rcases List.mem_cons.mp hd with rfl | hd
      · exact hp _ (List.mem_cons_self ..)
      · exact h1 d hd
    · exact subsOpen_plain (fun x hx => hp x (List.mem_cons_of_mem _ hx)) hs.2 q hq
  | .nil, _, _, _, q, hq => by simp [subsOpen] at hq
  | .cons _ _ _ _, .nil, _, _, q, hq => by simp [subsOpen] at hq
end
theorem allAccess_undotted : ∀ {rs : List ResDecl} {xs : List (Opened Base)}, (∀ r ∈ rs, ∀ q ∈ parts r, '.' ∉ q.1.toList) →
    ∀ q ∈ allAccess rs xs, '.' ∉ q.2.1.toList
  | r :: rs, x :: xs, h, q, hq => by
    rcases List.mem_append.mp hq with hq | hq
    · obtain ⟨_, s, h2⟩ := resAccess_parts q hq
      exact h r (by simp) _ h2
    · exact allAccess_undotted (fun r hr => h r (by simp [hr])) q hq
  | [], _, _, q, hq => by simp [allAccess] at hq
  | _ :: _, [], _, q, hq => by simp [allAccess] at hq

mutual
theorem archiveAccess_undotted : ∀ {D : ArchiveDef} {a : Archive Base}, Undotted D → ∀ q ∈ archiveAccess D a, '.' ∉ q.2.1.toList
  | .mk name schema rs subs, .mk xs ss, h, q, hq => by
    unfold Undotted at h
    unfold archiveAccess at hq
    rcases List.mem_append.mp hq with hq | hq
    · exact allAccess_undotted h.1 q hq
    · exact subsAccess_undotted h.2 q hq

theorem subsAccess_undotted : ∀ {D : SubDefs} {ss : SubArchives Base}, SubsUndotted D → ∀ q ∈ subsAccess D ss, '.' ∉ q.2.1.toList
  | .cons name _ D rest, .cons none ss, hs, q, hq => by
    unfold SubsUndotted at hs
    unfold subsAccess at hq
    exact subsAccess_undotted hs.2 q hq
  | .cons name _ D rest, .cons (some a) ss, hs, q, hq => by
    unfold SubsUndotted at hs
    unfold subsAccess at hq
    rcases List.mem_append.mp hq with hq | hq
    · obtain ⟨z, hz, rfl⟩ := List.mem_map.mp hq
      exact archiveAccess_undotted hs.1 z hz
    · exact subsAccess_undotted hs.2 q hq
  | .nil, _, _, q, hq => by simp [subsAccess] at hq
  | .cons _ _ _ _, .nil, _, q, hq => by simp [subsAccess] at hq
end
end

theorem holds_data {d x y : Bytes} (hd : d = le64 x.length ++ x ++ zeros 8) (h : Holds d y) : y = x := by
  have h8 : (le64 x.length).length = 8 := length_le64 _
  have hl : y.length = x.length := by
    have := h.length
    rw [hd] at this
    simp [h8, zeros] at this
    omega
  have := h.body
  rw [hd, hl, List.append_assoc, List.drop_left' h8, List.take_left] at this
  exact this.symm

end Flatdata
