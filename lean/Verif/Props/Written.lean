import Verif.Proofs.Written
import Verif.Props.Parallel
import Verif.Props.Format
/-!
# C57: data are shown only under the schema under which they have been written
-/
namespace Flatdata
open Spec StorageExample MvExample BuildExample

/-! ## A directory that contains an archive -/

theorem written_of_valid {dir : Dir} {D : ArchiveDef} {c : Content} (hu : Undotted D) (hf : ∀ f ∈ listing D c, dir f.1 f.2.1 = some f.2.2)
    {ds : List String} {n s : String} {x : Bytes} (he : dir ds (n ++ ".schema") = fileContent (listing D c) ds (n ++ ".schema"))
    (hv : Valid k (dir ds) n s x) : (ds, n, s, x) ∈ archiveWritten D c := by
  have ht := hv.text
  rw [he] at ht
  have hm := fileContent_mem ht
  rw [listing_eq] at hm
  obtain ⟨q, hq, hf'⟩ := List.mem_flatMap.mp hm
  have hp := archiveWritten_plainly hu q hq
  simp only [entryFiles, List.mem_cons, Prod.mk.injEq, List.not_mem_nil, or_false] at hf'
  rcases hf' with ⟨h1, h2, _⟩ | ⟨h1, h2, h3⟩
  · exact absurd h2.symm hp.ne_schema
  · obtain rfl := append_right_cancel' h2
    obtain rfl := strBytes_inj h3
    subst h1
    have hd := hf (q.1, q.2.1, le64 q.2.2.2.length ++ q.2.2.2 ++ zeros 8)
      (by rw [listing_eq]; exact List.mem_flatMap.mpr ⟨q, hq, by simp [entryFiles]⟩)
    obtain ⟨d, e1, e2, _⟩ := hv.data
    rw [hd] at e1
    cases e1
    rw [holds_data rfl e2]
    exact hq

section
variable [DiffLib] {k k' : Kind} {p p' : Profile} {e e' : Endian} {D D' : ArchiveDef} {prog : Prog} {c : Content}

/-- What has been built in an empty directory, seen from anywhere. -/
theorem built_alone {w0 w : k.backend.W} {o : k.backend.Obj} {w1 : k'.backend.W} {o' : k'.backend.Obj}
    (hs : Separate D) (hc : Prepares p e D prog c) (hr : k.Reachable w0) (ho : k.alive w0 o) (hun : ∀ n, k.unread w0 o n)
    (h0 : ∀ ds n, (∀ d ∈ ds, PlainName d) → PlainName n → k.dir w0 o ds n = none)
    (h : buildArchive k.backend p e o D prog w0 = (.ok (), w)) (hk : k = .disk ∨ c.subs.empty)
    (hd : ∀ ds n, k'.dir w1 o' ds n = k.dir w o ds n) :
    (∀ f ∈ listing D c, k'.dir w1 o' f.1 f.2.1 = some f.2.2) ∧
    ∀ ds n, (∀ d ∈ ds, PlainName d) → PlainName n → k'.dir w1 o' ds n = fileContent (listing D c) ds n := by
  have hb := buildArchive_built hs hc hr ho (vacant_of_empty hs h0 hun) h
  refine ⟨fun f hf => ?_, fun ds n h1 h2 => ?_⟩
  · rw [hd]; exact C41_histories k p e D c w o hb hk f hf
  · rw [hd]; exact C41_empty k p e D prog c w0 w o hs hc hr ho hun h0 h hk ds n h1 h2
end

/-- C57: if the directory contained nothing before an archive was built there, then whoever opens it, with whatever definition and in
whichever process, sees only what has been written, and only under the name and the schema under which it has been written; in
particular the signatures of the archive and of all subarchives agree. -/
theorem C57_shown_partial [DiffLib] (k k' : Kind) (p p' : Profile) (e e' : Endian) (D D' : ArchiveDef) (prog : Prog) (c : Content)
    (w0 w : k.backend.W) (o : k.backend.Obj) (w1 w2 : k'.backend.W) (o' : k'.backend.Obj) (a : Archive k'.backend.Base)
    (hs : Separate D) (hu : Undotted D) (hc : Prepares p e D prog c) (hr : k.Reachable w0) (ho : k.alive w0 o) (hun : ∀ n, k.unread w0 o n)
    (h0 : ∀ ds n, (∀ d ∈ ds, PlainName d) → PlainName n → k.dir w0 o ds n = none)
    (h : buildArchive k.backend p e o D prog w0 = (.ok (), w)) (hk : k = .disk ∨ c.subs.empty)
    (hs' : Separate D') (hr' : k'.Reachable w1) (ho' : k'.alive w1 o') (hc' : k'.Current w1 o' D')
    (hd : ∀ ds n, k'.dir w1 o' ds n = k.dir w o ds n) (h' : openArchive k'.backend p' e' o' D' w1 = (.ok a, w2)) :
    (∀ q ∈ archiveAccess D' a, ∃ x, k'.backend.deref w2 q.2.2.2 = .ok x ∧ (q.1, q.2.1, q.2.2.1, x) ∈ archiveWritten D c) ∧
    (∀ q ∈ archivesOpen D' a, (q.1, q.2.1 ++ ".archive", q.2.2.1, []) ∈ archiveWritten D c) ∧
    D'.name = D.name ∧ D'.schema = D.schema := by
  obtain ⟨hf, hcon⟩ := built_alone hs hc hr ho hun h0 h hk hd
  obtain ⟨r, w2', ho2, _, out⟩ := C31_open k' p' e' D' w1 o' hr' ho' hc'
  rw [h'] at ho2
  cases ho2
  rcases out with ⟨a', ha, _, sh⟩ | ⟨_, hx, _⟩ | ⟨hx, _⟩
  · cases ha
    have sig : ∀ q ∈ archivesOpen D' a, (q.1, q.2.1 ++ ".archive", q.2.2.1, []) ∈ archiveWritten D c := by
      intro q hq
      obtain ⟨x, hv⟩ := archive_signed sh q hq
      obtain ⟨h1, h2, h3⟩ := archivesOpen_plain hs' q hq
      have hm := written_of_valid hu hf (hcon _ _ h1 h3) hv
      have hx : x = [] := (archiveWritten_plainly hu _ hm).signature rfl
      rw [hx] at hm
      exact hm
    refine ⟨fun q hq => ?_, sig, ?_⟩
    · obtain ⟨x, hv, hx⟩ := archive_backed sh q hq
      obtain ⟨h1, h2, h3⟩ := archiveAccess_plain hs' q hq
      exact ⟨x, hx, written_of_valid hu hf (hcon _ _ h1 h3) hv⟩
    · refine top_signature hu (sig ([], D'.name, D'.schema, ()) ?_)
      obtain ⟨_, _, _, _⟩ := D'
      obtain ⟨_, _⟩ := a
      unfold archivesOpen
      exact List.mem_cons_self ..
  · cases hx
  · cases hx

/-- C57: whoever opens it with another name or another schema of the archive gets an error. -/
theorem C57_refused_partial [DiffLib] (k k' : Kind) (p p' : Profile) (e e' : Endian) (D D' : ArchiveDef) (prog : Prog) (c : Content)
    (w0 w : k.backend.W) (o : k.backend.Obj) (w1 : k'.backend.W) (o' : k'.backend.Obj)
    (hs : Separate D) (hu : Undotted D) (hc : Prepares p e D prog c) (hr : k.Reachable w0) (ho : k.alive w0 o) (hun : ∀ n, k.unread w0 o n)
    (h0 : ∀ ds n, (∀ d ∈ ds, PlainName d) → PlainName n → k.dir w0 o ds n = none)
    (h : buildArchive k.backend p e o D prog w0 = (.ok (), w)) (hk : k = .disk ∨ c.subs.empty)
    (hs' : Separate D') (hr' : k'.Reachable w1) (ho' : k'.alive w1 o') (hc' : k'.Current w1 o' D')
    (hd : ∀ ds n, k'.dir w1 o' ds n = k.dir w o ds n) (hne : D'.name ≠ D.name ∨ D'.schema ≠ D.schema) :
    ∃ x w2, openArchive k'.backend p' e' o' D' w1 = (.err x, w2) := by
  obtain ⟨hf, hcon⟩ := built_alone hs hc hr ho hun h0 h hk hd
  have nok : ¬ (D'.name = D.name ∧ D'.schema = D.schema) := fun h => hne.elim (· h.1) (· h.2)
  obtain ⟨name, schema, rs, subs⟩ := D'
  obtain ⟨_, hp, hps, _⟩ := separate_here hs'
  obtain ⟨r, w2, hrd, _, out⟩ := readArchived (p := p') (e := e') (N := NamesOf (.mk name schema rs subs)) (o := o') (w := w1)
    ⟨hr', ho', fun n hn => ⟨(k'.current_iff _ _ _).mp (hc' n hn).1, (k'.current_iff _ _ _).mp (hc' n hn).2⟩⟩
    (name := name ++ ".archive") (.inl rfl) schema
  unfold openArchive
  rw [← k'.dir_nil] at out
  cases r with
  | ok s =>
    obtain ⟨x, hv, _⟩ := out
    exact absurd (top_signature hu (written_of_valid hu hf (hcon _ _ (by simp) hps) hv)) nok
  | err x => exact ⟨x, w2, Act.bind_err hrd⟩
  | panic =>
    obtain ⟨_, d, h1, _, h2⟩ := out
    rw [hcon _ _ (by simp) hp] at h1
    have hm := fileContent_mem h1
    rw [listing_eq] at hm
    obtain ⟨q, hq, hq'⟩ := List.mem_flatMap.mp hm
    simp only [entryFiles, List.mem_cons, Prod.mk.injEq, List.not_mem_nil, or_false] at hq'
    rcases hq' with ⟨_, h4, h5⟩ | ⟨_, h4, _⟩
    · rw [(archiveWritten_plainly hu q hq).signature h4.symm] at h5
      rw [h5] at h2
      exact absurd h2 (by decide)
    · exact absurd h4 (schema_ne_archive _ _)
  | ub => exact out.elim

/-- C57 in a directory where other things are stored already: what can be read after an archive has been built there, at places that
were free, is what has been written now and what could be read before. -/
theorem C57_keeps_partial [DiffLib] (k : Kind) (p : Profile) (e : Endian) (D : ArchiveDef) (prog : Prog) (c : Content)
    (w0 w : k.backend.W) (o : k.backend.Obj) (L : Labelled Bytes → Prop) (hs : Separate D) (hu : Undotted D) (hc : Prepares p e D prog c)
    (hr : k.Reachable w0) (ho : k.alive w0 o) (hv : k.Vacant D w0 o) (h0 : Honest k (k.dir w0 o) L)
    (h : buildArchive k.backend p e o D prog w0 = (.ok (), w)) (hk : k = .disk ∨ c.subs.empty) :
    Honest k (k.dir w o) fun q => q ∈ archiveWritten D c ∨ L q := by
  intro ds n s x hds hn hns hdot hval
  have hb := C41_histories k p e D c w o (buildArchive_built hs hc hr ho hv h) hk
  have ex := C41_exact k p e D prog c w0 w o hs hc hr ho hv h hk ds
  cases hf : fileContent (listing D c) ds (n ++ ".schema") with
  | some b =>
    refine .inl (written_of_valid hu hb ?_ hval)
    rw [ex _ hds hns, hf]
    rfl
  | none =>
    cases hf' : fileContent (listing D c) ds n with
    | some b =>
      have hm := fileContent_mem hf'
      rw [listing_eq] at hm
      obtain ⟨q, hq, hq'⟩ := List.mem_flatMap.mp hm
      simp only [entryFiles, List.mem_cons, Prod.mk.injEq, List.not_mem_nil, or_false] at hq'
      rcases hq' with ⟨h1, h2, _⟩ | ⟨_, h2, _⟩
      · refine absurd ?_ (fileContent_none hf (strBytes q.2.2.1))
        rw [listing_eq]
        exact List.mem_flatMap.mpr ⟨q, hq, by simp [entryFiles, h1, h2]⟩
      · rcases hdot with hdot | ⟨m, hm⟩
        · exact absurd (by rw [h2]; exact mem_schema_dot _) hdot
        · exact absurd (hm.symm.trans h2) (schema_ne_archive _ _)
    | none =>
      refine .inr (h0 ds n s x hds hn hns hdot ?_)
      obtain ⟨⟨d, h1, h2⟩, h3, h4⟩ := hval
      rw [ex _ hds hn, hf', Option.none_or] at h1
      rw [ex _ hds hns, hf, Option.none_or] at h3
      exact ⟨⟨d, h1, h2⟩, h3, h4⟩

/-- Whoever opens an archive sees only what can be read, under its name and schema. -/
theorem C57_open [DiffLib] (k : Kind) (p : Profile) (e : Endian) (D : ArchiveDef) (w w' : k.backend.W) (o : k.backend.Obj)
    (a : Archive k.backend.Base) (L : Labelled Bytes → Prop) (hs : Separate D) (hu : Undotted D) (hr : k.Reachable w) (ho : k.alive w o)
    (hc : k.Current w o D) (hL : Honest k (k.dir w o) L) (h : openArchive k.backend p e o D w = (.ok a, w')) :
    (∀ q ∈ archiveAccess D a, ∃ x, k.backend.deref w' q.2.2.2 = .ok x ∧ L (q.1, q.2.1, q.2.2.1, x)) ∧
    ∀ q ∈ archivesOpen D a, ∃ x, L (q.1, q.2.1 ++ ".archive", q.2.2.1, x) := by
  obtain ⟨r, w2, ho2, _, out⟩ := C31_open k p e D w o hr ho hc
  rw [h] at ho2
  cases ho2
  rcases out with ⟨a', ha, _, sh⟩ | ⟨_, hx, _⟩ | ⟨hx, _⟩
  · cases ha
    refine ⟨fun q hq => ?_, fun q hq => ?_⟩
    · obtain ⟨x, hv, hx⟩ := archive_backed sh q hq
      obtain ⟨h1, h2, h3⟩ := archiveAccess_plain hs q hq
      exact ⟨x, hx, hL _ _ _ _ h1 h2 h3 (.inl (archiveAccess_undotted hu q hq)) hv⟩
    · obtain ⟨x, hv⟩ := archive_signed sh q hq
      obtain ⟨h1, h2, h3⟩ := archivesOpen_plain hs q hq
      exact ⟨x, hL _ _ _ _ h1 h2 h3 (.inr ⟨_, rfl⟩) hv⟩
  · cases hx
  · cases hx

/-! ### Example -/
namespace WrittenExample
open Coappearances NeighboursExample

theorem graph_undotted : Undotted Graph := by
  refine ⟨by decide, ⟨by decide, trivial⟩, trivial⟩

/-- The same archive with one line more in its schema. -/
def Graph2 : ArchiveDef := .mk Graph.name (Graph.schema ++ "\n") Graph.resources Graph.subs

theorem graph2_separate : Separate Graph2 := by
  refine ⟨by decide, by decide, ⟨by decide, by decide, trivial⟩, trivial⟩

theorem nothing : ∀ ds n, (∀ d ∈ ds, PlainName d) → PlainName n → Kind.dir .disk (started ParallelExample.empty) (directory ['d']) ds n = none :=
  fun _ _ _ _ => rfl

theorem fresh_current (d : Disk) (D : ArchiveDef) : Kind.Current .disk (started d) (directory ['d']) D :=
  fun n _ => ⟨fun x hx => (by cases hx), fun x hx => (by cases hx)⟩

/-- `Graph` is built; with the changed definition it cannot be opened. -/
example : ∃ w, @buildArchive file naiveDiff .debug .little (directory ['d']) Graph graphProg (started ParallelExample.empty) = (.ok (), w) ∧
    ∃ x w2, @openArchive file naiveDiff .release .big (directory ['d']) Graph2 (started w.fs.disk) = (.err x, w2) := by
  obtain ⟨⟨⟩, w, h⟩ := VecExample.isOk_run graph_runs
  exact ⟨w, h, @C57_refused_partial naiveDiff .disk .disk .debug .release .little .big Graph Graph2 graphProg graphContent (started ParallelExample.empty) w (directory ['d']) (started w.fs.disk)
    (directory ['d']) graph_separate graph_undotted graph_prepares (started_reachable _ _) Nat.zero_lt_one (fun _ => rfl) nothing h (.inl rfl)
    graph2_separate (started_reachable _ _) Nat.zero_lt_one (fresh_current _ _) (fun _ _ => rfl) (.inr (by decide))⟩

/-- With the same definition it shows only what has been written. -/
example : ∃ w a w2, @buildArchive file naiveDiff .debug .little (directory ['d']) Graph graphProg (started ParallelExample.empty) = (.ok (), w) ∧
    @openArchive file naiveDiff .debug .little (directory ['d']) Graph (started w.fs.disk) = (.ok a, w2) ∧
    ∀ q ∈ archiveAccess Graph a, ∃ x, file.deref w2 q.2.2.2 = .ok x ∧ (q.1, q.2.1, q.2.2.1, x) ∈ archiveWritten Graph graphContent := by
  obtain ⟨⟨⟩, w, h⟩ := VecExample.isOk_run graph_runs
  obtain ⟨a, w2, ho, _⟩ := @build_reopen naiveDiff .debug .debug .little .little Graph ['d'] graphProg graphContent ParallelExample.empty w
    graph_separate (graph_schemas .disk) graph_prepares (disk_vacant _) h
  exact ⟨w, a, w2, h, ho, (@C57_shown_partial naiveDiff .disk .disk .debug .debug .little .little Graph Graph graphProg graphContent (started ParallelExample.empty) w (directory ['d'])
    (started w.fs.disk) w2 (directory ['d']) a graph_separate graph_undotted graph_prepares (started_reachable _ _) Nat.zero_lt_one
    (fun _ => rfl) nothing h (.inl rfl) graph_separate (started_reachable _ _) Nat.zero_lt_one (fresh_current _ _) (fun _ _ => rfl) ho).1⟩

/-- `Graph` and then `Statistics` have been built in the same directory: what can be read is what has been written. -/
example : Honest .disk (Kind.dir .disk afterBoth objD) fun q => q ∈ archiveWritten Statistics statContent ∨ q ∈ archiveWritten Graph graphContent ∨ False := by
  obtain ⟨⟨⟩, w1, h1⟩ := VecExample.isOk_run graph_runs
  obtain ⟨⟨⟩, w2, h2⟩ := VecExample.isOk_run second_runs
  rw [show afterGraph = w1 by unfold afterGraph; rw [h1]] at h2
  rw [show afterBoth = w2 by unfold afterBoth; rw [show afterGraph = w1 by unfold afterGraph; rw [h1], h2]]
  have k1 := @C57_keeps_partial naiveDiff .disk .debug .little Graph graphProg graphContent (disk0 []) w1 objD (fun _ => False) graph_separate
    graph_undotted graph_prepares (disk0_reachable _ _) Nat.zero_lt_one (disk_vacant _)
    (fun ds n s x _ _ _ _ hv => by obtain ⟨d, hd, _⟩ := hv.data; cases hd) h1 (.inl rfl)
  have s1 := @buildArchive_away .disk .debug .little naiveDiff Statistics Graph objD objD graphProg graphContent (disk0 []) graph_separate graph_prepares
    (disk0_reachable _ _) Nat.zero_lt_one Nat.zero_lt_one (fun l q1 q2 => graph_stat .disk objD l q2 q1)
  rw [h1] at s1
  exact @C57_keeps_partial naiveDiff .disk .debug .little Statistics statProg statContent w1 w2 objD _ ⟨by decide, by decide, trivial⟩
    ⟨by decide, trivial⟩ stat_prepares ((disk0_reachable _ _).steps s1.steps) (s1.steps.alive Nat.zero_lt_one)
    (vacant_away ⟨by decide, by decide, trivial⟩ s1 (disk_vacant _)) k1 h2 (.inl rfl)

/-- A later process that opens `Graph` sees what has been written. -/
example : ∃ w a w2, @buildArchive file naiveDiff .debug .little (directory ['d']) Graph graphProg (started ParallelExample.empty) = (.ok (), w) ∧
    @openArchive file naiveDiff .debug .little (directory ['d']) Graph (started w.fs.disk) = (.ok a, w2) ∧
    ∀ q ∈ archiveAccess Graph a, ∃ x, file.deref w2 q.2.2.2 = .ok x ∧ ((q.1, q.2.1, q.2.2.1, x) ∈ archiveWritten Graph graphContent ∨ False) := by
  obtain ⟨⟨⟩, w, h⟩ := VecExample.isOk_run graph_runs
  obtain ⟨a, w2, ho, _⟩ := @build_reopen naiveDiff .debug .debug .little .little Graph ['d'] graphProg graphContent ParallelExample.empty w
    graph_separate (graph_schemas .disk) graph_prepares (disk_vacant _) h
  have k1 := @C57_keeps_partial naiveDiff .disk .debug .little Graph graphProg graphContent (disk0 []) w objD (fun _ => False) graph_separate
    graph_undotted graph_prepares (disk0_reachable _ _) Nat.zero_lt_one (disk_vacant _)
    (fun ds n s x _ _ _ _ hv => by obtain ⟨d, hd, _⟩ := hv.data; cases hd) h (.inl rfl)
  exact ⟨w, a, w2, h, ho, (@C57_open naiveDiff .disk .debug .little Graph (started w.fs.disk) w2 (directory ['d']) a _ graph_separate
    graph_undotted (started_reachable _ _) Nat.zero_lt_one (fresh_current _ _) k1 ho).1⟩

end WrittenExample

/-! ## Building in a directory where there is an archive already -/

/-- The full claim: an archive has been built in an empty directory. Another one is built in the same directory, perhaps with I/O
errors. Whoever opens an archive there sees only what has been written, under the name and schema under which it has been written. -/
def C57_claim : Prop := ∀ (_ : DiffLib) (p : Profile) (e : Endian) (D1 D2 D' : ArchiveDef) (prog1 prog2 : Prog) (c1 c2 : Content) (d : Disk)
    (path : Path) (fault : Nat → Option Nat) (w1 w2 w3 : FileW) (r : Res RErr Unit) (a : Archive Key),
    Separate D1 → Undotted D1 → Separate D2 → Undotted D2 → Separate D' → Undotted D' → Prepares p e D1 prog1 c1 → Prepares p e D2 prog2 c2 →
    (∀ ds n, (∀ d ∈ ds, PlainName d) → PlainName n → Kind.dir .disk (started d) (directory path) ds n = none) →
    buildArchive file p e (directory path) D1 prog1 (started d) = (.ok (), w1) →
    buildArchive file p e (directory path) D2 prog2 (started w1.fs.disk fault) = (r, w2) →
    openArchive file p e (directory path) D' (started w2.fs.disk) = (.ok a, w3) →
    ∀ q ∈ archiveAccess D' a, ∃ x, file.deref w3 q.2.2.2 = .ok x ∧
      (q.1, q.2.1, q.2.2.1, x) ∈ archiveWritten D1 c1 ++ archiveWritten D2 c2

namespace WrittenExample

/-- A resource with the name `x`. -/
def resX (s : String) : ResDecl := { name := "x", schema := s, type := .raw, optional := false }

/-- Two archives that have a resource `x`, with different schemas. -/
def oldDef : ArchiveDef := .mk "A" "a" [resX "s"] .nil
def newDef : ArchiveDef := .mk "B" "b" [resX "t"] .nil

def oldProg : Prog := .res (resX "s") (.data [9#8, 9#8]) .done
def newProg : Prog := .res (resX "t") (.data [1#8]) .done

/-- The first archive is built. -/
def first : Res RErr Unit × FileW := @buildArchive file naiveDiff .debug .little (directory ['d']) oldDef oldProg (started ParallelExample.empty)

/-- The second is built in the same directory; the file `x.schema` cannot be opened. -/
def second : Res RErr Unit × FileW := @buildArchive file naiveDiff .debug .little (directory ['d']) newDef newProg
  (started first.2.fs.disk fun t => if t = 15 then some 0 else none)

/-- The first is opened. -/
def third : Res RErr (Archive Key) × FileW := @openArchive file naiveDiff .debug .little (directory ['d']) oldDef (started second.2.fs.disk)

/-- What the accessors show, with names and schemas. -/
def sees (D : ArchiveDef) : Res RErr (Archive Key) × FileW → List (Labelled (Out Bytes))
  | (.ok a, w) => (archiveAccess D a).map fun q => (q.1, q.2.1, q.2.2.1, file.deref w q.2.2.2)
  | _ => []

theorem first_ok : first.1 = .ok () := by decide +kernel

/-- It shows the data of the second archive under the schema of the first. -/
theorem third_sees : sees oldDef third = [([], "x", "s", .ok [1#8])] := by decide +kernel

end WrittenExample

open WrittenExample in
/-- C57 fails: the data are written before the schema, so an error in between leaves new data beside the old schema. -/
theorem C57_refuted : ¬ C57_claim := by
  intro claim
  have hse := third_sees
  rcases h1 : first with ⟨r1, w1⟩
  have hr1 : r1 = .ok () := by rw [← first_ok, h1]
  rcases h2 : second with ⟨r2, w2⟩
  rcases h3 : third with ⟨r3, w3⟩
  rw [h3] at hse
  cases r3 with
  | ok a =>
    unfold first at h1
    unfold second at h2
    unfold third at h3
    rw [hr1] at h1
    rw [show first.2.fs.disk = w1.fs.disk by unfold first; rw [h1]] at h2
    rw [show second.2.fs.disk = w2.fs.disk by unfold second; rw [show first.2.fs.disk = w1.fs.disk by unfold first; rw [h1]]; rw [h2]] at h3
    have hold : Separate oldDef ∧ Undotted oldDef := ⟨⟨by decide, by decide, trivial⟩, by decide, trivial⟩
    have hnew : Separate newDef ∧ Undotted newDef := ⟨⟨by decide, by decide, trivial⟩, by decide, trivial⟩
    have hprep : ∀ n s t b, b.length < 2 ^ 63 → Prepares .debug .little (.mk n s [resX t] .nil) (.res (resX t) (.data b) .done) (.mk [some (.bytes b)] .nil) := by
      intro n s t b hb
      refine ⟨by simp [Prog.writes], by simp [Prog.builds], ?_, by simp [Prog.builds], ⟨⟨_, .head _, .inr rfl, hb, rfl⟩, trivial⟩, trivial⟩
      intro x hx
      simp only [Prog.writes, List.mem_cons, List.not_mem_nil, or_false] at hx
      subst hx
      simp
    have := claim naiveDiff .debug .little oldDef newDef oldDef oldProg newProg (.mk [some (.bytes [9#8, 9#8])] .nil) (.mk [some (.bytes [1#8])] .nil)
      ParallelExample.empty ['d'] _ w1 w2 w3 r2 a hold.1 hold.2
      hnew.1 hnew.2 hold.1 hold.2 (hprep _ _ _ _ (by decide)) (hprep _ _ _ _ (by decide)) nothing h1 h2 h3
    replace hse : (archiveAccess oldDef a).map (fun q => (q.1, q.2.1, q.2.2.1, file.deref w3 q.2.2.2)) = [([], "x", "s", .ok [1#8])] := hse
    generalize archiveAccess oldDef a = l at this hse
    obtain ⟨q, rfl⟩ : ∃ q, l = [q] := List.length_eq_one_iff.mp (by simpa using congrArg List.length hse)
    simp only [List.map_cons, List.map_nil, List.cons.injEq, Prod.mk.injEq, and_true] at hse
    obtain ⟨x, hx, hm⟩ := this q (by simp)
    rw [hse.2.2.2] at hx
    cases hx
    rw [hse.1, hse.2.1, hse.2.2.1] at hm
    revert hm
    decide
  | err x => cases hse
  | panic => cases hse
  | ub => cases hse

end Flatdata
