import Verif.Proofs.Parallel
import Verif.Props.Neighbours
import Verif.Props.Succeeds
/-!
# Property C53: archives can be built at the same time by different processes
-/
namespace Flatdata
open Spec StorageExample MvExample BuildExample

/-! ## Where archives have no files in common -/

theorem hasFile_head {D : ArchiveDef} {x : Key} (h : HasFile D x) : ∃ n ∈ namesIn D, ∃ t, x = n.toList :: t := by
  rcases hasFile_cases h with ⟨n, hn, rfl⟩ | ⟨y, hy, t, rfl, _⟩
  · exact ⟨n, List.mem_append_left _ hn, [], rfl⟩
  · exact ⟨y.1, List.mem_append_right _ (List.mem_map.mpr ⟨y, hy, rfl⟩), t, rfl⟩

/-- Two archives in one directory that use different names in it. -/
theorem C53_same_directory (D1 D2 : ArchiveDef) (path1 path2 : Path) (hk : key path1 = key path2) (hn : ∀ n ∈ namesIn D1, n ∉ namesIn D2) :
    Beside D1 path1 D2 path2 := by
  rintro _ _ ⟨t, rfl, ht⟩ ⟨s, rfl, hs⟩
  obtain ⟨n, hn1, t', rfl⟩ := hasFile_head ht
  obtain ⟨m, hm1, s', rfl⟩ := hasFile_head hs
  have hne : n.toList ≠ m.toList := fun h => hn n hn1 (by rw [String.toList_inj.mp h]; exact hm1)
  rw [hk]
  constructor
  · intro h
    exact hne (List.cons_prefix_cons.mp ((List.prefix_append_right_inj _).mp h)).1
  · intro h
    exact hne (List.cons_prefix_cons.mp ((List.prefix_append_right_inj _).mp h)).1.symm

/-- Two archives in directories neither of which contains the other. -/
theorem C53_other_directory (D1 D2 : ArchiveDef) (path1 path2 : Path) (h1 : ¬ key path1 <+: key path2) (h2 : ¬ key path2 <+: key path1) :
    Beside D1 path1 D2 path2 := by
  rintro _ _ ⟨t, rfl, _⟩ ⟨s, rfl, _⟩
  have aux : ∀ {z : Key}, key path1 <+: z → key path2 <+: z → False := fun a b =>
    (List.prefix_or_prefix_of_prefix a b).elim h1 h2
  exact ⟨fun h => aux ((List.prefix_append _ _).trans h) (List.prefix_append _ _),
    fun h => aux (List.prefix_append _ _) ((List.prefix_append _ _).trans h)⟩

/-! ## Building and opening among others -/

theorem started_reachable (d : Disk) (fault : Nat → Option Nat) : Kind.Reachable .disk (started d fault) :=
  ⟨started d fault, ⟨fun _ _ => rfl, rfl⟩, .refl _⟩

theorem roomy_of_clear {D : ArchiveDef} {path : Path} {d : Disk} (h : Kind.Clear .disk D (started d) (directory path)) :
    Roomy (FileOf D path) (started d).fs := by
  obtain ⟨h1, h2, h3⟩ := h
  have h1 : ∀ i, d.files ((key path).take i) = none := h1
  have h2 : ∀ n ∈ files D, d.isDir (key path ++ [n.toList]) = false := h2
  have h3 : ∀ x ∈ SubDefs.entries D.subs, ∀ t, d.files (key path ++ x.1.toList :: t) = none ∧
    ∀ y, d.isDir (key path ++ x.1.toList :: y :: t) = false := h3
  refine ⟨?_, ?_, fun _ => rfl⟩
  · rintro _ x ⟨t, rfl, ht⟩ hx hne
    change d.files x = none
    rcases List.prefix_or_prefix_of_prefix hx (List.prefix_append (key path) t) with hp | ⟨s, rfl⟩
    · rw [List.prefix_iff_eq_take.mp hp]
      exact h1 _
    · have hs : s <+: t := (List.prefix_append_right_inj _).mp hx
      cases s with
      | nil => rw [List.append_nil]; have := h1 (key path).length; rwa [List.take_length] at this
      | cons y s =>
        rcases hasFile_cases ht with ⟨n, _, rfl⟩ | ⟨z, hz, u, rfl, _⟩
        · obtain ⟨rfl, h⟩ := List.cons_prefix_cons.mp hs
          rw [List.prefix_nil.mp h] at hne
          exact absurd rfl hne
        · rw [(List.cons_prefix_cons.mp hs).1]
          exact (h3 z hz s).1
  · rintro _ ⟨t, rfl, ht⟩
    change d.isDir _ = false
    rcases hasFile_cases ht with ⟨n, hn, rfl⟩ | ⟨z, hz, u, rfl, hu⟩
    · exact h2 n hn
    · cases u with
      | nil => exact absurd rfl (hasFile_ne_nil hu)
      | cons y u => exact (h3 z hz u).2 y

theorem twins_start {K : Key → Prop} {d d' : Disk} (hr : Roomy K (started d).fs) (hr' : Roomy K (started d').fs)
    (h : ∀ k, K k → d'.files k = d.files k) : Twins K (started d) (started d') :=
  ⟨rfl, rfl, rfl, rfl, h, hr, hr', fun _ _ _ _ h => by cases h⟩

/-- After an archive has been built, a new process finds what was written. -/
theorem build_reopen [DiffLib] {p p' : Profile} {e e' : Endian} {D : ArchiveDef} {path : Path} {prog : Prog} {c : Content} {d : Disk} {w' : FileW}
    (hs : Separate D) (hm : SchemasReadable .disk D) (hc : Prepares p e D prog c) (hv : Kind.Vacant .disk D (started d) (directory path))
    (hb : buildArchive file p e (directory path) D prog (started d) = (.ok (), w')) :
    ∃ a w'', openArchive file p' e' (directory path) D (started w'.fs.disk) = (.ok a, w'') ∧ ArchiveYields file w'' D a c := by
  obtain ⟨g1, _⟩ := (buildArchive_built (k := .disk) (o := directory path) hs hc (started_reachable d _) Nat.zero_lt_one hv hb).hold hm (.inl nested_disk)
  have hd : Kind.dir .disk (started w'.fs.disk) (directory path) = Kind.dir .disk w' (directory path) := rfl
  obtain ⟨r, w'', ho, _, out⟩ := C31_open .disk p' e' D (started w'.fs.disk) (directory path) (started_reachable _ _) Nat.zero_lt_one
    (fun n _ => ⟨fun x hx => (by cases hx), fun x hx => (by cases hx)⟩)
  rw [hd] at out
  rcases out with ⟨a, rfl, _, q2⟩ | ⟨x, rfl, q2⟩ | ⟨rfl, _, q2⟩
  · exact ⟨a, w'', ho, g1.yields (ArchiveShows.mono (fun _ _ _ => rfl) (fun _ _ h => h) q2)⟩
  · exact absurd g1.complete (q2 fun _ _ => rfl)
  · exact absurd q2 g1.notHuge

/-- C53, general form: other processes may do anything that leaves the files of the archive (and the directories above) alone. -/
theorem parallel_foreign [DiffLib] (p p' : Profile) (e e' : Endian) (D : ArchiveDef) (path : Path) (prog : Prog) (c : Content) (d : Disk) (env : Others)
    (hs : Separate D) (hm : SchemasReadable .disk D) (hc : Prepares p e D prog c) (hv : Kind.Vacant .disk D (started d) (directory path))
    (hcl : Kind.Clear .disk D (started d) (directory path)) (he : ∀ n x, Foreign (FileOf D path) x (env n x)) :
    ∃ v, buildArchive (amid env) p e (directory path) D prog (.started d) = (.ok (), v) ∧
      ∀ d', Foreign (FileOf D path) v.disk d' →
        (∀ x, FileOf D path x → d'.files x = (buildArchive file p e (directory path) D prog (started d)).2.fs.files x) ∧
        ∀ env' : Others, (∀ n x, Foreign (FileOf D path) x (env' n x)) →
          ∃ a v', openArchive (amid env') p' e' (directory path) D (.started d') = (.ok a, v') ∧
            ∀ d'', Foreign (FileOf D path) v'.disk d'' → ArchiveYields (amid env') (v'.on d'') D a c := by
  have hr0 := started_reachable d fun _ => none
  obtain ⟨w', hb⟩ := C32_build_succeeds .disk p e D prog c (started d) (directory path) hs hm hc hr0 Nat.zero_lt_one (fun _ _ => rfl) hv hcl
  change buildArchive file p e (directory path) D prog (started d) = (.ok (), w') at hb
  have hp := fileOf_prefixFree (q := path) hs
  have rm := roomy_of_clear hcl
  have sim := build_alike (K := FileOf D path) (amidAlike env he hp) id (fun _ _ h => h) (fun _ _ _ h => h) hs hc (o := directory path)
    (o' := directory path) rfl has_fileOf (started d) (.started d) (twins_start rm rm fun _ _ => rfl)
  rw [hb] at sim
  rcases hq : buildArchive (amid env) p e (directory path) D prog (.started d) with ⟨r, v⟩
  rw [hq] at sim
  obtain ⟨s1, s2⟩ := sim
  have s2 : Twins (FileOf D path) w' v.w := s2
  cases r with
  | ok u =>
    refine ⟨v, rfl, fun d' hd' => ?_⟩
    have s3 := s2.on hd'
    rw [hb]
    refine ⟨s3.files, fun env' he' => ?_⟩
    obtain ⟨a, w'', ho, hy⟩ := build_reopen (p' := p') (e' := e') hs hm hc hv hb
    have sim := open_alike (K := FileOf D path) (amidAlike env' he' hp).toReadAlike id (fun _ _ h => h) (fun _ _ _ h => h) (p := p') (e := e') hs
      (o := directory path) (o' := directory path) rfl has_fileOf (started w'.fs.disk) (.started d')
      (twins_start ⟨s2.room.above, s2.room.noDir, fun _ => rfl⟩ ⟨s3.room'.above, s3.room'.noDir, fun _ => rfl⟩ s3.files)
    rw [ho] at sim
    rcases hq' : openArchive (amid env') p' e' (directory path) D (.started d') with ⟨r, v'⟩
    rw [hq'] at sim
    obtain ⟨t1, t2⟩ := sim
    have t2 : Twins (FileOf D path) w'' v'.w := t2
    cases r with
    | ok b =>
      refine ⟨b, v', rfl, fun d'' hd'' => ?_⟩
      exact ReadAlike.archiveYields (S := (amidAlike env' he' hp).toReadAlike) (w' := v'.on d'') (t2.on hd'') t1 hy
    | err _ => exact False.elim t1
    | panic => exact False.elim t1
    | ub => exact False.elim t1
  | err _ => exact False.elim s1
  | panic => exact False.elim s1
  | ub => exact False.elim s1

/-- C53: a process builds an archive at a free place while any number of other processes build archives beside it, in any
interleaving of the system calls, successfully or not. The process succeeds; its files are what they would be had it been alone, at
any later time; and a process that opens the archive then finds what was written, at any later time, while the others go on. -/
theorem C53_parallel [DiffLib] (p p' : Profile) (e e' : Endian) (D : ArchiveDef) (path : Path) (prog : Prog) (c : Content) (d : Disk) (env : Others)
    (hs : Separate D) (hm : SchemasReadable .disk D) (hc : Prepares p e D prog c) (hv : Kind.Vacant .disk D (started d) (directory path))
    (hcl : Kind.Clear .disk D (started d) (directory path)) (he : env.Build D path) :
    ∃ v, buildArchive (amid env) p e (directory path) D prog (.started d) = (.ok (), v) ∧
      ∀ d', Meanwhile D path v.disk d' →
        (∀ x, FileOf D path x → d'.files x = (buildArchive file p e (directory path) D prog (started d)).2.fs.files x) ∧
        ∀ env' : Others, env'.Build D path →
          ∃ a v', openArchive (amid env') p' e' (directory path) D (.started d') = (.ok a, v') ∧
            ∀ d'', Meanwhile D path v'.disk d'' → ArchiveYields (amid env') (v'.on d'') D a c := by
  obtain ⟨v, h1, h2⟩ := parallel_foreign p p' e e' D path prog c d env hs hm hc hv hcl fun n x => (he n x).foreign
  refine ⟨v, h1, fun d' hd' => ?_⟩
  obtain ⟨h3, h4⟩ := h2 d' hd'.foreign
  refine ⟨h3, fun env' he' => ?_⟩
  obtain ⟨a, v', h5, h6⟩ := h4 env' fun n x => (he' n x).foreign
  exact ⟨a, v', h5, fun d'' hd'' => h6 d'' hd''.foreign⟩

/-- What a building process does in the end, if nobody else does anything, is one possibility of what the others do. -/
theorem C53_another [DiffLib] (p : Profile) (e : Endian) (D D' : ArchiveDef) (path path' : Path) (prog : Prog) (c : Content) (d : Disk)
    (fault : Nat → Option Nat) (hs : Separate D') (hc : Prepares p e D' prog c) (hb : Beside D path D' path') :
    Meanwhile D path d (buildArchive file p e (directory path') D' prog (started d fault)).2.fs.disk :=
  (build_nobody path' d fault hs hc).2.2.meanwhile (fun _ h => .step _ d fault hs hc hb h) (.refl d)

/-- ... and every call it makes, wherever the others are, is another. -/
theorem C53_calls [DiffLib] (p : Profile) (e : Endian) (D D' : ArchiveDef) (path path' : Path) (prog : Prog) (c : Content) (d : Disk) (env : Others)
    (fault : Nat → Option Nat) (hs : Separate D') (hc : Prepares p e D' prog c) (hb : Beside D path D' path') :
    ∀ st ∈ (buildArchive (amid env) p e (directory path') D' prog (.started d fault)).2.steps, Meanwhile D path st.1 st.2 :=
  fun _ h => .step (.refl _) (.step _ d fault hs hc hb h)

/-! ### Example: `Graph` is built while `Statistics` is built in the same directory, and another `Graph` elsewhere -/
namespace ParallelExample
open Coappearances

/-- An empty directory `d`. -/
def empty : Disk := ⟨fun _ => none, fun k => k = [['d']]⟩

/-- Before the sixth call another process builds `Statistics` in the same directory. Before the ninth, one begins to build `Graph` in
directory `e`, and fails in its fourth call. -/
def others : Others := fun n x =>
  if n = 5 then (@buildArchive file naiveDiff .debug .little (directory ['d']) Statistics statProg (started x)).2.fs.disk
  else if n = 8 then (@buildArchive file naiveDiff .debug .little (directory ['e']) Graph graphProg
    (started x fun t => if t = 3 then some 1 else none)).2.fs.disk
  else x

theorem stat_beside : Beside Graph ['d'] Statistics ['d'] := C53_same_directory _ _ _ _ rfl (by
  simp only [namesIn, Graph, Statistics, ArchiveDef.subs, SubDefs.entries]; decide)

theorem graph_beside : Beside Graph ['d'] Graph ['e'] := C53_other_directory _ _ _ _ (by decide) (by decide)

theorem others_build : @Others.Build naiveDiff others Graph ['d'] := by
  intro n x
  unfold others
  by_cases h : n = 5
  · rw [if_pos h]
    exact @C53_another naiveDiff .debug .little Graph Statistics ['d'] ['d'] statProg statContent x _ ⟨by decide, by decide, trivial⟩
      stat_prepares stat_beside
  · rw [if_neg h]
    by_cases h : n = 8
    · rw [if_pos h]
      exact @C53_another naiveDiff .debug .little Graph Graph ['d'] ['e'] graphProg graphContent x _ graph_separate graph_prepares graph_beside
    · rw [if_neg h]
      exact @Meanwhile.refl naiveDiff _ _ x

/-- They do something. -/
example : ((others 5 empty).files [['d'], "invariants".toList]).isSome = true := by decide +kernel
example : ((others 8 empty).isDir [['e']]) = true ∧ ((others 8 empty).files [['e'], "Graph.archive".toList]).isSome = true := by decide +kernel

example : ∃ v, @buildArchive (amid others) naiveDiff .debug .little (directory ['d']) Graph graphProg (.started empty) = (.ok (), v) ∧
    ∃ a v', @openArchive (amid others) naiveDiff .release .big (directory ['d']) Graph (.started v.disk) = (.ok a, v') ∧
      ArchiveYields (amid others) (v'.on v'.disk) Graph a graphContent := by
  obtain ⟨v, h1, h2⟩ := @C53_parallel naiveDiff .debug .release .little .big Graph ['d'] graphProg graphContent empty others graph_separate
    (graph_schemas .disk) graph_prepares (disk_vacant _) (disk_clear _) others_build
  obtain ⟨a, v', h3, h4⟩ := (h2 v.disk (@Meanwhile.refl naiveDiff _ _ _)).2 others others_build
  exact ⟨v, h1, a, v', h3, h4 _ (@Meanwhile.refl naiveDiff _ _ _)⟩

/-- The calls of a process that is not alone. -/
example : ∀ st ∈ (@buildArchive (amid others) naiveDiff .debug .little (directory ['e']) Graph graphProg (.started empty)).2.steps,
    @Meanwhile naiveDiff Graph ['d'] st.1 st.2 :=
  @C53_calls naiveDiff .debug .little Graph Graph ['d'] ['e'] graphProg graphContent empty others (fun _ => none) graph_separate graph_prepares graph_beside

end ParallelExample

/-! ## C54: two processes build the same archive -/

/-- Another process builds the archive between calls `n` and `n + 1`. -/
def Spec.between [DiffLib] (p : Profile) (e : Endian) (D : ArchiveDef) (path : Path) (prog : Prog) (n : Nat) : Others := fun m x =>
  if m = n + 1 then (buildArchive file p e (directory path) D prog (started x)).2.fs.disk else x

/-- C54, full claim: as building an archive that exists is an error (C30), only one of two processes building the same archive succeeds. -/
def C54_claim : Prop := ∀ [DiffLib] (p : Profile) (e : Endian) (D : ArchiveDef) (path : Path) (prog prog' : Prog) (c c' : Content) (d : Disk)
  (n : Nat) (v : Proc) (st : Disk × Disk), Separate D → SchemasReadable .disk D → Prepares p e D prog c → Prepares p e D prog' c' →
  Kind.Vacant .disk D (started d) (directory path) → Kind.Clear .disk D (started d) (directory path) →
  buildArchive (amid (between p e D path prog' n)) p e (directory path) D prog (.started d) = (.ok (), v) → v.steps[n]? = some st →
  (buildArchive file p e (directory path) D prog' (started st.2)).1 ≠ .ok ()

namespace ParallelExample
open Coappearances

def statProg' : Prog :=
  .res vertexDegrees (.elements [[.set (.plain "value" .u32 0 16) 4], []]) <| .res invariants (.struct (zeros 10)) .done

def statContent' : Content := .mk [some (.bytes (zeros Invariants.size)), some (.bytes [4#8, 0#8, 0#8, 0#8])] .nil

theorem stat_prepares' : Prepares .debug .little Statistics statProg' statContent' := by
  refine ⟨by decide, by decide, ?_, by simp [statProg', Prog.builds], ⟨⟨_, .tail _ (.head _), ?_⟩, ⟨_, .head _, ?_⟩, trivial⟩, trivial⟩
  · intro x hx
    simp only [statProg', Prog.writes, List.mem_cons, List.not_mem_nil, or_false] at hx
    rcases hx with rfl | rfl <;> simp
  · exact ⟨Invariants, rfl, by decide, by decide, by decide⟩
  · exact ⟨Degree, [[4#8, 0#8], [0#8, 0#8]], rfl, by decide, ⟨by decide, by decide, trivial⟩, by decide, rfl⟩

def race : Res RErr Unit × Proc :=
  @buildArchive (amid (@between naiveDiff .debug .little Statistics ['d'] statProg' 0)) naiveDiff .debug .little (directory ['d']) Statistics statProg
    (.started empty)

theorem race_ok : race.1.isOk = true := by decide +kernel

/-- The disk after the first call. -/
def looked : Disk := race.2.steps[0]?.elim empty Prod.snd

theorem race_looked : race.2.steps[0]?.isSome = true := by decide +kernel

def other : Res RErr Unit × FileW := @buildArchive file naiveDiff .debug .little (directory ['d']) Statistics statProg' (started looked)

theorem other_ok : other.1.isOk = true := by decide +kernel

theorem stat_schemas : SchemasReadable .disk Statistics := (graph_schemas .disk).2.2.1

end ParallelExample

/-- False: both succeed if both have looked for the archive before one of them creates it. The one that is done first then is lost. -/
theorem C54_refuted : ¬ C54_claim := by
  intro h
  obtain ⟨⟨⟩, v, hv⟩ := VecExample.isOk_run ParallelExample.race_ok
  obtain ⟨⟨⟩, w, hw⟩ := VecExample.isOk_run ParallelExample.other_ok
  have hs := ParallelExample.race_looked
  rcases hst : ParallelExample.race.2.steps[0]? with _ | st
  · rw [hst] at hs; cases hs
  refine @h naiveDiff .debug .little Coappearances.Statistics ['d'] statProg ParallelExample.statProg' statContent ParallelExample.statContent'
    ParallelExample.empty 0 v st ⟨by decide, by decide, trivial⟩ ParallelExample.stat_schemas stat_prepares ParallelExample.stat_prepares'
    (disk_vacant _) (disk_clear _) hv ?_ ?_
  · unfold ParallelExample.race at hst
    rw [hv] at hst
    exact hst
  · have hl : ParallelExample.looked = st.2 := by unfold ParallelExample.looked; rw [hst]; rfl
    rw [← hl]
    exact congrArg Prod.fst hw

/-- C54, what is true: a process that comes when the archive exists returns the error, and makes one call, which changes nothing. -/
theorem C54_late_partial [DiffLib] (p : Profile) (e : Endian) (D : ArchiveDef) (path : Path) (prog : Prog) (d : Disk) (env : Others)
    (hd : (env 0 d).files (key (join path (D.name ++ ".archive"))) ≠ none) :
    ∃ v, buildArchive (amid env) p e (directory path) D prog (.started d) = (.err (.io .alreadyExists (D.name ++ ".archive")), v) ∧
      v.steps = [(env 0 d, env 0 d)] := by
  have hc : env.call (FileSt.existsRes (directory path) (D.name ++ ".archive")) (.started d) =
      (.ok true, ⟨{ started (env 0 d) with fs := { (started (env 0 d)).fs with tick := 1 } }, [(env 0 d, env 0 d)]⟩) := by
    have hb : ((env 0 d).files (key (join path (D.name ++ ".archive")))).isSome = true := by
      cases hf : (env 0 d).files (key (join path (D.name ++ ".archive"))) with
      | none => exact absurd hf hd
      | some x => rfl
    change ((.ok (((env 0 d).files (key (join path (D.name ++ ".archive")))).isSome || _) : Res Empty Bool), _) = _
    rw [hb, Bool.true_or]
    rfl
  refine ⟨⟨{ started (env 0 d) with fs := { (started (env 0 d)).fs with tick := 1 } }, [(env 0 d, env 0 d)]⟩, ?_, rfl⟩
  unfold Spec.buildArchive builderNew Storage.createArchive ArchiveDef.signature
  refine Act.bind_err (Act.bind_err ?_)
  rw [Act.bind_ok (FileSt.mapErr_ok hc)]
  rfl

/-- Non-vacuity: the file appears just before the process looks for it. -/
example : ∃ v, @buildArchive (amid ParallelExample.others) naiveDiff .debug .little (directory ['d']) Coappearances.Statistics statProg
    (.started ⟨fun k => if k = [['d'], "Statistics.archive".toList] then some [] else none, fun k => k = [['d']]⟩) =
      (.err (.io .alreadyExists "Statistics.archive"), v) := by
  obtain ⟨v, h, _⟩ := @C54_late_partial naiveDiff .debug .little Coappearances.Statistics ['d'] statProg
    ⟨fun k => if k = [['d'], "Statistics.archive".toList] then some [] else none, fun k => k = [['d']]⟩ ParallelExample.others (by decide +kernel)
  exact ⟨v, h⟩

/-- ... in particular after another process has built it, whatever further processes do. -/
theorem C54_after_partial [DiffLib] (p p' : Profile) (e e' : Endian) (D D' : ArchiveDef) (path : Path) (prog prog' : Prog) (c : Content) (d : Disk)
    (env : Others) (hs : Separate D) (hm : SchemasReadable .disk D) (hc : Prepares p e D prog c) (hn : D'.name = D.name)
    (hv : Kind.Vacant .disk D (started d) (directory path)) (hcl : Kind.Clear .disk D (started d) (directory path)) (he : env.Build D path) :
    ∃ v, buildArchive (amid env) p e (directory path) D prog (.started d) = (.ok (), v) ∧
      ∀ d', Meanwhile D path v.disk d' → ∀ env' : Others, env'.Build D path →
        ∃ v', buildArchive (amid env') p' e' (directory path) D' prog' (.started d') = (.err (.io .alreadyExists (D.name ++ ".archive")), v') ∧
          v'.steps = [(env' 0 d', env' 0 d')] := by
  obtain ⟨v, h1, h2⟩ := C53_parallel p p' e e' D path prog c d env hs hm hc hv hcl he
  refine ⟨v, h1, fun d' hd' env' he' => ?_⟩
  obtain ⟨w', hb⟩ := C32_build_succeeds .disk p e D prog c (started d) (directory path) hs hm hc (started_reachable d _) Nat.zero_lt_one
    (fun _ _ => rfl) hv hcl
  obtain ⟨g1, _⟩ := (buildArchive_built (k := .disk) (o := directory path) hs hc (started_reachable d _) Nat.zero_lt_one hv hb).hold hm (.inl nested_disk)
  have hf := (h2 _ (hd'.trans (he' 0 d'))).1
  change buildArchive file p e (directory path) D prog (started d) = (.ok (), w') at hb
  rw [hb] at hf
  have hsig : w'.fs.files (key (join path (D.name ++ ".archive"))) ≠ none := by
    have := g1.complete
    obtain ⟨name, schema, rs, subs⟩ := D
    unfold Complete at this
    obtain ⟨⟨x, hx⟩, _⟩ := this
    obtain ⟨b, hb, _⟩ := hx.data
    change w'.fs.files (key (join path (name ++ ".archive"))) = some b at hb
    change w'.fs.files (key (join path (name ++ ".archive"))) ≠ none
    rw [hb]
    exact nofun
  rw [← hn]
  refine C54_late_partial p' e' D' path prog' d' env' ?_
  rw [hn]
  intro h
  refine hsig ((hf _ ?_).symm.trans h)
  have hname := has_fileOf.named (o := directory path) (K := FileOf D path) hs (n := D.name ++ ".archive") (by
    cases D; exact List.mem_cons_self)
  exact hname.key

/-- Non-vacuity: `Graph` in the directory where it has been built, with the others as above. -/
example : ∃ v, @buildArchive (amid ParallelExample.others) naiveDiff .debug .little (directory ['d']) Coappearances.Graph graphProg
      (.started ParallelExample.empty) = (.ok (), v) ∧
    ∃ v', @buildArchive (amid ParallelExample.others) naiveDiff .release .big (directory ['d']) Coappearances.Graph graphProg (.started v.disk) =
      (.err (.io .alreadyExists "Graph.archive"), v') := by
  obtain ⟨v, h1, h2⟩ := @C54_after_partial naiveDiff .debug .release .little .big Coappearances.Graph Coappearances.Graph ['d'] graphProg graphProg
    graphContent ParallelExample.empty ParallelExample.others graph_separate (graph_schemas .disk) graph_prepares rfl (disk_vacant _) (disk_clear _)
    ParallelExample.others_build
  obtain ⟨v', h3, _⟩ := h2 v.disk (@Meanwhile.refl naiveDiff _ _ _) ParallelExample.others ParallelExample.others_build
  exact ⟨v, h1, v', h3⟩

section
variable {W E α β : Type}

/-- `x` does not return the error `a`. -/
def Act.Not (a : E) (x : Act W E α) : Prop := ∀ w, (x w).1 ≠ .err a

namespace Act.Not
variable {a : E}

theorem bind {x : Act W E α} {f : α → Act W E β} (h : x.Not a) (hf : ∀ b, (f b).Not a) : (x >>= f).Not a := by
  intro w
  have h1 := h w
  rw [Act.bind_def]
  cases hx : x w with
  | mk r w1 =>
    rw [hx] at h1
    cases r with
    | ok b => exact hf b w1
    | err b => exact fun he => h1 (by cases he; rfl)
    | panic => exact nofun
    | ub => exact nofun

theorem lift (x : Out α) : (Act.lift x : Act W E α).Not a := fun w => by cases x <;> exact nofun
theorem empty (x : Act W Empty α) : (x.mapErr Empty.elim : Act W E α).Not a := by
  intro w
  unfold Act.mapErr
  cases hx : x w with
  | mk r w1 =>
    cases r with
    | err b => exact b.elim
    | _ => exact nofun

theorem ite {c : Prop} [Decidable c] {x y : Act W E α} (hx : x.Not a) (hy : y.Not a) : (if c then x else y).Not a := by
  by_cases h : c
  · rw [if_pos h]; exact hx
  · rw [if_neg h]; exact hy

end Act.Not
end

/-- A system call returns the error only if it does so without a fault. -/
theorem syscall_not {α : Type} {normal : FS → Res IoErr α × FS} {faulty : Nat → FS → FS} (h : ∀ fs, (normal fs).1 ≠ .err .alreadyExists) :
    (FileSt.syscall normal faulty).Not .alreadyExists := by
  intro w
  unfold FileSt.syscall
  cases w.fs.fault w.fs.tick with
  | none => exact h _
  | some k => exact nofun

theorem call_not {α : Type} (env : Others) {x : Act FileW IoErr α} (h : x.Not .alreadyExists) : (env.call x).Not .alreadyExists :=
  fun v => h (env.meet v)

theorem amid_write_not (env : Others) (p : Profile) (e : Endian) (o : Obj) (name schema : String) (d : Bytes) :
    (Storage.write (amid env) p e o name schema d).Not .alreadyExists := by
  have hw : ∀ s b, ((amid env).writeAll s b).Not IoErr.alreadyExists := fun s b => call_not env (syscall_not fun _ => nofun)
  have hc : ∀ n, ((amid env).createOutputStream o n).Not IoErr.alreadyExists := by
    intro n
    have h1 : (env.call (FileSt.createDirAll o.path)).Not IoErr.alreadyExists :=
      call_not env (syscall_not fun _ => by split <;> exact nofun)
    have h2 : (env.call (FileSt.fileCreate (join o.path n))).Not IoErr.alreadyExists :=
      call_not env (syscall_not fun _ => by split <;> exact nofun)
    exact (Act.Not.empty _).bind fun _ => .ite (h1.bind fun _ => h2) h2
  unfold Storage.write Storage.writeToStream Storage.writeSize
  exact (hc _).bind fun s => (((Act.Not.lift _).bind fun _ => hw s _).bind fun _ => (hw s _).bind fun _ => hw s _).bind fun _ =>
    (hc _).bind fun s => hw s _

/-- The path of a signature is not empty. -/
theorem signature_key_ne (path : Path) (name : String) : key (join path (name ++ ".archive")) ≠ [] ∧ join path (name ++ ".archive") ≠ [] := by
  have hk : key (join path (name ++ ".archive")) ≠ [] := by
    rw [join_append _ _ _ (by decide)]
    obtain ⟨L, l, _, h2⟩ := splitSlash_append_noSlash (join path name)
    unfold key
    rw [h2 _ (by decide), List.filter_append]
    intro h
    have h := (List.append_eq_nil_iff.mp (List.append_eq_nil_iff.mp h).2).2
    rw [List.filter_cons] at h
    have hl : 8 ≤ (l ++ ".archive".toList).length := by
      rw [List.length_append]
      exact Nat.le_add_left _ _
    split at h
    · cases h
    · rename_i hn
      apply hn
      rw [decide_eq_true_eq]
      exact ⟨fun h0 => by rw [h0] at hl; exact absurd hl (by decide), fun h0 => by rw [h0] at hl; exact absurd hl (by decide)⟩
  exact ⟨hk, fun h => hk (by rw [h]; rfl)⟩

/-- Exactly when a process is refused: if there is something of the name of the signature at the moment it looks for it, and looking
does not fail. Whatever appears later is not noticed. -/
theorem C54_exact (p : Profile) (e : Endian) (D : ArchiveDef) (path : Path) (d : Disk) (fault : Nat → Option Nat) (env : Others) :
    (builderNew (amid env) p e (directory path) D (.started d fault)).1 = .err (.io .alreadyExists (D.name ++ ".archive")) ↔
      fault 0 = none ∧ ((env 0 d).files (key (join path (D.name ++ ".archive"))) ≠ none ∨
        (env 0 d).isDir (key (join path (D.name ++ ".archive"))) = true) := by
  obtain ⟨hk, hj⟩ := signature_key_ne path D.name
  have hx : ∃ v, env.call (FileSt.existsRes (directory path) (D.name ++ ".archive")) (.started d fault) =
      (.ok (decide (fault 0 = none ∧ ((env 0 d).files (key (join path (D.name ++ ".archive"))) ≠ none ∨
        (env 0 d).isDir (key (join path (D.name ++ ".archive"))) = true))), v) := by
    refine ⟨(env.call (FileSt.existsRes (directory path) (D.name ++ ".archive")) (.started d fault)).2, Prod.ext ?_ rfl⟩
    unfold Others.call FileSt.existsRes FileSt.pathExists FileSt.syscall
    change (match (match fault 0 with | none => _ | some k => _ : Res IoErr Bool × FileW) with | (.ok b, w) => _ | (_, w) => _ : Res Empty Bool × FileW).1 = _
    cases hf : fault 0 with
    | some k => simp
    | none =>
      dsimp only
      congr 1
      change (((env 0 d).files (key (join path (D.name ++ ".archive")))).isSome || (decide (join path (D.name ++ ".archive") ≠ []) &&
        (key (join path (D.name ++ ".archive")) == [] || (env 0 d).isDir (key (join path (D.name ++ ".archive")))))) = _
      have hb : (key (join path (D.name ++ ".archive")) == []) = false := by
        cases h : key (join path (D.name ++ ".archive")) with
        | nil => exact absurd h hk
        | cons _ _ => rfl
      rw [hb, decide_eq_true hj, Bool.true_and, Bool.false_or]
      cases (env 0 d).files (key (join path (D.name ++ ".archive"))) with
      | none => simp
      | some x => simp
  obtain ⟨v, hx⟩ := hx
  unfold builderNew Storage.createArchive ArchiveDef.signature
  rw [Act.bind_assoc, Act.bind_ok (FileSt.mapErr_ok hx)]
  by_cases h : fault 0 = none ∧ ((env 0 d).files (key (join path (D.name ++ ".archive"))) ≠ none ∨
        (env 0 d).isDir (key (join path (D.name ++ ".archive"))) = true)
  · rw [decide_eq_true h]
    exact iff_of_true rfl h
  · rw [decide_eq_false h]
    refine iff_of_false (fun he => ?_) h
    have hw := amid_write_not env p e (directory path) (D.name ++ ".archive") D.schema [] v
    rw [if_neg (by decide), Act.bind_def] at he
    unfold Act.mapErr at he
    cases hq : Storage.write (amid env) p e (directory path) (D.name ++ ".archive") D.schema [] v with
    | mk r v1 =>
      rw [hq] at he hw
      cases r with
      | err x => cases he; exact hw rfl
      | ok _ => cases he
      | panic => cases he
      | ub => cases he

/-- Non-vacuity: the signature is there when the process looks, or appears just afterwards. -/
example (n : Nat) : let there : Disk := ⟨fun k => if k = [['d'], "Statistics.archive".toList] then some [] else none, fun k => k = [['d']]⟩
    let env : Others := fun m x => if n ≤ m then there else x
    ((builderNew (amid env) .debug .little (directory ['d']) Coappearances.Statistics (.started ParallelExample.empty)).1 =
      .err (.io .alreadyExists "Statistics.archive")) ↔ n = 0 := by
  intro there env
  refine (C54_exact .debug .little Coappearances.Statistics ['d'] ParallelExample.empty (fun _ => none) env).trans ?_
  rcases Nat.eq_zero_or_pos n with rfl | hn
  · exact iff_of_true (by decide +kernel) rfl
  · refine iff_of_false (fun h => ?_) (by omega)
    have h0 : env 0 ParallelExample.empty = ParallelExample.empty := if_neg (by omega)
    rw [h0] at h
    exact absurd h (by decide +kernel)

end Flatdata
