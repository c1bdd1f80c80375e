import Verif.Proofs.Frame
import Verif.Props.Build
/-!
# Properties C41, C42: the files of an archive

C41: the bytes of all files are determined by the definition of the archive and what was written. C42: no other files are
changed.
-/
namespace Flatdata
open Spec StorageExample VecExample MvExample

/-! ## C41: file format -/

theorem fileContent_mem {l : List File} {ds : List String} {n : String} {b : Bytes} (h : fileContent l ds n = some b) : (ds, n, b) ∈ l := by
  unfold fileContent at h
  obtain ⟨x, h1, h2⟩ := Option.map_eq_some_iff.mp h
  have h3 := List.find?_some h1
  have h4 := List.mem_of_find?_eq_some h1
  simp only [Bool.and_eq_true, decide_eq_true_eq] at h3
  obtain ⟨a, b', c⟩ := x
  obtain ⟨rfl, rfl⟩ := h3
  cases h2
  exact h4

theorem fileContent_none {l : List File} {ds : List String} {n : String} (h : fileContent l ds n = none) : ∀ b, (ds, n, b) ∉ l := by
  intro b hb
  unfold fileContent at h
  rw [Option.map_eq_none_iff, List.find?_eq_none] at h
  simpa using h _ hb

/-- C41: an incrementally written vector: the size as 8 bytes, the elements, 8 zero bytes; beside it the schema. -/
theorem C41_vector [DiffLib] (k : Kind) (p : Profile) (e : Endian) (S : StructDef) (hs : 0 < S.size) (w0 w w1 w2 : k.backend.W)
    (o : k.backend.Obj) (name schema : String) (v v1 : ExtVec k.backend) (es : List (List HandleOp)) (xs : List Bytes) (s : Slice k.backend.Base)
    (hu : k.Unused w0 o name) (hc : createExternalVector p e o name schema w0 = (.ok v, w)) (g : Grows k p e S o name w v es w1 v1)
    (hb : es.length * S.size + 8 < 2 ^ 63) (hx : Elements p e S es xs) (hcl : v1.close p e w1 = (.ok s, w2)) :
    StoredAs (k.stored w2 o) name schema xs.flatten := by
  obtain ⟨i, u, n⟩ := created_inv S.size hu hc
  obtain ⟨pre, buf, c, i1, el, u1, nf, _⟩ := grows_inv i u hs g hb
  have hlen := el.length_eq
  obtain ⟨r', w2', h2, cl, _, hsch, _⟩ := i1.close u1 (Kind.loc_schema_ne k o name) p e (by rw [← hlen]; omega)
  rw [hcl] at h2; cases h2
  rw [el.unique hx] at cl
  cases cl with
  | ok s hmed hd hrd => exact ⟨(k.stored_eq ..).trans hmed, (k.stored_eq ..).trans hsch⟩

/-- Non-vacuity: two elements of 8 bytes. -/
example [DiffLib] : ∃ w2, StoredAs (Kind.stored .disk w2 objD) "x" "s" (VecExample.xs.flatten) := by
  obtain ⟨v, w, v1, w1, hc, g⟩ := VecExample.run_disk
  obtain ⟨_, _, s, w2, _, h1, _⟩ := C21_roundtrip .disk .debug .little VecExample.S (by decide) (disk0 []) w w1 objD "x" "s" v v1 VecExample.es
    (VecExample.unused_disk0 ..) (disk0_noFault _) (by change strBytes "s" ≠ []; decide) hc g (by decide)
  exact ⟨w2, C41_vector .disk .debug .little VecExample.S (by decide) (disk0 []) w w1 w2 objD "x" "s" v v1 VecExample.es VecExample.xs s
    (VecExample.unused_disk0 ..) hc g (by decide) VecExample.elements h1⟩

/-- C41: a multivector: the index, with the start of each item and the end of the last one, and the items, each a list of type
tag and struct. -/
theorem C41_multivector [DiffLib] (k : Kind) (p : Profile) (e : Endian) (V : Variadic) (ok : VariadicOK V) (w0 w w1 w2 : k.backend.W)
    (o : k.backend.Obj) (name schema : String) (v v1 : MultiVec k.backend) (its : List (List Add)) (xss : List (List (BitVec 8 × Bytes)))
    (s : Slice k.backend.Base × Slice k.backend.Base) (hu : k.MUnused w0 o name)
    (hc : createMultiVector p e o name schema w0 = (.ok v, w)) (g : MGrows k p e V o name w v its w1 v1)
    (hbI : (its.length + 1) * V.indexSize + 8 < 2 ^ 63) (hb : dataSize its + 8 < 2 ^ 63) (hbits : dataSize its < 2 ^ V.indexBits)
    (hx : AllContents p e its xss) (hcl : v1.close p e V w1 = (.ok s, w2)) :
    StoredAs (k.stored w2 o) (name ++ "_index") ("index(" ++ schema ++ ")") (indexBytes V.indexSize xss) ∧
      StoredAs (k.stored w2 o) name schema (encodeItems xss) := by
  obtain ⟨si, sd⟩ := s
  obtain ⟨xs, xss', cleanI, cleanD, r, w2', hx', hxss, hv, hcl', cl, st, fine, _⟩ := mclose_inv ok.index hu hc g hbI hb
  rw [hcl] at hcl'; cases hcl'
  obtain rfl := hxss.unique hx
  rw [written_index ok.index hx' hxss hbits] at cl
  cases cl with
  | ok si sd hI hD hsI hsD =>
    exact ⟨⟨(k.stored_eq ..).trans hI, (k.stored_eq ..).trans st.indexSchema⟩, ⟨(k.stored_eq ..).trans hD, (k.stored_eq ..).trans st.dataSchema⟩⟩

/-- Non-vacuity: three items. -/
example [DiffLib] : ∃ w2, StoredAs (Kind.stored .disk w2 objD) "x_index" "index(s)" (indexBytes 4 MultiExample.contents) ∧
    StoredAs (Kind.stored .disk w2 objD) "x" "s" (encodeItems MultiExample.contents) := by
  obtain ⟨v, w, v1, w1, hc, g⟩ := MvExample.run_disk
  obtain ⟨_, si, sd, w2, _, _, _, h1, _⟩ := C26_roundtrip_partial .disk .debug .little Coappearances.VerticesData MultiExample.ok
    (disk0 []) w w1 objD "x" "s" v v1 MvExample.its (MvExample.munused_disk0 ..) (disk0_noFault _) (by change strBytes "s" ≠ []; decide) hc g
    (by decide) (by decide) (by decide)
  exact ⟨w2, C41_multivector .disk .debug .little Coappearances.VerticesData MultiExample.ok (disk0 []) w w1 w2 objD "x" "s" v v1 MvExample.its
    MultiExample.contents (si, sd) (MvExample.munused_disk0 ..) hc g (by decide) (by decide) (by decide) MvExample.its_contents h1⟩

/-- C41 for any history in which the archive has been built: all files of the listing. -/
theorem C41_histories [DiffLib] (k : Kind) (p : Profile) (e : Endian) (D : ArchiveDef) (c : Content) (w : k.backend.W) (o : k.backend.Obj)
    (hb : Built k p e w D o c) (hk : k = .disk ∨ c.subs.empty) : ∀ f ∈ listing D c, k.dir w o f.1 f.2.1 = some f.2.2 :=
  hb.files (hk.imp (fun h => by rw [h]; exact nested_disk) id)

/-- C41: if a program has built an archive where the places of its files were free, they now contain the files of the listing,
and all other files are as before: neither the build, nor the byte order of the machine, nor the order of the calls, nor the way in
which the resources are provided matters. -/
theorem C41_exact [DiffLib] (k : Kind) (p : Profile) (e : Endian) (D : ArchiveDef) (prog : Prog) (c : Content) (w0 w : k.backend.W)
    (o : k.backend.Obj) (hs : Separate D) (hc : Prepares p e D prog c) (hr : k.Reachable w0) (ho : k.alive w0 o) (hv : k.Vacant D w0 o)
    (h : buildArchive k.backend p e o D prog w0 = (.ok (), w)) (hk : k = .disk ∨ c.subs.empty) (ds : List String) (n : String)
    (hd : ∀ d ∈ ds, PlainName d) (hn : PlainName n) : k.dir w o ds n = (fileContent (listing D c) ds n).or (k.dir w0 o ds n) := by
  cases hf : fileContent (listing D c) ds n with
  | some b => exact C41_histories k p e D c w o (buildArchive_built hs hc hr ho hv h) hk _ (fileContent_mem hf)
  | none =>
    have := buildArchive_dir (p := p) (e := e) hs hc hr ho hd hn (fileContent_none hf)
    rw [h] at this
    exact this

/-- ... so an empty directory (or a new storage in memory) contains the files of the listing and no others. -/
theorem C41_empty [DiffLib] (k : Kind) (p : Profile) (e : Endian) (D : ArchiveDef) (prog : Prog) (c : Content) (w0 w : k.backend.W)
    (o : k.backend.Obj) (hs : Separate D) (hc : Prepares p e D prog c) (hr : k.Reachable w0) (ho : k.alive w0 o) (hu : ∀ n, k.unread w0 o n)
    (h0 : ∀ ds n, (∀ d ∈ ds, PlainName d) → PlainName n → k.dir w0 o ds n = none)
    (h : buildArchive k.backend p e o D prog w0 = (.ok (), w)) (hk : k = .disk ∨ c.subs.empty) (ds : List String) (n : String)
    (hd : ∀ d ∈ ds, PlainName d) (hn : PlainName n) : k.dir w o ds n = fileContent (listing D c) ds n := by
  rw [C41_exact k p e D prog c w0 w o hs hc hr ho (vacant_of_empty hs h0 hu) h hk ds n hd hn, h0 ds n hd hn, Option.or_none]

/-- In particular two such archives with the same content have the same files, also in different storages: what was the same before
is the same afterwards. -/
theorem C41_deterministic [DiffLib] (k k' : Kind) (p p' : Profile) (e e' : Endian) (D : ArchiveDef) (prog prog' : Prog) (c : Content)
    (w0 w : k.backend.W) (o : k.backend.Obj) (w0' w' : k'.backend.W) (o' : k'.backend.Obj) (hs : Separate D)
    (hc : Prepares p e D prog c) (hr : k.Reachable w0) (ho : k.alive w0 o) (hv : k.Vacant D w0 o)
    (h : buildArchive k.backend p e o D prog w0 = (.ok (), w)) (hk : k = .disk ∨ c.subs.empty)
    (hc' : Prepares p' e' D prog' c) (hr' : k'.Reachable w0') (ho' : k'.alive w0' o') (hv' : k'.Vacant D w0' o')
    (h' : buildArchive k'.backend p' e' o' D prog' w0' = (.ok (), w')) (hk' : k' = .disk ∨ c.subs.empty) (ds : List String) (n : String)
    (hd : ∀ d ∈ ds, PlainName d) (hn : PlainName n) (h0 : k.dir w0 o ds n = k'.dir w0' o' ds n) : k.dir w o ds n = k'.dir w' o' ds n := by
  rw [C41_exact k p e D prog c w0 w o hs hc hr ho hv h hk ds n hd hn, C41_exact k' p' e' D prog' c w0' w' o' hs hc' hr' ho' hv' h' hk' ds n hd hn, h0]

/-! ## C42: no other files -/

/-- C42: building an archive changes no file that does not belong to the content being written, whether it succeeds or not,
whatever is stored already and whatever I/O fails. -/
theorem C42_no_other_files [DiffLib] (k : Kind) (p : Profile) (e : Endian) (D : ArchiveDef) (prog : Prog) (c : Content) (w0 w : k.backend.W)
    (o : k.backend.Obj) (r : Res RErr Unit) (hs : Separate D) (hc : Prepares p e D prog c) (hr : k.Reachable w0) (ho : k.alive w0 o)
    (h : buildArchive k.backend p e o D prog w0 = (r, w)) (ds : List String) (n : String) (hd : ∀ d ∈ ds, PlainName d) (hn : PlainName n)
    (hl : ∀ b, (ds, n, b) ∉ listing D c) : k.dir w o ds n = k.dir w0 o ds n := by
  have := buildArchive_dir (p := p) (e := e) hs hc hr ho hd hn hl
  rw [h] at this
  exact this

/-! ### Example: the archive of the integration test -/
namespace BuildExample
open Coappearances

/-- The hypotheses hold, and this is one of the files: the index of `vertices_data` with three items of 5, 0 and 9 bytes. -/
example : ∃ w, @buildArchive file naiveDiff .debug .little objD Graph graphProg (disk0 []) = (.ok (), w) ∧
    (∀ ds n, (∀ d ∈ ds, PlainName d) → PlainName n → Kind.dir .disk w objD ds n = fileContent (listing Graph graphContent) ds n) ∧
    Kind.dir .disk w objD [] "vertices_data_index" = some (le64 16 ++ [0#8, 0#8, 0#8, 0#8, 5#8, 0#8, 0#8, 0#8,
      5#8, 0#8, 0#8, 0#8, 14#8, 0#8, 0#8, 0#8] ++ zeros 8) ∧
    Kind.dir .disk w objD ["statistics"] "Statistics.archive.schema" = some (strBytes "archive Statistics") ∧
    Kind.dir .disk w objD [] "other" = none := by
  obtain ⟨_, w, h⟩ := VecExample.isOk_run graph_runs
  have key := @C41_empty naiveDiff .disk .debug .little Graph graphProg graphContent _ w objD graph_separate graph_prepares (disk0_reachable _ _)
    Nat.zero_lt_one (fun _ => rfl) (fun _ _ _ _ => rfl) h (.inl rfl)
  refine ⟨w, h, key, ?_, ?_, ?_⟩
  · rw [key _ _ (fun d hd => by cases hd) (by decide)]; decide +kernel
  · rw [key _ _ (by decide) (by decide)]; decide +kernel
  · rw [key _ _ (fun d hd => by cases hd) (by decide)]; decide +kernel

/-- A directory that contains another file. -/
def shared : FileW := disk0 [([['d'], "other".toList], [7#8])]

theorem shared_none {q : Key} (h : q ≠ [['d'], "other".toList]) : shared.fs.files q = none := by
  change Option.map _ (List.find? _ _) = none
  rw [List.find?_cons_of_neg (by simpa using fun he => h he.symm)]
  rfl

theorem key_dir (ds : List String) (hd : ∀ d ∈ ds, PlainName d) (q : Path) : key (ds.foldl join q) = key q ++ ds.map String.toList := by
  induction ds generalizing q with
  | nil => simp
  | cons d ds ih =>
    rw [List.foldl_cons, ih (fun x hx => hd x (List.mem_cons_of_mem _ hx)), key_join_plain _ (hd d List.mem_cons_self), List.append_assoc]
    rfl

theorem shared_vacant : Kind.Vacant .disk Graph shared objD := by
  refine ⟨(by decide +kernel : ∀ n ∈ files Graph, shared.fs.files (key (join objD.path n)) = none), fun x hx ds n hd hn => ?_, fun _ _ => rfl⟩
  have hx1 : PlainName x.1 := by
    have : ∀ x ∈ SubDefs.entries Graph.subs, PlainName x.1 := by simp only [Graph, ArchiveDef.subs, SubDefs.entries]; decide
    exact this x hx
  change shared.fs.files (key (join (ds.foldl join (join objD.path x.1)) n)) = none
  refine shared_none fun he => ?_
  rw [key_join_plain _ hn, key_dir ds hd, key_join_plain _ hx1] at he
  have := congrArg List.length he
  simp [show key objD.path = [['d']] from by decide] at this

/-- The archive is added to it; the other file is still there. -/
example : ∃ w, @buildArchive file naiveDiff .debug .little objD Graph graphProg shared = (.ok (), w) ∧
    Kind.dir .disk w objD [] "Graph.archive" = some (le64 0 ++ zeros 8) ∧ Kind.dir .disk w objD [] "other" = some [7#8] := by
  have hok : (@buildArchive file naiveDiff .debug .little objD Graph graphProg shared).1.isOk = true := by decide +kernel
  obtain ⟨_, w, h⟩ := VecExample.isOk_run hok
  have key := @C41_exact naiveDiff .disk .debug .little Graph graphProg graphContent _ w objD graph_separate graph_prepares (disk0_reachable _ _)
    Nat.zero_lt_one shared_vacant h (.inl rfl)
  refine ⟨w, h, ?_, ?_⟩
  · rw [key _ _ (fun d hd => by cases hd) (by decide)]; decide +kernel
  · rw [key _ _ (fun d hd => by cases hd) (by decide)]; decide +kernel

/-- Another file, and a disk on which the 20th call fails. -/
def full : FileW := disk0 [([['d'], "other".toList], [7#8])] fun t => if t = 20 then some 0 else none

theorem full_fails : (@buildArchive file naiveDiff .debug .little objD Graph graphProg full).1.isOk = false := by decide +kernel

example : ∃ r w, @buildArchive file naiveDiff .debug .little objD Graph graphProg full = (r, w) ∧ r.isOk = false ∧
    Kind.dir .disk w objD [] "other" = some [7#8] := by
  have hf := full_fails
  generalize hb : @buildArchive file naiveDiff .debug .little objD Graph graphProg full = x at hf
  obtain ⟨r, w⟩ := x
  refine ⟨r, w, rfl, hf, (@C42_no_other_files naiveDiff .disk .debug .little Graph graphProg graphContent full w objD r graph_separate
    graph_prepares (disk0_reachable _ _) Nat.zero_lt_one hb [] "other" (fun d hd => by cases hd) (by decide)
    (fileContent_none (by decide +kernel))).trans ?_⟩
  decide +kernel

end BuildExample

end Flatdata
