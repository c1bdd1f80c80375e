import Verif.Proofs.Copy
import Verif.Props.Format
import Verif.Props.Vectors
/-!
# Property C40: copying with `fill_from`
-/
namespace Flatdata
open Spec StorageExample VecExample MvExample

/-! ## Structs -/

/-- C40 in full, for one struct (all else is built from this): copying into new memory reproduces a struct whose fields can be
read and whose unused bits are zero. -/
def C40_claim : Prop :=
  ∀ (p : Profile) (e : Endian) (S : StructDef) (src : Bytes), WF S → src.length = S.size → Tidy p e S src →
    S.fillFrom p e (zeros S.size) src = .ok src

namespace CopyExample

/-- A 64 bit field at bit offset 65: it needs nine bytes (C01). -/
def Far : StructDef := ⟨"F", 25, [.plain "b" .u64 65 64]⟩
/-- ... with the highest bit set. -/
def far : Bytes := zeros 16 ++ [1#8] ++ zeros 8

theorem far_wf : WF Far := wf_of_plain (by decide) (by decide)

theorem far_tidy : Tidy .debug .little Far far := by
  refine ⟨?_, by decide +kernel⟩
  intro f hf
  simp only [Far, List.mem_cons, List.not_mem_nil, or_false] at hf
  subst hf
  exact ⟨0, by decide⟩

/-- A `bool` of two bits. -/
def Wide : StructDef := ⟨"W", 1, [.plain "b" .bool 0 2]⟩

end CopyExample

/-- It fails for fields that need a ninth byte: the copy is all zero ... -/
theorem C40_refuted : ¬ C40_claim := by
  intro h
  have h1 := h .debug .little CopyExample.Far CopyExample.far CopyExample.far_wf (by decide) CopyExample.far_tidy
  revert h1; decide

/-- C40 for structs: `fill_from` into a new element of a vector or into a new `StructBuf`. Missing: definitions with fields that need
a ninth byte (`C40_refuted`) or `bool`s of more than one bit. -/
theorem C40_struct_partial (p : Profile) (e : Endian) (S : StructDef) (ok : CopyOK S) (src : Bytes) (hl : S.size ≤ src.length)
    (ht : Tidy p e S (src.take S.size)) :
    S.fillFrom p e (zeros S.size) src = .ok (src.take S.size) ∧
    S.fillFrom p e (StructBuf.new S) src = .ok (src.take S.size ++ zeros 8) := by
  have h1 := fill_zeros ok hl ht (Nat.le_refl _)
  have h2 := fill_zeros ok hl ht (Nat.le_add_right S.size 8)
  rw [Nat.add_sub_cancel_left] at h2
  refine ⟨?_, h2⟩
  rw [Nat.sub_self] at h1
  exact h1.trans (by rw [show zeros 0 = [] from rfl, List.append_nil])

/-- The restriction on `bool`s is needed as well. (The type `bool` has one bit in every schema; the macro accepts more.) -/
theorem C40_bool : CopyExample.Wide.fillFrom .debug .little (zeros 1) [2#8] = .ok [1#8] := by decide

/-! ## Vectors -/

theorem grow_all {p : Profile} {e : Endian} {S : StructDef} : ∀ {es : List (List HandleOp)} {xs : List Bytes} (l : List Bytes),
    Elements p e S es xs → runList p e S (es.map .grow) l = .ok (l ++ xs)
  | [], [], l, _ => by simp [runList]
  | ops :: es, x :: xs, l, h => by
    simp only [List.map_cons, runList, listOp]
    rw [h.1]
    change runList p e S (es.map .grow) (l ++ [x]) = _
    rw [grow_all (l ++ [x]) h.2, List.append_assoc]
    rfl

theorem fits_grow {size : Nat} : ∀ {es : List (List HandleOp)} {n : Nat}, (n + es.length) * size + 8 < 2 ^ 63 →
    FitsMem size (es.map .grow) n
  | [], n, h => by simpa [FitsMem] using h
  | _ :: es, n, h => fits_grow (n := n + 1) (by rw [List.length_cons] at h; rw [Nat.add_assoc, Nat.add_comm 1]; exact h)

theorem fits_elems {size : Nat} {b : Bytes} (hl : b.length + 8 < 2 ^ 63) : b.length / size * size + 8 < 2 ^ 63 := by
  have := Nat.div_mul_le_self b.length size
  omega

/-- C40 for vectors in memory: `for x in view { v.grow().fill_from(&x) }` completes and `v` has the same elements. -/
theorem C40_vector_partial (p : Profile) (e : Endian) (S : StructDef) (ok : CopyOK S) (hs : 0 < S.size) (b : Bytes)
    (hl : b.length + 8 < 2 ^ 63) (hm : b.length % S.size = 0) (ht : ∀ x ∈ elems S.size b, Tidy p e S x) :
    ∃ es d0 data, copyElements p S.size b = .ok es ∧ Vector.withLen p S.size 0 = .ok d0 ∧
      runVec p e S (es.map .grow) d0 = .ok data ∧ Vector.asBytes p data = .ok b := by
  obtain ⟨es, h1, h2, h3⟩ := copyElements_spec (p := p) (e := e) ok hs hl ht
  obtain ⟨d0, data, g1, g2, g3⟩ := C10_completes p e S hs 0 (es.map .grow) (elems S.size b)
    (fits_grow (by rw [h3, Nat.zero_add]; exact fits_elems hl)) (grow_all _ h2)
  exact ⟨es, d0, data, h1, g1, g2, by rw [g3.bytes, flatten_elems hs hm]⟩

/-- C40 for vectors written incrementally: if the loop and `close` succeed, the stored bytes are those of the source (and therefore, by
C41, both files are those of the source, if that was written with the same name and schema). -/
theorem C40_external_vector_partial [DiffLib] (k : Kind) (p : Profile) (e : Endian) (S : StructDef) (ok : CopyOK S) (hs : 0 < S.size)
    (b : Bytes) (hl : b.length + 8 < 2 ^ 63) (hm : b.length % S.size = 0) (ht : ∀ x ∈ elems S.size b, Tidy p e S x) :
    ∃ es, copyElements p S.size b = .ok es ∧
      ∀ (w0 w w1 w2 : k.backend.W) (o : k.backend.Obj) (name schema : String) (v v1 : ExtVec k.backend) (s : Slice k.backend.Base),
        k.Unused w0 o name → createExternalVector p e o name schema w0 = (.ok v, w) → Grows k p e S o name w v es w1 v1 →
        v1.close p e w1 = (.ok s, w2) → StoredAs (k.stored w2 o) name schema b := by
  obtain ⟨es, h1, h2, h3⟩ := copyElements_spec (p := p) (e := e) ok hs hl ht
  refine ⟨es, h1, ?_⟩
  intro w0 w w1 w2 o name schema v v1 s hu hc g hcl
  have := C41_vector k p e S hs w0 w w1 w2 o name schema v v1 es _ s hu hc g (by rw [h3]; exact fits_elems hl) h2 hcl
  rwa [flatten_elems hs hm] at this

/-! ## Multivectors -/

/-- C40 for multivectors: if the loop and `close` succeed, the two resources are those of a multivector with the items that the
view shows. -/
theorem C40_multivector_partial [DiffLib] (k : Kind) (p : Profile) (e : Endian) (V : Variadic) (ok : VariadicOK V)
    (hok : ∀ x ∈ V.types, CopyOK x.2) (view : MultiView) (xss : List (List (BitVec 8 × Bytes))) (hv : Shows V view xss)
    (ht : ∀ xs ∈ xss, ∀ x ∈ xs, ∀ S, (x.1, S) ∈ V.types → Tidy p e S x.2) (hbI : (xss.length + 1) * V.indexSize + 8 < 2 ^ 63)
    (hb : (encodeItems xss).length + 8 < 2 ^ 63) (hbits : (encodeItems xss).length < 2 ^ V.indexBits) :
    ∃ its, copyItems p e V view = .ok its ∧
      ∀ (w0 w w1 w2 : k.backend.W) (o : k.backend.Obj) (name schema : String) (v v1 : MultiVec k.backend)
        (s : Slice k.backend.Base × Slice k.backend.Base), k.MUnused w0 o name → createMultiVector p e o name schema w0 = (.ok v, w) →
        MGrows k p e V o name w v its w1 v1 → v1.close p e V w1 = (.ok s, w2) →
        StoredAs (k.stored w2 o) (name ++ "_index") ("index(" ++ schema ++ ")") (indexBytes V.indexSize xss) ∧
          StoredAs (k.stored w2 o) name schema (encodeItems xss) := by
  obtain ⟨its, h1, h2, h3, h4⟩ := copyItems_spec ok hok hv ht
  have hd := (AllContents.length h2).1
  refine ⟨its, h1, ?_⟩
  intro w0 w w1 w2 o name schema v v1 s hu hc g hcl
  exact C41_multivector k p e V ok w0 w w1 w2 o name schema v v1 its xss s hu hc g (by rw [h4]; exact hbI) (by rw [← hd]; exact hb)
    (by rw [← hd]; exact hbits) h2 hcl

/-! ## Archives -/

/-- C40 for archives, as the integration test copies one: the program that copies an opened archive resource by resource completes,
and if its calls succeed where the places of its files are free, opening the copy shows the same content. -/
theorem C40_archive_partial [DiffLib] (k k' : Kind) (p p' : Profile) (e e' : Endian) (D : ArchiveDef) (c : Content) (w : k.backend.W)
    (a : Archive k.backend.Base) (hs : Separate D) (hy : ArchiveYields k.backend w D a c) (hc : ContentCopyable p e D c) :
    ∃ prog, copyProg k.backend w p e D a = .ok prog ∧
      ∀ (w0 w' : k'.backend.W) (o : k'.backend.Obj), k'.Reachable w0 → k'.alive w0 o → k'.Vacant D w0 o → k' = .disk ∨ c.subs.empty →
        buildArchive k'.backend p e o D prog w0 = (.ok (), w') →
        (∀ ds n, (∀ d ∈ ds, PlainName d) → PlainName n → k'.dir w' o ds n = (fileContent (listing D c) ds n).or (k'.dir w0 o ds n)) ∧
        (SchemasReadable k' D → k'.noFault w0 → Opens k' p' e' D o w' c) := by
  obtain ⟨prog, h1, h2⟩ := copyProg_spec hs hy hc
  refine ⟨prog, h1, ?_⟩
  intro w0 w' o hr ho hv hk h
  exact ⟨fun ds n hd hn => C41_exact k' p e D prog c w0 w' o hs h2 hr ho hv h hk ds n hd hn,
    fun hm hn => C32_roundtrip k' p p' e e' D prog c w0 w' o hs hm h2 hr ho hv hn h hk⟩

/-- In particular the copy of an archive built by the library has exactly the files of the original (files that are the same
before building the two are the same after it; before, those of the archives are not there). -/
theorem C40_same_files_partial [DiffLib] (k k' : Kind) (p p' : Profile) (e e' : Endian) (D : ArchiveDef) (prog : Prog) (c : Content)
    (w0 w1 w2 : k.backend.W) (o : k.backend.Obj) (a : Archive k.backend.Base) (hs : Separate D) (hm : SchemasReadable k D)
    (hc : ContentCopyable p' e' D c) (hp : Prepares p e D prog c) (hr : k.Reachable w0) (ho : k.alive w0 o) (hv : k.Vacant D w0 o)
    (hn : k.noFault w0) (hk : k = .disk ∨ c.subs.empty) (hb : buildArchive k.backend p e o D prog w0 = (.ok (), w1))
    (hop : openArchive k.backend p' e' o D w1 = (.ok a, w2)) :
    ∃ prog', copyProg k.backend w2 p' e' D a = .ok prog' ∧
      ∀ (w0' w1' : k'.backend.W) (o' : k'.backend.Obj), k'.Reachable w0' → k'.alive w0' o' → k'.Vacant D w0' o' → k' = .disk ∨ c.subs.empty →
        buildArchive k'.backend p' e' o' D prog' w0' = (.ok (), w1') →
        ∀ ds n, (∀ d ∈ ds, PlainName d) → PlainName n → k'.dir w0' o' ds n = k.dir w0 o ds n → k'.dir w1' o' ds n = k.dir w1 o ds n := by
  obtain ⟨a', w2', h1, h2⟩ := C32_roundtrip k p p' e e' D prog c w0 w1 o hs hm hp hr ho hv hn hb hk
  rw [hop] at h1; cases h1
  obtain ⟨prog', h3, h4⟩ := C40_archive_partial k k' p' p' e' e' D c w2 a hs h2 hc
  refine ⟨prog', h3, ?_⟩
  intro w0' w1' o' hr' ho' hv' hk' hb' ds n hd hn' h0
  rw [(h4 w0' w1' o' hr' ho' hv' hk' hb').1 ds n hd hn', C41_exact k p e D prog c w0 w1 o hs hp hr ho hv hb hk ds n hd hn', h0]

/-! ### Example: the archive of the integration test -/
namespace CopyExample
open Coappearances BuildExample

theorem copyOK_plain {S : StructDef} (h : S.fields.all (plainOK S.size) = true) (hd : S.fields.Pairwise Disjoint)
    (hs : ∀ f ∈ S.fields, f.bits + f.off % 8 ≤ 64 ∨ f.off < 8) (hb : ∀ f ∈ S.fields, f.ty = .bool → f.bits = 1) : CopyOK S :=
  ⟨wf_of_plain h hd, hs, hb⟩

theorem tidy_plain {p : Profile} {e : Endian} {S : StructDef} {x : Bytes} (h : S.fields.all (plainOK S.size) = true)
    (hs : ∀ f ∈ S.fields, f.bits + f.off % 8 ≤ 64 ∨ f.off < 8) (hl : S.size ≤ x.length)
    (hu : ∀ k, k < 8 * S.size → (∀ f ∈ S.fields, k < f.off ∨ f.off + f.bits ≤ k) → bitAt x k = false) : Tidy p e S x := by
  refine ⟨readable_of_plain (fun f hf => ⟨fieldOK_of_plainOK (List.all_eq_true.mp h f hf), hs f hf⟩) (fun f hf => ?_) hl, hu⟩
  have := List.all_eq_true.mp h f hf
  simp only [plainOK, Bool.and_eq_true, Option.isNone_iff_eq_none] at this
  exact this.2

/-- A struct with unused bits, copied into a new element and into a `StructBuf`. -/
example : Chapter.fillFrom .debug .big (zeros 2) [0x21#8, 0x03#8, 0xff#8] = .ok [0x21#8, 0x03#8] ∧
    Chapter.fillFrom .debug .big (StructBuf.new Chapter) [0x21#8, 0x03#8, 0xff#8] = .ok ([0x21#8, 0x03#8] ++ zeros 8) :=
  C40_struct_partial .debug .big Chapter (copyOK_plain (by decide) (by decide) (by decide) (by decide)) _ (by decide)
    (tidy_plain (by decide) (by decide) (by decide) (by decide))

theorem chapters_tidy (p : Profile) (e : Endian) : ∀ x ∈ elems Chapter.size [0x21#8, 0x03#8, 0x45#8, 0x06#8], Tidy p e Chapter x := by
  have h : elems Chapter.size [0x21#8, 0x03#8, 0x45#8, 0x06#8] = [[0x21#8, 0x03#8], [0x45#8, 0x06#8]] := by decide
  rw [h]
  intro x hx
  simp only [List.mem_cons, List.not_mem_nil, or_false] at hx
  rcases hx with rfl | rfl <;> exact tidy_plain (by decide) (by decide) (by decide) (by decide)

/-- A vector of two of them, in memory. -/
example : ∃ es d0 data, copyElements .debug Chapter.size [0x21#8, 0x03#8, 0x45#8, 0x06#8] = .ok es ∧
    Vector.withLen .debug Chapter.size 0 = .ok d0 ∧ runVec .debug .little Chapter (es.map .grow) d0 = .ok data ∧
    Vector.asBytes .debug data = .ok [0x21#8, 0x03#8, 0x45#8, 0x06#8] :=
  C40_vector_partial .debug .little Chapter (copyOK_plain (by decide) (by decide) (by decide) (by decide)) (by decide) _ (by decide)
    (by decide) (chapters_tidy _ _)

theorem stat_copyable : ContentCopyable .release .little Statistics statContent := by
  refine ⟨⟨⟨copyOK_plain (by decide) (by decide) (by decide) (by decide), by decide, by decide,
      tidy_plain (by decide) (by decide) (by decide) (by decide)⟩,
    ⟨copyOK_plain (by decide) (by decide) (by decide) (by decide), by decide, by decide, by decide, ?_⟩, trivial⟩, trivial⟩
  rw [show elems Degree.size [3#8, 0#8, 0#8, 0#8] = [[3#8, 0#8], [0#8, 0#8]] by decide]
  intro x hx
  simp only [List.mem_cons, List.not_mem_nil, or_false] at hx
  rcases hx with rfl | rfl <;> exact tidy_plain (by decide) (by decide) (by decide) (by decide)

theorem items_ok : ∀ xs ∈ [[(0#8, [7#8, 0#8, 0#8, 0#8])], [], [(3#8, zeros 8)]], ItemOK VerticesData xs ∧ ∀ x ∈ xs, ∀ S,
    (x.1, S) ∈ VerticesData.types → Tidy .release .little S x.2 := by
  intro xs hx
  simp only [List.mem_cons, List.not_mem_nil, or_false] at hx
  rcases hx with rfl | rfl | rfl
  · refine ⟨?_, ?_⟩
    · decide
    · intro x hx S hS
      simp only [List.mem_cons, List.not_mem_nil, or_false] at hx
      subst hx
      simp [VerticesData] at hS
      subst hS
      exact tidy_plain (by decide) (by decide) (by decide) (by decide)
  · exact ⟨(fun x hx => by cases hx), (fun x hx => by cases hx)⟩
  · refine ⟨?_, ?_⟩
    · decide
    · intro x hx S hS
      simp only [List.mem_cons, List.not_mem_nil, or_false] at hx
      subst hx
      simp [VerticesData] at hS
      subst hS
      exact tidy_plain (by decide) (by decide) (by decide) (by decide)

theorem types_ok : ∀ x ∈ VerticesData.types, CopyOK x.2 := by
  intro x hx
  simp only [VerticesData, List.mem_cons, List.not_mem_nil, or_false] at hx
  rcases hx with rfl | rfl | rfl | rfl <;> exact copyOK_plain (by decide) (by decide) (by decide) (by decide)

theorem graph_copyable : ContentCopyable .release .little Graph graphContent := by
  refine ⟨⟨⟨copyOK_plain (by decide) (by decide) (by decide) (by decide), by decide, by decide,
      tidy_plain (by decide) (by decide) (by decide) (by decide)⟩,
    ⟨copyOK_plain (by decide) (by decide) (by decide) (by decide), by decide, by decide, by decide, ?_⟩,
    ⟨copyOK_plain (by decide) (by decide) (by decide) (by decide), by decide, by decide, by decide, ?_⟩,
    ⟨copyOK_plain (by decide) (by decide) (by decide) (by decide), by decide, by decide, by decide, ?_⟩,
    ⟨by decide, MultiExample.ok, types_ok, items_ok, by decide, by decide, by decide⟩, ?_, trivial⟩,
    stat_copyable, trivial⟩
  · rw [show elems Character.size [5#8, 0#8, 0#8, 0#8] = [[5#8, 0#8, 0#8, 0#8]] by decide]
    intro x hx
    simp only [List.mem_cons, List.not_mem_nil, or_false] at hx
    subst hx; exact tidy_plain (by decide) (by decide) (by decide) (by decide)
  · rw [show elems Coappearance.size [] = [] by decide]
    intro x hx; cases hx
  · rw [show elems Chapter.size [2#8, 0#8] = [[2#8, 0#8]] by decide]
    intro x hx
    simp only [List.mem_cons, List.not_mem_nil, or_false] at hx
    subst hx; exact tidy_plain (by decide) (by decide) (by decide) (by decide)
  · exact (by decide : [65#8, 0#8].length < 2 ^ 63)

attribute [local instance] naiveDiff in
/-- The hypotheses of `C40_same_files_partial` (and with it of `C40_archive_partial` and the theorems about vectors and multivectors)
hold for this archive, built in a debug build and copied in a release build. -/
example : ∃ w1 a w2 prog', @buildArchive file naiveDiff .debug .little objD Graph graphProg (disk0 []) = (.ok (), w1) ∧
    @openArchive file naiveDiff .release .little objD Graph w1 = (.ok a, w2) ∧ copyProg file w2 .release .little Graph a = .ok prog' ∧
    ∀ (w1' : FileW), @buildArchive file naiveDiff .release .little objD Graph prog' (disk0 []) = (.ok (), w1') →
      ∀ ds n, (∀ d ∈ ds, PlainName d) → PlainName n → Kind.dir .disk w1' objD ds n = Kind.dir .disk w1 objD ds n := by
  obtain ⟨_, w1, h⟩ := VecExample.isOk_run graph_runs
  obtain ⟨a, w2, h1, _⟩ := @C32_roundtrip naiveDiff .disk .debug .release .little .little Graph graphProg graphContent _ w1 objD graph_separate
    (graph_schemas .disk) graph_prepares (disk0_reachable _ _) Nat.zero_lt_one (disk_vacant _) (disk0_noFault _) h (.inl rfl)
  obtain ⟨prog', h2, h3⟩ := @C40_same_files_partial naiveDiff .disk .disk .debug .release .little .little Graph graphProg graphContent _ w1 w2 objD a
    graph_separate (graph_schemas .disk) graph_copyable graph_prepares (disk0_reachable _ _) Nat.zero_lt_one (disk_vacant _) (disk0_noFault _)
    (.inl rfl) h h1
  exact ⟨w1, a, w2, prog', h, h1, h2, fun w1' hb ds n hd hn =>
    h3 _ w1' objD (disk0_reachable _ _) Nat.zero_lt_one (disk_vacant _) (.inl rfl) hb ds n hd hn rfl⟩

/-- Building, opening, copying to the empty disk of another machine; whether all of it succeeds. -/
def copyRuns : Bool :=
  let x := @buildArchive file naiveDiff .debug .little objD Graph graphProg (disk0 [])
  let y := @openArchive file naiveDiff .release .little objD Graph x.2
  match y.1 with
  | .ok a => match copyProg file y.2 .release .little Graph a with
    | .ok prog => x.1.isOk && (@buildArchive file naiveDiff .release .little objD Graph prog (disk0 [])).1.isOk
    | _ => false
  | _ => false

/-- ... and the calls that make the copy do succeed. -/
theorem copy_runs : copyRuns = true := by decide +kernel

end CopyExample

end Flatdata
