import Verif.Proofs.Debug
import Verif.Props.Vectors
import Verif.Props.Build
/-!
# C15, C43: `Debug` output

`structText`, `previewText`, ... (Spec/Debug) give the expected texts as functions of the content. `ShowOK` asks for fields that
can be read correctly (C01), `EnumsOK` for stored enum values that are variants (C09).
-/
namespace Flatdata
open Spec StorageExample VecExample MvExample

/-! ## C15 -/

/-- The text of a struct reference: name and value of each field in the order of declaration; nothing behind the struct matters. -/
theorem C15_struct_partial (p : Profile) (e : Endian) (S : StructDef) (ok : ShowOK S) (mem : Bytes) (hm : S.size ≤ mem.length)
    (he : EnumsOK S (mem.take S.size)) : S.debug p e mem = .ok (structText S (mem.take S.size)) := by
  rw [structText_take ok.wf, debug_eq ok hm ((enumsOK_take ok.wf mem).mp he)]

/-- ... and of a `StructBuf`, whatever was done with it: `mem` is its struct. -/
theorem C15_structbuf_partial (p : Profile) (e : Endian) (S : StructDef) (ok : ShowOK S) (mem pad : Bytes) (hm : mem.length = S.size)
    (he : EnumsOK S mem) : StructBuf.debug p e S (mem ++ pad) = .ok ("StructBuf { resource: " ++ structText S mem ++ " }") := by
  have h : (mem ++ pad).take S.size = mem := by rw [← hm]; simp
  unfold StructBuf.debug StructBuf.get
  rw [C15_struct_partial p e S ok (mem ++ pad) (by simp; omega) (by rw [h]; exact he), h, Out.ok_bind]

/-- The text of a view and of its iterators. Only the elements shown need to have valid enum values. -/
theorem C15_view_text_partial (p : Profile) (e : Endian) (S : StructDef) (ok : ShowOK S) (hs : 0 < S.size) (name : String) (data : Bytes)
    (hd : data.length < 2 ^ 63) (he : ∀ x ∈ (elems S.size data).take 10, EnumsOK S x) :
    View.debugFormat p e S name data = .ok (previewText name ((elems S.size data).map (structText S))) := view_debug_eq ok hs hd he

/-- The text of a `Vector` after any history: the elements of the list to which the same operations were applied (C10). -/
theorem C15_vector_text_partial (p : Profile) (e : Endian) (S : StructDef) (ok : ShowOK S) (hs : 0 < S.size) (n : Nat) (ops : List VecOp)
    (l : List Bytes) (hfit : FitsMem S.size ops n) (hl : runList p e S ops (List.replicate n (zeros S.size)) = .ok l)
    (he : ∀ x ∈ l.take 10, EnumsOK S x) :
    ∃ d0 data, Vector.withLen p S.size n = .ok d0 ∧ runVec p e S ops d0 = .ok data ∧
      Vector.debug p e S data = .ok (previewText "Vector" (l.map (structText S))) := by
  obtain ⟨d0, h1, h2⟩ := withLen_rep (p := p) (FitsMem.bound _ _ hfit)
  obtain ⟨data, h3, h4, h5⟩ := runVec_spec hs ops d0 _ l h2 (by simpa using hfit) hl
  have ag : Agrees p S.size data l := h4.agrees hs h5
  refine ⟨d0, data, h1, h3, ?_⟩
  unfold Vector.debug
  have hlen := h4.length
  have hf := h4.all.length_flatten
  rw [ag.bytes, Out.ok_bind, C15_view_text_partial p e S ok hs "Vector" l.flatten (by omega) (by rw [ag.view]; exact he), ag.view]

/-- The text of a multi array view and of its iterators: each item with its number. -/
theorem C15_multi_text_partial (p : Profile) (e : Endian) (V : Variadic) (hV : (V.types.map Prod.fst).Nodup)
    (hS : ∀ x ∈ V.types, ShowOK x.2) (name : String) (v : MultiView) (hv : MultiOK V v) (xss : List (List (BitVec 8 × Bytes)))
    (hit : items V v = xss.map encodeItem) (hok : ∀ xs ∈ xss, ItemOK V xs)
    (he : ∀ xs ∈ xss.take 10, ∀ x ∈ xs, ∀ S, (x.1, S) ∈ V.types → EnumsOK S x.2) :
    MultiView.debugFormat p e V name v = .ok (previewText name (numbered V 0 xss)) := multi_debug_eq hV hS hv hit hok he

/-- The text of the iterator over one item. -/
theorem C15_item_text_partial (p : Profile) (e : Endian) (V : Variadic) (ok : VariadicOK V) (hS : ∀ x ∈ V.types, ShowOK x.2)
    (xs : List (BitVec 8 × Bytes)) (hok : ItemOK V xs) (he : ∀ x ∈ xs, ∀ S, (x.1, S) ∈ V.types → EnumsOK S x.2) :
    MultiView.itemDebug p e V (encodeItem xs) = .ok ("MultiArrayViewItemIter { data: " ++ itemText V xs ++ " }") := by
  rw [C15_debug_item_partial p e V ok (fun x hx => ⟨(hS x hx).wf, (hS x hx).straight⟩) xs hok, showContents_eq ok.distinct hS xs hok he,
    Out.ok_bind, itemText, commaSep_eq]
  simp only [String.append_assoc]
  rfl

/-- An external vector shows how many elements have been grown, ... -/
theorem C15_extvec (k : Kind) (p : Profile) (e : Endian) (S : StructDef) (hs : 0 < S.size) (w0 w w1 : k.backend.W)
    (o : k.backend.Obj) (name schema : String) (v v1 : ExtVec k.backend) (es : List (List HandleOp)) (hu : k.Unused w0 o name)
    (hc : createExternalVector p e o name schema w0 = (.ok v, w)) (g : Grows k p e S o name w v es w1 v1)
    (hb : es.length * S.size + 8 < 2 ^ 63) :
    v1.len = es.length ∧ v1.isEmpty = decide (es = []) ∧ v1.debug = "ExternalVector { len: " ++ toString es.length ++ " }" := by
  obtain ⟨i, u, _⟩ := created_inv S.size hu hc
  obtain ⟨pre, buf, c, i1, el, _⟩ := grows_inv i u hs g hb
  have hlen : v1.len = es.length := by rw [i1.len, el.length_eq, List.length_append]
  refine ⟨hlen, ?_, by unfold ExtVec.debug; rw [hlen]⟩
  unfold ExtVec.isEmpty
  rw [hlen]
  cases es <;> simp

/-- ... and a multivector how many items. -/
theorem C15_multivec (k : Kind) (p : Profile) (e : Endian) (V : Variadic) (ok : IndexOK V) (w0 w w1 : k.backend.W)
    (o : k.backend.Obj) (name schema : String) (v v1 : MultiVec k.backend) (its : List (List Add)) (hu : k.MUnused w0 o name)
    (hc : createMultiVector p e o name schema w0 = (.ok v, w)) (g : MGrows k p e V o name w v its w1 v1)
    (hbI : (its.length + 1) * V.indexSize + 8 < 2 ^ 63) (hb : dataSize its + 8 < 2 ^ 63) :
    v1.debug = "MultiVector { len: " ++ toString its.length ++ " }" := by
  obtain ⟨i, u, _⟩ := mcreated_inv V hu hc
  obtain ⟨preI, bufI, cI, pre, body, c, xss, s⟩ := mgrows_inv ok i u g hbI hb
  unfold MultiVec.debug
  rw [s.inv.index.len, ← List.length_append, s.length.2]

/-! ### Examples -/
namespace DebugExample
open Coappearances

theorem showOK_plain {S : StructDef} (h1 : (S.fields.all (plainOK S.size)) = true) (h2 : S.fields.Pairwise Disjoint)
    (h3 : ∀ f ∈ S.fields, f.bits + f.off % 8 ≤ 64 ∨ f.off < 8) (h4 : ∀ f ∈ S.fields, f.ty.signed = true → f.bits ≠ 1) : ShowOK S :=
  ⟨wf_of_plain h1 h2, h3, h4⟩

theorem enumsOK_plain {S : StructDef} (h : ∀ f ∈ S.fields, f.variants = none) (x : Bytes) : EnumsOK S x := by
  intro f hf l hl
  rw [h f hf] at hl; cases hl

/-- A struct with an enum, and a value of it. -/
def E : StructDef := ⟨"E", 2, [⟨"kind", .u8, 0, 3, false, some [(0, "A"), (2, "B")]⟩, .plain "n" .i16 3 10]⟩

theorem e_ok : ShowOK E := by
  refine ⟨⟨?_, by decide⟩, by decide, by decide⟩
  intro f hf
  simp only [E, List.mem_cons, List.not_mem_nil, or_false] at hf
  rcases hf with rfl | rfl
  · exact ⟨by decide, by decide, by decide, rfl, fun l hl => by cases hl; decide⟩
  · exact fieldOK_of_plainOK (by decide)

theorem e_enums : EnumsOK E [0xaa#8, 0x1f#8] := by
  intro f hf l hl
  simp only [E, List.mem_cons, List.not_mem_nil, or_false] at hf
  rcases hf with rfl | rfl
  · cases hl; decide
  · cases hl

example : E.debug .debug .big [0xaa#8, 0x1f#8] = .ok "E { kind: B, n: -11 }" := by
  rw [C15_struct_partial .debug .big E e_ok [0xaa#8, 0x1f#8] (by decide) e_enums]
  decide +kernel

theorem chapter_ok : ShowOK Chapter := showOK_plain (by decide) (by decide) (by decide) (by decide)
theorem chapter_enums (x : Bytes) : EnumsOK Chapter x := enumsOK_plain (by decide) x

/-- `C15_struct_partial`, `C15_structbuf_partial`. -/
example : Chapter.debug .debug .little [0x21#8, 0#8, 7#8] = .ok "Chapter { major: 1, minor: 2 }" := by
  rw [C15_struct_partial .debug .little Chapter chapter_ok [0x21#8, 0#8, 7#8] (by decide) (chapter_enums _)]
  decide

example : StructBuf.debug .debug .little Chapter ([0x21#8, 0#8] ++ zeros 8) =
    .ok "StructBuf { resource: Chapter { major: 1, minor: 2 } }" := by
  rw [C15_structbuf_partial .debug .little Chapter chapter_ok [0x21#8, 0#8] (zeros 8) (by decide) (chapter_enums _)]
  decide

/-- `C15_view_text_partial`: eleven elements. -/
example : View.debugFormat .debug .little Chapter "ArrayView" (zeros 22) =
    .ok ("ArrayView { len: 11, data: [" ++ commaSep (List.replicate 10 "Chapter { major: 0, minor: 0 }") ++ "]... }") := by
  rw [C15_view_text_partial .debug .little Chapter chapter_ok (by decide) "ArrayView" (zeros 22) (by decide) fun x _ => chapter_enums x]
  decide +kernel

/-- `C15_vector_text_partial`. -/
example : ∃ d0 data, Vector.withLen .debug 2 1 = .ok d0 ∧ runVec .debug .little Chapter [.grow [.set (.plain "major" .u8 0 4) 3]] d0 = .ok data ∧
    Vector.debug .debug .little Chapter data =
      .ok "Vector { len: 2, data: [Chapter { major: 0, minor: 0 }, Chapter { major: 3, minor: 0 }] }" := by
  obtain ⟨d0, data, h1, h2, h3⟩ := C15_vector_text_partial .debug .little Chapter chapter_ok (by decide) 1
    [.grow [.set (.plain "major" .u8 0 4) 3]] [[0#8, 0#8], [3#8, 0#8]] (by decide) (by decide) fun x _ => chapter_enums x
  refine ⟨d0, data, h1, h2, h3.trans ?_⟩
  decide +kernel

theorem types_ok : ∀ x ∈ VerticesData.types, ShowOK x.2 := by
  intro x hx
  simp only [VerticesData, List.mem_cons, List.not_mem_nil, or_false] at hx
  rcases hx with rfl | rfl | rfl | rfl <;> exact showOK_plain (by decide) (by decide) (by decide) (by decide)

theorem types_enums : ∀ (t : BitVec 8) (S : StructDef), (t, S) ∈ VerticesData.types → ∀ x, EnumsOK S x := by
  intro t S hx
  simp only [VerticesData, List.mem_cons, List.not_mem_nil, or_false, Prod.mk.injEq] at hx
  rcases hx with ⟨_, rfl⟩ | ⟨_, rfl⟩ | ⟨_, rfl⟩ | ⟨_, rfl⟩ <;> exact enumsOK_plain (by decide)

/-- `C15_multi_text_partial`, `C15_item_text_partial`. -/
example : MultiView.debugFormat .debug .little VerticesData "MultiArrayView" MultiExample.view =
    .ok ("MultiArrayView { len: 3, data: [(0, [Nickname { ref_: 7 }, UnaryRelation { kind_ref: 1, to_ref: 2 }]), (1, []), " ++
      "(2, [Description { ref_: 9 }])] }") := by
  rw [C15_multi_text_partial .debug .little _ MultiExample.ok.distinct types_ok _ _ MultiExample.view_ok _
    MultiExample.view_items MultiExample.contents_ok fun _ _ x _ S h => types_enums _ S h _]
  decide +kernel

example : MultiView.itemDebug .debug .little VerticesData (encodeItem [(1#8, [9#8, 0#8, 0#8, 0#8])]) =
    .ok "MultiArrayViewItemIter { data: [Description { ref_: 9 }] }" := by
  rw [C15_item_text_partial .debug .little _ MultiExample.ok types_ok _ (MultiExample.contents_ok _ (by decide)) fun x _ S h => types_enums _ S h _]
  decide +kernel

/-- `C15_extvec`: two elements, in memory; `C15_multivec`: three items. -/
example : ∃ v1 w1, VecExample.build (B := mem) obj VecExample.es mem0 = (.ok v1, w1) ∧ v1.debug = "ExternalVector { len: 2 }" := by
  have hok : (VecExample.build (B := mem) obj VecExample.es mem0).1.isOk = true := by decide
  obtain ⟨v1, w1, h⟩ := isOk_run hok
  obtain ⟨v, w, hc, g⟩ := VecExample.build_grows (k := .memory) (n := "x") h
  exact ⟨v1, w1, h, (C15_extvec .memory .debug .little VecExample.S (by decide) mem0 w w1 obj "x" "s" v v1 _ (unused_mem0 _) hc g (by decide)).2.2⟩

example : ∃ v1 w1, MvExample.build (B := mem) VerticesData obj MvExample.its mem0 = (.ok v1, w1) ∧ v1.debug = "MultiVector { len: 3 }" := by
  have hok : (MvExample.build (B := mem) VerticesData obj MvExample.its mem0).1.isOk = true := by decide +kernel
  obtain ⟨v1, w1, h⟩ := isOk_run hok
  obtain ⟨v, w, hc, g⟩ := MvExample.build_mgrows (k := .memory) (n := "x") MvExample.its_variants h
  exact ⟨v1, w1, h, C15_multivec .memory .debug .little VerticesData MultiExample.ok.index mem0 w w1 obj "x" "s" v v1 _ (munused_mem0 _) hc g
    (by decide) (by decide)⟩

end DebugExample

/-! ## C43: archives -/

/-- C43 in full: after building an archive and opening it, formatting shows each resource (in the order of declaration) with its
content, separated by commas. -/
def C43_claim : Prop :=
  ∀ (_ : DiffLib) (k : Kind) (p : Profile) (e : Endian) (D : ArchiveDef) (c : Content) (w w' : k.backend.W) (o : k.backend.Obj)
    (a : Archive k.backend.Base) (addr : Slice k.backend.Base → String), SchemasReadable k D → Built k p e w D o c → k.noFault w →
    k = .disk ∨ c.subs.empty → ContentShowable D c → openArchive k.backend p e o D w = (.ok a, w') →
    ∃ t, archiveDebug k.backend w' p e addr D a = .ok t ∧ ArchiveText commaSep D t c

/-- What the code does: a spurious comma comes first, otherwise the text is as expected. Missing with respect to `C43_claim` is just
that. Contents that cannot be shown correctly are those of C15: fields that cannot be read (C01), enums without the stored value
(C09), struct resources that are too short (C39). -/
theorem C43_archive_partial [DiffLib] (k : Kind) (p p' : Profile) (e e' : Endian) (D : ArchiveDef) (c : Content) (w : k.backend.W)
    (o : k.backend.Obj) (hm : SchemasReadable k D) (hb : Built k p e w D o c) (hn : k.noFault w) (hk : k = .disk ∨ c.subs.empty)
    (hc : ContentShowable D c) :
    ∃ a w', openArchive k.backend p' e' o D w = (.ok a, w') ∧ ∀ addr, ∃ t, archiveDebug k.backend w' p' e' addr D a = .ok t ∧
      ArchiveText (fun l => commaSep ("" :: l)) D t c := by
  obtain ⟨a, w', h1, h2⟩ := C32_histories k p p' e e' D c w o hm hb hn hk
  exact ⟨a, w', h1, fun _ => archiveDebug_text h2 hc⟩

namespace DebugExample
open Coappearances BuildExample

theorem stat_showable : ContentShowable Statistics statContent :=
  ⟨⟨⟨showOK_plain (by decide) (by decide) (by decide) (by decide), by decide, enumsOK_plain (by decide) _⟩,
    ⟨showOK_plain (by decide) (by decide) (by decide) (by decide), by decide, by decide, fun x _ => enumsOK_plain (by decide) x⟩, trivial⟩, trivial⟩

theorem graph_showable : ContentShowable Graph graphContent :=
  ⟨⟨⟨showOK_plain (by decide) (by decide) (by decide) (by decide), by decide, enumsOK_plain (by decide) _⟩,
    ⟨showOK_plain (by decide) (by decide) (by decide) (by decide), by decide, by decide, fun x _ => enumsOK_plain (by decide) x⟩,
    ⟨showOK_plain (by decide) (by decide) (by decide) (by decide), by decide, by decide, fun x _ => enumsOK_plain (by decide) x⟩,
    ⟨chapter_ok, by decide, by decide, fun x _ => chapter_enums x⟩,
    ⟨MultiExample.ok.distinct, types_ok, fun _ _ x _ S h => types_enums _ S h _⟩, trivial, trivial⟩, stat_showable, trivial⟩

attribute [local instance] naiveDiff in
/-- The archive of the integration test, built on disk. -/
theorem graph_built : ∃ w, @Built naiveDiff .disk .debug .little w Graph objD graphContent ∧ Kind.noFault .disk w := by
  obtain ⟨_, w, h⟩ := isOk_run graph_runs
  have st : Kind.Steps .disk (disk0 []) w :=
    @buildArchive_steps naiveDiff .disk .debug .little Graph graphProg graphContent _ w objD graph_separate graph_prepares (disk0_reachable _ _)
      Nat.zero_lt_one h
  have hb : @Built naiveDiff .disk .debug .little w Graph objD graphContent :=
    buildArchive_built graph_separate graph_prepares (disk0_reachable _ _) Nat.zero_lt_one (disk_vacant _) h
  exact ⟨w, hb, st.noFault (disk0_noFault _)⟩

/-- The hypotheses of `C43_archive_partial` hold for it. -/
example : ∃ w a w' t, @openArchive file naiveDiff .release .big objD Graph w = (.ok a, w') ∧
    archiveDebug file w' .release .big (fun _ => "0x0") Graph a = .ok t ∧ ArchiveText (fun l => commaSep ("" :: l)) Graph t graphContent := by
  obtain ⟨w, hb, hn⟩ := graph_built
  obtain ⟨a, w', h1, h2⟩ := @C43_archive_partial naiveDiff .disk .debug .release .little .big Graph graphContent w objD (graph_schemas .disk) hb hn
    (.inl rfl) graph_showable
  obtain ⟨t, h3, h4⟩ := h2 fun _ => "0x0"
  exact ⟨w, a, w', t, h1, h3, h4⟩

theorem stat_runs : (@buildArchive mem naiveDiff .debug .little obj Statistics statProg mem0).1.isOk = true := by decide +kernel

attribute [local instance] naiveDiff in
theorem stat_built : ∃ w, @Built naiveDiff .memory .debug .little w Statistics obj statContent := by
  obtain ⟨_, w, h⟩ := isOk_run stat_runs
  have hb : @Built naiveDiff .memory .debug .little w Statistics obj statContent :=
    buildArchive_built graph_separate.2.2.1 stat_prepares mem0_reachable Nat.zero_lt_one (mem_vacant _) h
  exact ⟨w, hb⟩

theorem append_left_cancel {a b c : String} (h : a ++ b = a ++ c) : b = c := by
  have := congrArg String.toList h
  simp only [String.toList_append, List.append_cancel_left_eq] at this
  exact String.toList_inj.mp this

theorem commaSep_cons (x : String) (l : List String) : ∃ r, commaSep (x :: l) = x ++ r := by
  cases l with
  | nil => exact ⟨"", by simp [commaSep]⟩
  | cons y l => exact ⟨", " ++ commaSep (y :: l), by rw [commaSep, String.append_assoc]⟩

end DebugExample

/-- C43 fails for every archive with a resource; here the subarchive of the integration test, in memory. -/
theorem C43_refuted : ¬ C43_claim := by
  intro h
  obtain ⟨w, hb⟩ := DebugExample.stat_built
  have hm := (BuildExample.graph_schemas .memory).2.2.1
  obtain ⟨a, w', h1, h2⟩ := @C43_archive_partial naiveDiff .memory .debug .debug .little .little Coappearances.Statistics
    BuildExample.statContent w obj hm hb trivial (.inr trivial) DebugExample.stat_showable
  obtain ⟨t, h3, ts, us, h4, h5, rfl⟩ := h2 fun _ => ""
  obtain ⟨t', h6, ts', us', h7, h8, h9⟩ := h naiveDiff .memory .debug .little Coappearances.Statistics BuildExample.statContent w w' obj a
    (fun _ => "") hm hb trivial (.inr trivial) DebugExample.stat_showable h1
  rw [h3] at h6
  cases h6
  rw [String.append_assoc, String.append_assoc, String.append_assoc, String.append_assoc] at h9
  have h10 := DebugExample.append_left_cancel (DebugExample.append_left_cancel h9)
  match ts', ts, h7, h4 with
  | x :: l', y :: l, h7, h4 =>
    obtain ⟨⟨s, rfl, _⟩, _⟩ := h7
    obtain ⟨⟨s', rfl, _⟩, _⟩ := h4
    have h11 := congrArg (fun t => t.toList.head?) h10
    simp only [List.cons_append] at h11
    obtain ⟨r, hr⟩ := DebugExample.commaSep_cons (Coappearances.invariants.name ++ ": " ++ s) (l' ++ us')
    rw [commaSep, hr] at h11
    simp only [String.toList_append, Coappearances.invariants] at h11
    rw [show ("".toList : List Char) = [] from rfl, show ", ".toList = [',', ' '] from rfl, show "invariants".toList = 'i' :: "nvariants".toList from rfl] at h11
    simp at h11

/-- The first text begins with the name of the first resource or subarchive. -/
theorem DebugExample.first_text {rs : List ResDecl} {subs : SubDefs} {ts us : List String} {cs : List (Option Payload)} {ss : SubContents}
    {glue : List String → String} (ht : AllText rs ts cs) (hu : SubsText glue subs us ss)
    (hr : ∀ r, rs.head? = some r → r.name.toList.head? ≠ some ',')
    (hs : ∀ n opt D rest, rs = [] → subs = .cons n opt D rest → n.toList.head? ≠ some ',') :
    (rs = [] ∧ subs = .nil ∧ ts ++ us = []) ∨ ∃ x l, ts ++ us = x :: l ∧ ∃ b bs, x.toList = b :: bs ∧ b ≠ ',' := by
  have key : ∀ (n s : String), n.toList.head? ≠ some ',' → ∃ b bs, (n ++ (": " ++ s)).toList = b :: bs ∧ b ≠ ',' := by
    intro n s hn
    rw [String.toList_append, String.toList_append]
    cases h : n.toList with
    | nil => exact ⟨':', _, rfl, by decide⟩
    | cons a b => rw [h] at hn; exact ⟨a, _, rfl, by simpa using hn⟩
  cases rs with
  | cons r rs =>
    right
    match ts, cs, ht with
    | t :: ts, c :: cs, ht =>
      obtain ⟨⟨s, rfl, _⟩, _⟩ := ht
      exact ⟨_, ts ++ us, rfl, by rw [String.append_assoc]; exact key _ _ (hr r rfl)⟩
  | nil =>
    match ts, cs, ht with
    | [], [], _ =>
      match subs, us, ss, hu with
      | .nil, [], .nil, _ => exact .inl ⟨rfl, rfl, rfl⟩
      | .cons n opt D rest, u :: us, .cons c ss, hu =>
        right
        have hn := hs n opt D rest rfl rfl
        cases c with
        | none =>
          obtain ⟨⟨_, rfl⟩, _⟩ := hu
          exact ⟨_, us, rfl, by
            rw [show n ++ ": None" = n ++ (": " ++ "None") from congrArg (n ++ ·) (by decide)]; exact key _ _ hn⟩
        | some c =>
          obtain ⟨⟨s, rfl, _⟩, _⟩ := hu
          exact ⟨_, us, rfl, by rw [String.append_assoc]; exact key _ _ hn⟩

/-- Exactly the texts of archives with neither resources nor subarchives are as expected (of names that do not begin with a
comma themselves, as no identifier does). -/
theorem C43_exact [DiffLib] (k : Kind) (p p' : Profile) (e e' : Endian) (name schema : String) (rs : List ResDecl) (subs : SubDefs)
    (c : Content) (w w' : k.backend.W) (o : k.backend.Obj) (a : Archive k.backend.Base) (addr : Slice k.backend.Base → String)
    (hm : SchemasReadable k (.mk name schema rs subs)) (hb : Built k p e w (.mk name schema rs subs) o c) (hn : k.noFault w)
    (hk : k = .disk ∨ c.subs.empty) (hc : ContentShowable (.mk name schema rs subs) c)
    (hr : ∀ r, rs.head? = some r → r.name.toList.head? ≠ some ',')
    (hs : ∀ n opt D rest, rs = [] → subs = .cons n opt D rest → n.toList.head? ≠ some ',')
    (ho : openArchive k.backend p' e' o (.mk name schema rs subs) w = (.ok a, w')) :
    (∃ t, archiveDebug k.backend w' p' e' addr (.mk name schema rs subs) a = .ok t ∧ ArchiveText commaSep (.mk name schema rs subs) t c) ↔
      rs = [] ∧ subs = .nil := by
  obtain ⟨a', w'', h1, h2⟩ := C43_archive_partial k p p' e e' _ c w o hm hb hn hk hc
  rw [ho] at h1
  cases h1
  obtain ⟨t, h3, h4⟩ := h2 addr
  obtain ⟨cs, ss⟩ := c
  obtain ⟨ts, us, h5, h6, h7⟩ := h4
  constructor
  · rintro ⟨t', h8, ts', us', h9, h10, h11⟩
    rw [h3] at h8
    cases h8
    rw [h11] at h7
    rw [String.append_assoc, String.append_assoc, String.append_assoc, String.append_assoc] at h7
    have h12 := DebugExample.append_left_cancel (DebugExample.append_left_cancel h7)
    rcases DebugExample.first_text h9 h10 hr hs with ⟨h13, h14, _⟩ | ⟨x, l, h13, b, bs, h14, hb'⟩
    · exact ⟨h13, h14⟩
    · rcases DebugExample.first_text h5 h6 hr hs with ⟨h15, h16, _⟩ | ⟨y, l', h15, _⟩
      · exact ⟨h15, h16⟩
      · exfalso
        rw [h13, h15] at h12
        obtain ⟨r, hx⟩ := DebugExample.commaSep_cons x l
        have h16 := congrArg (fun t => t.toList.head?) h12
        rw [hx] at h16
        simp only [commaSep, String.toList_append] at h16
        rw [show ("".toList : List Char) = [] from rfl, show ", ".toList = [',', ' '] from rfl] at h16
        rw [h14] at h16
        exact hb' (by simpa using h16)
  · rintro ⟨rfl, rfl⟩
    match ts, cs, us, ss, h5, h6, h7 with
    | [], [], [], .nil, h5, _, h7 => exact ⟨t, h3, [], [], h5, trivial, h7⟩

/-- Non-vacuity: the archive of the integration test has a wrong text, ... -/
example : ∃ w a w', @openArchive file naiveDiff .release .big objD Coappearances.Graph w = (.ok a, w') ∧
    ¬ ∃ t, archiveDebug file w' .release .big (fun _ => "0x0") Coappearances.Graph a = .ok t ∧
      ArchiveText commaSep Coappearances.Graph t BuildExample.graphContent := by
  obtain ⟨w, hb, hn⟩ := DebugExample.graph_built
  obtain ⟨a, w', h1, _⟩ := @C43_archive_partial naiveDiff .disk .debug .release .little .big Coappearances.Graph BuildExample.graphContent w objD
    (BuildExample.graph_schemas .disk) hb hn (.inl rfl) DebugExample.graph_showable
  refine ⟨w, a, w', h1, fun h => ?_⟩
  have h2 := (@C43_exact naiveDiff .disk .debug .release .little .big _ _ _ _ BuildExample.graphContent w w' objD a (fun _ => "0x0")
    (BuildExample.graph_schemas .disk) hb hn (.inl rfl) DebugExample.graph_showable
    (by rintro r hr; cases hr; decide) (by rintro n opt D rest hr; cases hr) h1).mp h
  cases h2.1

namespace DebugExample

/-- An archive without resources, built in memory. -/
def Bare : ArchiveDef := .mk "Bare" "s" [] .nil
theorem bare_runs : (@buildArchive mem naiveDiff .debug .little obj Bare .done mem0).1.isOk = true := by decide +kernel

attribute [local instance] naiveDiff in
theorem bare_built : ∃ w, @Built naiveDiff .memory .debug .little w Bare obj (.mk [] .nil) := by
  obtain ⟨_, w, h⟩ := isOk_run bare_runs
  have hb : @Built naiveDiff .memory .debug .little w Bare obj (.mk [] .nil) :=
    buildArchive_built (prog := .done) ⟨by decide, by decide, trivial⟩
      ⟨by decide, by decide, fun x hx => (by cases hx), fun x hx => (by cases hx), trivial, trivial⟩ mem0_reachable Nat.zero_lt_one
      (BuildExample.mem_vacant _) h
  exact ⟨w, hb⟩

end DebugExample

/-- ... one without resources a right one. -/
example : ∃ w a w' t, @openArchive mem naiveDiff .debug .little obj DebugExample.Bare w = (.ok a, w') ∧
    archiveDebug mem w' .debug .little (fun _ => "") DebugExample.Bare a = .ok t ∧ ArchiveText commaSep DebugExample.Bare t (.mk [] .nil) := by
  obtain ⟨w, hb⟩ := DebugExample.bare_built
  have hm : SchemasReadable .memory DebugExample.Bare := ⟨trivial, fun r hr => (by cases hr), trivial⟩
  obtain ⟨a, w', h1, _⟩ := @C43_archive_partial naiveDiff .memory .debug .debug .little .little DebugExample.Bare (.mk [] .nil) w obj
    hm hb trivial (.inr trivial) ⟨trivial, trivial⟩
  obtain ⟨t, h2⟩ := (@C43_exact naiveDiff .memory .debug .debug .little .little _ _ _ _ (.mk [] .nil) w w' obj a (fun _ => "")
    hm hb trivial (.inr trivial) ⟨trivial, trivial⟩ (fun r hr => (by cases hr)) (fun n opt D rest _ h => (by cases h)) h1).mpr ⟨rfl, rfl⟩
  exact ⟨w, a, w', t, h1, h2⟩

end Flatdata
