import Verif.Proofs.Reads
import Verif.Props.MultiVectors
/-!
# Properties C20, C23, C24, C25 for multivectors: crashes, closing, buffering, dropping
-/
namespace Flatdata
open Spec StorageExample VecExample MvExample

/-! ## C20: crash safety -/

/-- C20 in full, for multivectors: a process that can read both resources after a crash sees all items. -/
def C20_multivec_claim : Prop :=
  ∀ (_ : DiffLib) (p p' : Profile) (e e' : Endian) (V : Variadic) (w0 w1 w2 w3 w4 : FileW) (o o' : Obj) (name schema : String)
    (its : List (List Add)) (xss : List (List (BitVec 8 × Bytes))) (si sd : Slice Key) (ib db : Bytes), VariadicOK V →
    Kind.MUnused .disk w0 o name → Kind.stored .disk w0 o name = none → Kind.stored .disk w0 o (name ++ "_index") = none →
    MLife .disk p e V o name schema w0 its w1 → (its.length + 1) * V.indexSize + 8 < 2 ^ 63 → dataSize its + 8 < 2 ^ 63 →
    dataSize its < 2 ^ V.indexBits → AllContents p e its xss → NewProcess w1 w2 → o'.path = o.path →
    Storage.read file p' e' o' (name ++ "_index") ("index(" ++ schema ++ ")") w2 = (.ok si, w3) →
    Storage.read file p' e' o' name schema w3 = (.ok sd, w4) → file.deref w4 si = .ok ib → file.deref w4 sd = .ok db →
    Shows V ⟨ib, db⟩ xss

/-- What is stored under the two names at any time of the life of a multivector. -/
theorem mlife_allOrNothing [DiffLib] {k : Kind} {p : Profile} {e : Endian} {V : Variadic} (ok : IndexOK V) {w0 w1 : k.backend.W}
    {o : k.backend.Obj} {name schema : String} {its : List (List Add)} (hu : k.MUnused w0 o name)
    (h0 : k.stored w0 o name = none) (h0I : k.stored w0 o (name ++ "_index") = none)
    (hbI : (its.length + 1) * V.indexSize + 8 < 2 ^ 63) (hb : dataSize its + 8 < 2 ^ 63)
    (l : MLife k p e V o name schema w0 its w1) :
    ∃ xs xss, Elements p e V.indexStruct ((indexNumbers its).map (indexOps V)) xs ∧ AllContents p e its xss ∧
      (∀ as ∈ its, ∀ a ∈ as, (a.type, a.struct) ∈ V.types) ∧
      (∀ d, k.stored w1 o (name ++ "_index") = some d → AllOrNothing d xs.flatten) ∧
      (∀ d, k.stored w1 o name = some d → AllOrNothing d (encodeItems xss)) := by
  simp only [Kind.stored_eq] at h0 h0I ⊢
  cases l with
  | created h =>
    obtain ⟨f1, f2, u⟩ := hu.data.fresh
    obtain ⟨f3, f4, u'⟩ := hu.index.fresh
    obtain ⟨x, hx⟩ := indexEntry (p := p) (e := e) ok 0
    refine ⟨[x], [], ⟨hx, trivial⟩, trivial, by simp, ?_⟩
    have nc : ∀ {old new : Option Bytes} {all : Bytes}, old = none → NotCreated old new → ∀ d, new = some d → AllOrNothing d all := by
      rintro old new all rfl (m | ⟨b, m, hl⟩) d hd
      · rw [m] at hd; cases hd
      · rw [m] at hd; cases hd
        exact allOrNothing_short (by omega) _
    have none' : ∀ {new : Option Bytes} {all : Bytes}, new = none → ∀ d, new = some d → AllOrNothing d all := by
      rintro new all rfl d hd; cases hd
    have zero : ∀ {new : Option Bytes} {all c : Bytes}, new = some (le64 0 ++ c) → ∀ d, new = some d → AllOrNothing d all := by
      rintro new all c rfl d hd; cases hd; exact allOrNothing_zero _ _
    rcases createMultiVector_spec (L := k.laws) p e o name schema V w0 (k.apart o name) f1 f2 f3 f4 with
      ⟨v', w', h1, i1, o1⟩ | ⟨_, _, h1, o1, m⟩ | ⟨_, h1, o1, m1, m2, m3⟩
    · rw [h] at h1; cases h1
      obtain ⟨s, _, a⟩ := i1.data.stream
      obtain ⟨s', _, a'⟩ := i1.index.writing.stream
      exact ⟨zero a'.medium, zero a.medium⟩
    · rw [h] at h1; cases h1
      refine ⟨nc h0I m, none' ?_⟩
      rw [(o1.keeps _ ((k.apart o name).index_data (.inl rfl))).medium]; exact h0
    · rw [h] at h1; cases h1
      refine ⟨zero (c := []) ?_, nc h0 m3⟩
      rw [List.append_nil]; exact m1
  | grown h g =>
    obtain ⟨i, u, n⟩ := mcreated_inv V hu h
    obtain ⟨preI, bufI, cI, pre, body, c, xss, s⟩ := mgrows_inv ok i u g hbI hb
    obtain ⟨x, hx⟩ := indexEntry (p := p) (e := e) ok (dataSize its)
    obtain ⟨_, _, a⟩ := s.inv.data.stream
    obtain ⟨_, _, a'⟩ := s.inv.index.writing.stream
    refine ⟨preI ++ bufI ++ [x], xss, ?_, s.contents, s.variants, ?_, ?_⟩
    · rw [indexNumbers, List.map_append]
      exact s.index.snoc (ops := indexOps V (dataSize its)) hx
    · intro d hd
      have := hd.symm.trans a'.medium
      cases this; exact allOrNothing_zero _ _
    · intro d hd
      have := hd.symm.trans a.medium
      cases this; exact allOrNothing_zero _ _
  | closed h g hc =>
    obtain ⟨xs, xss, cleanI, cleanD, r, w2', hx, hxss, hv, hcl', cl, st, fine, oi, od⟩ := mclose_inv ok hu h g hbI hb
    rw [hc] at hcl'; cases hcl'
    refine ⟨xs, xss, hx, hxss, hv, ?_, ?_⟩
    · intro d hd
      obtain ⟨d', h1, h2⟩ := st.index
      have := hd.symm.trans h1
      cases this; exact h2
    · intro d hd
      obtain ⟨d', h1, h2⟩ := st.data
      have := hd.symm.trans h1
      cases this; exact h2

/-- Crash safety as far as it goes: each of the two resources another process reads is complete or empty, and empty only if the
file consists of 16 bytes starting with a zero size. If both are complete, all items are there. -/
theorem C20_multivec_partial [DiffLib] (p p' : Profile) (e e' : Endian) (V : Variadic) (ok : VariadicOK V) (w0 w1 w2 w3 w4 : FileW)
    (o o' : Obj) (name schema : String) (its : List (List Add)) (xss : List (List (BitVec 8 × Bytes))) (si sd : Slice Key)
    (ib db : Bytes) (hu : Kind.MUnused .disk w0 o name) (h0 : Kind.stored .disk w0 o name = none)
    (h0I : Kind.stored .disk w0 o (name ++ "_index") = none) (l : MLife .disk p e V o name schema w0 its w1)
    (hbI : (its.length + 1) * V.indexSize + 8 < 2 ^ 63) (hb : dataSize its + 8 < 2 ^ 63) (hbits : dataSize its < 2 ^ V.indexBits)
    (hx : AllContents p e its xss) (hp : NewProcess w1 w2) (ho : o'.path = o.path)
    (hrI : Storage.read file p' e' o' (name ++ "_index") ("index(" ++ schema ++ ")") w2 = (.ok si, w3))
    (hrD : Storage.read file p' e' o' name schema w3 = (.ok sd, w4)) (hI : file.deref w4 si = .ok ib)
    (hD : file.deref w4 sd = .ok db) :
    ((ib.length = (its.length + 1) * V.indexSize ∧ offsets V ib = indexNumbers its) ∨
      (ib = [] ∧ ∃ d, Kind.stored .disk w1 o (name ++ "_index") = some d ∧ d.length = 16 ∧ d.take 8 = zeros 8)) ∧
    (db = encodeItems xss ∨ (db = [] ∧ ∃ d, Kind.stored .disk w1 o name = some d ∧ d.length = 16 ∧ d.take 8 = zeros 8)) ∧
    (ib ≠ [] → db.length = dataSize its → Shows V ⟨ib, db⟩ xss) := by
  have hl : ∀ n, fileLaws.loc o' n = fileLaws.loc o n := by
    intro n; change key (join o'.path n) = key (join o.path n); rw [ho]
  have hm : ∀ l, fileLaws.medium w2 l = fileLaws.medium w1 l := fun l => congrFun hp.files l
  have hcache : ∀ n, fileLaws.cache w2 o' n = none := by
    intro n; change Option.map _ (w2.maps _ _) = none; rw [hp.initial.1]; rfl
  have ap := Kind.apart .disk o' name
  obtain ⟨o3, m3⟩ := storageRead_off (L := fileLaws) hrI
  obtain ⟨o4, m4⟩ := storageRead_off (L := fileLaws) hrD
  obtain ⟨d1, x1, h1, _, hx1, e1⟩ := read_ok_inv (L := fileLaws) (Kind.loc_schema_ne .disk o' _) (hcache _) (hcache _) hrI
  have b1 := read_ok_bloc (L := fileLaws) (Kind.loc_schema_ne .disk o' _) (hcache _) (hcache _) hrI
  have hc3 : ∀ n, ¬ OwnLoc fileLaws o' (name ++ "_index") (fileLaws.loc o' n) → fileLaws.cache w3 o' n = none := by
    intro n hn; rw [(o3.keeps _ hn).cache _ _ rfl]; exact hcache n
  obtain ⟨d2, x2, h2, _, hx2, e2⟩ := read_ok_inv (L := fileLaws) (Kind.loc_schema_ne .disk o' _)
    (hc3 _ (ap.index_data (.inl rfl))) (hc3 _ (ap.index_data (.inr rfl))) hrD
  rw [m3, hl, hm] at h2
  rw [hl, hm] at h1
  rw [hD] at e2; cases e2
  have k1 : file.deref w4 si = file.deref w3 si := by
    refine deref_keeps ((o4.keeps _ ?_).content _ b1)
    rintro (hx | hx)
    · exact ap.indexData hx
    · exact ap.indexSchema hx
  rw [k1, e1] at hI; cases hI
  obtain ⟨xs, xss', el, hx', hv, aI, aD⟩ := mlife_allOrNothing ok.index hu h0 h0I hbI hb l
  cases hx.unique hx'
  obtain ⟨v1, v2, v3⟩ := written_view ok el hx hv hbits (by omega)
  have z : ∀ {d : Bytes}, Holds d [] → d.take 8 = zeros 8 := by
    intro d hx
    have h1 := hx.size
    have h2 := hx.length
    apply leNat_inj (by simp [zeros]; omega)
    rw [leNat_zeros]; exact h1
  have cI : ib = xs.flatten ∨ (ib = [] ∧ d1.length = 16) := (aI d1 h1).reads _ hx1
  have cD : db = encodeItems xss ∨ (db = [] ∧ d2.length = 16) := (aD d2 h2).reads _ hx2
  refine ⟨?_, ?_, ?_⟩
  · rcases cI with rfl | ⟨rfl, hd⟩
    · have hall : AllSize V.indexSize xs := el.allSize
      exact .inl ⟨by rw [hall.length_flatten, ← el.length_eq, List.length_map, length_indexNumbers], v1⟩
    · exact .inr ⟨rfl, d1, h1, hd, z hx1⟩
  · rcases cD with rfl | ⟨rfl, hd⟩
    · exact .inl rfl
    · exact .inr ⟨rfl, d2, h2, hd, z hx2⟩
  · intro hne hlen
    rcases cI with rfl | ⟨rfl, _⟩
    · rcases cD with rfl | ⟨rfl, _⟩
      · exact v3
      · have : encodeItems xss = [] := by
          apply List.length_eq_zero_iff.mp
          rw [hx.length.1, ← hlen]; rfl
        rw [← this]; exact v3
    · exact absurd rfl hne

/-- Non-vacuity: the two resources are complete on disk once the multivector is closed. -/
example [DiffLib] : ∃ w1 w2, MLife .disk .debug .little Coappearances.VerticesData objD "x" "s" (disk0 []) its w1 ∧ NewProcess w1 w2 ∧
    ∃ s w3, Storage.read file .release .big objD "x_index" "index(s)" w2 = (.ok s, w3) := by
  obtain ⟨v, w, v1, w1, hc, g⟩ := MvExample.run_disk
  obtain ⟨_, si, sd, w2, _, _, _, h1, _⟩ := C26_roundtrip_partial .disk .debug .little Coappearances.VerticesData MultiExample.ok
    (disk0 []) w w1 objD "x" "s" v v1 its (munused_disk0 ..) (disk0_noFault _) (by change strBytes "s" ≠ []; decide) hc g
    (by decide) (by decide) (by decide)
  let w3 : FileW := ⟨⟨w2.fs.files, w2.fs.isDir, fun _ => ([], 0), 0, fun _ => none, 0⟩, fun _ _ => none, 1⟩
  have hp : NewProcess w2 w3 := ⟨rfl, fun _ _ => rfl, rfl⟩
  obtain ⟨_, _, _, _, _, ⟨s', w4, h3, _⟩, _⟩ := C26_new_process_partial .debug .release .little .big Coappearances.VerticesData MultiExample.ok
    (disk0 []) w w1 w2 w3 objD objD "x" "s" v v1 its si sd (munused_disk0 ..) (by decide) hc g (by decide) (by decide) (by decide) h1 hp
    (fun _ _ => rfl) rfl
  exact ⟨w2, w3, .closed hc g h1, hp, s', w4, h3⟩

namespace MvExample

/-- A struct of 7 bytes: with the variant, an item of 8 bytes. -/
def T7 : StructDef := ⟨"T7", 7, []⟩
def V7 : Variadic := ⟨"V7", 4, 32, [(0#8, T7)]⟩
def its7 : List (List Add) := [[⟨0#8, T7, []⟩]]

theorem v7_ok : VariadicOK V7 := ⟨⟨by decide, by decide, by decide⟩, by decide⟩
theorem its7_variants : ∀ as ∈ its7, ∀ a ∈ as, (a.type, a.struct) ∈ V7.types := by
  intro as has a ha
  simp only [its7, List.mem_cons, List.not_mem_nil, or_false] at has
  subst has
  simp only [List.mem_cons, List.not_mem_nil, or_false] at ha
  subst ha; simp [V7]

/-- The disk is full when the padding of the index is written. -/
def full : FileW := disk0 [] fun t => if 14 ≤ t then some 0 else none

/-- Builds the multivector and closes it, in this order, to the end of the process. -/
def crash : Act FileW RErr (Slice Key × Slice Key) := do
  let v ← (build (B := file) V7 objD its7).mapErr (RErr.io · "x")
  @MultiVec.close file .debug .little naiveDiff V7 v

/-- The state in which another process starts. -/
def restart (w : FileW) : FileW := ⟨⟨w.fs.files, w.fs.isDir, fun _ => ([], 0), 0, fun _ => none, 0⟩, fun _ _ => none, 1⟩

theorem restart_new (w : FileW) : NewProcess w (restart w) := ⟨rfl, fun _ _ => rfl, rfl⟩

/-- Reads both resources. -/
def readBoth : Act FileW RErr (Slice Key × Slice Key) := do
  let i ← @Storage.read file .debug .little naiveDiff objD "x_index" "index(s)"
  let d ← @Storage.read file .debug .little naiveDiff objD "x" "s"
  pure (i, d)

end MvExample

/-- One item of 8 bytes and two index entries of 4 bytes; the process dies while the padding of the index is written. Both
resources are 16 bytes long and count as empty: the view does not even have a length. -/
theorem C20_multivec_refuted : ¬ C20_multivec_claim := by
  intro h
  have hb : (build (B := file) V7 objD its7 full).1.isOk = true := by decide +kernel
  obtain ⟨v1, w1, hb⟩ := isOk_run hb
  obtain ⟨v, w, hc, g⟩ := build_mgrows (k := .disk) its7_variants hb
  let _ := naiveDiff
  have hw : crash full = v1.close .debug .little V7 w1 := by
    unfold crash
    exact Act.bind_ok (Act.mapErr_ok hb)
  have hr : (readBoth (restart (crash full).2)).1 = .ok (⟨[['d'], ['x', '_', 'i', 'n', 'd', 'e', 'x']], 8, 0⟩, ⟨[['d'], ['x']], 8, 0⟩) := by
    decide +kernel
  have hd : file.deref (readBoth (restart (crash full).2)).2 ⟨[['d'], ['x', '_', 'i', 'n', 'd', 'e', 'x']], 8, 0⟩ = .ok [] ∧
      file.deref (readBoth (restart (crash full).2)).2 ⟨[['d'], ['x']], 8, 0⟩ = .ok [] := by
    decide +kernel
  have hr := run_eq hr
  rw [hw] at hr hd
  cases hcl : v1.close .debug .little V7 w1 with
  | mk r wc =>
  rw [hcl] at hr hd
  change readBoth (restart wc) = (_, (readBoth (restart wc)).2) at hr
  change file.deref (readBoth (restart wc)).2 _ = _ ∧ file.deref (readBoth (restart wc)).2 _ = _ at hd
  generalize (readBoth (restart wc)).2 = w5 at hr hd
  unfold readBoth at hr
  obtain ⟨si, w3, h1, h2⟩ := Act.bind_eq_ok hr
  obtain ⟨sd, w4, h3, h4⟩ := Act.bind_eq_ok h2
  cases h4
  have hx : AllContents .debug .little its7 [[(0#8, zeros 7)]] := ⟨⟨rfl, by decide, trivial⟩, trivial⟩
  obtain ⟨mo, _⟩ := h naiveDiff .debug .debug .little .little V7 full wc (restart wc) w3 w5 objD objD "x" "s" its7 _ _ _ [] []
    v7_ok (munused_disk0 ..) rfl rfl (.closed hc g hcl) (by decide) (by decide) (by decide) hx (restart_new _) rfl
    h1 h3 hd.1 hd.2
  exact mo.sentinel (by decide)

/-! ## C23: failures on close -/

/-- C23 in full, for multivectors: closing returns, whatever I/O fails. -/
def C23_multivec_claim : Prop :=
  ∀ (_ : DiffLib) (k : Kind) (p : Profile) (e : Endian) (V : Variadic) (w0 w w1 : k.backend.W) (o : k.backend.Obj)
    (name schema : String) (v v1 : MultiVec k.backend) (its : List (List Add)), IndexOK V → k.MUnused w0 o name →
    createMultiVector p e o name schema w0 = (.ok v, w) → MGrows k p e V o name w v its w1 v1 →
    (its.length + 1) * V.indexSize + 8 < 2 ^ 63 → dataSize its + 8 < 2 ^ 63 →
    (∃ s w2, v1.close p e V w1 = (.ok s, w2)) ∨ ∃ x w2, v1.close p e V w1 = (.err x, w2)

/-- Disk full while the padding of the index is written: `close` panics instead of returning the error. -/
theorem C23_multivec_refuted : ¬ C23_multivec_claim := by
  intro h
  have hb : (build (B := file) V7 objD its7 full).1.isOk = true := by decide +kernel
  obtain ⟨v1, w1, hb⟩ := isOk_run hb
  obtain ⟨v, w, hc, g⟩ := build_mgrows (k := .disk) its7_variants hb
  have hr := h naiveDiff .disk .debug .little V7 full w w1 objD "x" "s" v v1 its7 v7_ok.index (munused_disk0 ..) hc g (by decide) (by decide)
  have hp : (crash full).1.isPanic = true := by decide +kernel
  have hw : crash full = @MultiVec.close file .debug .little naiveDiff V7 v1 w1 := by
    unfold crash
    exact Act.bind_ok (Act.mapErr_ok hb)
  rw [hw] at hp
  rcases hr with ⟨_, _, hr⟩ | ⟨_, _, hr⟩ <;> rw [hr] at hp <;> cases hp

/-- What happens instead. `close` never exhibits undefined behaviour. It panics only if some I/O call fails. An error is
returned only if both resources have been written and their size fields are final: it comes from reading the data back. -/
theorem C23_multivec_partial [DiffLib] (k : Kind) (p : Profile) (e : Endian) (V : Variadic) (ok : IndexOK V) (w0 w w1 w2 : k.backend.W)
    (o : k.backend.Obj) (name schema : String) (v v1 : MultiVec k.backend) (its : List (List Add))
    (r : Res RErr (Slice k.backend.Base × Slice k.backend.Base)) (hu : k.MUnused w0 o name)
    (hc : createMultiVector p e o name schema w0 = (.ok v, w)) (g : MGrows k p e V o name w v its w1 v1)
    (hbI : (its.length + 1) * V.indexSize + 8 < 2 ^ 63) (hb : dataSize its + 8 < 2 ^ 63) (hcl : v1.close p e V w1 = (r, w2)) :
    r ≠ .ub ∧ (r = .panic → ¬ k.noFault w0) ∧
    (∀ x, r = .err x → ∃ xss ib c, AllContents p e its xss ∧ ib.length = (its.length + 1) * V.indexSize ∧
      (dataSize its < 2 ^ V.indexBits → offsets V ib = indexNumbers its) ∧ k.stored w2 o (name ++ "_index") = some (image ib) ∧
      (encodeItems xss).length ≤ c.length ∧ (c.length = (encodeItems xss).length → c = encodeItems xss) ∧
      k.stored w2 o name = some (le64 (encodeItems xss).length ++ c ++ zeros 8)) := by
  obtain ⟨xs, xss, cleanI, cleanD, r, w2', hx, hxss, hv, hcl', cl, st, fine, oi, od⟩ := mclose_inv ok hu hc g hbI hb
  rw [hcl] at hcl'; cases hcl'
  cases cl with
  | failed nf =>
    refine ⟨by simp, fun _ h => ?_, by simp⟩
    obtain ⟨n1, n2, _⟩ := fine h
    refine nf n2 (k.laws.readable_of_ne _ fun h => ?_) ((k.noFault_iff _).mp n1)
    have h2 := congrArg String.length (strBytes_eq_nil.mp h)
    simp [Storage.indexSchema] at h2
  | unread x c' h1 h2 hI hD _ =>
    have hall : AllSize V.indexSize xs := hx.allSize
    refine ⟨by simp, by simp, fun _ _ => ⟨xss, _, c', hxss, ?_, ?_, (k.stored_eq ..).trans hI, h1, h2, (k.stored_eq ..).trans hD⟩⟩
    · rw [hall.length_flatten, ← hx.length_eq, List.length_map, length_indexNumbers]
    · intro hbits
      unfold offsets
      rw [elems_flatten ok.size_pos hall]
      refine entries_values ok hx fun n hn => ?_
      have := mem_indexNumbers hn
      omega
  | ok s => exact ⟨by simp, by simp, by simp⟩

/-- The data cannot be opened for reading after the multivector was written: this is returned as an error. -/
example : (crash (disk0 [] fun t => if t = 27 then some 0 else none)).1.isErr = true := by decide +kernel

/-! ## C24: bounded buffers -/

theorem grow_length {B : Backend} {p : Profile} {size : Nat} {v : ExtVec B} {r : ExtVec B × Nat} {w w' : B.W}
    (h : v.grow p size w = (.ok r, w')) : r.1.data.length ≤ bufferLimit + size := by
  unfold ExtVec.grow at h
  obtain ⟨v3, w3, h3, h⟩ := Act.bind_eq_ok h
  obtain ⟨n, w4, h4, h⟩ := Act.bind_eq_ok h
  obtain ⟨_, _, _, h⟩ := Act.bind_eq_ok h
  obtain ⟨_, _, _, h⟩ := Act.bind_eq_ok h
  obtain ⟨_, _, _, h⟩ := Act.bind_eq_ok h
  obtain ⟨_, _, _, h⟩ := Act.bind_eq_ok h
  cases h
  have hn := uadd_le (Act.lift_eq_ok h4).1
  have h5 : v3.data.length ≤ bufferLimit := by
    unfold ExtVec.flushIfFull at h3
    split at h3
    · unfold ExtVec.flush at h3
      obtain ⟨_, _, _, h3⟩ := Act.bind_eq_ok h3
      obtain ⟨_, _, _, h3⟩ := Act.bind_eq_ok h3
      obtain ⟨_, _, _, h3⟩ := Act.bind_eq_ok h3
      cases h3
      change (List.replicate 8 0#8).length ≤ _
      rw [List.length_replicate]; decide
    · cases h3; omega
  change (resize0 v3.data n).length ≤ _
  unfold resize0
  rw [List.length_append, List.length_take, List.length_replicate]; omega

/-- `flushIfFull` leaves a buffer that is not full. -/
theorem mflushIfFull_length {B : Backend} {p : Profile} {v v' : MultiVec B} {w w' : B.W} (h : v.flushIfFull p w = (.ok v', w')) :
    v'.data.length ≤ bufferLimit ∧ v'.data.length ≤ max v.data.length 8 ∧ v'.index = v.index := by
  unfold MultiVec.flushIfFull at h
  split at h
  · unfold MultiVec.flush at h
    obtain ⟨_, _, _, h⟩ := Act.bind_eq_ok h
    obtain ⟨_, _, _, h⟩ := Act.bind_eq_ok h
    obtain ⟨_, _, _, h⟩ := Act.bind_eq_ok h
    obtain ⟨_, _, _, h⟩ := Act.bind_eq_ok h
    cases h
    have : (List.replicate paddingSize 0#8).length = 8 := by rw [List.length_replicate]; rfl
    refine ⟨?_, ?_, rfl⟩
    · change (List.replicate paddingSize 0#8).length ≤ _
      rw [this]; decide
    · change (List.replicate paddingSize 0#8).length ≤ _
      rw [this]; omega
  · cases h; exact ⟨by omega, by omega, rfl⟩

theorem addToIndex_length {B : Backend} {p : Profile} {e : Endian} {V : Variadic} {v v' : MultiVec B} {w w' : B.W}
    (h : v.addToIndex p e V w = (.ok v', w')) : v'.data = v.data ∧ v'.index.data.length ≤ bufferLimit + V.indexSize := by
  unfold MultiVec.addToIndex at h
  obtain ⟨r, _, h1, h⟩ := Act.bind_eq_ok h
  obtain ⟨_, _, _, h⟩ := Act.bind_eq_ok h
  obtain ⟨_, _, _, h⟩ := Act.bind_eq_ok h
  obtain ⟨_, _, h2, h⟩ := Act.bind_eq_ok h
  cases h
  refine ⟨rfl, ?_⟩
  have := grow_length h1
  rw [← Vector.writeAt_length (Act.lift_eq_ok h2).1] at this
  exact this

theorem mgrow_length {B : Backend} {p : Profile} {e : Endian} {V : Variadic} {v v' : MultiVec B} {r : Except IoErr Unit} {w w' : B.W}
    (h : v.grow p e V w = (.ok (r, v'), w')) (hi : v.index.data.length ≤ bufferLimit + V.indexSize) :
    (v'.data.length ≤ max v.data.length 8) ∧ v'.index.data.length ≤ bufferLimit + V.indexSize ∧
      (r = .ok () → v'.data.length ≤ bufferLimit) := by
  unfold MultiVec.grow at h
  obtain ⟨r1, w1, h1, h⟩ := Act.bind_eq_ok h
  unfold Act.attempt at h1
  split at h1
  · rename_i v1 w2 h2
    cases h1
    obtain ⟨a1, a2, a3⟩ := mflushIfFull_length h2
    change (Act.attempt (v1.addToIndex p e V) >>= _) w1 = _ at h
    obtain ⟨r2, w3, h3, h⟩ := Act.bind_eq_ok h
    unfold Act.attempt at h3
    split at h3
    · rename_i v2 w4 h4
      cases h3; cases h
      obtain ⟨b1, b2⟩ := addToIndex_length h4
      exact ⟨by rw [b1]; exact a2, b2, fun _ => by rw [b1]; exact a1⟩
    · cases h3; cases h
      exact ⟨a2, by rw [a3]; exact hi, fun h => by cases h⟩
    · cases h3
    · cases h3
  · cases h1; cases h
    exact ⟨by omega, hi, fun h => by cases h⟩
  · cases h1
  · cases h1

theorem builderAdd_length {p : Profile} {t : BitVec 8} {size pos : Nat} {data d : Bytes}
    (h : MultiVec.builderAdd p t size data = .ok (d, pos)) : d.length ≤ data.length + 1 + size := by
  unfold MultiVec.builderAdd at h
  simp only [Out.bind_eq_ok] at h
  obtain ⟨inc, h1, n, h2, _, _, _, _, d', h3, _, _, _, _, _, _, h⟩ := h
  cases h
  have e1 := uadd_le h1
  have e2 := uadd_le h2
  split at h3
  · cases h3
    rw [List.length_set]
    unfold resize0
    rw [List.length_append, List.length_take, List.length_replicate]; omega
  · cases h3

/-- The data buffer of a multivector never exceeds 32 MiB and its last item, the index buffer never 32 MiB and one entry,
whatever happens. -/
theorem C24_multivec (k : Kind) (p : Profile) (e : Endian) (V : Variadic) (o : k.backend.Obj) (name schema : String)
    (w0 w w1 : k.backend.W) (v v1 : MultiVec k.backend) (its : List (List Add))
    (hc : createMultiVector p e o name schema w0 = (.ok v, w)) (g : MGrows k p e V o name w v its w1 v1) :
    v1.data.length ≤ 32 * 1024 * 1024 + itemSize (its.getLastD []) ∧
      v1.index.data.length ≤ 32 * 1024 * 1024 + V.indexSize := by
  have hlim : bufferLimit = 32 * 1024 * 1024 := by decide
  rw [← hlim]
  induction g with
  | start =>
    unfold createMultiVector at hc
    obtain ⟨iv, wi, hi, hc⟩ := Act.bind_eq_ok hc
    have h8 : (List.replicate 8 0#8).length = 8 := List.length_replicate
    have i8 : iv.data.length = 8 := by
      unfold createExternalVector at hi
      obtain ⟨_, _, _, hi⟩ := Act.bind_eq_ok hi
      obtain ⟨_, _, _, hi⟩ := Act.bind_eq_ok hi
      obtain ⟨_, _, _, hi⟩ := Act.bind_eq_ok hi
      obtain ⟨_, _, _, hi⟩ := Act.bind_eq_ok hi
      cases hi
      exact h8
    obtain ⟨r, _, _, hc⟩ := Act.bind_eq_ok hc
    cases r with
    | error x => obtain ⟨_, _, _, hc⟩ := Act.bind_eq_ok hc; cases hc
    | ok h =>
      cases hc
      refine ⟨?_, ?_⟩
      · change (List.replicate 8 0#8).length ≤ _
        rw [h8, hlim]; omega
      · change iv.data.length ≤ _
        rw [i8, hlim]; omega
  | grow g h ih =>
    obtain ⟨h1, h2, h3⟩ := mgrow_length h ih.2
    exact ⟨by have := h3 rfl; omega, h2⟩
  | @add its as w1 v1 a d pos d' g hm h hw ih =>
    refine ⟨?_, ih.2⟩
    have h1 := builderAdd_length h
    have h2 := Vector.writeAt_length hw
    have h3 := ih.1
    change d'.length ≤ _
    simp only [List.getLastD_concat, itemSize_append, itemSize_singleton] at h3 ⊢
    omega
  | failed g h ih =>
    obtain ⟨h1, h2, h3⟩ := mgrow_length h ih.2
    have : 8 ≤ bufferLimit := by decide
    exact ⟨by have := ih.1; omega, h2⟩
  | other _ _ ih => exact ih
  | elsewhere _ _ _ _ ih => exact ih

/-- The three items of the example. -/
example : ∃ v w v1 w1, createMultiVector .debug .little obj "x" "s" mem0 = (.ok v, w) ∧
    MGrows .memory .debug .little Coappearances.VerticesData obj "x" w v its w1 v1 ∧ v1.data.length = 25 ∧ v1.index.data.length = 20 := by
  have hb : (build (B := mem) Coappearances.VerticesData obj its mem0).1.isOk = true := by decide
  have hl : ((do let v ← build (B := mem) Coappearances.VerticesData obj its
                 pure (v.data.length, v.index.data.length) : Act MemW IoErr _) mem0).1 = .ok (25, 20) := by decide +kernel
  obtain ⟨v1, w2, hb⟩ := isOk_run hb
  obtain ⟨v, w1, hc, g⟩ := build_mgrows (k := .memory) its_variants hb
  rw [Act.bind_ok hb] at hl
  have hl : (v1.data.length, v1.index.data.length) = (25, 20) := Res.ok.inj hl
  exact ⟨v, w1, v1, w2, hc, g, congrArg Prod.fst hl, congrArg Prod.snd hl⟩

end Flatdata
