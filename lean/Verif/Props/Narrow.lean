import Verif.Proofs.Narrow
import Verif.Props.Archives
import Verif.Props.MultiViews
/-!
# Property C59: archives on hosts with a narrower `usize`

`m` is the number of values of `usize`: `2 ^ 32` on a 32-bit host.
-/
namespace Flatdata
open Spec StorageExample

/-! ## Reading resources -/

/-- C59 for reading, in full: a resource shorter than `m` is read on a host with `m` values of `usize` as on a 64-bit host. False,
see `C59_read_refuted`. -/
def C59_read_claim : Prop :=
  ∀ (_ : DiffLib) (k : Kind) (p : Profile) (e : Endian) (m : Nat), 16 ≤ m → m ≤ 2 ^ 64 →
    ∀ (w : k.backend.W) (o : k.backend.Obj) (name schema : String) (d c : Bytes), k.Reachable w → k.noFault w →
      k.stored w o name = some d → k.stored w o (name ++ ".schema") = some c → d.length < m → k.mappable d → k.mappable c →
      k.unread w o name → k.unread w o (name ++ ".schema") →
      Narrow.read m k.backend p e o name schema w = Storage.read k.backend p e o name schema w

/-- C59 exactly, for one resource not read before: the outcomes differ if and only if the size field is so large that its
remainder is taken for the right size, or, in debug builds, if adding header and padding overflows on one host only. -/
theorem C59_read_exact [DiffLib] (k : Kind) (p : Profile) (e : Endian) (m : Nat) (h16 : 16 ≤ m) (hm : m ≤ 2 ^ 64)
    (w : k.backend.W) (o : k.backend.Obj) (name schema : String) (d c : Bytes) (hn : k.noFault w)
    (hd : k.stored w o name = some d) (hc : k.stored w o (name ++ ".schema") = some c) (hl : d.length < m) (h1 : k.mappable d)
    (h2 : k.mappable c) (u1 : k.unread w o name) (u2 : k.unread w o (name ++ ".schema")) :
    Narrow.read m k.backend p e o name schema w = Storage.read k.backend p e o name schema w ↔
      d.length < 16 ∨ (¬ (m ≤ sizeField d ∧ sizeField d % m + 16 = d.length) ∧
        (p = .debug → (m ≤ sizeField d % m + 16 ↔ 2 ^ 64 ≤ sizeField d + 16))) := by
  rw [Narrow.read_same_iff (L := k.laws) p e (k.loc_schema_ne o name) ((k.noFault_iff w).mp hn) ((k.stored_eq w o name).symm.trans hd)
    ((k.stored_eq w o _).symm.trans hc) ((k.mappable_iff d).mp h1) ((k.mappable_iff c).mp h2) ((k.unread_iff w o name).mp u1)
    ((k.unread_iff w o _).mp u2) h16]
  exact Narrow.verdict_same hl hm

/-- C59: whatever is read successfully on a 64-bit host is read on every host that can count its bytes, with the same result, in
all states. -/
theorem C59_read_ok [DiffLib] (B : Backend) (p : Profile) (e : Endian) (m : Nat) (hm : m ≤ 2 ^ 64) (w w' : B.W) (o : B.Obj)
    (name schema : String) (s : Slice B.Base) (hl : s.len + 16 < m) (h : Storage.read B p e o name schema w = (.ok s, w')) :
    Narrow.read m B p e o name schema w = (.ok s, w') := Narrow.read_ok hm hl h

namespace NarrowExample

/-- A file with one byte whose size field says `2 ^ 32 + 1`. -/
def wrong : Bytes := [1#8, 0#8, 0#8, 0#8, 1#8, 0#8, 0#8, 0#8, 7#8, 0#8, 0#8, 0#8, 0#8, 0#8, 0#8, 0#8, 0#8]

/-- A disk with this file. -/
def wrongDisk : FileW := disk0 [([['d'], ['x']], wrong), ([['d'], "x.schema".toList], strBytes "s")]

/-- The file is refused by 64-bit hosts and read by 32-bit hosts. -/
theorem wrong_read : (@Storage.read file .release .little naiveDiff objD "x" "s" wrongDisk).1 = .err .unexpectedDataSize ∧
    (@Narrow.read (2 ^ 32) file naiveDiff .release .little objD "x" "s" wrongDisk).1 = .ok ⟨[['d'], ['x']], 8, 1⟩ := by
  decide +kernel

end NarrowExample
open NarrowExample

theorem C59_read_refuted : ¬ C59_read_claim := by
  intro h
  have h := h naiveDiff .disk .release .little (2 ^ 32) (by decide) (by decide) wrongDisk objD "x" "s" wrong (strBytes "s")
    (disk0_reachable _ _) (disk0_noFault _) (by decide +kernel) (by decide +kernel) (by decide)
    (show wrong ≠ [] by decide) (show strBytes "s" ≠ [] by decide) rfl rfl
  have h1 := congrArg Prod.fst h
  have h2 : (@Narrow.read (2 ^ 32) file naiveDiff .release .little objD "x" "s" wrongDisk).1 =
    (@Storage.read file .release .little naiveDiff objD "x" "s" wrongDisk).1 := h1
  rw [wrong_read.1, wrong_read.2] at h2
  cases h2

/-- Non-vacuity of `C59_read_exact`, both ways: the resource of the disk of the examples, and the wrong file. -/
example : @Narrow.read (2 ^ 32) file naiveDiff .debug .little objD "x" "s" disk1 = @Storage.read file .debug .little naiveDiff objD "x" "s" disk1 ∧
    @Narrow.read (2 ^ 32) file naiveDiff .release .little objD "x" "s" wrongDisk ≠ @Storage.read file .release .little naiveDiff objD "x" "s" wrongDisk := by
  constructor
  · exact (@C59_read_exact naiveDiff .disk .debug .little (2 ^ 32) (by decide) (by decide) disk1 objD "x" "s" (image [7#8]) (strBytes "s")
      (disk0_noFault _) (by decide +kernel) (by decide +kernel) (by decide) (show image [7#8] ≠ [] by decide) (show strBytes "s" ≠ [] by decide)
      rfl rfl).mpr (.inr (by decide))
  · intro h
    have := (@C59_read_exact naiveDiff .disk .release .little (2 ^ 32) (by decide) (by decide) wrongDisk objD "x" "s" wrong (strBytes "s")
      (disk0_noFault _) (by decide +kernel) (by decide +kernel) (by decide) (show wrong ≠ [] by decide) (show strBytes "s" ≠ [] by decide)
      rfl rfl).mp h
    revert this
    decide

/-- Non-vacuity of `C59_read_ok`: the same resource on a 16-bit host. -/
example : (@Narrow.read (2 ^ 16) file naiveDiff .debug .little objD "x" "s" disk1).1 = .ok ⟨[['d'], ['x']], 8, 1⟩ := by
  have h : (@Storage.read file .debug .little naiveDiff objD "x" "s" disk1).1 = .ok ⟨[['d'], ['x']], 8, 1⟩ := by decide +kernel
  have h' := @C59_read_ok naiveDiff file .debug .little (2 ^ 16) (by decide) disk1 (@Storage.read file .debug .little naiveDiff objD "x" "s" disk1).2
    objD "x" "s" ⟨[['d'], ['x']], 8, 1⟩ (by decide) (Prod.ext h rfl)
  rw [h']

/-! ## Opening archives -/

/-- The functions with `m = 2 ^ 64` are those of which the other properties speak. -/
theorem C59_wide [DiffLib] (B : Backend) (p : Profile) (e : Endian) (o : B.Obj) (D : ArchiveDef) :
    Narrow.openArchive (2 ^ 64) B p e o D = openArchive B p e o D := Narrow.openArchive_wide B p e o D

/-- C59 for archives: if all files named like the resources of the archive fit, opening the archive gives the same on both
hosts, whatever else is stored and whatever calls fail; the states afterwards are the same too. -/
theorem C59_open_partial [DiffLib] (k : Kind) (p : Profile) (e : Endian) (m : Nat) (h0 : 0 < m) (hm : m ≤ 2 ^ 64) (w : k.backend.W)
    (o : k.backend.Obj) (D : ArchiveDef) (hr : k.Reachable w) (h : k.AllFit m (resourceNames D) w) :
    Narrow.openArchive m k.backend p e o D w = openArchive k.backend p e o D w := by
  cases k with
  | memory => exact (Narrow.Fitting.openArchive (F := Narrow.memFitting m h0 (resourceNames D)) hm o D (fun _ h => h) w h).1
  | disk => exact (Narrow.Fitting.openArchive (F := Narrow.fileFitting m h0 (resourceNames D)) hm o D (fun _ h => h) w
      ⟨h, reachable_mapped hr⟩).1

/-- Complete resources shorter than `m` fit. -/
theorem C59_complete_fits (m : Nat) (d x : Bytes) (h : Holds d x) (hl : d.length < m) : FitsHost m d := by
  refine ⟨hl, fun _ => ?_⟩
  unfold sizeField
  rw [h.size]
  have := h.length
  omega

namespace NarrowExample

/-- All files of a disk with short contents fit. -/
theorem fit_of {files : List (Key × Bytes)} {m : Nat} (h : ∀ x ∈ files, FitsHost m x.2) (N : List String) :
    Kind.AllFit m N .disk (disk0 files) := by
  intro path n _ d hd
  have hd : (files.find? (·.1 = key (join path n))).map (·.2) = some d := hd
  cases hf : files.find? (·.1 = key (join path n)) with
  | none => rw [hf] at hd; cases hd
  | some x =>
    rw [hf] at hd
    cases hd
    exact h x (List.mem_of_find?_eq_some hf)

end NarrowExample

/-- Non-vacuity: the archive of the examples, with an incomplete optional resource, on a 16-bit host. -/
example : @Narrow.openArchive (2 ^ 16) file naiveDiff .release .little objD ArchiveExample.Small (ArchiveExample.smallDisk [1#8]) =
    @openArchive file naiveDiff .release .little objD ArchiveExample.Small (ArchiveExample.smallDisk [1#8]) :=
  @C59_open_partial naiveDiff .disk .release .little (2 ^ 16) (by decide) (by decide) (ArchiveExample.smallDisk [1#8]) objD ArchiveExample.Small
    (disk0_reachable _ _) (fit_of (by decide +kernel) _)

/-! ## Views -/

/-- C59 for views, in full. False, see `C59_view_refuted`. -/
def C59_view_claim : Prop :=
  ∀ (p : Profile) (m size : Nat) (data : Bytes) (i : Nat), 0 < size → 2 * data.length < m → m ≤ 2 ^ 64 → i < m →
    Narrow.View.at' m p size data i = View.at' p size data i

/-- In builds without overflow checks: element `2 ^ 30` of a view of one struct of 4 bytes is the first on a 32-bit host. -/
theorem C59_view_refuted : ¬ C59_view_claim := by
  intro h
  have := h .release (2 ^ 32) 4 [1#8, 2#8, 3#8, 4#8] (2 ^ 30) (by decide) (by decide) (by decide) (by decide)
  revert this
  decide

/-- C59: elements of a view, by index or by iterating from both ends, are the same on all hosts that can hold the data; so are
slices inside the view, and in debug builds all outcomes. -/
theorem C59_view_partial (p : Profile) (m size : Nat) (data : Bytes) (hs : 0 < size) (hd : data.length < m) (hm : m ≤ 2 ^ 64) :
    (∀ i, p = .debug ∨ i < (elems size data).length ∨ (i + 1) * size < m →
      Narrow.View.at' m p size data i = View.at' p size data i) ∧
    (∀ lo hi, p = .debug ∨ (lower lo * size < m ∧ upper 0 hi * size < m) →
      Narrow.View.slice m p size data lo hi = View.slice p size data lo hi) ∧
    Narrow.View.next m p size data = View.next p size data ∧ Narrow.View.nextBack m p size data = View.nextBack p size data := by
  refine ⟨fun i h => ?_, fun lo hi h => ?_, Narrow.next_same hd hm, Narrow.nextBack_same hd hm⟩
  · rcases h with rfl | h | h
    · exact Narrow.at_same_debug hm hd
    · rw [length_elems, div_lt_iff hs] at h
      exact Narrow.at_same hm (by omega)
    · exact Narrow.at_same hm h
  · rcases h with rfl | ⟨h1, h2⟩
    · exact Narrow.slice_same_debug hm hs hd
    · exact Narrow.slice_same hm (Narrow.lt_of_mul hs h1) h1 (Narrow.lt_of_mul hs h2) h2

/-- C59, memory safety in every build: what `at` hands out lies inside the data, if lengths of slices and sizes of structs are at
most half the range of `usize`, as in Rust. -/
theorem C59_view_safe (p : Profile) (m size : Nat) (data r : Bytes) (i : Nat) (hs : 2 * size ≤ m) (hd : 2 * data.length < m)
    (h : Narrow.View.at' m p size data i = .ok r) : ∃ off, off + size ≤ data.length ∧ r = data.drop off := Narrow.at_safe hs hd h

/-- Non-vacuity: on a 16-bit host. -/
example : Narrow.View.at' (2 ^ 16) .release 2 [1#8, 2#8, 3#8, 4#8, 5#8] 1 = .ok [3#8, 4#8, 5#8] ∧
    Narrow.View.next (2 ^ 16) .release 2 [1#8, 2#8, 3#8, 4#8, 5#8] = .ok (some [1#8, 2#8, 3#8, 4#8, 5#8], [3#8, 4#8, 5#8]) := by
  have h := C59_view_partial .release (2 ^ 16) 2 [1#8, 2#8, 3#8, 4#8, 5#8] (by decide) (by decide) (by decide)
  rw [h.1 1 (.inr (.inl (by decide))), h.2.2.1]
  decide

/-- Non-vacuity of `C59_view_safe`, where the index wraps around: element `2 ^ 15` of structs of two bytes on a 16-bit host. -/
example : ∃ off, off + 2 ≤ 5 ∧ [1#8, 2#8, 3#8, 4#8, 5#8] = [1#8, 2#8, 3#8, 4#8, 5#8].drop off :=
  C59_view_safe .release (2 ^ 16) 2 [1#8, 2#8, 3#8, 4#8, 5#8] _ (2 ^ 15) (by decide) (by decide) (by decide)

/-! ## Multi views -/

/-- C59 for multi views, in full. False, see `C59_multi_refuted`. -/
def C59_multi_claim : Prop :=
  ∀ (p : Profile) (e : Endian) (m : Nat) (V : Variadic) (v : MultiView) (i : Nat), IndexOK V → v.index.length < m → v.data.length < m →
    m ≤ 2 ^ 64 → (i + 2) * V.indexSize < m → Narrow.MultiView.at' m p e V v i = MultiView.at' p e V v i

/-- An offset of `2 ^ 32 + 1` in the index is taken for 1 by a 32-bit host. -/
theorem C59_multi_refuted : ¬ C59_multi_claim := by
  intro h
  have := h .debug .little (2 ^ 32) ⟨"V", 8, 64, []⟩
    ⟨List.replicate 8 0#8 ++ [1#8, 0#8, 0#8, 0#8, 1#8, 0#8, 0#8, 0#8], [7#8]⟩ 0 ⟨by decide, by decide, by decide⟩ (by decide) (by decide)
    (by decide) (by decide)
  revert this
  decide

/-- C59: whatever `at`, `next` and `next_back` return on a 64-bit host they return on the other host. -/
theorem C59_multi_ok (p : Profile) (e : Endian) (m : Nat) (V : Variadic) (v : MultiView) (hs : 0 < V.indexSize)
    (h1 : V.indexSize ≤ v.index.length) (hi : v.index.length < m) (hd : v.data.length < m) (hm : m ≤ 2 ^ 64) :
    (∀ i x, (i + 2) * V.indexSize < m → MultiView.at' p e V v i = .ok x → Narrow.MultiView.at' m p e V v i = .ok x) ∧
    (∀ r, MultiView.next p e V v = .ok r → Narrow.MultiView.next m p e V v = .ok r) ∧
    (∀ r, MultiView.nextBack p e V v = .ok r → Narrow.MultiView.nextBack m p e V v = .ok r) ∧
    Narrow.MultiView.len m p V v = MultiView.len p V v ∧
    ∀ lo hi, p = .debug ∨ (lower lo * V.indexSize < m ∧ (upper 0 hi + 1) * V.indexSize < m) →
      Narrow.MultiView.slice m p V v lo hi = MultiView.slice p V v lo hi := by
  refine ⟨fun i x h h' => Narrow.multi_at_ok hm hd h hs h', fun r => Narrow.multi_next_ok hm hs h1 hi hd,
    fun r => Narrow.multi_nextBack_ok hm hs h1 hi hd, Narrow.multi_len_same hs h1, fun lo hi' h => ?_⟩
  rcases h with rfl | ⟨a, b⟩
  · exact Narrow.multi_slice_same_debug hm hs hi
  · refine Narrow.multi_slice_same hm hs a ?_
    cases hi' with
    | included i => exact b
    | excluded i => exact b
    | unbounded => exact Nat.lt_of_le_of_lt (Nat.div_mul_le_self _ _) hi

/-- C59: well-formed multi views show the same items on all hosts that can hold them. -/
theorem C59_multi_partial (p : Profile) (e : Endian) (m : Nat) (V : Variadic) (v : MultiView) (ok : MultiOK V v)
    (hi : v.index.length < m) (hd : v.data.length < m) (hm : m ≤ 2 ^ 64) :
    Narrow.MultiView.len m p V v = .ok (items V v).length ∧
    (∀ i (h : i < (items V v).length), Narrow.MultiView.at' m p e V v i = .ok (items V v)[i]) ∧
    Narrow.MultiView.next m p e V v = MultiView.next p e V v ∧ Narrow.MultiView.nextBack m p e V v = MultiView.nextBack p e V v := by
  have hs := ok.def_ok.size_pos
  have hpos : 0 < (offsets V v.index).length := List.length_pos_iff.mpr ok.sentinel
  rw [length_offsets] at hpos
  have h1 : V.indexSize ≤ v.index.length := by
    have := (Nat.le_div_iff_mul_le hs).mp (show 1 ≤ v.index.length / V.indexSize from hpos)
    omega
  obtain ⟨a, b, c, d, -⟩ := C59_multi_ok p e m V v hs h1 hi hd hm
  refine ⟨d.trans (multi_len ok), fun i h => a i _ ?_ (multi_at ok h), ?_, ?_⟩
  · rw [length_items, length_offsets] at h
    have : (i + 2) * V.indexSize ≤ v.index.length := (Nat.le_div_iff_mul_le hs).mp (by omega)
    omega
  · obtain ⟨v', h, -⟩ := multiStep_spec (p := p) (e := e) .front ok
    have h : MultiView.next p e V v = _ := h
    rw [h, b _ h]
  · obtain ⟨v', h, -⟩ := multiStep_spec (p := p) (e := e) .back ok
    have h : MultiView.nextBack p e V v = _ := h
    rw [h, c _ h]

/-- Non-vacuity: the items of the view of the examples on a 16-bit host. -/
example : Narrow.MultiView.len (2 ^ 16) .release Coappearances.VerticesData MultiExample.view = .ok 3 ∧
    Narrow.MultiView.at' (2 ^ 16) .release .little Coappearances.VerticesData MultiExample.view 2 = .ok [1#8, 9#8, 0#8, 0#8, 0#8] := by
  have h := C59_multi_partial .release .little (2 ^ 16) Coappearances.VerticesData MultiExample.view MultiExample.view_ok (by decide) (by decide) (by decide)
  exact ⟨h.1, h.2.1 2 (by decide)⟩

end Flatdata
