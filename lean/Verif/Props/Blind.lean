import Verif.Proofs.Blind
import Verif.Props.Archives
import Verif.Props.VecClose
/-!
# Opening does not look at the data (C58)
-/
namespace Flatdata
open Spec

/-- **C58.** Whether an archive opens, with which error it fails, and where its resources are, depends on the schemas, the
lengths and the size fields alone: two states that differ only in data give the same result, and still differ only in data
afterwards. And opening makes at most six calls to the operating system for each resource of the definition, however much
data there are. -/
def C58_claim : Prop := ∀ (_ : DiffLib) (k : Kind) (p : Profile) (e : Endian) (D : ArchiveDef) (o : k.backend.Obj)
    (w w' : k.backend.W), k.Reachable w → k.differInData w w' →
  (openArchive k.backend p e o D w).1 = (openArchive k.backend p e o D w').1 ∧
  k.differInData (openArchive k.backend p e o D w).2 (openArchive k.backend p e o D w').2 ∧
  k.calls (openArchive k.backend p e o D w).2 ≤ k.calls w + 6 * resourceCount D

theorem C58_open : C58_claim := by
  intro _ k p e D o w w' hr hd
  cases k with
  | memory =>
    have h := Blind.openArchive (S := memBlind) p e o D w w' hd
    exact ⟨h.1, h.2, Nat.zero_le _⟩
  | disk =>
    have h := Blind.openArchive (S := fileBlind) p e o D w w' (FileSt.alike_iff.mpr ⟨hd, reachable_mapped hr⟩)
    exact ⟨h.1, (FileSt.alike_iff.mp h.2).1, Costs.openArchive p e o D w⟩

/-- The same for reading one resource: at most six calls. -/
theorem C58_read [DiffLib] (k : Kind) (p : Profile) (e : Endian) (o : k.backend.Obj) (name schema : String) (w w' : k.backend.W)
    (hr : k.Reachable w) (hd : k.differInData w w') :
    (Storage.read k.backend p e o name schema w).1 = (Storage.read k.backend p e o name schema w').1 ∧
      k.differInData (Storage.read k.backend p e o name schema w).2 (Storage.read k.backend p e o name schema w').2 ∧
      k.calls (Storage.read k.backend p e o name schema w).2 ≤ k.calls w + 6 := by
  cases k with
  | memory =>
    have h := Blind.storageRead (S := memBlind) p e o name schema w w' hd
    exact ⟨h.1, h.2, Nat.zero_le _⟩
  | disk =>
    have h := Blind.storageRead (S := fileBlind) p e o name schema w w' (FileSt.alike_iff.mpr ⟨hd, reachable_mapped hr⟩)
    exact ⟨h.1, (FileSt.alike_iff.mp h.2).1, Costs.storageRead p e o name schema w⟩

namespace BlindExample
open ArchiveExample StorageExample

/-- Two disks with the archive `Small` whose resource `x` has different bytes, and even different padding. -/
def before : FileW := smallDisk []

/-- What the second disk has instead. -/
def changed (l : Key) : Option Bytes :=
  if l = [['d'], ['x']] then some ((image [7#8]).take 8 ++ List.replicate 9 255#8) else before.fs.files l

def after : FileW := { before with fs := { before.fs with files := changed } }

theorem differ : Kind.disk.differInData before after := by
  refine ⟨changed, rfl, fun l => ?_, fun l hl => ?_⟩
  · unfold changed
    by_cases h : l = [['d'], ['x']]
    · subst h; change Option.map _ _ = Option.map _ _; decide
    · rw [if_neg h]; rfl
  · unfold changed
    rw [if_neg]
    rintro rfl
    obtain ⟨a, x, hk⟩ := hl.last
    have h1 : [['d']] ++ [['x']] = a ++ [x ++ ".schema".toList] := hk
    have h2 := congrArg List.length (List.cons.inj (List.append_inj' h1 rfl).2).1
    rw [List.length_append] at h2
    change 1 = x.length + 7 at h2
    omega

theorem opens : (@openArchive file naiveDiff .release .little objD Small before).1.isOk = true := by decide +kernel

end BlindExample
open BlindExample ArchiveExample StorageExample VecExample

/-- Non-vacuity: the archive opens in both cases, with the same positions and in at most 18 calls; the data are different. -/
example : (@openArchive file naiveDiff .release .little objD Small before).1 = (@openArchive file naiveDiff .release .little objD Small after).1 ∧
    (@openArchive file naiveDiff .release .little objD Small before).1.isOk = true ∧
    Kind.calls .disk (@openArchive file naiveDiff .release .little objD Small before).2 ≤ Kind.calls .disk before + 6 * resourceCount Small ∧
    Kind.calls .disk before + 6 * resourceCount Small = 18 ∧
    file.content before [['d'], ['x']] ≠ file.content after [['d'], ['x']] :=
  have h := C58_open naiveDiff .disk .release .little Small objD before after (disk0_reachable _ _) differ
  ⟨h.1, opens, h.2.2, by decide, by decide⟩

namespace BlindExample

/-- A resource in memory, with the given data, in a process that has done nothing else. -/
def holding (b : Byte) : MemW where
  streams l :=
    if l = (0, [['x']]) then some (image [b], 17) else if l = (0, ["x.schema".toList]) then some (strBytes "s", 1) else none
  resources _ := none
  next := 1

theorem holding_differ (a b : Byte) : Kind.memory.differInData (holding a) (holding b) := by
  refine ⟨rfl, fun _ => rfl, fun l => ?_, fun l => ?_, fun l hl => ⟨rfl, ?_⟩⟩
  · unfold holding
    dsimp only
    split
    · rfl
    · rfl
  · unfold holding
    dsimp only
    split
    · rfl
    · rfl
  · unfold holding
    dsimp only
    have hn : l ≠ (0, [['x']]) := by
      rintro rfl
      obtain ⟨a, x, hk⟩ := hl.last
      have h1 : [] ++ [['x']] = a ++ [x ++ ".schema".toList] := hk
      have h2 := congrArg List.length (List.cons.inj (List.append_inj' h1 rfl).2).1
      rw [List.length_append] at h2
      change 1 = x.length + 7 at h2
      omega
    rw [if_neg hn, if_neg hn]

theorem readsX : (@Storage.read file .debug .little naiveDiff objD "x" "sx" before).1 = .ok ⟨[['d'], ['x']], 8, 1⟩ := by decide +kernel

end BlindExample

/-- Non-vacuity of `C58_read`, on disk and in memory (where `Reachable` is not needed): the outcome is the same for other data. -/
example : (@Storage.read file .debug .little naiveDiff objD "x" "sx" before).1 = (@Storage.read file .debug .little naiveDiff objD "x" "sx" after).1 ∧
    (@Storage.read file .debug .little naiveDiff objD "x" "sx" before).1 = .ok ⟨[['d'], ['x']], 8, 1⟩ :=
  ⟨(@C58_read naiveDiff .disk .debug .little objD "x" "sx" before after (disk0_reachable _ _) differ).1, readsX⟩

example (b : Byte) : (@Storage.read mem .debug .little naiveDiff obj "x" "s" (holding b)).1 = .ok ⟨(0, [['x']]), 8, 1⟩ :=
  have h := @Blind.storageRead mem memBlind naiveDiff .debug .little obj "x" "s" (holding b) (holding 0) (holding_differ b 0)
  h.1.trans (by decide +kernel)

/-- Appending to a vector: at most one call of the operating system for each 32 MiB (less seven bytes) of data, from the
creation on. -/
theorem C58_append_calls (p : Profile) (e : Endian) (S : StructDef) (o : Obj) (name schema : String) (w0 w w1 : FileW)
    (v v1 : ExtVec file) (n : Nat) (hc : createExternalVector (B := file) p e o name schema w0 = (.ok v, w))
    (g : Appends p S w v n w1 v1) : (32 * 1024 * 1024 - 7) * (w1.fs.tick - w.fs.tick) ≤ n * S.size := by
  have hv : v.data.length = 8 := by
    unfold createExternalVector at hc
    obtain ⟨_, _, _, hc⟩ := Act.bind_eq_ok hc
    obtain ⟨_, _, _, hc⟩ := Act.bind_eq_ok hc
    obtain ⟨_, _, _, hc⟩ := Act.bind_eq_ok hc
    obtain ⟨_, _, _, hc⟩ := Act.bind_eq_ok hc
    cases hc
    exact List.length_replicate
  exact (appends_calls g hv).2

/-- Non-vacuity: two elements of 32 MiB, the second of which flushes the buffer. -/
theorem BlindExample.two_any (Big : StructDef) (hS : Big.size = 2 ^ 25) : ∃ v w v1 w1,
    createExternalVector (B := file) .debug .little objD "x" "s" (disk0 []) = (.ok v, w) ∧
    Appends .debug Big w v 2 w1 v1 ∧ v1.data.length ≤ Big.size + 8 := by
  have hs : 0 < Big.size := by rw [hS]; omega
  have hbig : ∀ n, n ≤ 2 → n * Big.size + 8 < 2 ^ 63 := by intro n hn; rw [hS]; omega
  have hne := Kind.loc_schema_ne .disk objD "x"
  have h0 : (createExternalVector (B := file) .debug .little objD "x" "s" (disk0 [])).1.isOk = true := by decide
  have hf : (createExternalVector (B := file) .debug .little objD "x" "s" (disk0 [])).2.fs.fault = fun _ => none := rfl
  obtain ⟨v, w, hc⟩ := isOk_run h0
  rw [hc] at hf
  obtain ⟨i, u, _⟩ := created_inv (k := .disk) Big.size (unused_disk0 _ _ _) hc
  have hl0 : v.data.length = 8 := by rw [i.rep.eq]; rfl
  have sm := grow_small (B := file) (p := .debug) (size := Big.size) (v := v) (w := w) (by rw [hl0]; decide)
  rcases i.grow hne .debug hs (hbig _ (by simp only [List.length_append, List.length_cons, List.length_nil]; omega)) with ⟨va, pos, wa, pre, buf, c, h1, i1, e1, hpos, hcl, _⟩ | ⟨_, _, _, h1, _⟩
  rotate_left
  · exact absurd (by rw [h1]) (sm.2 _)
  obtain rfl : wa = w := by have := sm.1; rw [h1] at this; exact this
  have epb : pre = [] ∧ buf = [] := by simpa using e1
  obtain ⟨rfl, rfl⟩ := epb
  have hla : va.data.length = 2 ^ 25 + 8 := by
    rw [i1.rep.eq, List.length_append, List.nil_append, List.flatten_cons, List.flatten_nil, List.append_nil]
    unfold zeros
    rw [List.length_replicate, List.length_replicate, hS]
  have nf : Kind.noFault .disk wa := fun t _ => by
    change wa.fs.fault = _ at hf
    rw [hf]
  rcases i1.grow hne .debug hs (hbig _ (by simp only [List.length_append, List.length_cons, List.length_nil]; omega)) with ⟨vb, _, wb, _, _, _, h2, _⟩ | ⟨x, d', wb, h2, i2, o2, n2⟩
  · refine ⟨v, wa, vb, wb, hc, .grow (.grow .start h1 va.data rfl) h2 vb.data rfl, ?_⟩
    rcases grow_calls h2 with ⟨h3, _⟩ | ⟨_, h3, _⟩
    · rw [hla] at h3
      exact absurd h3 (by decide)
    · omega
  · exact absurd nf n2

example : ∃ (v : ExtVec file) (w : FileW) (v1 : ExtVec file) (w1 : FileW), createExternalVector (B := file) .debug .little objD "x" "s" (disk0 []) = (.ok v, w) ∧
    (32 * 1024 * 1024 - 7) * (w1.fs.tick - w.fs.tick) ≤ 2 * Big.size ∧ v1.data.length ≤ Big.size + 8 :=
  have ⟨v, w, v1, w1, h1, h2, h3⟩ := two_any Big rfl
  ⟨v, w, v1, w1, h1, C58_append_calls _ _ _ _ _ _ _ _ _ _ _ _ h1 h2, h3⟩

end Flatdata
