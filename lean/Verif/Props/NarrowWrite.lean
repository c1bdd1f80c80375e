import Verif.Proofs.NarrowWrite
import Verif.Props.VecClose
/-!
# Property C62: writing on hosts with a narrower `usize`

`m` is the number of values of `usize`: `2 ^ 32` on a 32-bit host. Histories beyond `m` bytes are considered on disk only: no `Vec`
of a memory storage grows that long.
-/
namespace Flatdata
open Spec StorageExample VecExample

/-- The functions with `m = 2 ^ 64` are those of which the other properties speak. -/
theorem C62_wide [DiffLib] (B : Backend) (p : Profile) (e : Endian) (S : StructDef) (V : Variadic) :
    (∀ v : ExtVec B, Narrow.ExtVec.grow (2 ^ 64) p S.size v = v.grow p S.size ∧ Narrow.ExtVec.close (2 ^ 64) p e v = v.close p e) ∧
    (∀ v : MultiVec B, Narrow.MultiVec.grow (2 ^ 64) p e V v = v.grow p e V ∧ Narrow.MultiVec.close (2 ^ 64) p e V v = v.close p e V) ∧
    ∀ t d, Narrow.MultiVec.builderAdd (2 ^ 64) p t S.size d = MultiVec.builderAdd p t S.size d :=
  ⟨fun v => ⟨Narrow.grow_wide _ v, Narrow.close_wide v⟩, fun v => ⟨Narrow.mgrow_wide V v, Narrow.mclose_wide V v⟩,
    fun t d => Narrow.builderAdd_wide t _ d⟩

/-! ## Vectors -/

/-- C62 in full, for vectors: without I/O faults, closing a vector panics or stores exactly its elements. False, see
`C62_refuted`. -/
def C62_claim : Prop :=
  ∀ (_ : DiffLib) (p : Profile) (e : Endian) (m : Nat), m ≤ 2 ^ 64 → ∀ (S : StructDef) (w0 w w1 w2 : FileW) (o : Obj)
    (name schema : String) (v v1 : ExtVec file) (es : List (List HandleOp)) (r : Res RErr (Slice Key)),
    0 < S.size → 2 * (bufferLimit + S.size) < m → Kind.Unused .disk w0 o name → Kind.noFault .disk w0 →
    createExternalVector (B := file) p e o name schema w0 = (.ok v, w) → NGrows m .disk p e S o name w v es w1 v1 →
    es.length * S.size + 8 < 2 ^ 63 → Narrow.ExtVec.close m p e v1 w1 = (r, w2) →
    r = .panic ∨ ∃ xs, Elements p e S es xs ∧ Kind.stored .disk w2 o name = some (image xs.flatten)

/-- C62: as long as the bytes of the vector, header and padding can be counted and the buffer can be allocated, a vector has the same
histories on both hosts, and closing it does the same, whatever I/O fails. -/
theorem C62_same_partial [DiffLib] (k : Kind) (p : Profile) (e : Endian) (m : Nat) (hm : m ≤ 2 ^ 64) (S : StructDef) (hs : 0 < S.size)
    (hS : 2 * S.size < m) (w0 w w1 : k.backend.W) (o : k.backend.Obj) (name schema : String) (v v1 : ExtVec k.backend)
    (es : List (List HandleOp)) (hu : k.Unused w0 o name) (hc : createExternalVector p e o name schema w0 = (.ok v, w))
    (hb : es.length * S.size + 8 < 2 ^ 63) (hT : es.length * S.size + 16 < m)
    (hbuf : 2 * (bufferLimit + S.size) < m ∨ 2 * (es.length * S.size + 8) < m) :
    (NGrows m k p e S o name w v es w1 v1 ↔ Grows k p e S o name w v es w1 v1) ∧
    (Grows k p e S o name w v es w1 v1 → Narrow.ExtVec.close m p e v1 w1 = v1.close p e w1) := by
  obtain ⟨i, u, -⟩ := created_inv S.size hu hc
  refine ⟨⟨fun g => ?_, fun g => (Narrow.ngrows_of_grows i u hs (by omega) g hb (by omega) hbuf).1⟩, fun g => ?_⟩
  · obtain ⟨v2, g2, rfl, -⟩ := Narrow.ngrows_sim i u hs (by omega) hS g hb
    rw [Narrow.grows_cut i u hs g2 hb (by omega)]
    exact g2
  · obtain ⟨pre, buf, c, i1, el, u1, -⟩ := grows_inv i u hs g hb
    have hlen := el.length_eq
    exact Narrow.close_same i1 u1 (k.loc_schema_ne o name) p e hm (by rw [← hlen]; omega) (by rw [← hlen]; exact hT)
      (Narrow.grows_cut i u hs g hb (by omega))

/-- C62: in every build, whatever I/O fails: if closing returns a view, the host can count the vector, and view and file have exactly the
elements. -/
theorem C62_close_ok [DiffLib] (k : Kind) (p : Profile) (e : Endian) (m : Nat) (h16 : 16 < m) (hm : m ≤ 2 ^ 64) (S : StructDef)
    (hs : 0 < S.size) (hS : 2 * S.size < m) (w0 w w1 w2 : k.backend.W) (o : k.backend.Obj) (name schema : String)
    (v v1 : ExtVec k.backend) (es : List (List HandleOp)) (s : Slice k.backend.Base) (hu : k.Unused w0 o name)
    (hc : createExternalVector p e o name schema w0 = (.ok v, w)) (g : NGrows m k p e S o name w v es w1 v1)
    (hb : es.length * S.size + 8 < 2 ^ 63) (hcl : Narrow.ExtVec.close m p e v1 w1 = (.ok s, w2)) :
    es.length * S.size + 16 < m ∧ v1.len = es.length ∧ ∃ xs, Elements p e S es xs ∧ k.backend.deref w2 s = .ok xs.flatten ∧
      k.stored w2 o name = some (image xs.flatten) := by
  obtain ⟨i, u, -⟩ := created_inv S.size hu hc
  obtain ⟨v2, g2, rfl, -⟩ := Narrow.ngrows_sim i u hs h16 hS g hb
  obtain ⟨pre, buf, c, i1, el, u1, -⟩ := grows_inv i u hs g2 hb
  have hlen := el.length_eq
  have hne := k.loc_schema_ne o name
  have hT : es.length * S.size + 16 < m := by
    rcases Narrow.close_cut i1 u1 hne p e (by omega) hm (by rw [← hlen]; omega) hcl with ⟨h, -⟩ | ⟨w3, h1, h2, -, h3, -⟩
    · cases h
    · have := Narrow.read_ok_small hne h2 h1 (by omega) h3
      have h4 := i1.writing.le
      have h5 := i1.length
      rw [← hlen] at h5
      simp only [List.length_append, length_le64, zeros, List.length_replicate] at this h5
      omega
  have hcut := Narrow.grows_cut i u hs g2 hb (show es.length * S.size < m by omega)
  rw [hcut] at hcl ⊢
  rw [Narrow.close_same i1 u1 hne p e hm (by rw [← hlen]; omega) (by rw [← hlen]; exact hT) hcut] at hcl
  exact ⟨hT, C22_faults k p e S hs w0 w w1 w2 o name schema v v2 es s hu hc g2 hb hcl⟩

/-- C62 in debug builds: a vector of `m` bytes or more is not closed. -/
theorem C62_debug [DiffLib] (k : Kind) (e : Endian) (m : Nat) (h16 : 16 < m) (hm : m ≤ 2 ^ 64) (S : StructDef)
    (hs : 0 < S.size) (hS : 2 * S.size < m) (w0 w w1 : k.backend.W) (o : k.backend.Obj) (name schema : String)
    (v v1 : ExtVec k.backend) (es : List (List HandleOp)) (hu : k.Unused w0 o name)
    (hc : createExternalVector .debug e o name schema w0 = (.ok v, w)) (g : NGrows m k .debug e S o name w v es w1 v1)
    (hb : es.length * S.size + 8 < 2 ^ 63) (hT : m ≤ es.length * S.size) :
    (Narrow.ExtVec.close m .debug e v1 w1).1 = .panic := by
  obtain ⟨i, u, -⟩ := created_inv S.size hu hc
  obtain ⟨v2, g2, rfl, im⟩ := Narrow.ngrows_sim i u hs h16 hS g hb
  obtain ⟨pre, buf, c, i1, el, u1, -⟩ := grows_inv i u hs g2 hb
  have hlen := el.length_eq
  have hne := k.loc_schema_ne o name
  cases hcl : Narrow.ExtVec.close m .debug e (Narrow.cut m v2) w1 with
  | mk r w2 =>
    rcases Narrow.close_cut i1 u1 hne .debug e (by omega) hm (by rw [← hlen]; omega) hcl with ⟨h, -⟩ | ⟨-, -, -, -, -, h3⟩
    · exact h
    · have h1 := h3 rfl
      rw [Nat.mod_eq_of_lt (im.debug rfl).1, i1.writing.size, i1.length, ← hlen] at h1
      omega

/-- C62: without I/O faults, `grow` never notices the limit in builds without overflow checks; with them it succeeds as long as the
elements so far can be counted. -/
theorem C62_grow_succeeds (k : Kind) (p : Profile) (e : Endian) (m : Nat) (S : StructDef) (hs : 0 < S.size)
    (hbuf : 2 * (bufferLimit + S.size) < m) (w0 w w1 : k.backend.W) (o : k.backend.Obj) (name schema : String)
    (v v1 : ExtVec k.backend) (es : List (List HandleOp)) (hu : k.Unused w0 o name) (hn : k.noFault w0)
    (hc : createExternalVector p e o name schema w0 = (.ok v, w)) (g : NGrows m k p e S o name w v es w1 v1)
    (hb : (es.length + 1) * S.size + 8 < 2 ^ 63) (hp : p = .debug → es.length * S.size < m ∧ es.length + 1 < m) :
    ∃ v2 pos w2, Narrow.ExtVec.grow m p S.size v1 w1 = (.ok (v2, pos), w2) := by
  obtain ⟨i, u, n⟩ := created_inv S.size hu hc
  have hmul : (es.length + 1) * S.size = es.length * S.size + S.size := by rw [Nat.add_mul, Nat.one_mul]
  obtain ⟨v2, g2, rfl, im⟩ := Narrow.ngrows_sim i u hs (by unfold bufferLimit at hbuf; omega) (by omega) g (by omega)
  obtain ⟨pre, buf, c, i1, el, u1, nf, -⟩ := grows_inv i u hs g2 (by omega)
  have hlen := el.length_eq
  have hne := k.loc_schema_ne o name
  have hle := Nat.le_mul_of_pos_right (es.length + 1) hs
  rw [hlen] at hb hle hp
  rcases i1.grow hne p hs hb with ⟨v3, pos, w3, pre', buf', c', h1, -, -, -, -, h3, -⟩ | ⟨x, d', w3, h1, -, -, nf'⟩
  · rcases Narrow.grow_cut_ok i1 hne (by unfold bufferLimit at hbuf; omega) (by omega) im.buffer hb (by omega) h1 with
      ⟨h2, -⟩ | ⟨-, h2 | ⟨h2, h4⟩⟩
    · exact ⟨_, _, _, h2⟩
    · omega
    · have := hp h2
      omega
  · exact absurd ((k.noFault_iff _).mp (nf (n hn)).1) nf'

/-- C62 in builds without overflow checks, exactly: `close` stores all bytes of the elements and the remainder of their number modulo `m`: the file is right if and only if the
number is below `m`; a view is returned if and only if the whole file has less than `m` bytes. -/
theorem C62_exact [DiffLib] (e : Endian) (m : Nat) (hm : m ≤ 2 ^ 64) (S : StructDef) (hs : 0 < S.size)
    (hbuf : 2 * (bufferLimit + S.size) < m) (w0 w w1 w2 : FileW) (o : Obj) (name schema : String)
    (v v1 : ExtVec file) (es : List (List HandleOp)) (r : Res RErr (Slice Key)) (hu : Kind.Unused .disk w0 o name)
    (hn : Kind.noFault .disk w0) (hsch : schema ≠ "") (hc : createExternalVector (B := file) .release e o name schema w0 = (.ok v, w))
    (g : NGrows m .disk .release e S o name w v es w1 v1) (hb : es.length * S.size + 8 < 2 ^ 63)
    (hcl : Narrow.ExtVec.close m .release e v1 w1 = (r, w2)) :
    ∃ xs, Elements .release e S es xs ∧
      Kind.stored .disk w2 o name = some (le64 (es.length * S.size % m) ++ xs.flatten ++ zeros 8) ∧
      (Kind.stored .disk w2 o name = some (image xs.flatten) ↔ es.length * S.size < m) ∧
      ((∃ s, r = .ok s) ↔ es.length * S.size + 16 < m) ∧ r ≠ .panic := by
  have h16 : 16 < m := by unfold bufferLimit at hbuf; omega
  obtain ⟨i, u, n⟩ := created_inv (k := .disk) S.size hu hc
  obtain ⟨v2, g2, rfl, -⟩ := Narrow.ngrows_sim i u hs h16 (by omega) g hb
  obtain ⟨pre, buf, c, i1, el, u1, nf, -⟩ := grows_inv i u hs g2 hb
  have hlen := el.length_eq
  have hne := Kind.loc_schema_ne .disk o name
  obtain ⟨n1, rfl⟩ := nf (n hn)
  have hst : Kind.stored .disk w2 o name = some (le64 (es.length * S.size % m) ++ (pre ++ buf).flatten ++ zeros 8) ∧ r ≠ .panic := by
    rcases Narrow.close_cut i1 u1 hne .release e (by omega) hm (by rw [← hlen]; omega) hcl with ⟨-, h | ⟨h, -⟩⟩ | ⟨w3, h1, h2, -, h3, -⟩
    · exact absurd ((Kind.noFault_iff .disk _).mp n1) h
    · cases h
    · refine ⟨(Kind.stored_eq .disk ..).trans ((Narrow.read_medium hne h2 h1 (by omega) h3 _).trans ?_), Narrow.read_release hne h2 h1 (by omega) h3⟩
      rw [h1, hlen, List.flatten_append]
  obtain ⟨hst, hnp⟩ := hst
  have hfl : (pre ++ buf).flatten.length = es.length * S.size := by rw [el.allSize.length_flatten, hlen]
  refine ⟨pre ++ buf, el, hst, ?_, ⟨?_, fun hT => ?_⟩, hnp⟩
  · rw [hst]
    unfold image
    rw [hfl]
    constructor
    · intro h
      have h := congrArg (fun d : Bytes => leNat (d.take 8)) (Option.some.inj h)
      simp only [List.append_assoc] at h
      rw [take8_le64, take8_le64, leNat_le64 (Nat.lt_of_lt_of_le (Nat.mod_lt _ (by omega)) hm), leNat_le64 (by omega)] at h
      rw [← h]
      exact Nat.mod_lt _ (by omega)
    · intro h
      rw [Nat.mod_eq_of_lt h]
  · rintro ⟨s, rfl⟩
    exact (C62_close_ok .disk .release e m h16 hm S hs (by omega) w0 w w1 w2 o name schema v _ es s hu hc g hb hcl).1
  · have hcut := Narrow.grows_cut i u hs g2 hb (show es.length * S.size < m by omega)
    rw [hcut, Narrow.close_same i1 u1 hne .release e hm (by rw [← hlen]; omega) (by rw [← hlen]; exact hT) hcut] at hcl
    obtain ⟨-, -, s, w3, -, h, -⟩ := C21_roundtrip .disk .release e S hs w0 w w1 o name schema v v2 es hu hn
      (show strBytes schema ≠ [] from fun h => hsch (strBytes_eq_nil.mp h)) hc g2 hb
    rw [hcl] at h
    cases h
    exact ⟨s, rfl⟩

/-- What is stored then is refused by every later process, on 64-bit hosts and on narrow ones. -/
theorem C62_lost [DiffLib] (e : Endian) (m : Nat) (hm : m ≤ 2 ^ 64) (S : StructDef) (hs : 0 < S.size)
    (hbuf : 2 * (bufferLimit + S.size) < m) (w0 w w1 w2 w3 : FileW) (o o' : Obj) (name schema : String)
    (v v1 : ExtVec file) (es : List (List HandleOp)) (r : Res RErr (Slice Key)) (hu : Kind.Unused .disk w0 o name)
    (hn : Kind.noFault .disk w0) (hsch : schema ≠ "") (hc : createExternalVector (B := file) .release e o name schema w0 = (.ok v, w))
    (g : NGrows m .disk .release e S o name w v es w1 v1) (hb : es.length * S.size + 8 < 2 ^ 63)
    (hcl : Narrow.ExtVec.close m .release e v1 w1 = (r, w2)) (hT : m ≤ es.length * S.size) (hp : NewProcess w2 w3)
    (ho : o'.path = o.path) (p' : Profile) (e' : Endian) :
    (∀ s w4, Storage.read file p' e' o' name schema w3 ≠ (.ok s, w4)) ∧
    ∀ s w4, Narrow.read m file p' e' o' name schema w3 ≠ (.ok s, w4) := by
  obtain ⟨xs, el, hst, hx, -⟩ := C62_exact e m hm S hs hbuf w0 w w1 w2 o name schema v v1 es r hu hn hsch hc g hb hcl
  have hl : ∀ n, fileLaws.loc o' n = fileLaws.loc o n := by
    intro n; change key (join o'.path n) = key (join o.path n); rw [ho]
  have hmm : ∀ l, fileLaws.medium w3 l = fileLaws.medium w2 l := fun l => congrFun hp.files l
  have hcache : ∀ n, fileLaws.cache w3 o' n = none := by
    intro n; change Option.map _ (w3.maps _ _) = none; rw [hp.initial.1]; rfl
  have hd : fileLaws.medium w3 (fileLaws.loc o' name) = some (le64 (es.length * S.size % m) ++ xs.flatten ++ zeros 8) := by
    rw [hmm, hl]; exact hst
  have hfl : xs.flatten.length = es.length * S.size := by rw [el.allSize.length_flatten, el.length_eq]
  have hlt := Nat.mod_lt (es.length * S.size) (show m > 0 by omega)
  constructor
  · intro s w4 h
    obtain ⟨d, x, h1, -, hx, -⟩ := read_ok_inv (L := fileLaws) (Kind.loc_schema_ne .disk o' name) (hcache _) (hcache _) h
    rw [hd] at h1
    cases h1
    have h2 := hx.size
    have h3 := hx.length
    rw [List.append_assoc, take8_le64, leNat_le64 (by omega)] at h2
    simp only [List.length_append, length_le64, zeros, List.length_replicate, hfl] at h3
    omega
  · intro s w4 h
    have := Narrow.read_ok_small (L := fileLaws) (Kind.loc_schema_ne .disk o' name) ⟨hcache _, hcache _⟩ hd
      (by unfold bufferLimit at hbuf; omega) h
    simp only [List.length_append, length_le64, zeros, List.length_replicate, hfl] at this
    omega

namespace NarrowWriteExample

/-- Vectors of any length can be written by builds without overflow checks; with them, up to `m` and the last element. -/
theorem history (p : Profile) (S : StructDef) (hs : 0 < S.size) (m : Nat) (hbuf : 2 * (bufferLimit + S.size) < m) (v : ExtVec file) (w : FileW)
    (hc : createExternalVector (B := file) p .little objD "x" "s" (disk0 []) = (.ok v, w)) (n : Nat) :
    n * S.size + 8 < 2 ^ 63 → (p = .debug → n * S.size < m + S.size ∧ n < m) →
    ∃ w1 v1, NGrows m .disk p .little S objD "x" w v (List.replicate n []) w1 v1 := by
  induction n with
  | zero => exact fun _ _ => ⟨w, v, .start⟩
  | succ n ih =>
    intro hb hp
    have hmul : (n + 1) * S.size = n * S.size + S.size := by rw [Nat.add_mul, Nat.one_mul]
    obtain ⟨w1, v1, g⟩ := ih (by omega) (fun h => by have := hp h; omega)
    obtain ⟨v2, pos, w2, h⟩ := C62_grow_succeeds .disk p .little m S hs hbuf (disk0 []) w w1 objD "x" "s" v v1 _ (unused_disk0 ..)
      (disk0_noFault _) hc g (by rw [List.length_replicate]; exact hb) (fun h => by have := hp h; rw [List.length_replicate]; omega)
    rw [List.replicate_succ']
    exact ⟨_, _, .grow g h writeAt_nil⟩

theorem created (p : Profile) : (createExternalVector (B := file) p .little objD "x" "s" (disk0 [])).1.isOk = true := by
  cases p <;> decide +kernel

/-- 4 GiB on a 32-bit host: closing returns an error, and the file says that it is empty. -/
theorem big [DiffLib] (S : StructDef) (hS : S.size = 2 ^ 25) : ∃ v w v1 w1 r w2, createExternalVector (B := file) .release .little objD "x" "s" (disk0 []) = (.ok v, w) ∧
    NGrows (2 ^ 32) .disk .release .little S objD "x" w v (List.replicate 128 []) w1 v1 ∧
    Narrow.ExtVec.close (2 ^ 32) .release .little v1 w1 = (r, w2) ∧ r ≠ .panic ∧ (∀ s, r ≠ .ok s) ∧
    ∃ xs, Elements .release .little S (List.replicate 128 []) xs ∧
      Kind.stored .disk w2 objD "x" = some (le64 0 ++ xs.flatten ++ zeros 8) ∧ Kind.stored .disk w2 objD "x" ≠ some (image xs.flatten) := by
  have hlim : bufferLimit = 2 ^ 25 := by decide
  obtain ⟨v, w, hc⟩ := isOk_run (created _)
  obtain ⟨w1, v1, g⟩ := history .release S (by rw [hS]; omega) (2 ^ 32) (by rw [hS, hlim]; omega) v w hc 128 (by rw [hS]; omega)
    (fun h => by cases h)
  cases hcl : Narrow.ExtVec.close (2 ^ 32) .release .little v1 w1 with
  | mk r w2 =>
    obtain ⟨xs, el, h1, h2, h3, h4⟩ := C62_exact .little (2 ^ 32) (by decide) S (by rw [hS]; omega) (by rw [hS, hlim]; omega) (disk0 []) w w1 w2 objD
      "x" "s" v v1 _ r (unused_disk0 ..) (disk0_noFault _) (by decide) hc g (by rw [hS, List.length_replicate]; omega) hcl
    rw [hS, List.length_replicate] at h1 h2 h3
    refine ⟨v, w, v1, w1, r, w2, hc, g, hcl, h4, fun s hr => ?_, xs, el, h1, fun h => ?_⟩
    · have := h3.mp ⟨s, hr⟩
      omega
    · have := h2.mp h
      omega

end NarrowWriteExample
open NarrowWriteExample

theorem C62_refuted : ¬ C62_claim := by
  intro h
  have hlim : bufferLimit = 2 ^ 25 := by decide
  have hB : Big.size = 2 ^ 25 := rfl
  obtain ⟨v, w, v1, w1, r, w2, hc, g, hcl, hnp, -, xs, el, -, hx⟩ := @big naiveDiff Big hB
  rcases h naiveDiff .release .little (2 ^ 32) (by decide) Big (disk0 []) w w1 w2 objD "x" "s" v v1 _ r (by rw [hB]; omega)
    (by rw [hB, hlim]; omega) (unused_disk0 ..) (disk0_noFault _) hc g (by rw [hB, List.length_replicate]; omega) hcl with h | ⟨xs', el', h⟩
  · exact hnp h
  · rw [el.unique el'] at hx
    exact hx h

/-- Non-vacuity of `C62_same_partial` and `C62_close_ok`: two elements on a 16-bit host. -/
example [DiffLib] : ∃ v w v1 w1 s w2, createExternalVector (B := file) .debug .little objD "x" "s" (disk0 []) = (.ok v, w) ∧
    NGrows (2 ^ 16) .disk .debug .little S objD "x" w v es w1 v1 ∧ Narrow.ExtVec.close (2 ^ 16) .debug .little v1 w1 = (.ok s, w2) ∧
    file.deref w2 s = .ok VecExample.xs.flatten := by
  obtain ⟨v, w, v1, w1, hc, g⟩ := VecExample.run_disk
  obtain ⟨h1, h2⟩ := C62_same_partial .disk .debug .little (2 ^ 16) (by decide) S (by decide) (by decide) (disk0 []) w w1 objD "x" "s" v v1 es
    (unused_disk0 ..) hc (by decide) (by decide) (.inr (by decide))
  obtain ⟨-, -, s, w2, -, h3, -⟩ := C21_roundtrip .disk .debug .little S (by decide) (disk0 []) w w1 objD "x" "s" v v1 es
    (unused_disk0 ..) (disk0_noFault _) (by change strBytes "s" ≠ []; decide) hc g (by decide)
  have h4 := (h2 g).trans h3
  obtain ⟨-, -, xs, el, h5, -⟩ := C62_close_ok .disk .debug .little (2 ^ 16) (by decide) (by decide) S (by decide) (by decide) (disk0 []) w w1 w2
    objD "x" "s" v v1 es s (unused_disk0 ..) hc (h1.mpr g) (by decide) h4
  rw [el.unique VecExample.elements] at h5
  exact ⟨v, w, v1, w1, s, w2, hc, h1.mpr g, h4, h5⟩

/-- Non-vacuity of `C62_debug` and `C62_grow_succeeds`: 4 GiB can be added to a vector on a 32-bit host; closing it panics in debug
builds. -/
example [DiffLib] (S : StructDef) (hS : S.size = 2 ^ 25) : ∃ v w v1 w1, createExternalVector (B := file) .debug .little objD "x" "s" (disk0 []) = (.ok v, w) ∧
    NGrows (2 ^ 32) .disk .debug .little S objD "x" w v (List.replicate 128 []) w1 v1 ∧
    (Narrow.ExtVec.close (2 ^ 32) .debug .little v1 w1).1 = .panic := by
  have hlim : bufferLimit = 2 ^ 25 := by decide
  obtain ⟨v, w, hc⟩ := isOk_run (created .debug)
  obtain ⟨w1, v1, g⟩ := history .debug S (by rw [hS]; omega) (2 ^ 32) (by rw [hS, hlim]; omega) v w hc 128 (by rw [hS]; omega)
    (fun _ => by rw [hS]; omega)
  exact ⟨v, w, v1, w1, hc, g, C62_debug .disk .little (2 ^ 32) (by decide) (by decide) S (by rw [hS]; omega) (by rw [hS]; omega) (disk0 []) w w1
    objD "x" "s" v v1 _ (unused_disk0 ..) hc g (by rw [hS, List.length_replicate]; omega) (by rw [hS, List.length_replicate]; omega)⟩

/-- Non-vacuity of `C62_lost`: the 4 GiB that a 32-bit host has written are lost. -/
example [DiffLib] (S : StructDef) (hS : S.size = 2 ^ 25) : ∃ w2 w3 d, NewProcess w2 w3 ∧ Kind.stored .disk w2 objD "x" = some d ∧
    2 ^ 32 < d.length ∧ ∀ s w4, Storage.read file .release .little objD "x" "s" w3 ≠ (.ok s, w4) := by
  have hlim : bufferLimit = 2 ^ 25 := by decide
  obtain ⟨v, w, v1, w1, r, w2, hc, g, hcl, -, -, xs, el, h1, -⟩ := big S hS
  have hp : NewProcess w2 ⟨⟨w2.fs.files, w2.fs.isDir, fun _ => ([], 0), 0, fun _ => none, 0⟩, fun _ _ => none, 1⟩ := ⟨rfl, fun _ _ => rfl, rfl⟩
  refine ⟨w2, _, _, hp, h1, ?_, ?_⟩
  · have : xs.flatten.length = 128 * 2 ^ 25 := by rw [el.allSize.length_flatten, ← el.length_eq, List.length_replicate, hS]
    simp only [List.length_append, length_le64, zeros, List.length_replicate, this]
    omega
  · exact (C62_lost .little (2 ^ 32) (by decide) S (by rw [hS]; omega) (by rw [hS, hlim]; omega) (disk0 []) w w1 w2 _ objD objD "x" "s" v v1 _ r
      (unused_disk0 ..) (disk0_noFault _) (by decide) hc g (by rw [hS, List.length_replicate]; omega) hcl
      (by rw [hS, List.length_replicate]; omega) hp rfl .release .little).1

end Flatdata
