import Verif.Proofs.World
import Verif.Proofs.Diff
/-!
# Properties C16, C17, C18, C19, C30, C34, C35, C37: reading and writing whole resources

All statements are about both storages (`Kind.memory`, `Kind.disk`) unless they say otherwise; `Kind.Reachable` are the
states after any sequence of storage and stream calls with any outcome.
-/
namespace Flatdata
open Spec

/-! ## Example worlds -/

namespace StorageExample

/-- An empty memory storage (object 0). -/
def mem0 : MemW := ⟨fun _ => none, fun _ => none, 1⟩

/-- A process that has just been started on a disk with the given files, in directory `d`; call `t` fails if so given. -/
def disk0 (files : List (Key × Bytes)) (fault : Nat → Option Nat := fun _ => none) : FileW where
  fs := ⟨fun k => (files.find? (·.1 = k)).map (·.2), fun k => k = [['d']], fun _ => ([], 0), 0, fault, 0⟩
  maps _ _ := none
  next := 1

/-- Storage object 0 without path, and one for directory `d`. -/
def obj : Obj := ⟨0, []⟩
def objD : Obj := ⟨0, ['d']⟩

theorem mem0_reachable : Kind.Reachable .memory mem0 := ⟨mem0, fun _ => ⟨rfl, rfl⟩, .refl _⟩
theorem disk0_reachable (f g) : Kind.Reachable .disk (disk0 f g) := ⟨disk0 f g, ⟨fun _ _ => rfl, rfl⟩, .refl _⟩
theorem disk0_noFault (f) : Kind.noFault .disk (disk0 f) := fun _ _ => rfl

end StorageExample
open StorageExample

/-! ## C16: write/read round trip -/

/-- C16 in full: a resource written under a new name is read back. (Sizes are those of a Rust slice; nothing fails.) -/
def C16_claim : Prop :=
  ∀ (_ : DiffLib) (k : Kind) (p : Profile) (e : Endian) (w w1 : k.backend.W) (o : k.backend.Obj) (name schema : String)
    (data : Bytes), k.Reachable w → k.noFault w → data.length < 2 ^ 63 →
    k.stored w o name = none → k.stored w o (name ++ ".schema") = none →
    Storage.write k.backend p e o name schema data w = (.ok (), w1) →
    ∃ s w2, Storage.read k.backend p e o name schema w1 = (.ok s, w2) ∧ k.backend.deref w2 s = .ok data

/-- An empty schema cannot be read back from disk: an empty file cannot be memory mapped. -/
theorem C16_refuted : ¬ C16_claim := by
  intro h
  have hw : Storage.write file .debug .little objD "x" "" [] (disk0 []) =
      (.ok (), (Storage.write file .debug .little objD "x" "" [] (disk0 [])).2) := by
    have : (Storage.write file .debug .little objD "x" "" [] (disk0 [])).1 = .ok () := by decide
    rw [← this]
  obtain ⟨s, w2, h1, _⟩ := h naiveDiff .disk .debug .little (disk0 []) _ objD "x" "" [] (disk0_reachable _ _)
    (disk0_noFault _) (by decide) (by decide) (by decide) hw
  have h2 : (@Storage.read file .debug .little naiveDiff objD "x" ""
      (Storage.write file .debug .little objD "x" "" [] (disk0 [])).2).1 = .err (.io .invalidInput "x") := by decide
  have h3 : (@Storage.read file .debug .little naiveDiff objD "x" ""
      (Storage.write file .debug .little objD "x" "" [] (disk0 [])).2).1 = .ok s := congrArg Prod.fst h1
  rw [h2] at h3
  cases h3

/-- What a completed write leaves in the storage. -/
theorem write_stored {k : Kind} {p : Profile} {e : Endian} {w w1 : k.backend.W} {o : k.backend.Obj} {name schema : String}
    {data : Bytes} (hd : data.length < 2 ^ 63) (hf : k.laws.fresh (k.stored w o name))
    (hf' : k.laws.fresh (k.stored w o (name ++ ".schema")))
    (h : Storage.write k.backend p e o name schema data w = (.ok (), w1)) :
    k.stored w1 o name = some (image data) ∧ k.stored w1 o (name ++ ".schema") = some (strBytes schema) ∧
    Only k.laws w w1 (fun l => l = k.laws.loc o name ∨ l = k.laws.loc o (name ++ ".schema")) := by
  rw [Kind.stored_eq] at hf hf'
  obtain ⟨r, w', h', hr, ho⟩ := write_spec p e o name schema w (Nat.lt_trans hd (by decide)) (k.loc_schema_ne o name) hf hf'
  rw [h] at h'
  cases h'
  cases hr with
  | ok hd hs => exact ⟨(k.stored_eq ..).trans hd, (k.stored_eq ..).trans hs, ho⟩

/-- Reading what is stored as a complete resource and has not been read before. -/
theorem read_stored [DiffLib] {k : Kind} (p : Profile) (e : Endian) {w : k.backend.W} {o : k.backend.Obj} {name schema : String}
    {data : Bytes} (hd : data.length < 2 ^ 63) (hn : k.noFault w) (hs : k.mappable (strBytes schema))
    (h1 : k.stored w o name = some (image data)) (h2 : k.stored w o (name ++ ".schema") = some (strBytes schema))
    (u1 : k.unread w o name) (u2 : k.unread w o (name ++ ".schema")) :
    ∃ s w2, Storage.read k.backend p e o name schema w = (.ok s, w2) ∧ k.backend.deref w2 s = .ok data := by
  rw [Kind.stored_eq] at h1 h2
  rw [Kind.unread_iff] at u1 u2
  rw [Kind.noFault_iff] at hn
  rw [Kind.mappable_iff] at hs
  have h64 : data.length + 16 < 2 ^ 64 := by
    have : (2 : Nat) ^ 63 + 16 < 2 ^ 64 := by decide
    omega
  exact read_new_ok p e (k.loc_schema_ne o name) hn h1 h2 (holds_image data (by omega)) h64 hs u1 u2

/-- C16 for schemas the storage can read (on disk: not empty). -/
theorem C16_write_read_partial [DiffLib] (k : Kind) (p : Profile) (e : Endian) (w w1 : k.backend.W) (o : k.backend.Obj)
    (name schema : String) (data : Bytes) (hr : k.Reachable w) (hn : k.noFault w) (hd : data.length < 2 ^ 63)
    (h1 : k.stored w o name = none) (h2 : k.stored w o (name ++ ".schema") = none)
    (hs : k.mappable (strBytes schema))
    (h : Storage.write k.backend p e o name schema data w = (.ok (), w1)) :
    ∃ s w2, Storage.read k.backend p e o name schema w1 = (.ok s, w2) ∧ k.backend.deref w2 s = .ok data := by
  have u1 := hr.unread h1
  have u2 := hr.unread h2
  rw [Kind.unread_iff] at u1 u2
  obtain ⟨s1, s2, ho⟩ := write_stored hd (by rw [h1]; exact k.laws.fresh_none) (by rw [h2]; exact k.laws.fresh_none) h
  refine read_stored p e hd ?_ hs s1 s2 ?_ ?_
  · rw [Kind.noFault_iff] at hn ⊢; exact ho.noFault hn
  · rw [Kind.unread_iff, ho.cache]; exact u1
  · rw [Kind.unread_iff, ho.cache]; exact u2

/-- In memory no call fails, so the write itself succeeds for every schema and content. -/
theorem C16_memory_total [DiffLib] (p : Profile) (e : Endian) (w : MemW) (o : Obj) (name schema : String) (data : Bytes)
    (hr : Kind.Reachable .memory w) (hd : data.length < 2 ^ 63)
    (h1 : Kind.stored .memory w o name = none) (h2 : Kind.stored .memory w o (name ++ ".schema") = none) :
    ∃ w1 s w2, Storage.write mem p e o name schema data w = (.ok (), w1) ∧
      Storage.read mem p e o name schema w1 = (.ok s, w2) ∧ mem.deref w2 s = .ok data := by
  obtain ⟨w1, h, _⟩ := write_succeeds memLaws p e (schema := schema) (fun _ => True) trivial
    (fun n w _ _ => by
      rcases MemSt.create_cases o n w with ⟨_, _, h⟩ | ⟨_, h⟩ <;> exact ⟨_, _, h, trivial⟩)
    (fun _ _ _ _ _ => trivial) trivial (Nat.lt_trans hd (by decide)) (Kind.loc_schema_ne .memory o name) h1 h2
  obtain ⟨s, w2, h3, h4⟩ := C16_write_read_partial .memory p e w w1 o name schema data hr trivial hd h1 h2 trivial h
  exact ⟨w1, s, w2, h, h3, h4⟩

/-- The result of running code, with the state afterwards left implicit. -/
theorem run_eq {W E α : Type} {x : Act W E α} {w : W} {r : Res E α} (h : (x w).1 = r) : x w = (r, (x w).2) := by
  rw [← h]

example (e : Endian) : ∃ w1, Storage.write mem .release e obj "x" "s" [7#8, 9#8] mem0 = (.ok (), w1) :=
  ⟨_, run_eq (by cases e <;> decide)⟩

example [DiffLib] : ∃ w1 s w2, Storage.write file .debug .little objD "x" "s" [7#8, 9#8] (disk0 []) = (.ok (), w1) ∧
    Storage.read file .debug .little objD "x" "s" w1 = (.ok s, w2) ∧ file.deref w2 s = .ok [7#8, 9#8] := by
  have hw : Storage.write file .debug .little objD "x" "s" [7#8, 9#8] (disk0 []) = (.ok (), _) := run_eq (by decide)
  obtain ⟨s, w2, h⟩ := C16_write_read_partial .disk .debug .little (disk0 []) _ objD "x" "s" [7#8, 9#8]
    (disk0_reachable _ _) (disk0_noFault _) (by decide) (by decide) (by decide)
    (by change strBytes "s" ≠ []; decide) hw
  exact ⟨_, s, w2, hw, h⟩

example [DiffLib] : ∃ w1 s w2, Storage.write mem .debug .big obj "x" "" [] mem0 = (.ok (), w1) ∧
    Storage.read mem .debug .big obj "x" "" w1 = (.ok s, w2) ∧ mem.deref w2 s = .ok [] :=
  C16_memory_total .debug .big mem0 obj "x" "" [] mem0_reachable (by decide) (by decide) (by decide)

/-! ## C17: integrity check -/

/-- C17 in full: for any bytes stored as resource and schema (that the storage can read at all), reading yields the
payload exactly if the bytes are size, payload and 8 more bytes and the schema is the expected one; otherwise an error. -/
def C17_claim : Prop :=
  ∀ (_ : DiffLib) (k : Kind) (p : Profile) (e : Endian) (w : k.backend.W) (o : k.backend.Obj) (name schema : String)
    (d c : Bytes), k.noFault w → d.length < 2 ^ 63 →
    k.stored w o name = some d → k.stored w o (name ++ ".schema") = some c → k.mappable d → k.mappable c →
    k.unread w o name → k.unread w o (name ++ ".schema") →
    ∃ r w', Storage.read k.backend p e o name schema w = (r, w') ∧
      ((∃ x s, Holds d x ∧ c = strBytes schema ∧ r = .ok s ∧ k.backend.deref w' s = .ok x) ∨
       (¬ (∃ x, Holds d x ∧ c = strBytes schema) ∧ ∃ err, r = .err err))

/-- A corrupted size field of 2^64-16 or more makes a debug build panic (`size + 8 + 8` overflows). -/
theorem C17_refuted : ¬ C17_claim := by
  intro h
  obtain ⟨r, w', h1, h2⟩ := h naiveDiff .disk .debug .little
    (disk0 [([['d'], ['x']], List.replicate 16 255#8), ([['d'], "x.schema".toList], [115#8])]) objD "x" "s"
    (List.replicate 16 255#8) [115#8] (disk0_noFault _) (by decide) (by decide) (by decide)
    (by change List.replicate 16 255#8 ≠ []; decide) (by change [115#8] ≠ []; decide) rfl rfl
  have h3 : (@Storage.read file .debug .little naiveDiff objD "x" "s"
    (disk0 [([['d'], ['x']], List.replicate 16 255#8), ([['d'], "x.schema".toList], [115#8])])).1 = .panic := by decide
  have h4 : (@Storage.read file .debug .little naiveDiff objD "x" "s"
    (disk0 [([['d'], ['x']], List.replicate 16 255#8), ([['d'], "x.schema".toList], [115#8])])).1 = r := congrArg Prod.fst h1
  rw [h3] at h4
  subst h4
  rcases h2 with ⟨_, _, _, _, h, _⟩ | ⟨_, _, h⟩ <;> cases h

/-- C17 with the one exception spelled out: a debug build panics if the size field is at least 2^64-16. -/
theorem C17_read_check_partial [DiffLib] (k : Kind) (p : Profile) (e : Endian) (w : k.backend.W) (o : k.backend.Obj)
    (name schema : String) (d c : Bytes) (hn : k.noFault w) (hl : d.length < 2 ^ 63)
    (hd : k.stored w o name = some d) (hc : k.stored w o (name ++ ".schema") = some c) (md : k.mappable d)
    (mc : k.mappable c) (ud : k.unread w o name) (uc : k.unread w o (name ++ ".schema")) :
    ∃ r w', Storage.read k.backend p e o name schema w = (r, w') ∧
      ((∃ x s, Holds d x ∧ c = strBytes schema ∧ r = .ok s ∧ k.backend.deref w' s = .ok x) ∨
       (¬ (∃ x, Holds d x ∧ c = strBytes schema) ∧ ((∃ err, r = .err err) ∨
         (r = .panic ∧ p = .debug ∧ 16 ≤ d.length ∧ 2 ^ 64 ≤ leNat (d.take 8) + 16)))) := by
  rw [Kind.stored_eq] at hd hc
  rw [Kind.noFault_iff] at hn
  rw [Kind.mappable_iff] at md mc
  rw [Kind.unread_iff] at ud uc
  obtain ⟨sd, w', h, h1, h2⟩ := read_new p e (k.loc_schema_ne o name) hn hd hc md mc ud uc (expected := schema)
  refine ⟨_, w', h, ?_⟩
  have neg : (∀ x, verdict p name schema d c ≠ .ok x) → ¬ ∃ x, Holds d x ∧ c = strBytes schema := by
    rintro hv ⟨x, hx, hcs⟩
    have := hx.length
    have : (2 : Nat) ^ 63 + 16 < 2 ^ 64 := by decide
    exact hv x (verdict_ok.mpr ⟨hx, by omega, hcs⟩)
  cases hv : verdict p name schema d c with
  | ok x =>
    obtain ⟨hx, _, hcs⟩ := verdict_ok.mp hv
    refine .inl ⟨x, _, hx, hcs, rfl, ?_⟩
    have := hx.length
    have := deref_length h1
    exact (deref_sub h1 (a := 8) (n := x.length) (by omega)).trans (by rw [hx.body])
  | err x => exact .inr ⟨neg (by rw [hv]; exact fun _ h => by cases h), .inl ⟨x, rfl⟩⟩
  | panic =>
    refine .inr ⟨neg (by rw [hv]; exact fun _ h => by cases h), .inr ⟨rfl, ?_⟩⟩
    unfold verdict at hv
    split at hv
    · cases hv
    · split at hv
      · split at hv
        · exact ⟨by assumption, by omega, by assumption⟩
        · cases hv
      · split at hv
        · cases hv
        · split at hv
          · cases hv
          · split at hv <;> cases hv
  | ub =>
    unfold verdict at hv
    split at hv
    · cases hv
    · split at hv
      · split at hv <;> cases hv
      · split at hv
        · cases hv
        · split at hv
          · cases hv
          · split at hv <;> cases hv

/-- Release builds satisfy C17 in full. -/
theorem C17_read_check_release [DiffLib] (k : Kind) (e : Endian) (w : k.backend.W) (o : k.backend.Obj)
    (name schema : String) (d c : Bytes) (hn : k.noFault w) (hl : d.length < 2 ^ 63)
    (hd : k.stored w o name = some d) (hc : k.stored w o (name ++ ".schema") = some c) (md : k.mappable d)
    (mc : k.mappable c) (ud : k.unread w o name) (uc : k.unread w o (name ++ ".schema")) :
    ∃ r w', Storage.read k.backend .release e o name schema w = (r, w') ∧
      ((∃ x s, Holds d x ∧ c = strBytes schema ∧ r = .ok s ∧ k.backend.deref w' s = .ok x) ∨
       (¬ (∃ x, Holds d x ∧ c = strBytes schema) ∧ ∃ err, r = .err err)) := by
  obtain ⟨r, w', h, h'⟩ := C17_read_check_partial k .release e w o name schema d c hn hl hd hc md mc ud uc
  refine ⟨r, w', h, ?_⟩
  rcases h' with h' | ⟨h1, h2 | ⟨_, h2, _⟩⟩
  · exact .inl h'
  · exact .inr ⟨h1, h2⟩
  · cases h2

/-- Never wrong data, whatever system calls fail. -/
theorem C17_never_wrong [DiffLib] (k : Kind) (p : Profile) (e : Endian) (w w' : k.backend.W) (o : k.backend.Obj)
    (name schema : String) (s : Slice k.backend.Base) (ud : k.unread w o name) (uc : k.unread w o (name ++ ".schema"))
    (h : Storage.read k.backend p e o name schema w = (.ok s, w')) :
    ∃ d x, k.stored w o name = some d ∧ k.stored w o (name ++ ".schema") = some (strBytes schema) ∧ Holds d x ∧
      k.backend.deref w' s = .ok x := by
  rw [Kind.unread_iff] at ud uc
  rw [Kind.stored_eq, Kind.stored_eq]
  exact read_ok_inv (k.loc_schema_ne o name) ud uc h

/-- The disk of the examples: resource `x` with payload `[7]` and schema `s`. -/
def StorageExample.disk1 : FileW := disk0 [([['d'], ['x']], image [7#8]), ([['d'], "x.schema".toList], strBytes "s")]

example [DiffLib] : ∃ s w', Storage.read file .debug .little objD "x" "s" disk1 = (.ok s, w') ∧ file.deref w' s = .ok [7#8] := by
  obtain ⟨r, w', h, h'⟩ := C17_read_check_partial .disk .debug .little disk1 objD "x" "s" (image [7#8]) (strBytes "s")
    (disk0_noFault _) (by decide) (by decide) (by decide) (by change image [7#8] ≠ []; decide)
    (by change strBytes "s" ≠ []; decide) rfl rfl
  rcases h' with ⟨x, s, hx, _, rfl, hd⟩ | ⟨h', _⟩
  · have := Holds.unique hx (holds_image [7#8] (by decide))
    exact ⟨s, w', h, by rw [hd, this]⟩
  · exact absurd ⟨[7#8], holds_image _ (by decide), rfl⟩ h'

/-- Non-vacuity: the resource of `disk1`, and another schema. -/
example [DiffLib] : ∃ r w', Storage.read file .release .big objD "x" "t" disk1 = (r, w') ∧
    ((∃ x s, Holds (image [7#8]) x ∧ strBytes "s" = strBytes "t" ∧ r = .ok s ∧ file.deref w' s = .ok x) ∨
      (¬ (∃ x, Holds (image [7#8]) x ∧ strBytes "s" = strBytes "t") ∧ ∃ err, r = .err err)) :=
  C17_read_check_release .disk .big disk1 objD "x" "t" (image [7#8]) (strBytes "s") (disk0_noFault _) (by decide) (by decide) (by decide)
    (by change image [7#8] ≠ []; decide) (by change strBytes "s" ≠ []; decide) rfl rfl

/-! ## C18: wrong schemas and missing resources -/

/-- C18 in full, for a stored schema that differs from the expected one. -/
def C18_claim : Prop :=
  ∀ (_ : DiffLib) (k : Kind) (p : Profile) (e : Endian) (w : k.backend.W) (o : k.backend.Obj) (name expected found : String)
    (d x : Bytes), k.noFault w → d.length < 2 ^ 63 → k.stored w o name = some d → Holds d x →
    k.stored w o (name ++ ".schema") = some (strBytes found) → k.unread w o name → k.unread w o (name ++ ".schema") →
    found ≠ expected →
    ∃ diff w', Storage.read k.backend p e o name expected w = (.err (.wrongSignature name diff), w') ∧
      diffLeft diff = DiffLib.linesOf found ∧ diffRight diff = DiffLib.linesOf expected

/-- On disk an empty stored schema is reported as an I/O error (an empty file cannot be mapped). -/
theorem C18_refuted : ¬ C18_claim := by
  intro h
  obtain ⟨diff, w', h1, _⟩ := h naiveDiff .disk .debug .little
    (disk0 [([['d'], ['x']], image [7#8]), ([['d'], "x.schema".toList], [])]) objD "x" "t" ""
    (image [7#8]) [7#8] (disk0_noFault _) (by decide) (by decide) (holds_image _ (by decide)) (by decide) rfl rfl (by decide)
  have h2 : (@Storage.read file .debug .little naiveDiff objD "x" "t"
    (disk0 [([['d'], ['x']], image [7#8]), ([['d'], "x.schema".toList], [])])).1 = .err (.io .invalidInput "x") := by decide
  have h3 := congrArg Prod.fst h1
  exact absurd (h2.symm.trans h3) (by intro h; cases h)

/-- A stored schema (on disk: not empty) that differs from the expected one: the error names the resource, and the diff contains both schemas. -/
theorem C18_wrong_signature_partial [DiffLib] (k : Kind) (p : Profile) (e : Endian) (w : k.backend.W) (o : k.backend.Obj)
    (name expected found : String) (d x : Bytes) (hn : k.noFault w) (hl : d.length < 2 ^ 63)
    (hd : k.stored w o name = some d) (hx : Holds d x) (hc : k.stored w o (name ++ ".schema") = some (strBytes found))
    (mc : k.mappable (strBytes found)) (ud : k.unread w o name) (uc : k.unread w o (name ++ ".schema"))
    (hne : found ≠ expected) :
    ∃ diff w', Storage.read k.backend p e o name expected w = (.err (.wrongSignature name diff), w') ∧
      diffLeft diff = DiffLib.linesOf found ∧ diffRight diff = DiffLib.linesOf expected := by
  rw [Kind.stored_eq] at hd hc
  rw [Kind.noFault_iff] at hn
  rw [Kind.mappable_iff] at mc
  rw [Kind.unread_iff] at ud uc
  have hlen := hx.length
  have md : k.laws.readable d := k.laws.readable_of_ne d (by intro h; rw [h] at hlen; simp at hlen)
  obtain ⟨sd, w', h, h1, h2⟩ := read_new p e (k.loc_schema_ne o name) hn hd hc md mc ud uc (expected := expected)
  refine ⟨computeDiff found expected, w', ?_, diffLeft_computeDiff _ _, diffRight_computeDiff _ _⟩
  rw [h]
  have h64 : (2 : Nat) ^ 63 + 16 < 2 ^ 64 := by decide
  have hv : verdict p name expected d (strBytes found) = .err (.wrongSignature name (computeDiff found expected)) := by
    unfold verdict
    rw [hx.size, if_neg (by omega), if_neg (by omega), if_neg (by omega), fromUtf8_strBytes]
    simp [hne]
  rw [hv]; rfl

/-- A stored schema that is not valid UTF-8. -/
theorem C18_invalid_utf8 [DiffLib] (k : Kind) (p : Profile) (e : Endian) (w : k.backend.W) (o : k.backend.Obj)
    (name expected : String) (d x c : Bytes) (hn : k.noFault w) (hl : d.length < 2 ^ 63)
    (hd : k.stored w o name = some d) (hx : Holds d x) (hc : k.stored w o (name ++ ".schema") = some c)
    (mc : k.mappable c) (ud : k.unread w o name) (uc : k.unread w o (name ++ ".schema"))
    (hbad : ∀ t : String, c ≠ strBytes t) :
    ∃ w', Storage.read k.backend p e o name expected w = (.err .utf8, w') := by
  rw [Kind.stored_eq] at hd hc
  rw [Kind.noFault_iff] at hn
  rw [Kind.mappable_iff] at mc
  rw [Kind.unread_iff] at ud uc
  have hlen := hx.length
  have md : k.laws.readable d := k.laws.readable_of_ne d (by intro h; rw [h] at hlen; simp at hlen)
  obtain ⟨sd, w', h, h1, h2⟩ := read_new p e (k.loc_schema_ne o name) hn hd hc md mc ud uc (expected := expected)
  refine ⟨w', ?_⟩
  rw [h]
  have h64 : (2 : Nat) ^ 63 + 16 < 2 ^ 64 := by decide
  have hv : verdict p name expected d c = .err .utf8 := by
    unfold verdict
    rw [hx.size, if_neg (by omega), if_neg (by omega), if_neg (by omega)]
    cases hf : fromUtf8 c with
    | none => rfl
    | some t => exact absurd (strBytes_of_fromUtf8 hf).symm (hbad t)
  rw [hv]; rfl

/-- A missing resource, or a missing schema, is an I/O error that names the resource. -/
theorem C18_missing [DiffLib] (k : Kind) (p : Profile) (e : Endian) (w : k.backend.W) (o : k.backend.Obj)
    (name expected : String) (ud : k.unread w o name) (uc : k.unread w o (name ++ ".schema"))
    (hm : k.stored w o name = none ∨ k.stored w o (name ++ ".schema") = none) :
    ∃ err w', Storage.read k.backend p e o name expected w = (.err (.io err name), w') := by
  rw [Kind.stored_eq, Kind.stored_eq] at hm
  rw [Kind.unread_iff] at ud uc
  have merr : ∀ {n : String} {w w' : k.backend.W} {x}, k.backend.readResource o n w = (.err x, w') →
      (k.backend.readResource o n).mapErr (RErr.io · name) w = (.err (.io x name), w') := by
    intro n w w' s h; unfold Act.mapErr; rw [h]
  unfold Storage.read
  rcases k.laws.read_total o name w with ⟨s, w1, h⟩ | ⟨x, w1, h⟩
  · rcases hm with hm | hm
    · obtain ⟨x, w2, h'⟩ := k.laws.read_none hm ud
      rw [h] at h'; cases h'
    · have kk := k.laws.read_keeps h
      obtain ⟨x, w2, h'⟩ := k.laws.read_none ((kk.1 _).trans hm) ((kk.2.2.1 _ _ (k.loc_schema_ne o name)).trans uc)
      change k.backend.readResource o (Storage.schemaName name) w1 = _ at h'
      rw [Act.bind_ok (FileSt.mapErr_ok h), Act.bind_err (merr h')]
      exact ⟨_, _, rfl⟩
  · rw [Act.bind_err (merr h)]; exact ⟨_, _, rfl⟩

example [DiffLib] : ∃ diff w', Storage.read file .debug .little objD "x" "t" disk1 = (.err (.wrongSignature "x" diff), w') ∧
    diffLeft diff = DiffLib.linesOf "s" ∧ diffRight diff = DiffLib.linesOf "t" :=
  C18_wrong_signature_partial .disk .debug .little disk1 objD "x" "t" "s" (image [7#8]) [7#8] (disk0_noFault _) (by decide)
    (by decide) (holds_image _ (by decide)) (by decide) (by change strBytes "s" ≠ []; decide) rfl rfl (by decide)

example : diffLeft "-a\n b\n+c" = ["a", "b"] ∧ diffRight "-a\n b\n+c" = ["b", "c"] := by decide

example [DiffLib] : ∃ w', Storage.read file .debug .little objD "x" "t"
    (disk0 [([['d'], ['x']], image [7#8]), ([['d'], "x.schema".toList], [255#8])]) = (.err .utf8, w') :=
  C18_invalid_utf8 .disk .debug .little _ objD "x" "t" (image [7#8]) [7#8] [255#8] (disk0_noFault _) (by decide)
    (by decide) (holds_image _ (by decide)) (by decide) (by change [255#8] ≠ []; decide) rfl rfl
    (fun t h => by
      have h1 := fromUtf8_strBytes t
      rw [← h] at h1
      have h2 : fromUtf8 [255#8] = none := by decide
      rw [h2] at h1; cases h1)

example [DiffLib] : ∃ err w', Storage.read mem .debug .little obj "x" "t" mem0 = (.err (.io err "x"), w') :=
  C18_missing .memory .debug .little mem0 obj "x" "t" rfl rfl (.inl rfl)

/-! ## C19: crash safety of `write` -/

/-- A new process (with any faults) on the disk left behind by another one. -/
structure NewProcess (old new : FileW) : Prop where
  files : new.fs.files = old.fs.files
  initial : Kind.initial .disk new

/-- If a beginning of the bytes of a resource is itself complete, it is all of them. -/
theorem prefix_holds {data c x : Bytes} (hd : data.length < 2 ^ 63) (hc : c <+: image data) (hx : Holds c x) :
    c = image data ∧ x = data := by
  obtain ⟨t, ht⟩ := hc
  have h8 : c.take 8 = le64 data.length := by
    have h1 : (image data).take 8 = le64 data.length := by
      unfold image
      rw [List.append_assoc, List.take_append_of_le_length (by simp [length_le64]), List.take_of_length_le (by simp [length_le64])]
    rw [← h1, ← ht, List.take_append_of_le_length (by have := hx.length; omega)]
  have h64 : (2 : Nat) ^ 63 < 2 ^ 64 := by decide
  have hl : x.length = data.length := by
    rw [← hx.size, h8, leNat_le64 (by omega)]
  have hi := (holds_image data (by omega)).length
  have ht0 : t = [] := by
    have := congrArg List.length ht
    rw [List.length_append, hi, hx.length, hl] at this
    exact List.length_eq_zero_iff.mp (by omega)
  subst ht0
  rw [List.append_nil] at ht
  subst ht
  exact ⟨rfl, Holds.unique hx (holds_image data (by omega))⟩

/-- C19: however `write` ended (completed, failed or died at any system call, after writing any part of the bytes of
that call), a new process that reads the resource successfully gets the complete new data, unless nothing was changed. -/
theorem C19_write_crash_safe [DiffLib] (p p' : Profile) (e e' : Endian) (w w1 w2 w3 : FileW) (o o' : Obj)
    (name schema : String) (data : Bytes) (r : Res IoErr Unit) (s : Slice Key) (hd : data.length < 2 ^ 63)
    (hw : Storage.write file p e o name schema data w = (r, w1)) (hnew : NewProcess w1 w2) (ho : o'.path = o.path)
    (hr : Storage.read file p' e' o' name schema w2 = (.ok s, w3)) :
    file.deref w3 s = .ok data ∨
    ((Kind.stored .disk w1 o name = Kind.stored .disk w o name ∧
      Kind.stored .disk w1 o (name ++ ".schema") = Kind.stored .disk w o (name ++ ".schema")) ∧
      ∃ d x, Kind.stored .disk w o name = some d ∧ Holds d x ∧ file.deref w3 s = .ok x) := by
  have hl : ∀ n, fileLaws.loc o' n = fileLaws.loc o n := by
    intro n; change key (join o'.path n) = key (join o.path n); rw [ho]
  have hm : ∀ l, fileLaws.medium w2 l = fileLaws.medium w1 l := fun l => congrFun hnew.files l
  have hcache : ∀ n, fileLaws.cache w2 o' n = none := by
    intro n; change Option.map _ (w2.maps _ _) = none; rw [hnew.initial.1]; rfl
  obtain ⟨d, x, h1, h2, hx, h3⟩ := read_ok_inv (L := fileLaws) (Kind.loc_schema_ne .disk o' name) (hcache _) (hcache _) hr
  rw [hl, hm] at h1 h2
  obtain ⟨r', w', h', hout, _⟩ := write_spec (L := fileLaws) p e o name schema w (Nat.lt_trans hd (by decide))
    (Kind.loc_schema_ne .disk o name) trivial trivial
  rw [hw] at h'
  cases h'
  cases hout with
  | ok hd' hs =>
    rw [hd'] at h1; cases h1
    exact .inl (by rw [h3, Holds.unique hx (holds_image data (Nat.lt_trans hd (by decide)))])
  | untouched x' hd' hs => exact .inr ⟨⟨hd', hs⟩, d, x, hd'.symm.trans h1, hx, h3⟩
  | part x' c hc hd' hs hs' =>
    rw [hd'] at h1; cases h1
    exact .inl (by rw [h3, (prefix_holds hd hc hx).2])

/-- A write that dies in the middle of the data, over an old resource of the same schema: reading then fails. -/
example : (@Storage.read file .debug .little naiveDiff objD "x" "s"
    { (Storage.write file .debug .little objD "x" "s" [1#8, 2#8, 3#8]
        (disk0 [([['d'], ['x']], image [7#8]), ([['d'], "x.schema".toList], strBytes "s")]
          (fun t => if t = 3 then some 2 else none))).2 with maps := fun _ _ => none }).1 =
    .err (.unexpectedDataSize) := by decide

/-- The hypotheses are met by a write that dies after the data, while truncating the schema file. -/
example [DiffLib] : ∃ r w1 w2, Storage.write file .debug .little objD "x" "s" [1#8, 2#8, 3#8]
        (disk0 [([['d'], ['x']], image [7#8]), ([['d'], "x.schema".toList], strBytes "s")]
          (fun t => if t = 6 then some 0 else none)) = (r, w1) ∧ r ≠ .ok () ∧ NewProcess w1 w2 ∧
    ∃ s w3, Storage.read file .debug .little objD "x" "s" w2 = (.ok s, w3) ∧ file.deref w3 s = .ok [1#8, 2#8, 3#8] := by
  let w1 := (Storage.write file .debug .little objD "x" "s" [1#8, 2#8, 3#8]
        (disk0 [([['d'], ['x']], image [7#8]), ([['d'], "x.schema".toList], strBytes "s")]
          (fun t => if t = 6 then some 0 else none))).2
  let w2 : FileW := ⟨⟨w1.fs.files, w1.fs.isDir, fun _ => ([], 0), 0, fun _ => none, 0⟩, fun _ _ => none, 1⟩
  refine ⟨_, w1, w2, run_eq rfl, by decide, ⟨rfl, fun _ _ => rfl, rfl⟩, ?_⟩
  exact read_stored (k := .disk) .debug .little (by decide) (fun _ _ => rfl) (by change strBytes "s" ≠ []; decide)
    (by decide) (by decide) rfl rfl

/-! ## C30: creating archives -/

/-- Creating an archive (with signature `sig`) where one exists fails and changes nothing that is stored. -/
theorem C30_already_exists_partial (k : Kind) (p : Profile) (e : Endian) (w : k.backend.W) (o : k.backend.Obj) (sig schema : String)
    (hn : k.noFault w) (hs : k.stored w o sig ≠ none) :
    ∃ w', Storage.createArchive k.backend p e o sig schema w = (.err (.io .alreadyExists sig), w') ∧
      (∀ o' n, k.stored w' o' n = k.stored w o' n) ∧ (∀ o' n, k.unread w' o' n ↔ k.unread w o' n) := by
  have key : ∃ w', k.backend.existsRes o sig w = (.ok true, w') ∧
      (∀ o' n, k.stored w' o' n = k.stored w o' n) ∧ (∀ o' n, k.unread w' o' n ↔ k.unread w o' n) := by
    cases k with
    | memory =>
      refine ⟨w, ?_, fun _ _ => rfl, fun _ _ => Iff.rfl⟩
      change MemSt.existsRes o sig w = _
      unfold MemSt.existsRes
      cases hst : (w : MemW).streams (MemSt.loc o sig) with
      | none => exact absurd (by change Option.map _ ((w : MemW).streams (MemSt.loc o sig)) = none; rw [hst]; rfl) hs
      | some x => simp
    | disk =>
      obtain ⟨b, w1, h1, q1, _, c1, _⟩ := FileSt.pathExists_spec (join (o : Obj).path sig) w
      have hb : b = true := by
        rw [c1 hn]
        cases hf : (w : FileW).fs.files (Flatdata.key (join (o : Obj).path sig)) with
        | none => exact absurd hf hs
        | some d => rfl
      subst hb
      refine ⟨w1, h1, fun o' n => ?_, fun o' n => ?_⟩
      · change (w1.fs.files _) = _; rw [q1.files]; rfl
      · change (w1.maps _ _ = none) ↔ _; rw [q1.maps]; rfl
  obtain ⟨w', h1, h2, h3⟩ := key
  refine ⟨w', ?_, h2, h3⟩
  unfold Storage.createArchive
  rw [Act.bind_ok (FileSt.mapErr_ok h1)]
  rfl

/-- Non-vacuity: an existing file, whatever its content. -/
example : ∃ w', Storage.createArchive file .debug .little objD "x" "t" disk1 = (.err (.io .alreadyExists "x"), w') := by
  obtain ⟨w', h, _⟩ := C30_already_exists_partial .disk .debug .little disk1 objD "x" "t" (disk0_noFault _) (by decide)
  exact ⟨w', h⟩

/-- What a successful creation leaves behind: an empty resource with the archive schema, and nothing else changed. -/
theorem C30_created (k : Kind) (p : Profile) (e : Endian) (w w1 : k.backend.W) (o : k.backend.Obj) (sig schema : String)
    (h1 : k.stored w o sig = none) (h2 : k.stored w o (sig ++ ".schema") = none)
    (h : Storage.createArchive k.backend p e o sig schema w = (.ok (), w1)) :
    k.stored w1 o sig = some (image []) ∧ k.stored w1 o (sig ++ ".schema") = some (strBytes schema) ∧
    ∀ o' n, k.place o' n ≠ k.place o sig → k.place o' n ≠ k.place o (sig ++ ".schema") →
      k.stored w1 o' n = k.stored w o' n := by
  unfold Storage.createArchive at h
  obtain ⟨x, w0, hx, h⟩ := Act.bind_eq_ok h
  have hst : ∀ o' n, k.stored w0 o' n = k.stored w o' n := by
    have hx' : ∃ r, k.backend.existsRes o sig w = (r, w0) := by
      unfold Act.mapErr at hx; split at hx <;> cases hx; exact ⟨_, by assumption⟩
    obtain ⟨r, hx'⟩ := hx'
    cases k with
    | memory => cases hx'; exact fun _ _ => rfl
    | disk =>
      obtain ⟨b, w1, h1, q1, _, c1, _⟩ := FileSt.pathExists_spec (join (o : Obj).path sig) w
      rw [show file.existsRes o sig w = FileSt.pathExists (join (o : Obj).path sig) w from rfl, h1] at hx'
      cases hx'
      intro o' n
      change w0.fs.files _ = _
      rw [q1.files]; rfl
  split at h
  · cases h
  · have hw : Storage.write k.backend p e o sig schema [] w0 = (.ok (), w1) := by
      unfold Act.mapErr at h; split at h <;> cases h; assumption
    obtain ⟨s1, s2, ho⟩ := write_stored (by decide) (by rw [hst, h1]; exact k.laws.fresh_none)
      (by rw [hst, h2]; exact k.laws.fresh_none) hw
    refine ⟨s1, s2, fun o' n n1 n2 => ?_⟩
    rw [← hst, Kind.stored_eq, Kind.stored_eq]
    refine (ho.keeps _ ?_).medium
    rintro (hl | hl)
    · exact n1 (by cases k <;> exact hl)
    · exact n2 (by cases k <;> exact hl)

/-- Non-vacuity: beside another resource. -/
example : ∃ w1, Storage.createArchive file .debug .little objD "G.archive" "t" disk1 = (.ok (), w1) ∧
    Kind.stored .disk w1 objD "G.archive" = some (image []) := by
  have h : Storage.createArchive file .debug .little objD "G.archive" "t" disk1 = (.ok (), _) := run_eq (by decide)
  exact ⟨_, h, (C30_created .disk .debug .little disk1 _ objD "G.archive" "t" (by decide) (by decide) h).1⟩

/-- A second builder on the same storage fails, whatever was done in between. -/
theorem C30_second_fails_partial (k : Kind) (p p' : Profile) (e e' : Endian) (w w1 w2 : k.backend.W) (o : k.backend.Obj)
    (sig schema schema' : String) (ho : k.alive w o) (hn : k.noFault w)
    (h1 : k.stored w o sig = none) (h2 : k.stored w o (sig ++ ".schema") = none)
    (h : Storage.createArchive k.backend p e o sig schema w = (.ok (), w1)) (hs : Kind.Steps k w1 w2) :
    ∃ w3, Storage.createArchive k.backend p' e' o sig schema' w2 = (.err (.io .alreadyExists sig), w3) ∧
      ∀ o' n, k.stored w3 o' n = k.stored w2 o' n := by
  have st := (Kind.pres_createArchive (k := k) (o := o) (w0 := w) (p := p) (e := e) (sig := sig) (schema := schema)) w ⟨.refl w, ho⟩
  rw [h] at st
  have hne : k.stored w1 o sig ≠ none := by
    rw [(C30_created k p e w w1 o sig schema h1 h2 h).1]; simp
  obtain ⟨w3, h3, h4, _⟩ := C30_already_exists_partial k p' e' w2 o sig schema' (hs.noFault (st.1.noFault hn)) (hs.stored st.2 hne)
  exact ⟨w3, h3, h4⟩

example : ∃ w1 w2, Storage.createArchive mem .debug .little obj "G.archive" "s" mem0 = (.ok (), w1) ∧
    Storage.createArchive mem .debug .little obj "G.archive" "s" w1 = (.err (.io .alreadyExists "G.archive"), w2) := by
  have h : Storage.createArchive mem .debug .little obj "G.archive" "s" mem0 = (.ok (), _) := run_eq (by decide)
  obtain ⟨w3, h3, _⟩ := C30_second_fails_partial .memory .debug .debug .little .little mem0 _ _ obj "G.archive" "s" "s"
    (by change 0 < 1; decide) trivial (by decide) (by decide) h (.refl _)
  exact ⟨_, w3, h, h3⟩

/-- C30 with failing system calls. -/
def C30_faulty_claim : Prop :=
  ∀ (p : Profile) (e : Endian) (w : FileW) (o : Obj) (sig schema : String) (r : Res RErr Unit) (w' : FileW),
    Kind.Reachable .disk w → Kind.stored .disk w o sig ≠ none →
    Storage.createArchive file p e o sig schema w = (r, w') → r ≠ .ok ()

/-- If the `stat` behind `Path::exists` fails, an existing archive is overwritten. -/
theorem C30_faulty_refuted : ¬ C30_faulty_claim := by
  intro h
  exact h .debug .little (disk0 [([['d'], ['x']], image [7#8])] (fun t => if t = 0 then some 0 else none)) objD "x" "t" _ _
    (disk0_reachable _ _) (by decide) (run_eq rfl) (by decide)

/-! ## C34: writing again -/

/-- C34 in full, for one storage: a resource written twice (with anything in between) has the content written last. -/
def C34_claim (k : Kind) : Prop :=
  ∀ (_ : DiffLib) (p : Profile) (e : Endian) (w w1 w2 w3 : k.backend.W) (o : k.backend.Obj) (name schema : String)
    (old data : Bytes), k.Reachable w → k.noFault w → k.alive w o → data.length < 2 ^ 63 → old.length < 2 ^ 63 →
    k.mappable (strBytes schema) → k.stored w o name = none → k.stored w o (name ++ ".schema") = none →
    Storage.write k.backend p e o name schema old w = (.ok (), w1) → Kind.Steps k w1 w2 →
    Storage.write k.backend p e o name schema data w2 = (.ok (), w3) →
    ∃ s w4, Storage.read k.backend p e o name schema w3 = (.ok s, w4) ∧ k.backend.deref w4 s = .ok data

/-- In memory the second write is appended to the first one: the resource becomes unreadable. -/
theorem C34_refuted_memory : ¬ C34_claim .memory := by
  intro h
  have h1 : Storage.write mem .debug .little obj "x" "s" [] mem0 = (.ok (), _) := run_eq (by decide)
  have h2 : Storage.write mem .debug .little obj "x" "s" [] (Storage.write mem .debug .little obj "x" "s" [] mem0).2 =
    (.ok (), _) := run_eq (by decide)
  obtain ⟨s, w4, h3, _⟩ := h naiveDiff .debug .little mem0 _ _ _ obj "x" "s" [] [] mem0_reachable trivial
    (by change 0 < 1; decide) (by decide) (by decide) trivial (by decide) (by decide) h1 (.refl _) h2
  have h4 := congrArg Prod.fst h3
  have h5 : (@Storage.read mem .debug .little naiveDiff obj "x" "s" (Storage.write mem .debug .little obj "x" "s" []
    (Storage.write mem .debug .little obj "x" "s" [] mem0).2).2).1 = .err .unexpectedDataSize := by decide
  exact absurd (h5.symm.trans h4) (by intro h; cases h)

/-- On disk a resource read before it is rewritten is seen with the length of the old mapping. -/
theorem C34_refuted_disk : ¬ C34_claim .disk := by
  intro h
  let w1 := (Storage.write file .debug .little objD "x" "s" [] (disk0 [])).2
  let w2 := (@Storage.read file .debug .little naiveDiff objD "x" "s" w1).2
  have h1 : Storage.write file .debug .little objD "x" "s" [] (disk0 []) = (.ok (), w1) := run_eq (by decide)
  have h2 : Storage.write file .debug .little objD "x" "s" [1#8] w2 = (.ok (), _) := run_eq (by decide)
  have hs : Kind.Steps .disk w1 w2 := (@Kind.pres_storageRead .disk objD w1 naiveDiff .debug .little "x" "s" w1
    ⟨Kind.Steps.refl (k := .disk) w1, show 0 < 1 by decide⟩).1
  obtain ⟨s, w4, h3, _⟩ := h naiveDiff .debug .little (disk0 []) _ _ _ objD "x" "s" [] [1#8] (disk0_reachable _ _)
    (disk0_noFault _) (by change 0 < 1; decide) (by decide) (by decide) (by change strBytes "s" ≠ []; decide) (by decide)
    (by decide) h1 hs h2
  have h4 := congrArg Prod.fst h3
  have h5 : (@Storage.read file .debug .little naiveDiff objD "x" "s"
    (Storage.write file .debug .little objD "x" "s" [1#8] w2).2).1 = .err .unexpectedDataSize := by decide
  exact absurd (h5.symm.trans h4) (by intro h; cases h)

/-- On disk: whatever was stored before, if this storage object has not read it, the content written last is read. -/
theorem C34_disk_unread_partial [DiffLib] (p : Profile) (e : Endian) (w w1 : FileW) (o : Obj) (name schema : String)
    (data : Bytes) (hn : Kind.noFault .disk w) (hd : data.length < 2 ^ 63) (hs : schema ≠ "")
    (u1 : Kind.unread .disk w o name) (u2 : Kind.unread .disk w o (name ++ ".schema"))
    (h : Storage.write file p e o name schema data w = (.ok (), w1)) :
    ∃ s w2, Storage.read file p e o name schema w1 = (.ok s, w2) ∧ file.deref w2 s = .ok data := by
  rw [Kind.unread_iff] at u1 u2
  obtain ⟨s1, s2, ho⟩ := write_stored (k := .disk) hd trivial trivial h
  refine read_stored (k := .disk) p e hd ?_ ?_ s1 s2 ?_ ?_
  · rw [Kind.noFault_iff] at hn ⊢; exact ho.noFault hn
  · intro hc; exact hs (strBytes_eq_nil.mp hc)
  · rw [Kind.unread_iff, ho.cache]; exact u1
  · rw [Kind.unread_iff, ho.cache]; exact u2

/-- On disk: a new process reads what was written last, whatever was stored and read before. -/
theorem C34_disk_new_process_partial [DiffLib] (p p' : Profile) (e e' : Endian) (w w1 w2 : FileW) (o o' : Obj)
    (name schema : String) (data : Bytes) (hd : data.length < 2 ^ 63) (hs : schema ≠ "")
    (h : Storage.write file p e o name schema data w = (.ok (), w1)) (hnew : NewProcess w1 w2)
    (hn : Kind.noFault .disk w2) (ho : o'.path = o.path) :
    ∃ s w3, Storage.read file p' e' o' name schema w2 = (.ok s, w3) ∧ file.deref w3 s = .ok data := by
  obtain ⟨s1, s2, _⟩ := write_stored (k := .disk) hd trivial trivial h
  have hst : ∀ n, Kind.stored .disk w2 o' n = Kind.stored .disk w1 o n := by
    intro n
    change w2.fs.files (key (join o'.path n)) = w1.fs.files (key (join o.path n))
    rw [hnew.files, ho]
  refine read_stored (k := .disk) p' e' hd hn ?_ ((hst _).trans s1) ((hst _).trans s2) (hnew.initial.1 _ _) (hnew.initial.1 _ _)
  intro hc; exact hs (strBytes_eq_nil.mp hc)

example [DiffLib] : ∃ w1 s w2, Storage.write file .debug .little objD "x" "t" [1#8, 2#8] disk1 = (.ok (), w1) ∧
    Storage.read file .debug .little objD "x" "t" w1 = (.ok s, w2) ∧ file.deref w2 s = .ok [1#8, 2#8] := by
  have h : Storage.write file .debug .little objD "x" "t" [1#8, 2#8] disk1 = (.ok (), _) := run_eq (by decide)
  obtain ⟨s, w2, h'⟩ := C34_disk_unread_partial .debug .little disk1 _ objD "x" "t" [1#8, 2#8] (disk0_noFault _) (by decide)
    (by decide) rfl rfl h
  exact ⟨_, s, w2, h, h'⟩

example : ∃ w1 w2, Storage.write file .debug .little objD "x" "t" [1#8, 2#8] disk1 = (.ok (), w1) ∧ NewProcess w1 w2 ∧
    Kind.noFault .disk w2 :=
  ⟨_, ⟨⟨_, fun _ => false, fun _ => ([], 0), 0, fun _ => none, 0⟩, fun _ _ => none, 1⟩, run_eq (by decide),
    ⟨rfl, fun _ _ => rfl, rfl⟩, fun _ _ => rfl⟩

/-! ## C35: stability of slices -/

/-- C35 in full, for one storage: the bytes behind a slice handed out by `read_resource` do not change. -/
def C35_claim (k : Kind) : Prop :=
  ∀ (w w1 w2 : k.backend.W) (o : k.backend.Obj) (n : String) (s : Slice k.backend.Base) (d : Bytes),
    k.Reachable w → k.alive w o → k.backend.readResource o n w = (.ok s, w1) → k.backend.deref w1 s = .ok d →
    Kind.Steps k w1 w2 → k.backend.deref w2 s = .ok d

/-- In memory, slices are stable, whatever calls follow. -/
theorem C35_memory : C35_claim .memory := by
  intro w w1 w2 o n s d hr ho h hd hs
  have hbase : (s : Slice MemLoc).base = MemSt.loc o n := by
    change MemSt.readResource o n w = (.ok s, w1) at h
    rcases MemSt.read_cases o n w with ⟨x, h1, h2⟩ | ⟨x, q, h1, h3, h2⟩ | ⟨_, _, h2⟩ <;> rw [h2] at h <;> cases h <;> rfl
  have hsome : ∃ x, (w1 : MemW).resources (MemSt.loc o n) = some x := by
    have := (memLaws.read_ok h).1
    change Option.map _ ((w1 : MemW).resources (MemSt.loc o n)) = some s at this
    rw [Option.map_eq_some_iff] at this
    obtain ⟨x, hx, _⟩ := this; exact ⟨x, hx⟩
  obtain ⟨x, hx⟩ := hsome
  have ho1 : Kind.alive .memory w1 o := (Kind.Step.read (k := .memory) ho h).alive ho
  have hx2 : (w2 : MemW).resources (MemSt.loc o n) = some x := by
    clear hd
    induction hs with
    | refl => exact hx
    | step st s' ih => exact (s'.mem.2 (MemSt.loc o n) (st.alive ho1)).2 x ih
  rw [← hd]
  apply deref_keeps
  change ((w2 : MemW).resources s.base).getD [] = ((w1 : MemW).resources s.base).getD []
  rw [hbase, hx, hx2]

/-- On disk, creating a stream for the same resource pulls the bytes away from under the slice. -/
theorem C35_refuted_disk : ¬ C35_claim .disk := by
  intro h
  have h1 : FileSt.readResource objD "x" disk1 = (.ok _, _) := run_eq rfl
  have := h disk1 _ (FileSt.createOutputStream objD "x" (FileSt.readResource objD "x" disk1).2).2 objD "x" ⟨[['d'], ['x']], 0, 17⟩
    (image [7#8]) (disk0_reachable _ _) (by change 0 < 1; decide) h1 (by decide)
    (.step (.refl _) (.create (k := .disk) (o := objD) (n := "x") (by change 0 < 1; decide) rfl))
  exact absurd this (by decide)

/-- One call that writes nothing to the place of the resource: it concerns other places, or it only reads. -/
inductive NotWritten (o : Obj) (n : String) (w w' : FileW) : Prop
  | away (h : Kind.StepAway .disk (· = Kind.place .disk o n) w w')
  | read (o' n') (r) (h : file.readResource o' n' w = (r, w'))
  | subdir (o' d) (r) (h : file.subdir o' d w = (r, w'))

/-- Any number of them. -/
inductive NotWrittenMany (o : Obj) (n : String) : FileW → FileW → Prop
  | refl (w) : NotWrittenMany o n w w
  | step {a b c} (h : NotWrittenMany o n a b) (s : NotWritten o n b c) : NotWrittenMany o n a c

/-- On disk, a slice is stable as long as its file is not created again and no stream writes to it. -/
theorem C35_disk_partial (w w1 w2 : FileW) (o : Obj) (n : String) (s : Slice Key) (d : Bytes)
    (hr : Kind.Reachable .disk w) (h : file.readResource o n w = (.ok s, w1))
    (hd : file.deref w1 s = .ok d) (hs : NotWrittenMany o n w1 w2) : file.deref w2 s = .ok d := by
  have hbase : s.base = key (join o.path n) := by
    rcases (fileLaws.read_ok h).2 with hc | ⟨_, _, _, _, _, hb, _⟩
    · exact fileLaws.inv_bloc hr.inv hc
    · exact hb
  rw [← hd]
  apply deref_keeps
  change (w2.fs.files s.base).getD [] = (w1.fs.files s.base).getD []
  rw [hbase]
  congr 1
  clear hd
  induction hs with
  | refl => rfl
  | step st s' ih =>
    rw [← ih]
    cases s' with
    | away h => exact (h.keeps.1 o n rfl).medium
    | read o' n' r h => exact (fileLaws.read_keeps h).1 _
    | subdir o' d r h => cases h; rfl

example : ∃ s w1, file.readResource objD "x" disk1 = (.ok s, w1) ∧ file.deref w1 s = .ok (image [7#8]) ∧
    NotWrittenMany objD "x" w1 (file.createOutputStream objD "y" w1).2 := by
  refine ⟨⟨[['d'], ['x']], 0, 17⟩, _, run_eq (by decide), by decide,
    .step (.refl _) (.away (.create (k := .disk) (o := objD) (n := "y") ?_ ?_ rfl))⟩
  · change 0 < 1; decide
  · change key (join ['d'] "y") ≠ key (join ['d'] "x"); decide

/-! ## C37: independence of resources -/

/-- Calls that do not concern a resource (or its schema) change neither what is stored for it nor what a read of it returns:
the same bytes, or the same error (up to the kind of an I/O error). -/
theorem C37_other_calls [DiffLib] (k : Kind) (p : Profile) (e : Endian) (w w' : k.backend.W) (o : k.backend.Obj)
    (name schema : String) (hr : k.Reachable w) (hn : k.noFault w)
    (hs : Kind.StepsAway k (fun l => l = k.place o name ∨ l = k.place o (name ++ ".schema")) w w') :
    k.stored w' o name = k.stored w o name ∧ k.stored w' o (name ++ ".schema") = k.stored w o (name ++ ".schema") ∧
    SameRead k.backend name (Storage.read k.backend p e o name schema w) (Storage.read k.backend p e o name schema w') := by
  obtain ⟨hk, hn'⟩ := hs.keeps
  have k1 := hk o name (.inl rfl)
  have k2 := hk o (name ++ ".schema") (.inr rfl)
  refine ⟨?_, ?_, read_same p e (k.loc_schema_ne o name) hr.inv (hr.steps hs.steps).inv ?_ ?_ k1.same k2.same⟩
  · rw [Kind.stored_eq, Kind.stored_eq]; exact k1.medium
  · rw [Kind.stored_eq, Kind.stored_eq]; exact k2.medium
  · rw [← Kind.noFault_iff]; exact hn
  · rw [← Kind.noFault_iff]; exact hn' hn

/-- Different plain names are different places, in the same storage object. -/
theorem C37_places (k : Kind) (o : k.backend.Obj) (n m : String) (hn : PlainName n) (hm : PlainName m) (h : n ≠ m) :
    k.place o n ≠ k.place o m := by
  intro he
  exact k.loc_plain_ne o hn hm h (by cases k <;> exact he)

/-- The place of a resource is never the place of its own schema, for any name. -/
theorem C37_schema_place (k : Kind) (o : k.backend.Obj) (n : String) : k.place o (n ++ ".schema") ≠ k.place o n := by
  intro he
  exact k.loc_schema_ne o n (by cases k <;> exact he)

/-- The places of the resources `n` and `m` of one storage object, data and schema, have nothing in common. -/
theorem places_disjoint (k : Kind) (o : k.backend.Obj) {n m : String} (hn : PlainName n) (hm : PlainName m) (h : n ≠ m)
    (h1 : n ≠ m ++ ".schema") (h2 : m ≠ n ++ ".schema") :
    ¬ (k.place o m = k.place o n ∨ k.place o m = k.place o (n ++ ".schema")) ∧
    ¬ (k.place o (m ++ ".schema") = k.place o n ∨ k.place o (m ++ ".schema") = k.place o (n ++ ".schema")) := by
  have sx : Suffix ".schema".toList := by constructor <;> decide
  refine ⟨?_, ?_⟩ <;> rintro (he | he)
  · exact C37_places k o m n hm hn (Ne.symm h) he
  · exact C37_places k o m _ hm (hn.append sx) h2 he
  · exact C37_places k o _ n (hm.append sx) hn (Ne.symm h1) he
  · exact C37_places k o _ _ (hm.append sx) (hn.append sx) (fun hx => h ((String.append_left_inj _).mp hx).symm) he

/-- Writing the resource `m` as a whole (again or not, with or without success), or reading it, does not affect what is read
from the resource `n`. -/
theorem C37_write_other [DiffLib] (k : Kind) (p : Profile) (e : Endian) (w : k.backend.W) (o : k.backend.Obj)
    (n m schema schema' : String) (data : Bytes) (hr : k.Reachable w) (ha : k.alive w o) (hf : k.noFault w)
    (hn : PlainName n) (hm : PlainName m) (h : n ≠ m) (h1 : n ≠ m ++ ".schema") (h2 : m ≠ n ++ ".schema") :
    SameRead k.backend n (Storage.read k.backend p e o n schema w)
      (Storage.read k.backend p e o n schema (Storage.write k.backend p e o m schema' data w).2) ∧
    SameRead k.backend n (Storage.read k.backend p e o n schema w)
      (Storage.read k.backend p e o n schema (Storage.read k.backend p e o m schema' w).2) := by
  obtain ⟨d1, d2⟩ := places_disjoint k o hn hm h h1 h2
  refine ⟨?_, ?_⟩
  · exact (C37_other_calls k p e w _ o n schema hr hf (Kind.aside_storageWrite d1 d2 w ⟨.refl w, ha⟩).1).2.2
  · exact (C37_other_calls k p e w _ o n schema hr hf (Kind.aside_storageRead d1 d2 w ⟨.refl w, ha⟩).1).2.2

/-- Non-vacuity: reading `x` after writing `y`. -/
example [DiffLib] : SameRead file "x" (Storage.read file .debug .little objD "x" "s" disk1)
    (Storage.read file .debug .little objD "x" "s" (Storage.write file .debug .little objD "y" "t" [1#8] disk1).2) :=
  (C37_write_other .disk .debug .little disk1 objD "x" "y" "s" "t" [1#8] (disk0_reachable _ _) Nat.zero_lt_one (disk0_noFault _) (by decide)
    (by decide) (by decide) (by decide) (by decide)).1

/-- Writing a resource with a different plain name never changes what is read: this is too much, see `C37_refuted`. -/
def C37_claim : Prop :=
  ∀ (_ : DiffLib) (k : Kind) (p : Profile) (e : Endian) (w : k.backend.W) (o : k.backend.Obj) (n m schema schema' : String)
    (data : Bytes), k.Reachable w → k.alive w o → k.noFault w → PlainName n → PlainName m → n ≠ m →
    SameRead k.backend n (Storage.read k.backend p e o n schema w)
      (Storage.read k.backend p e o n schema (Storage.write k.backend p e o m schema' data w).2)

/-- A resource named like the schema of another one overwrites that schema. -/
theorem C37_refuted : ¬ C37_claim := by
  intro h
  have h1 := h naiveDiff .disk .debug .little disk1 objD "x" "x.schema" "s" "t" [] (disk0_reachable _ _) Nat.zero_lt_one
    (disk0_noFault _) (by decide) (by decide) (by decide)
  have h2 : Res.isOk (@Storage.read file .debug .little naiveDiff objD "x" "s" disk1).1 = true := by decide +kernel
  have h3 : Res.isOk (@Storage.read file .debug .little naiveDiff objD "x" "s"
    (Storage.write file .debug .little objD "x.schema" "t" [] disk1).2).1 = false := by decide +kernel
  generalize @Storage.read file .debug .little naiveDiff objD "x" "s" disk1 = r at h1 h2
  generalize @Storage.read file .debug .little naiveDiff objD "x" "s"
    (Storage.write file .debug .little objD "x.schema" "t" [] disk1).2 = r' at h1 h3
  cases h1 <;> simp_all [Res.isOk]

example : PlainName "vertices" ∧ PlainName "edges" ∧ ¬ PlainName "a/b" := by decide

example : ∃ w', Storage.write file .debug .little objD "y" "t" [1#8] disk1 = (.ok (), w') := ⟨_, run_eq (by decide)⟩

example : Kind.StepsAway .disk (fun l => l = Kind.place .disk objD "x" ∨ l = Kind.place .disk objD ("x" ++ ".schema")) disk1
    (file.createOutputStream objD "y" disk1).2 := by
  refine .step (.refl _) (.create (k := .disk) (o := objD) (n := "y") (by change 0 < 1; decide) ?_ rfl)
  rintro (h | h)
  · exact absurd h (C37_places .disk objD "y" "x" (by decide) (by decide) (by decide))
  · exact absurd h (C37_places .disk objD "y" ("x" ++ ".schema") (by decide) (by decide) (by decide))

end Flatdata
