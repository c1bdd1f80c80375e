import Verif.Props.Archives
import Verif.Proofs.Grows
/-!
# C16, C17, C31, C39 exactly: when reading back, reading, opening and struct getters succeed

The theorems named `_partial` for these properties give sufficient conditions; here the conditions are shown to be necessary
too.
-/
namespace Flatdata
open Spec StorageExample ArchiveExample

/-- A complete resource with the expected schema does not have a size field that overflows. -/
theorem Spec.Valid.not_huge {k : Kind} {dir : String → Option Bytes} {name schema : String} {x : Bytes}
    (h : Valid k dir name schema x) : ¬ Huge dir name := by
  rintro ⟨d, h1, _, h3⟩
  obtain ⟨d', e1, e2, e3⟩ := h.data
  rw [h1] at e1; cases e1
  have := e2.size
  have := e2.length
  omega

/-- C17 exactly: if no system call fails and the storage object sees what is stored, `read` succeeds if and only if a complete
resource with the expected schema is stored (in particular in debug builds too: what panics there is not complete). It then
shows the payload, and nothing stored changes in any case. -/
theorem C17_read_exact [DiffLib] (k : Kind) (p : Profile) (e : Endian) (w : k.backend.W) (o : k.backend.Obj)
    (name schema : String) (hr : k.Reachable w) (ho : k.alive w o) (hn : k.noFault w)
    (c1 : k.current w o name) (c2 : k.current w o (name ++ ".schema")) :
    ((∃ s w', Storage.read k.backend p e o name schema w = (.ok s, w')) ↔ ∃ x, Valid k (k.stored w o) name schema x) ∧
    ∀ s w', Storage.read k.backend p e o name schema w = (.ok s, w') →
      ∃ x, Valid k (k.stored w o) name schema x ∧ k.backend.deref w' s = .ok x := by
  obtain ⟨r, w', h, _, out⟩ := readArchived (p := p) (e := e) (N := (· = name))
    ⟨hr, ho, fun n hn => by subst hn; exact ⟨(k.current_iff _ _ _).mp c1, (k.current_iff _ _ _).mp c2⟩⟩ rfl schema
  constructor
  · constructor
    · rintro ⟨s, w2, h2⟩
      rw [h] at h2; cases h2
      obtain ⟨x, hx, _⟩ := out
      exact ⟨x, hx⟩
    · rintro ⟨x, hx⟩
      cases r with
      | ok s => exact ⟨s, w', h⟩
      | err y => exact absurd ⟨x, hx⟩ (out hn)
      | panic => exact absurd out.2 hx.not_huge
      | ub => exact out.elim
  · intro s w2 h2
    rw [h] at h2; cases h2
    obtain ⟨x, hx, hs⟩ := out
    exact ⟨x, hx, hs.1⟩

/-- Non-vacuity, both ways: the resource of the disk of the examples can be read with its schema and with no other. -/
example : (∃ s w', @Storage.read file .debug .little naiveDiff objD "x" "s" disk1 = (.ok s, w')) ∧
    ¬ ∃ s w', @Storage.read file .debug .little naiveDiff objD "x" "t" disk1 = (.ok s, w') := by
  constructor
  · refine (@C17_read_exact naiveDiff .disk .debug .little disk1 objD "x" "s" (disk0_reachable _ _) Nat.zero_lt_one (disk0_noFault _)
      (fun x hx => by cases hx) (fun x hx => by cases hx)).1.mpr
      ⟨[7#8], ⟨image [7#8], by decide +kernel, holds_image _ (by decide), by decide⟩, by decide +kernel, ?_⟩
    change strBytes "s" ≠ []
    decide
  · rw [(@C17_read_exact naiveDiff .disk .debug .little disk1 objD "x" "t" (disk0_reachable _ _) Nat.zero_lt_one (disk0_noFault _)
      (fun x hx => by cases hx) (fun x hx => by cases hx)).1]
    rintro ⟨x, h⟩
    have h1 : Kind.stored .disk disk1 objD ("x" ++ ".schema") = some (strBytes "s") := by decide +kernel
    rw [h.text] at h1
    revert h1
    decide +kernel

/-- C16 exactly: after a successful write under a new name, reading back works if and only if the storage can read the schema
at all, that is, always in memory, and on disk if the schema is not empty. -/
theorem C16_exact [DiffLib] (k : Kind) (p : Profile) (e : Endian) (w w1 : k.backend.W) (o : k.backend.Obj)
    (name schema : String) (data : Bytes) (hr : k.Reachable w) (ho : k.alive w o) (hn : k.noFault w) (hd : data.length < 2 ^ 63)
    (h1 : k.stored w o name = none) (h2 : k.stored w o (name ++ ".schema") = none)
    (h : Storage.write k.backend p e o name schema data w = (.ok (), w1)) :
    (∃ s w2, Storage.read k.backend p e o name schema w1 = (.ok s, w2) ∧ k.backend.deref w2 s = .ok data) ↔
    k.mappable (strBytes schema) := by
  constructor
  · rintro ⟨s, w2, hx, _⟩
    have st : k.Steps w w1 := Kind.steps_of (fun _ => Kind.pres_storageWrite) ho h
    obtain ⟨_, _, hon⟩ := write_stored hd (by rw [h1]; exact k.laws.fresh_none) (by rw [h2]; exact k.laws.fresh_none) h
    have cur : ∀ n, k.stored w o n = none → k.current w1 o n := by
      intro n hn
      have hu := hr.unread hn
      rw [Kind.unread_iff] at hu
      rw [Kind.current_iff]
      intro s hs
      rw [hon.cache, hu] at hs
      cases hs
    have hn1 : k.noFault w1 := by rw [Kind.noFault_iff] at hn ⊢; exact hon.noFault hn
    obtain ⟨x, hv⟩ := ((C17_read_exact k p e w1 o name schema (hr.steps st) (st.alive ho) hn1 (cur _ h1) (cur _ h2)).1).mp
      ⟨s, w2, hx⟩
    exact hv.mappable
  · intro hm
    exact C16_write_read_partial k p e w w1 o name schema data hr hn hd h1 h2 hm h

/-- Non-vacuity: the empty schema and the schema `s` on disk. -/
example [DiffLib] : ∃ w1 w1', Storage.write file .debug .little objD "x" "" [7#8] (disk0 []) = (.ok (), w1) ∧
    Storage.write file .debug .little objD "x" "s" [7#8] (disk0 []) = (.ok (), w1') ∧
    (¬ ∃ s w2, Storage.read file .debug .little objD "x" "" w1 = (.ok s, w2) ∧ file.deref w2 s = .ok [7#8]) ∧
    ∃ s w2, Storage.read file .debug .little objD "x" "s" w1' = (.ok s, w2) ∧ file.deref w2 s = .ok [7#8] := by
  have hw : Storage.write file .debug .little objD "x" "" [7#8] (disk0 []) = (.ok (), _) := run_eq (by decide)
  have hw' : Storage.write file .debug .little objD "x" "s" [7#8] (disk0 []) = (.ok (), _) := run_eq (by decide)
  refine ⟨_, _, hw, hw', fun hx => ?_, ?_⟩
  · exact ((C16_exact .disk .debug .little (disk0 []) _ objD "x" "" [7#8] (disk0_reachable _ _) Nat.zero_lt_one
      (disk0_noFault _) (by decide) (by decide) (by decide) hw).mp hx) rfl
  · exact (C16_exact .disk .debug .little (disk0 []) _ objD "x" "s" [7#8] (disk0_reachable _ _) Nat.zero_lt_one
      (disk0_noFault _) (by decide) (by decide) (by decide) hw').mpr (by change strBytes "s" ≠ []; decide)

/-- C31 exactly, release builds: `open` succeeds if and only if the archive is complete. -/
theorem C31_open_exact [DiffLib] (k : Kind) (e : Endian) (D : ArchiveDef) (w : k.backend.W) (o : k.backend.Obj)
    (hr : k.Reachable w) (ho : k.alive w o) (hn : k.noFault w) (hc : k.Current w o D) :
    (∃ a w', openArchive k.backend .release e o D w = (.ok a, w')) ↔ Complete k D (k.dir w o) := by
  obtain ⟨r, w', h, _, out⟩ := C31_open_partial k .release e D w o hr ho hn hc (.inl rfl)
  rw [h]
  rcases out with ⟨a, rfl, hx, _⟩ | ⟨x, rfl, hx⟩
  · exact ⟨fun _ => hx, fun _ => ⟨a, w', rfl⟩⟩
  · exact ⟨fun ⟨a, w'', h⟩ => (by cases h), fun h => absurd h hx⟩

/-- Non-vacuity, both ways: a directory with an archive, and one that lacks its resource. -/
example : (∃ a w', @openArchive file naiveDiff .release .little objD One (oneDisk []) = (.ok a, w')) ∧
    ¬ ∃ a w', @openArchive file naiveDiff .release .little objD One (disk0 []) = (.ok a, w') := by
  constructor
  · obtain ⟨a, w', x, h1, _⟩ := firstBytes_some (x := @openArchive file naiveDiff .release .little objD One (oneDisk [])) (b := [])
      (by decide +kernel)
    exact ⟨a, w', h1⟩
  · rw [@C31_open_exact naiveDiff .disk .little One (disk0 []) objD (disk0_reachable _ _) Nat.zero_lt_one (disk0_noFault _)
      (fun n _ => ⟨fun x hx => (by cases hx), fun x hx => (by cases hx)⟩)]
    intro h
    unfold ArchiveExample.One Complete at h
    obtain ⟨x, hx⟩ := h.1
    obtain ⟨d, hd, _⟩ := hx.data
    cases hd

/-- Reading a field that lies partly beyond the memory is undefined behaviour. -/
theorem readInt_short {p : Profile} {e : Endian} {T : IntTy} {d : Bytes} {o n : Nat} (hn : 1 ≤ n) (hn' : n ≤ 64)
    (hs : NoStraddle o n) (h : 8 * d.length < o + n) : readInt p e T d o n = .ub := by
  unfold readInt
  dsimp only
  by_cases h1 : n = 1
  · rw [if_pos h1, List.getElem?_eq_none (by omega)]
  · rw [if_neg h1]
    by_cases hw : n + o % 8 ≤ 64
    · obtain ⟨h2, h3, h4⟩ := numBytes_small hw
      rw [if_pos (by omega)]
    · have hnb : numBytes o n = 8 := numBytes_wide (by omega) hn'
      have o8 : o / 8 = 0 := by unfold NoStraddle at hs; omega
      have om : o % 8 = o := by omega
      rw [hnb, o8, om]
      split
      · rfl
      · rw [if_pos (by omega), List.getElem?_eq_none (by omega)]

/-- C39 exactly: a getter (of a field that does not straddle and is not an enum) works on the memory it is given if and only
if the field lies inside that memory. -/
theorem C39_getter_exact (p : Profile) (e : Endian) (size : Nat) (f : Field) (ok : FieldOK size f) (hs : NoStraddle f.off f.bits)
    (hv : f.variants = none) (b : Bytes) : (∃ v, f.get p e b = .ok v) ↔ f.off + f.bits ≤ 8 * b.length := by
  constructor
  · rintro ⟨v, h⟩
    refine Decidable.byContradiction fun hc => ?_
    have hb := f.ty.bits_cases
    have hle := ok.le
    have h64 : f.bits ≤ 64 := by omega
    have key : readBytes p e f.ty b f.off f.bits = .ub := by
      unfold readBytes
      split
      · rw [readInt_short ok.pos h64 hs (by omega)]; rfl
      · exact readInt_short ok.pos h64 hs (by omega)
    unfold Field.get at h
    rw [key] at h
    cases h
  · intro h
    refine ⟨codeDecode f.ty f.bits (fieldRaw b f.off f.bits), ?_⟩
    rw [get_eq ok.pos ok.le h hs]
    simp [Field.transmute, hv]

/-- Non-vacuity, both ways: a field of the second half of `Meta` in a resource of 7 and of 8 bytes. -/
example : (¬ ∃ v, (Field.plain "author_ref" .u32 32 32).get .debug .little (List.replicate 7 1#8) = .ok v) ∧
    ∃ v, (Field.plain "author_ref" .u32 32 32).get .debug .little (List.replicate 8 1#8) = .ok v :=
  have h := C39_getter_exact .debug .little 8 (.plain "author_ref" .u32 32 32) (fieldOK_of_plainOK (by decide)) (by decide) rfl
  ⟨fun g => absurd ((h _).mp g) (by decide), (h _).mpr (by decide)⟩

/-- Hence all getters of a struct work on a resource if and only if the resource reaches to the end of the last field. -/
theorem C39_struct_exact (p : Profile) (e : Endian) (S : StructDef) (wf : WF S) (b : Bytes)
    (hs : ∀ f ∈ S.fields, f.variants = none ∧ NoStraddle f.off f.bits) :
    (∀ f ∈ S.fields, ∃ v, f.get p e b = .ok v) ↔ ∀ f ∈ S.fields, f.off + f.bits ≤ 8 * b.length := by
  constructor
  · intro h f hf
    exact (C39_getter_exact p e S.size f (wf.field f hf) (hs f hf).2 (hs f hf).1 b).mp (h f hf)
  · intro h f hf
    exact (C39_getter_exact p e S.size f (wf.field f hf) (hs f hf).2 (hs f hf).1 b).mpr (h f hf)

/-- Non-vacuity: the struct `Meta` on memory of 7 and of 8 bytes. -/
example : ¬ (∀ f ∈ Coappearances.Meta.fields, ∃ v, f.get .debug .little (List.replicate 7 1#8) = .ok v) ∧
    ∀ f ∈ Coappearances.Meta.fields, ∃ v, f.get .debug .little (List.replicate 8 1#8) = .ok v := by
  constructor
  · rw [C39_struct_exact .debug .little Coappearances.Meta (wf_of_plain (by decide) (by decide)) _ (by decide)]; decide
  · rw [C39_struct_exact .debug .little Coappearances.Meta (wf_of_plain (by decide) (by decide)) _ (by decide)]; decide

end Flatdata
