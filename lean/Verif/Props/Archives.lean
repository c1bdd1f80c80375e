import Verif.Proofs.ArchiveOpen
import Verif.Props.Storage
import Verif.Proofs.Struct
import Verif.Model.Coappearances
/-!
# Properties C31, C39: opening archives

`Complete` (Spec/Archive) says when a stored archive is complete, `ArchiveShows` what an opened archive must show.
-/
namespace Flatdata
open Spec StorageExample

/-! ## C31: `open` accepts exactly the complete archives -/

/-- What `open` is supposed to do: succeed exactly for a complete archive, then show what is stored (absent optional resources
being `None`), and not change anything stored. -/
def OpensAsStored [DiffLib] (k : Kind) (p : Profile) (e : Endian) (D : ArchiveDef) (w : k.backend.W) (o : k.backend.Obj) : Prop :=
  ∃ r w', openArchive k.backend p e o D w = (r, w') ∧ (∀ o' n, k.stored w' o' n = k.stored w o' n) ∧
    ((∃ a, r = .ok a ∧ Complete k D (k.dir w o) ∧ ArchiveShows k True (fun s x => k.backend.deref w' s = .ok x) D (k.dir w o) a) ∨
     (∃ x, r = .err x ∧ ¬ Complete k D (k.dir w o)))

/-- C31 in full, for every archive definition and every state of the storage in which no I/O error occurs and the storage
object sees what is stored. -/
def C31_claim : Prop :=
  ∀ (_ : DiffLib) (k : Kind) (p : Profile) (e : Endian) (D : ArchiveDef) (w : k.backend.W) (o : k.backend.Obj),
    k.Reachable w → k.alive w o → k.noFault w → k.Current w o D → OpensAsStored k p e D w o

/-- What `open` does, in every build and whatever system calls fail: if it succeeds, the archive is complete and everything
shown is what is stored (but optional resources may be missing because of I/O errors); it fails only if the archive is
incomplete or there was an I/O error; it panics only in a debug build because of a corrupted size field; it never changes
what is stored. -/
theorem C31_open [DiffLib] (k : Kind) (p : Profile) (e : Endian) (D : ArchiveDef) (w : k.backend.W) (o : k.backend.Obj)
    (hr : k.Reachable w) (ho : k.alive w o) (hc : k.Current w o D) :
    ∃ r w', openArchive k.backend p e o D w = (r, w') ∧ (∀ o' n, k.stored w' o' n = k.stored w o' n) ∧
    ((∃ a, r = .ok a ∧ Complete k D (k.dir w o) ∧
        ArchiveShows k (k.noFault w) (fun s x => k.backend.deref w' s = .ok x) D (k.dir w o) a) ∨
     (∃ x, r = .err x ∧ (k.noFault w → ¬ Complete k D (k.dir w o))) ∨
     (r = .panic ∧ p = .debug ∧ SomeHuge D (k.dir w o))) := by
  obtain ⟨r, w', h, g, out⟩ := openArchive_spec (p := p) (e := e) D (o := o) (w := w)
    ⟨hr, ho, fun n hn => ⟨(k.current_iff _ _ _).mp (hc n hn).1, (k.current_iff _ _ _).mp (hc n hn).2⟩⟩
  refine ⟨r, w', h, fun o' n => by rw [g.ro.stored], ?_⟩
  cases r with
  | ok a => exact .inl ⟨a, rfl, out.complete, ArchiveShows.mono id (fun s x hs => hs.1) out⟩
  | err x => exact .inr (.inl ⟨x, rfl, out⟩)
  | panic => exact .inr (.inr ⟨rfl, out⟩)
  | ub => exact out.elim

/-- C31 except for the panic of debug builds on a corrupted size field (finding 7): in release builds always, in debug builds
if no size field of the archive is 2^64-16 or more. -/
theorem C31_open_partial [DiffLib] (k : Kind) (p : Profile) (e : Endian) (D : ArchiveDef) (w : k.backend.W) (o : k.backend.Obj)
    (hr : k.Reachable w) (ho : k.alive w o) (hn : k.noFault w) (hc : k.Current w o D)
    (hp : p = .release ∨ ¬ SomeHuge D (k.dir w o)) : OpensAsStored k p e D w o := by
  obtain ⟨r, w', h, hs, out⟩ := C31_open k p e D w o hr ho hc
  refine ⟨r, w', h, hs, ?_⟩
  rcases out with ⟨a, rfl, h1, h2⟩ | ⟨x, rfl, h1⟩ | ⟨_, h1, h2⟩
  · exact .inl ⟨a, rfl, h1, ArchiveShows.mono (fun _ => hn) (fun _ _ h => h) h2⟩
  · exact .inr ⟨x, rfl, h1 hn⟩
  · rcases hp with hp | hp
    · rw [hp] at h1; cases h1
    · exact absurd h2 hp

namespace ArchiveExample

/-- An archive with a required raw resource and an optional one. -/
def Small : ArchiveDef := .mk "A" "sa" [⟨"x", "sx", false, .raw⟩, ⟨"y", "sy", true, .raw⟩] .nil

/-- A disk with this archive, `y` having the given content. -/
def smallDisk (y : Bytes) : FileW := disk0 [([['d'], "A.archive".toList], image []), ([['d'], "A.archive.schema".toList], strBytes "sa"),
  ([['d'], ['x']], image [7#8]), ([['d'], "x.schema".toList], strBytes "sx"), ([['d'], ['y']], y),
  ([['d'], "y.schema".toList], strBytes "sy")]

theorem small_complete (y : Bytes) : Complete .disk Small (Kind.dir .disk (smallDisk y) objD) := by
  unfold Small Complete
  refine ⟨⟨[], ⟨⟨image [], ?_, holds_image _ (by decide), by decide⟩, ?_, ?_⟩⟩, ?_, by unfold SubsComplete; trivial⟩
  · rfl
  · rfl
  · change strBytes "sa" ≠ []; decide
  · intro r hr ho q hq
    simp only [List.mem_cons, List.not_mem_nil, or_false] at hr
    rcases hr with rfl | rfl
    · obtain rfl : q = ("x", "sx") := by simpa [parts] using hq
      exact ⟨[7#8], ⟨⟨image [7#8], rfl, holds_image _ (by decide), by decide⟩, rfl, by change strBytes "sx" ≠ []; decide⟩⟩
    · cases ho

end ArchiveExample
open ArchiveExample

/-- A corrupted size field in an optional resource makes a debug build panic instead of ignoring the resource. -/
theorem C31_refuted : ¬ C31_claim := by
  intro h
  obtain ⟨r, w', h1, _, h2⟩ := h naiveDiff .disk .debug .little Small (smallDisk (List.replicate 16 255#8)) objD
    (disk0_reachable _ _) (by change 0 < 1; decide) (disk0_noFault _)
    (fun n _ => ⟨fun x hx => (by cases hx), fun x hx => (by cases hx)⟩)
  have h3 : (@openArchive file naiveDiff .debug .little objD Small (smallDisk (List.replicate 16 255#8))).1.isPanic = true := by decide +kernel
  have h4 : (@openArchive file naiveDiff .debug .little objD Small (smallDisk (List.replicate 16 255#8))).1 = r := congrArg Prod.fst h1
  rw [h4] at h3
  rcases h2 with ⟨a, rfl, _⟩ | ⟨x, rfl, _⟩ <;> cases h3

/-- Non-vacuity: the optional resource is an empty file, which the storage cannot read; it is `None`, the rest is shown. -/
example [DiffLib] : ∃ s w', openArchive file .release .little objD Small (smallDisk []) = (.ok (.mk [.one (some s), .one none] .nil), w') ∧
    file.deref w' s = .ok [7#8] := by
  obtain ⟨r, w', h, _, ⟨a, rfl, _, hs⟩ | ⟨_, _, hc⟩⟩ := C31_open_partial .disk .release .little Small (smallDisk []) objD
    (disk0_reachable _ _) (by change 0 < 1; decide) (disk0_noFault _)
    (fun n _ => ⟨fun x hx => (by cases hx), fun x hx => (by cases hx)⟩) (.inl rfl)
  · obtain ⟨xs, ss⟩ := a
    unfold Small ArchiveShows at hs
    obtain ⟨_, h1, h2⟩ := hs
    cases ss with
    | cons => unfold SubsShow at h2; exact h2.elim
    | nil =>
      match xs, h1 with
      | [.one (some s), .one none], h1 =>
        refine ⟨s, w', h, ?_⟩
        obtain ⟨x, hv, hx⟩ := h1.1
        obtain ⟨d, e1, e2, _⟩ := hv.data
        have : d = image [7#8] := by
          have e3 : Kind.dir .disk (smallDisk []) objD [] "x" = some (image [7#8]) := rfl
          rw [e3] at e1; cases e1; rfl
        rw [this] at e2
        have := Holds.unique e2 (holds_image [7#8] (by decide))
        rw [hx, this]
      | [.one _, .one (some s)], h1 =>
        exfalso
        obtain ⟨x, hv, hx⟩ := h1.2.1
        obtain ⟨d, e1, e2, _⟩ := hv.data
        have e3 : Kind.dir .disk (smallDisk []) objD [] "y" = some [] := rfl
        rw [e3] at e1; cases e1
        have := e2.length
        simp at this
      | [.one none, .one none], h1 => cases h1.1.1
  · exact absurd (small_complete []) hc

/-! ## C39: struct resources -/

/-- C39 in full: after a successful `open`, every getter of a struct resource reads inside the resource (as far as getters
stay inside their struct at all, C05, and leaving invalid enum values aside, C08). -/
def C39_claim : Prop :=
  ∀ (_ : DiffLib) (k : Kind) (p : Profile) (e : Endian) (D : ArchiveDef) (w w' : k.backend.W) (o : k.backend.Obj)
    (a : Archive k.backend.Base) (i : Nat) (r : ResDecl) (S : StructDef) (x : Opened k.backend.Base) (b : Bytes) (f : Field),
    k.Reachable w → k.alive w o → k.Current w o D → openArchive k.backend p e o D w = (.ok a, w') →
    D.resources[i]? = some r → r.type = .struct S → WF S → a.resources[i]? = some x → x.bytes k.backend w' = .ok (some b) →
    f ∈ S.fields → f.variants = none → NoStraddle f.off f.bits → ∃ v, f.get p e b = .ok v

namespace ArchiveExample

/-- An archive with one struct resource. -/
def One : ArchiveDef := .mk "A" "sa" [⟨"x", "sx", false, .struct Coappearances.Meta⟩] .nil

/-- A directory with such an archive, the resource holding `b`. -/
def oneDisk (b : Bytes) : FileW := disk0 [([['d'], "A.archive".toList], image []), ([['d'], "A.archive.schema".toList], strBytes "sa"),
  ([['d'], ['x']], image b), ([['d'], "x.schema".toList], strBytes "sx")]

/-- What the accessor of the first resource yields after `open`. -/
def firstBytes {E : Type} {B : Backend} (x : Res E (Archive B.Base) × B.W) : Option Bytes :=
  match x with
  | (.ok (.mk (o :: _) _), w) => match o.bytes B w with
    | .ok b => b
    | _ => none
  | _ => none

theorem firstBytes_some {E : Type} {B : Backend} {x : Res E (Archive B.Base) × B.W} {b : Bytes} (h : firstBytes x = some b) :
    ∃ a w' o, x = (.ok a, w') ∧ a.resources[0]? = some o ∧ o.bytes B w' = .ok (some b) := by
  obtain ⟨r, w'⟩ := x
  match r, h with
  | .ok (.mk (o :: os) ss), h =>
    refine ⟨_, _, o, rfl, rfl, ?_⟩
    unfold firstBytes at h
    dsimp only at h
    split at h
    · next hb => rw [hb, h]
    · cases h

end ArchiveExample

/-- `open` does not check the size of a struct resource: with an empty resource the getter reads beyond it. -/
theorem C39_refuted : ¬ C39_claim := by
  intro h
  obtain ⟨a, w', x, h1, h2, h3⟩ := firstBytes_some (x := @openArchive file naiveDiff .release .little objD One (oneDisk [])) (b := [])
    (by decide +kernel)
  obtain ⟨v, hv⟩ := h naiveDiff .disk .release .little One (oneDisk []) w' objD a 0 _ Coappearances.Meta x [] (.plain "title_ref" .u32 0 32)
    (disk0_reachable _ _) (by change 0 < 1; decide) (fun n _ => ⟨fun x hx => (by cases hx), fun x hx => (by cases hx)⟩) h1 rfl rfl
    (wf_of_plain (by decide) (by decide)) h2 h3 (by decide) rfl (by decide)
  revert hv
  have : (Field.plain "title_ref" .u32 0 32).get .release .little [] = .ub := by decide
  rw [this]
  intro hv; cases hv

theorem Spec.AllShow.get {k : Kind} {Base : Type} {clean : Prop} {shows : Slice Base → Bytes → Prop} {dir} :
    ∀ {rs : List ResDecl} {xs : List (Opened Base)} {i : Nat} {r : ResDecl}, AllShow k clean shows dir rs xs → rs[i]? = some r →
      ∃ x, xs[i]? = some x ∧ ResShows k clean shows dir r x
  | [], [], _, _, _, h => by simp at h
  | r :: rs, x :: xs, 0, _, h, hr => by cases hr; exact ⟨x, rfl, h.1⟩
  | r :: rs, x :: xs, i + 1, _, h, hr => by
    obtain ⟨y, h1, h2⟩ := AllShow.get h.2 (by simpa using hr)
    exact ⟨y, by simpa using h1, h2⟩
  | [], _ :: _, _, _, h, _ => h.elim
  | _ :: _, [], _, _, h, _ => h.elim

/-- C39 for resources that have at least the size of the struct. (Missing: shorter resources, for which it is false.) The
accessor itself never goes wrong: it yields the payload of the stored resource, and `None` only for optional resources. -/
theorem C39_struct_partial [DiffLib] (k : Kind) (p : Profile) (e : Endian) (D : ArchiveDef) (w w' : k.backend.W) (o : k.backend.Obj)
    (a : Archive k.backend.Base) (i : Nat) (r : ResDecl) (S : StructDef) (hr : k.Reachable w) (ho : k.alive w o)
    (hc : k.Current w o D) (h : openArchive k.backend p e o D w = (.ok a, w')) (hi : D.resources[i]? = some r)
    (ht : r.type = .struct S) (wf : WF S) :
    ∃ x, a.resources[i]? = some x ∧
      ((∃ b, x.bytes k.backend w' = .ok (some b) ∧ Valid k (k.stored w o) r.name r.schema b ∧
        (S.size ≤ b.length → ∀ f ∈ S.fields, f.variants = none → NoStraddle f.off f.bits → ∃ v, f.get p e b = .ok v)) ∨
       (x.bytes k.backend w' = .ok none ∧ r.optional = true)) := by
  obtain ⟨_, _, h', _, out⟩ := C31_open k p e D w o hr ho hc
  rw [h] at h'
  cases h'
  rcases out with ⟨_, e1, _, hs⟩ | ⟨_, e1, _⟩ | ⟨e1, _⟩ <;> cases e1
  obtain ⟨name, schema, rs, subs⟩ := D
  obtain ⟨xs, ss⟩ := a
  unfold ArchiveShows at hs
  rw [k.dir_nil] at hs
  obtain ⟨x, hx, hs⟩ := hs.2.1.get hi
  refine ⟨x, hx, ?_⟩
  unfold ResShows at hs
  rw [ht] at hs
  cases x with
  | two => exact hs.elim
  | one s =>
    cases s with
    | none => exact .inr ⟨rfl, hs.1⟩
    | some s =>
      obtain ⟨b, hv, hd⟩ := hs
      refine .inl ⟨b, ?_, hv, fun hl f hf hvar hns => ?_⟩
      · change (k.backend.deref w' s).bind _ = _
        rw [hd]; rfl
      · have ok := wf.field f hf
        have hin := ok.inside
        refine ⟨codeDecode f.ty f.bits (fieldRaw b f.off f.bits), ?_⟩
        rw [get_eq ok.pos ok.le (by omega) hns]
        simp [Field.transmute, hvar]

/-- Non-vacuity: a `Meta` of 8 bytes. -/
example : ∃ a w' x, @openArchive file naiveDiff .release .little objD One (oneDisk [1#8, 0#8, 0#8, 0#8, 2#8, 0#8, 0#8, 0#8]) = (.ok a, w') ∧
    a.resources[0]? = some x ∧ x.bytes file w' = .ok (some [1#8, 0#8, 0#8, 0#8, 2#8, 0#8, 0#8, 0#8]) :=
  firstBytes_some (by decide +kernel)

end Flatdata
