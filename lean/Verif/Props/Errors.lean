import Verif.Props.StorageExact
import Verif.Spec.Error
/-!
# C49: errors tell what is wrong
-/
namespace Flatdata
open Spec StorageExample ArchiveExample

section
variable {k : Kind} {p : Profile} {e : Endian}

/-- Every error of the verdict is the right one. -/
theorem verdict_err [DiffLib] {name expected : String} {dir : String → Option Bytes} {d c : Bytes} {y : RErr}
    (hd : Present k dir name d) (hc : Present k dir (name ++ ".schema") c)
    (h : verdict p name expected d c = .err y) : Defect k dir name expected y := by
  unfold verdict at h
  split at h
  · rename_i h1
    cases h
    refine .size d c hd hc ?_
    rintro ⟨x, hx, _⟩
    have := hx.length
    omega
  · rename_i h1
    split at h
    · rename_i h2
      split at h
      · cases h
      · cases h
        refine .size d c hd hc ?_
        rintro ⟨x, hx, hl⟩
        have := hx.length
        have := hx.size
        omega
    · rename_i h2
      split at h
      · rename_i h3
        cases h
        refine .size d c hd hc ?_
        rintro ⟨x, hx, _⟩
        have := hx.length
        have := hx.size
        omega
      · rename_i h3
        have h3' : leNat (d.take 8) + 16 = d.length := by simpa using h3
        have hlen : ((d.drop 8).take (leNat (d.take 8))).length = leNat (d.take 8) := by simp; omega
        have hx : Holds d ((d.drop 8).take (leNat (d.take 8))) := ⟨hlen.symm, by rw [hlen], by rw [hlen]; omega⟩
        split at h
        · rename_i hu
          cases h
          refine .text d c _ hd hc hx fun t ht => ?_
          rw [ht, fromUtf8_strBytes] at hu
          cases hu
        · rename_i s hs
          split at h
          · rename_i h4
            cases h
            refine .schema d _ s _ hd ?_ hx h4 (diffLeft_computeDiff _ _) (diffRight_computeDiff _ _)
            rw [strBytes_of_fromUtf8 hs]; exact hc
          · cases h

theorem read_defect [DiffLib] {w w' : k.backend.W} {o : k.backend.Obj} {N : String → Prop} {name schema : String} {y : RErr}
    (u : Usable k w o N) (hN : N name) (hn : k.noFault w)
    (h : Storage.read k.backend p e o name schema w = (.err y, w')) : Defect k (k.stored w o) name schema y := by
  obtain ⟨c1, c2⟩ := u.cur name hN
  obtain ⟨r1, w1, h1, o1⟩ := readResource_cur c1
  have ro1 : ReadOnly k.laws w w1 := .read h1
  rcases o1 with ⟨sd, d, rfl, m1, q1, s1⟩ | ⟨x, rfl, q1⟩
  · obtain ⟨r2, w2, h2, o2⟩ := readResource_cur (ro1.cur c2)
    have ro2 : ReadOnly k.laws w1 w2 := .read h2
    have l1 : Present k (k.stored w o) name d := ⟨(k.stored_eq w o name).trans m1, (k.mappable_iff _).mpr q1⟩
    rcases o2 with ⟨ss, c, rfl, m2, q2, s2⟩ | ⟨x, rfl, q2⟩
    · have s1' := s1.mono ro2
      rw [read_from p e h1 h2 s1'.1 s2.1 (expected := schema)] at h
      rw [ro1.medium] at m2
      have l2 : Present k (k.stored w o) (name ++ ".schema") c := ⟨(k.stored_eq w o _).trans m2, (k.mappable_iff _).mpr q2⟩
      have hv : verdict p name schema d c = .err y := by
        have := congrArg Prod.fst h
        cases hv : verdict p name schema d c with
        | err z => rw [hv] at this; cases this; rfl
        | _ => rw [hv] at this; cases this
      exact verdict_err l1 l2 hv
    · have h' : Storage.read k.backend p e o name schema w = (.err (.io x name), w2) := by
        unfold Storage.read
        rw [Act.bind_ok (FileSt.mapErr_ok h1)]
        exact Act.bind_err (by unfold Act.mapErr; rw [h2])
      rw [h'] at h; cases h
      refine .missing x (.inr fun c hc => ?_)
      refine q2 (ro1.noFault ((k.noFault_iff w).mp hn)) c ?_ ((k.mappable_iff _).mp hc.2)
      rw [ro1.medium]
      exact (k.stored_eq w o _).symm.trans hc.1
  · have h' : Storage.read k.backend p e o name schema w = (.err (.io x name), w1) := by
      unfold Storage.read
      exact Act.bind_err (by unfold Act.mapErr; rw [h1])
    rw [h'] at h; cases h
    exact .missing x (.inl fun d hd => q1 ((k.noFault_iff w).mp hn) d ((k.stored_eq w o _).symm.trans hd.1)
      ((k.mappable_iff _).mp hd.2))

end

/-! ## Reading -/

/-- C49 for `read`: if no system call fails, an error tells what is wrong with the stored resource, and names it. -/
theorem C49_read_partial [DiffLib] (k : Kind) (p : Profile) (e : Endian) (w w' : k.backend.W) (o : k.backend.Obj)
    (name schema : String) (y : RErr) (hr : k.Reachable w) (ho : k.alive w o) (hn : k.noFault w)
    (c1 : k.current w o name) (c2 : k.current w o (name ++ ".schema"))
    (h : Storage.read k.backend p e o name schema w = (.err y, w')) : Defect k (k.stored w o) name schema y :=
  read_defect (N := (· = name)) ⟨hr, ho, fun n hn => by subst hn; exact ⟨(k.current_iff _ _ _).mp c1, (k.current_iff _ _ _).mp c2⟩⟩
    rfl hn h

/-- What has a defect is not valid. -/
theorem Spec.Defect.not_valid {k : Kind} [DiffLib] {dir : String → Option Bytes} {name expected : String} {y : RErr}
    (h : Defect k dir name expected y) : ¬ ∃ x, Valid k dir name expected x := by
  rintro ⟨x, hx⟩
  obtain ⟨d, e1, e2, e3⟩ := hx.data
  have l1 : Present k dir name d := ⟨e1, by
    cases k
    · trivial
    · intro h0
      have := e2.length
      rw [h0] at this; simp at this⟩
  have l2 : Present k dir (name ++ ".schema") (strBytes expected) := ⟨hx.text, hx.mappable⟩
  cases h with
  | missing kind h =>
    rcases h with h | h
    · exact h _ l1
    · exact h _ l2
  | size d' c hd hc h =>
    obtain rfl : d = d' := by have := hd.1; rw [e1] at this; cases this; rfl
    exact h ⟨x, e2, e3⟩
  | text d' c x' hd hc hx' h =>
    obtain rfl : strBytes expected = c := by have := hc.1; rw [l2.1] at this; cases this; rfl
    exact h _ rfl
  | schema d' x' found diff hd hc hx' h =>
    have h1 := hc.1
    rw [l2.1] at h1
    have h2 := congrArg fromUtf8 (Option.some.inj h1)
    rw [fromUtf8_strBytes, fromUtf8_strBytes] at h2
    exact h (Option.some.inj h2).symm

/-- The texts tell the kinds of errors apart, and none is empty. -/
theorem C49_descriptions (y z : RErr) : (y.description = z.description ↔ errorKind y = errorKind z) ∧ y.description ≠ "" := by
  cases y <;> cases z <;> simp [RErr.description, errorKind]

example : (RErr.io .notFound "x").description ≠ (RErr.missingSchema "x").description ∧
    (RErr.io .notFound "x").description = (RErr.io .other "y").description :=
  ⟨fun h => absurd ((C49_descriptions _ _).1.1 h) (by decide), (C49_descriptions _ _).1.2 rfl⟩

/-- A stored resource has one defect only: the description of the error and the name in it are determined. -/
theorem C49_unique [DiffLib] (k : Kind) (dir : String → Option Bytes) (name expected : String) (y z : RErr)
    (hl : ∀ d, dir name = some d → d.length < 2 ^ 64) (hy : Defect k dir name expected y) (hz : Defect k dir name expected z) :
    y.description = z.description ∧ errorName y = errorName z := by
  have key : ∀ {d d' : Bytes} {n}, Present k dir n d → Present k dir n d' → d = d' := by
    intro d d' n h h'
    have := h.1; rw [h'.1] at this; cases this; rfl
  have mis : ∀ {d c : Bytes}, Present k dir name d → Present k dir (name ++ ".schema") c →
      ¬ ((∀ d, ¬ Present k dir name d) ∨ ∀ c, ¬ Present k dir (name ++ ".schema") c) := by
    rintro d c h h' (h'' | h'')
    · exact h'' _ h
    · exact h'' _ h'
  cases hy with
  | missing kind h =>
    cases hz with
    | missing => exact ⟨rfl, rfl⟩
    | size _ _ hd hc => exact absurd h (mis hd hc)
    | text _ _ _ hd hc => exact absurd h (mis hd hc)
    | schema _ _ _ _ hd hc => exact absurd h (mis hd hc)
  | size d c hd hc h =>
    cases hz with
    | missing _ h' => exact absurd h' (mis hd hc)
    | size => exact ⟨rfl, rfl⟩
    | text d' c' x hd' hc' hx => rw [key hd hd'] at h; exact absurd ⟨x, hx, hl _ hd'.1⟩ h
    | schema d' x _ _ hd' hc' hx => rw [key hd hd'] at h; exact absurd ⟨x, hx, hl _ hd'.1⟩ h
  | text d c x hd hc hx h =>
    cases hz with
    | missing _ h' => exact absurd h' (mis hd hc)
    | size d' c' hd' hc' h' => rw [key hd hd'] at hx; exact absurd ⟨x, hx, hl _ hd'.1⟩ h'
    | text => exact ⟨rfl, rfl⟩
    | schema d' x' found _ hd' hc' => exact absurd (key hc hc') (h found)
  | schema d x found diff hd hc hx h =>
    cases hz with
    | missing _ h' => exact absurd h' (mis hd hc)
    | size d' c' hd' hc' h' => rw [key hd hd'] at hx; exact absurd ⟨x, hx, hl _ hd'.1⟩ h'
    | text d' c' x' hd' hc' hx' h' => exact absurd (key hc' hc) (h' found)
    | schema => exact ⟨rfl, rfl⟩

/-- Non-vacuity of `C49_read_partial` and `C49_unique`: a resource whose schema is another one. -/
example [DiffLib] (y : RErr) (w' : FileW) (h : Storage.read file .release .little objD "x" "t" StorageExample.disk1 = (.err y, w')) :
    y.description = (RErr.wrongSignature "x" "").description ∧ errorName y = some "x" := by
  have hy := C49_read_partial .disk .release .little StorageExample.disk1 w' objD "x" "t" y (disk0_reachable _ _) Nat.zero_lt_one
    (disk0_noFault _) (fun x hx => by cases hx) (fun x hx => by cases hx) h
  obtain ⟨diff, w2, h2, _⟩ := C18_wrong_signature_partial .disk .release .little StorageExample.disk1 objD "x" "t" "s" (image [7#8]) [7#8]
    (disk0_noFault _) (by decide) (by decide) (holds_image _ (by decide)) (by decide) (by change strBytes "s" ≠ []; decide) rfl rfl (by decide)
  have hz := C49_read_partial .disk .release .little StorageExample.disk1 w2 objD "x" "t" _ (disk0_reachable _ _) Nat.zero_lt_one
    (disk0_noFault _) (fun x hx => by cases hx) (fun x hx => by cases hx) h2
  have := C49_unique .disk _ "x" "t" y _ (fun d hd => by
    have : Kind.stored .disk StorageExample.disk1 objD "x" = some (image [7#8]) := by decide
    rw [this] at hd; cases hd; decide) hy hz
  exact ⟨this.1.trans rfl, this.2.trans rfl⟩

/-- C49 for `read`, the other way round: a resource with a defect is reported as such (except for the panic of debug builds on
a corrupted size field, finding 7). -/
theorem C49_read_exact [DiffLib] (k : Kind) (p : Profile) (e : Endian) (w : k.backend.W) (o : k.backend.Obj)
    (name schema : String) (y : RErr) (hr : k.Reachable w) (ho : k.alive w o) (hn : k.noFault w)
    (c1 : k.current w o name) (c2 : k.current w o (name ++ ".schema"))
    (hl : ∀ d, k.stored w o name = some d → d.length < 2 ^ 64) (hp : p = .release ∨ ¬ Huge (k.stored w o) name)
    (hy : Defect k (k.stored w o) name schema y) :
    ∃ z w', Storage.read k.backend p e o name schema w = (.err z, w') ∧ z.description = y.description ∧ errorName z = errorName y := by
  obtain ⟨r, w', h, _, out⟩ := readArchived (p := p) (e := e) (N := (· = name))
    ⟨hr, ho, fun n hn => by subst hn; exact ⟨(k.current_iff _ _ _).mp c1, (k.current_iff _ _ _).mp c2⟩⟩ rfl schema
  cases r with
  | ok s => obtain ⟨x, hx, _⟩ := out; exact absurd ⟨x, hx⟩ hy.not_valid
  | err z =>
    obtain ⟨h1, h2⟩ := C49_unique k _ _ _ _ _ hl (C49_read_partial k p e w w' o name schema z hr ho hn c1 c2 h) hy
    exact ⟨z, w', h, h1, h2⟩
  | panic =>
    rcases hp with hp | hp
    · rw [hp] at out; cases out.1
    · exact absurd out.2 hp
  | ub => exact out.elim

/-! ## Missing files -/

section
variable {k : Kind}

theorem readResource_notFound {w : k.backend.W} {o : k.backend.Obj} {n : String} (hn : k.noFault w) (hc : k.current w o n)
    (hs : k.stored w o n = none) (hd : ¬ k.directoryAt w o n) : ∃ w', k.backend.readResource o n w = (.err .notFound, w') := by
  cases k
  · have h1 : MemW.streams w (MemSt.loc o n) = none := Option.map_eq_none_iff.mp hs
    have h2 : MemW.resources w (MemSt.loc o n) = none := by
      cases h : MemW.resources w (MemSt.loc o n) with
      | none => rfl
      | some d => have := hc d h; rw [hs] at this; cases this
    refine ⟨w, ?_⟩
    change MemSt.readResource o n w = _
    unfold MemSt.readResource
    rw [h2]; simp only; rw [h1]
  · obtain ⟨b, w1, h1, _, _, hb, _⟩ := FileSt.pathExists_spec (join (Obj.path o) n) w
    have h2 : (FileW.fs w).files (key (join (Obj.path o) n)) = none := hs
    have h3 : FileSt.dirOK (FileW.fs w) (key (join (Obj.path o) n)) = false := by
      unfold FileSt.dirOK
      simp only [Bool.or_eq_false_iff, beq_eq_false_iff_ne]
      refine ⟨fun h => hd (.inl h), ?_⟩
      cases hb : (FileW.fs w).isDir (key (join (Obj.path o) n)) with
      | false => rfl
      | true => exact absurd (.inr hb) hd
    have h4 : b = false := by rw [hb hn, h2, h3]; simp
    subst h4
    refine ⟨w1, ?_⟩
    change FileSt.readResource o n w = _
    unfold FileSt.readResource
    rw [Act.bind_ok (FileSt.mapErr_ok h1)]
    rfl

end

/-- The error for a missing resource, or a resource without schema, is of the kind `NotFound`. -/
theorem C49_not_found [DiffLib] (k : Kind) (p : Profile) (e : Endian) (w : k.backend.W) (o : k.backend.Obj)
    (name schema : String) (hn : k.noFault w) (c1 : k.current w o name) (c2 : k.current w o (name ++ ".schema"))
    (hm : (k.stored w o name = none ∧ ¬ k.directoryAt w o name) ∨
      ((∃ d, Present k (k.stored w o) name d) ∧ k.stored w o (name ++ ".schema") = none ∧ ¬ k.directoryAt w o (name ++ ".schema"))) :
    ∃ w', Storage.read k.backend p e o name schema w = (.err (.io .notFound name), w') := by
  rcases hm with ⟨h1, h2⟩ | ⟨⟨d, h1⟩, h2, h3⟩
  · obtain ⟨w1, h⟩ := readResource_notFound hn c1 h1 h2
    exact ⟨w1, by unfold Storage.read; exact Act.bind_err (by unfold Act.mapErr; rw [h])⟩
  · obtain ⟨r1, w1, h, o1⟩ := readResource_cur ((k.current_iff _ _ _).mp c1)
    have ro1 : ReadOnly k.laws w w1 := .read h
    rcases o1 with ⟨sd, d', rfl, _⟩ | ⟨x, rfl, q1⟩
    · have hd : ¬ k.directoryAt w1 o (name ++ ".schema") := by
        cases k
        · exact id
        · have : (FileW.fs w1).isDir = (FileW.fs w).isDir := by
            change FileSt.readResource o name w = _ at h
            rcases FileSt.read_spec o name w with ⟨_, _, w3, _, _, i, h'⟩ | ⟨_, w3, _, _, _, _, i, h'⟩ | ⟨_, w3, _, i, h', _⟩
            · rw [h'] at h; cases h; exact i
            · rw [h'] at h; cases h; exact i
            · rw [h'] at h; cases h
          change ¬ (_ ∨ (FileW.fs w1).isDir _ = true)
          rw [this]; exact h3
      obtain ⟨w2, h'⟩ := readResource_notFound (w := w1) ((k.noFault_iff _).mpr (ro1.noFault ((k.noFault_iff w).mp hn)))
        ((k.current_iff _ _ _).mpr (ro1.cur ((k.current_iff _ _ _).mp c2))) ((congrFun (ro1.stored o) _).trans h2) hd
      refine ⟨w2, ?_⟩
      unfold Storage.read
      rw [Act.bind_ok (FileSt.mapErr_ok h)]
      exact Act.bind_err (by unfold Act.mapErr; rw [show Storage.schemaName name = name ++ ".schema" from rfl, h'])
    · exact absurd ((k.mappable_iff _).mp h1.2) (q1 ((k.noFault_iff w).mp hn) d ((k.stored_eq w o _).symm.trans h1.1))

/-! ## The first defect of an archive -/

section
variable {k : Kind} {p : Profile} {e : Endian}

theorem Spec.FirstDefect.append [DiffLib] {dir : String → Option Bytes} {a b : List (String × String)} {y : RErr}
    (h : FirstDefect k dir a y ∨ ((∀ q ∈ a, ∃ x, Valid k dir q.1 q.2 x) ∧ FirstDefect k dir b y)) : FirstDefect k dir (a ++ b) y := by
  induction a with
  | nil =>
    rcases h with h | h
    · exact h.elim
    · exact h.2
  | cons q a ih =>
    rcases h with (h | h) | h
    · exact .inl h
    · exact .inr ⟨h.1, ih (.inl h.2)⟩
    · exact .inr ⟨h.1 q (by simp), ih (.inr ⟨fun q' hq => h.1 q' (by simp [hq]), h.2⟩)⟩

theorem Act.bind_eq_err {W E α β : Type} {x : Act W E α} {f : α → Act W E β} {w w' : W} {y : E} (h : (x >>= f) w = (.err y, w')) :
    x w = (.err y, w') ∨ ∃ a w1, x w = (.ok a, w1) ∧ f a w1 = (.err y, w') := by
  rcases hx : x w with ⟨r, w1⟩
  rw [Act.bind_def, hx] at h
  cases r with
  | ok a => exact .inr ⟨a, w1, rfl, h⟩
  | err z => cases h; exact .inl rfl
  | panic => cases h
  | ub => cases h

theorem checkRes_err {B : Backend} {α : Type} {optional : Bool} {x : Act B.W RErr α} {w w' : B.W} {y : RErr}
    (h : checkRes B optional x w = (.err y, w')) : optional = false ∧ x w = (.err y, w') := by
  unfold checkRes at h
  rcases hx : x w with ⟨r, w1⟩
  cases r with
  | ok a =>
    rw [Act.bind_ok (a := Except.ok a) (w' := w1) (by unfold Act.attempt; rw [hx])] at h
    cases h
  | err z =>
    rw [Act.bind_ok (a := Except.error z) (w' := w1) (by unfold Act.attempt; rw [hx])] at h
    cases optional
    · cases h; exact ⟨rfl, rfl⟩
    · cases h
  | panic => rw [Act.bind_panic (w' := w1) (by unfold Act.attempt; rw [hx])] at h; cases h
  | ub =>
    rcases Act.bind_eq_err h with h | ⟨a, w2, h2, _⟩
    · unfold Act.attempt at h; rw [hx] at h; cases h
    · unfold Act.attempt at h2; rw [hx] at h2; cases h2

theorem openResource_defect [DiffLib] {w w' : k.backend.W} {o : k.backend.Obj} {N : String → Prop} {r : ResDecl} {y : RErr}
    (u : Usable k w o N) (hN : ∀ q ∈ parts r, N q.1) (hn : k.noFault w)
    (h : openResource k.backend p e o r w = (.err y, w')) :
    r.optional = false ∧ FirstDefect k (k.stored w o) (parts r) y := by
  have plain : (∀ V i, r.type ≠ .multi V i) → (checkRes k.backend r.optional (Storage.read k.backend p e o r.name r.schema) >>=
      fun d => pure (Opened.one d) : Act k.backend.W RErr (Opened k.backend.Base)) w = (.err y, w') →
      r.optional = false ∧ FirstDefect k (k.stored w o) (parts r) y := by
    intro hr h
    have hp : parts r = [(r.name, r.schema)] := by
      unfold parts; split
      · rename_i V i ht; exact absurd ht (hr V i)
      · rfl
    rcases Act.bind_eq_err h with h | ⟨a, w1, _, h⟩
    · obtain ⟨h1, h2⟩ := checkRes_err h
      rw [hp] at hN ⊢
      exact ⟨h1, .inl (read_defect u (hN _ (by simp)) hn h2)⟩
    · cases h
  unfold openResource at h
  cases ht : r.type with
  | struct S => rw [ht] at h; exact plain (by rw [ht]; intro _ _ h; cases h) h
  | vector S => rw [ht] at h; exact plain (by rw [ht]; intro _ _ h; cases h) h
  | raw => rw [ht] at h; exact plain (by rw [ht]; intro _ _ h; cases h) h
  | multi V i =>
    have hp : parts r = [(i, "index(" ++ r.schema ++ ")"), (r.name, r.schema)] := by unfold parts; rw [ht]
    rw [ht] at h
    simp only at h
    rw [hp] at hN ⊢
    have hi : N i := hN (i, _) (List.mem_cons_self ..)
    rcases Act.bind_eq_err h with h | ⟨a, w1, h1, h⟩
    · obtain ⟨h1, h2⟩ := checkRes_err h
      exact ⟨h1, .inl (read_defect u hi hn h2)⟩
    · rcases Act.bind_eq_err h with h | ⟨b, w2, _, h⟩
      · obtain ⟨h2, h3⟩ := checkRes_err h
        obtain ⟨x1, w1', h1', g1, out1⟩ := readSlot (p := p) (e := e) u hi (Storage.indexSchema r.schema) r.optional
        rw [h1] at h1'; cases h1'
        have hd := read_defect (u.went g1) (hN (r.name, r.schema) (by simp)) (g1.steps.noFault hn) h3
        rw [g1.ro.stored] at hd
        refine ⟨h2, .inr ⟨?_, .inl hd⟩⟩
        cases a with
        | some s => obtain ⟨x, hx, _⟩ := out1; exact ⟨x, hx⟩
        | none => rw [h2] at out1; cases out1.1
      · cases h

theorem openResources_defect [DiffLib] {o : k.backend.Obj} {N : String → Prop} {y : RErr} : ∀ {rs : List ResDecl} {w w' : k.backend.W},
    Usable k w o N → (∀ r ∈ rs, ∀ q ∈ parts r, N q.1) → k.noFault w → openResources k.backend p e o rs w = (.err y, w') →
    FirstDefect k (k.stored w o) ((rs.filter fun r => !r.optional).flatMap parts) y
  | [], w, w', _, _, _, h => by cases h
  | r :: rs, w, w', u, hN, hn, h => by
    unfold openResources at h
    rcases Act.bind_eq_err h with h | ⟨a, w1, h1, h⟩
    · obtain ⟨h1, h2⟩ := openResource_defect u (hN r (by simp)) hn h
      rw [List.filter_cons_of_pos (by simp [h1]), List.flatMap_cons]
      exact .append (.inl h2)
    · rcases Act.bind_eq_err h with h | ⟨b, w2, _, h⟩
      · obtain ⟨x1, w1', h1', g1, out1⟩ := openResource_spec (p := p) (e := e) r u (hN r (by simp))
        rw [h1] at h1'; cases h1'
        have := openResources_defect (u.went g1) (fun r hr => hN r (by simp [hr])) (g1.steps.noFault hn) h
        rw [g1.ro.stored] at this
        cases ho : r.optional with
        | true => rw [List.filter_cons_of_neg (by simp [ho])]; exact this
        | false =>
          rw [List.filter_cons_of_pos (by simp [ho]), List.flatMap_cons]
          exact .append (.inr ⟨out1.complete ho, this⟩)
      · cases h

mutual
theorem openArchive_defect [DiffLib] {y : RErr} : ∀ {D : ArchiveDef} {o : k.backend.Obj} {w w' : k.backend.W}, Usable k w o (NamesOf D) →
    k.noFault w → openArchive k.backend p e o D w = (.err y, w') → ArchiveDefect k D (k.dir w o) y
  | .mk name schema rs subs, o, w, w', u, hn, h => by
    unfold openArchive at h
    unfold ArchiveDefect required
    rw [k.dir_nil]
    have hsig : NamesOf (.mk name schema rs subs) (name ++ ".archive") := .inl rfl
    rcases Act.bind_eq_err h with h | ⟨s, w1, h1, h⟩
    · exact .inl (.inl (read_defect u hsig hn h))
    · obtain ⟨x1, w1', h1', g1, out1⟩ := readArchived (p := p) (e := e) u hsig schema
      rw [h1] at h1'; cases h1'
      have v1 : ∃ x, Valid k (k.stored w o) (name ++ ".archive") schema x := by obtain ⟨x, hx, _⟩ := out1; exact ⟨x, hx⟩
      have hrs : ∀ r ∈ rs, ∀ q ∈ parts r, NamesOf (.mk name schema rs subs) q.1 := fun r hr q hq => .inr ⟨r, hr, q, hq, rfl⟩
      have n1 := g1.steps.noFault hn
      rcases Act.bind_eq_err h with h | ⟨xs, w2, h2, h⟩
      · have := openResources_defect (u.went g1) hrs n1 h
        rw [g1.ro.stored] at this
        exact .inl (.inr ⟨v1, this⟩)
      · obtain ⟨x2, w2', h2', g2, out2⟩ := openResources_spec (p := p) (e := e) rs (u.went g1) hrs
        rw [h2] at h2'; cases h2'
        have v2 := out2.complete
        rw [g1.ro.stored] at v2
        rcases Act.bind_eq_err h with h | ⟨ss, w3, h3, h⟩
        · have u2 := u.went (g1.trans g2)
          have := openSubs_defect u2.reach u2.alive (g2.steps.noFault n1) h
          rw [(g1.trans g2).ro.dir] at this
          refine .inr ⟨?_, this⟩
          intro q hq
          rcases List.mem_cons.mp hq with rfl | hq
          · exact v1
          · obtain ⟨r, hr, hq⟩ := List.mem_flatMap.mp hq
            obtain ⟨hr, ho⟩ := List.mem_filter.mp hr
            exact v2 r hr (by simpa using ho) q hq
        · cases h

theorem openSubs_defect [DiffLib] {y : RErr} : ∀ {D : SubDefs} {o : k.backend.Obj} {w w' : k.backend.W}, k.Reachable w → k.alive w o →
    k.noFault w → openSubs k.backend p e o D w = (.err y, w') → SubsDefect k D (k.dir w o) y
  | .nil, o, w, w', _, _, _, h => by cases h
  | .cons name optional D rest, o, w, w', hr, ho, hn, h => by
    unfold openSubs at h
    unfold SubsDefect
    obtain ⟨o', w1, h1, g1, a1, d1, c1⟩ := subdir_spec (o := o) name hr.unborn
    have h1' : (k.backend.subdir o name).mapErr (Empty.elim : Empty → RErr) w = (.ok o', w1) := FileSt.mapErr_ok h1
    rw [Act.bind_ok h1'] at h
    have cur : ∀ n, Cur k.laws w1 o' n := fun n s hs => by rw [c1] at hs; cases hs
    have u1 : Usable k w1 o' (NamesOf D) := ⟨hr.steps g1.steps, a1, fun n _ => ⟨cur _, cur _⟩⟩
    have n1 := g1.steps.noFault hn
    rcases Act.bind_eq_err h with h | ⟨a, w2, h2, h⟩
    · obtain ⟨e1, e2⟩ := checkRes_err h
      have := openArchive_defect u1 n1 e2
      rw [d1] at this
      exact .inl ⟨e1, this⟩
    · rcases Act.bind_eq_err h with h | ⟨ss, w3, h3, h⟩
      · obtain ⟨x2, w2', h2', g2, out2⟩ := openArchive_spec (p := p) (e := e) D u1
        obtain ⟨x2', h2'', out2'⟩ := checkRes_spec (optional := optional) h2' out2
        rw [h2] at h2''; cases h2''
        have g12 := g1.trans g2
        have := openSubs_defect (hr.steps g12.steps) (g12.steps.alive ho) (g12.steps.noFault hn) h
        rw [g12.ro.dir] at this
        refine .inr ⟨fun hf => ?_, this⟩
        rw [← d1]
        cases a with
        | some a => exact ArchiveShows.complete out2'
        | none => rw [hf] at out2'; cases out2'.1
      · cases h
end

end

/-- C49 for `open`: if no system call fails, the error is about the first defect of the archive: signature first, then the
required resources in the order of the definition, then the required subarchives. -/
theorem C49_open_partial [DiffLib] (k : Kind) (p : Profile) (e : Endian) (D : ArchiveDef) (w w' : k.backend.W) (o : k.backend.Obj) (y : RErr)
    (hr : k.Reachable w) (ho : k.alive w o) (hn : k.noFault w) (hc : k.Current w o D)
    (h : openArchive k.backend p e o D w = (.err y, w')) : ArchiveDefect k D (k.dir w o) y :=
  openArchive_defect ⟨hr, ho, fun n hn => ⟨(k.current_iff _ _ _).mp (hc n hn).1, (k.current_iff _ _ _).mp (hc n hn).2⟩⟩ hn h

/-! ## Whatever happens: names, and `MissingSchema` -/

/-- All errors of an action satisfy `P`. -/
def Act.Errs {W E α : Type} (P : E → Prop) (x : Act W E α) : Prop := ∀ w y w', x w = (.err y, w') → P y

section
variable {W E E' α β : Type} {P : E → Prop}

theorem Act.Errs.bind {x : Act W E α} {f : α → Act W E β} (hx : Act.Errs P x) (hf : ∀ a, Act.Errs P (f a)) : Act.Errs P (x >>= f) := by
  intro w y w' h
  rcases Act.bind_eq_err h with h | ⟨a, w1, _, h⟩
  · exact hx _ _ _ h
  · exact hf a _ _ _ h

theorem Act.Errs.lift (x : Out α) : Act.Errs P (Act.lift x : Act W E α) := by
  intro w y w' h
  cases x <;> cases h

theorem Act.Errs.pure (a : α) : Act.Errs P (pure a : Act W E α) := by intro w y w' h; cases h

theorem Act.Errs.fail {z : E} (h : P z) : Act.Errs P (Act.fail z : Act W E α) := by intro w y w' h'; cases h'; exact h

theorem Act.Errs.mapErr {f : E' → E} {x : Act W E' α} (h : ∀ z, P (f z)) : Act.Errs P (x.mapErr f) := by
  intro w y w' h'
  unfold Act.mapErr at h'
  rcases hx : x w with ⟨r, w1⟩
  rw [hx] at h'
  cases r <;> cases h'
  exact h _

theorem Act.Errs.mono {Q : E → Prop} {x : Act W E α} (h : Act.Errs P x) (hq : ∀ y, P y → Q y) : Act.Errs Q x :=
  fun w y w' hx => hq y (h w y w' hx)

end

/-- The error is no `MissingSchema`, and the resource it names, if any, has the property. -/
def Spec.Names (P : String → Prop) (y : RErr) : Prop := (∀ n, y ≠ .missingSchema n) ∧ ∀ n, errorName y = some n → P n

section
variable {B : Backend} {p : Profile} {e : Endian}

theorem errs_io {P : String → Prop} {n : String} (h : P n) (z : IoErr) : Spec.Names P (.io z n) :=
  ⟨fun m hm => (by cases hm), fun m hm => (by cases hm; exact h)⟩

theorem errs_read [DiffLib] {P : String → Prop} {o : B.Obj} {name schema : String} (h : P name) :
    Act.Errs (Spec.Names P) (Storage.read B p e o name schema) := by
  unfold Storage.read Storage.checkResource
  refine .bind (.mapErr (errs_io h)) fun data => .bind (.mapErr (errs_io h)) fun sch => ?_
  have hsz : Spec.Names P .unexpectedDataSize := ⟨fun m hm => (by cases hm), fun m hm => (by cases hm)⟩
  split
  · exact .fail hsz
  · refine .bind (fun w y w' hh => ?_) fun header => .bind (.lift _) fun size => .bind (.lift _) fun t => .bind (.lift _) fun t => ?_
    · unfold Backend.load at hh
      exact absurd hh (by intro hh; exact (Act.Errs.lift (P := fun _ => False) _ _ _ _ hh).elim)
    · split
      · exact .fail hsz
      · refine .bind (fun w y w' hh => ?_) fun stored => ?_
        · unfold Backend.load at hh
          exact absurd hh (by intro hh; exact (Act.Errs.lift (P := fun _ => False) _ _ _ _ hh).elim)
        · unfold Storage.checkSchema
          split
          · exact .fail ⟨fun m hm => (by cases hm), fun m hm => (by cases hm)⟩
          · split
            · exact .fail ⟨fun m hm => (by cases hm), fun m hm => (by cases hm; exact h)⟩
            · exact .lift _

theorem errs_checkRes {α : Type} {P : RErr → Prop} {optional : Bool} {x : Act B.W RErr α} (h : Act.Errs P x) :
    Act.Errs P (checkRes B optional x) :=
  fun _ _ _ hh => h _ _ _ (checkRes_err hh).2

theorem errs_openResource [DiffLib] {P : String → Prop} {o : B.Obj} {r : ResDecl} (h : ∀ q ∈ parts r, P q.1) :
    Act.Errs (Spec.Names P) (openResource B p e o r) := by
  unfold openResource
  unfold parts at h
  cases ht : r.type <;> rw [ht] at h <;> simp only
  case multi V i =>
    exact .bind (errs_checkRes (errs_read (h (i, _) (List.mem_cons_self ..)))) fun _ =>
      .bind (errs_checkRes (errs_read (h (r.name, r.schema) (by simp)))) fun _ => .pure _
  all_goals exact .bind (errs_checkRes (errs_read (h (r.name, r.schema) (by simp)))) fun _ => .pure _

theorem errs_openResources [DiffLib] {P : String → Prop} {o : B.Obj} : ∀ {rs : List ResDecl}, (∀ r ∈ rs, ∀ q ∈ parts r, P q.1) →
    Act.Errs (Spec.Names P) (openResources B p e o rs)
  | [], _ => .pure _
  | r :: rs, h => by
    unfold openResources
    exact .bind (errs_openResource (h r (by simp))) fun _ =>
      .bind (errs_openResources fun r hr => h r (by simp [hr])) fun _ => .pure _

mutual
theorem errs_open [DiffLib] {P : String → Prop} : ∀ {D : ArchiveDef} {o : B.Obj}, (∀ n, NamedIn D n → P n) →
    Act.Errs (Spec.Names P) (openArchive B p e o D)
  | .mk name schema rs subs, o, h => by
    unfold openArchive
    unfold NamedIn at h
    exact .bind (errs_read (h _ (.inl rfl))) fun _ =>
      .bind (errs_openResources fun r hr q hq => h _ (.inr (.inl ⟨r, hr, q, hq, rfl⟩))) fun _ =>
      .bind (errs_openSubs fun n hn => h n (.inr (.inr hn))) fun _ => .pure _

theorem errs_openSubs [DiffLib] {P : String → Prop} : ∀ {D : SubDefs} {o : B.Obj}, (∀ n, NamedInSubs D n → P n) →
    Act.Errs (Spec.Names P) (openSubs B p e o D)
  | .nil, o, _ => .pure _
  | .cons name optional D rest, o, h => by
    unfold openSubs
    unfold NamedInSubs at h
    exact .bind (.mapErr fun z => z.elim) fun _ => .bind (errs_checkRes (errs_open fun n hn => h n (.inl hn))) fun _ =>
      .bind (errs_openSubs fun n hn => h n (.inr hn)) fun _ => .pure _
end

theorem errs_builder {o : B.Obj} {D : ArchiveDef} : Act.Errs (Spec.Names (· = D.name ++ ".archive")) (builderNew B p e o D) := by
  unfold builderNew Storage.createArchive
  refine .bind (.bind (.mapErr fun z => z.elim) fun x => ?_) fun _ => .pure _
  split
  · exact .fail (errs_io (P := (· = D.name ++ ".archive")) rfl _)
  · exact .mapErr (errs_io rfl)

end

/-- Whatever happens (I/O errors included) and whatever the storage: `read` names the resource that was asked for, `open` a
resource of the archive or its subarchives, builders the signature of the archive. -/
theorem C49_names [DiffLib] (B : Backend) (p : Profile) (e : Endian) (o : B.Obj) (w w' : B.W) (y : RErr) :
    (∀ name schema s, Storage.read B p e o name schema w = (s, w') → s = .err y → ∀ n, errorName y = some n → n = name) ∧
    (∀ D a, openArchive B p e o D w = (a, w') → a = .err y → ∀ n, errorName y = some n → NamedIn D n) ∧
    (∀ D b, builderNew B p e o D w = (b, w') → b = .err y → errorName y = some (D.name ++ ".archive")) ∧
    (∀ name D b, builderSub B p e o name D w = (b, w') → b = .err y → errorName y = some (D.name ++ ".archive")) := by
  have hb : ∀ (o : B.Obj) (D : ArchiveDef) {w w' : B.W}, builderNew B p e o D w = (.err y, w') → errorName y = some (D.name ++ ".archive") := by
    intro o D w w' h
    unfold builderNew Storage.createArchive at h
    rcases Act.bind_eq_err h with h | ⟨_, _, _, h⟩
    · rcases Act.bind_eq_err h with h | ⟨x, w1, _, h⟩
      · exact (Act.Errs.mapErr (P := fun _ => False) (fun z => z.elim) _ _ _ h).elim
      · split at h
        · cases h; rfl
        · have := Act.Errs.mapErr (P := fun y => errorName y = some (D.name ++ ".archive")) (fun z => rfl) _ _ _ h
          exact this
    · cases h
  refine ⟨?_, ?_, ?_, ?_⟩
  · rintro name schema _ h rfl n hn
    exact (errs_read (P := (· = name)) rfl _ _ _ h).2 n hn
  · rintro D _ h rfl n hn
    exact (errs_open (P := NamedIn D) (fun _ h => h) _ _ _ h).2 n hn
  · rintro D _ h rfl
    exact hb o D h
  · rintro name D _ h rfl
    unfold builderSub at h
    rcases Act.bind_eq_err h with h | ⟨o', w1, _, h⟩
    · exact (Act.Errs.mapErr (P := fun _ => False) (fun z => z.elim) _ _ _ h).elim
    · exact hb o' D h

/-- C49 in full, for a resource without schema: the documentation of `MissingSchema` says "Indicates that schema for the
resource with stored name is missing in resource storage" (src/error.rs:21-23). -/
def C49_claim : Prop :=
  ∀ (_ : DiffLib) (k : Kind) (p : Profile) (e : Endian) (w : k.backend.W) (o : k.backend.Obj) (name schema : String) (d x : Bytes),
    k.Reachable w → k.alive w o → k.noFault w → k.current w o name → k.current w o (name ++ ".schema") →
    k.stored w o name = some d → Holds d x → k.stored w o (name ++ ".schema") = none →
    ∃ w', Storage.read k.backend p e o name schema w = (.err (.missingSchema name), w')

/-- `MissingSchema` is never returned, whatever happens and whatever the storage. -/
theorem C49_never [DiffLib] (B : Backend) (p : Profile) (e : Endian) (o : B.Obj) (w w' : B.W) (n : String) :
    (∀ name schema, Storage.read B p e o name schema w ≠ (.err (.missingSchema n), w')) ∧
    (∀ D, openArchive B p e o D w ≠ (.err (.missingSchema n), w')) ∧
    (∀ D, builderNew B p e o D w ≠ (.err (.missingSchema n), w')) := by
  refine ⟨fun name schema h => ?_, fun D h => ?_, fun D h => ?_⟩
  · exact (errs_read (P := fun _ => True) trivial _ _ _ h).1 n rfl
  · exact (errs_open (P := fun _ => True) (fun _ _ => trivial) _ _ _ h).1 n rfl
  · exact (errs_builder _ _ _ h).1 n rfl

namespace ErrorExample

/-- A disk with a resource without schema. -/
def bare : FileW := disk0 [([['d'], ['x']], image [7#8])]

/-- An archive with two required resources and a required subarchive. -/
def Two : ArchiveDef := .mk "A" "sa" [⟨"y", "sy", true, .raw⟩, ⟨"x", "sx", false, .raw⟩, ⟨"z", "sz", false, .raw⟩]
  (.cons "sub" false (.mk "B" "sb" [] .nil) .nil)

/-- Its optional resource is damaged, one required resource has another schema, the next one and the subarchive are missing. -/
def damaged : FileW := disk0 [([['d'], "A.archive".toList], image []), ([['d'], "A.archive.schema".toList], strBytes "sa"),
  ([['d'], ['y']], [1#8]), ([['d'], "y.schema".toList], strBytes "sy"),
  ([['d'], ['x']], image [7#8]), ([['d'], "x.schema".toList], strBytes "t")]

end ErrorExample
open ErrorExample

/-- The refutation: such a resource is reported as an I/O error. -/
theorem C49_refuted : ¬ C49_claim := by
  intro h
  obtain ⟨w', h1⟩ := h naiveDiff .disk .debug .little bare objD "x" "s" (image [7#8]) [7#8] (disk0_reachable _ _) Nat.zero_lt_one
    (disk0_noFault _) (fun x hx => by cases hx) (fun x hx => by cases hx) (by decide +kernel) (holds_image _ (by decide)) (by decide +kernel)
  exact (@C49_never naiveDiff file .debug .little objD bare w' "x").1 "x" "s" h1

/-- What is reported instead (non-vacuity of `C49_not_found`). -/
example [DiffLib] : ∃ w', Storage.read file .debug .little objD "x" "s" bare = (.err (.io .notFound "x"), w') := by
  refine C49_not_found .disk .debug .little bare objD "x" "s" (disk0_noFault _) (fun x hx => by cases hx) (fun x hx => by cases hx)
    (.inr ⟨⟨image [7#8], by decide +kernel, by change image [7#8] ≠ []; decide⟩, by decide +kernel, ?_⟩)
  rintro (h | h) <;> revert h <;> decide +kernel

/-- Non-vacuity of `C49_read_exact`: an invalid size. -/
example [DiffLib] : ∃ z w', Storage.read file .release .little objD "y" "sy" damaged = (.err z, w') ∧
    z.description = "resource has unexpected size" := by
  obtain ⟨z, w', h, h1, _⟩ := C49_read_exact .disk .release .little damaged objD "y" "sy" .unexpectedDataSize (disk0_reachable _ _)
    Nat.zero_lt_one (disk0_noFault _) (fun x hx => by cases hx) (fun x hx => by cases hx)
    (fun d hd => by
      have h0 : Kind.stored .disk damaged objD "y" = some [1#8] := by decide +kernel
      rw [h0] at hd; cases hd; decide)
    (.inl rfl) (.size [1#8] (strBytes "sy") ⟨by decide +kernel, by change [1#8] ≠ []; decide⟩
      ⟨by decide +kernel, by change strBytes "sy" ≠ []; decide⟩ (by
        rintro ⟨x, hx, _⟩
        have := hx.length
        simp at this))
  exact ⟨z, w', h, h1⟩

/-- Non-vacuity of `C49_open_partial`: opening the damaged archive reports the required resource with the other schema, not the optional
one before it, nor the missing one and the subarchive after it. -/
example [DiffLib] : ∃ diff w', openArchive file .release .little objD Two damaged = (.err (.wrongSignature "x" diff), w') ∧
    diffLeft diff = DiffLib.linesOf "t" ∧ diffRight diff = DiffLib.linesOf "sx" := by
  have hc : Kind.Current .disk damaged objD Two := fun n _ => ⟨fun x hx => (by cases hx), fun x hx => (by cases hx)⟩
  have l1 : Kind.stored .disk damaged objD "x" = some (image [7#8]) := by decide +kernel
  have l2 : Kind.stored .disk damaged objD ("x" ++ ".schema") = some (strBytes "t") := by decide +kernel
  have dx : ∀ y, Defect .disk (Kind.stored .disk damaged objD) "x" "sx" y → ∃ diff, y = .wrongSignature "x" diff ∧
      diffLeft diff = DiffLib.linesOf "t" ∧ diffRight diff = DiffLib.linesOf "sx" := by
    intro y hy
    cases hy with
    | missing _ h =>
      rcases h with h | h
      · exact absurd ⟨l1, by change image [7#8] ≠ []; decide⟩ (h (image [7#8]))
      · exact absurd ⟨l2, by change strBytes "t" ≠ []; decide⟩ (h (strBytes "t"))
    | size d c hd hc h =>
      have := hd.1; rw [l1] at this; cases this
      exact absurd ⟨[7#8], holds_image _ (by decide), by decide⟩ h
    | text d c x hd hc hx h =>
      have := hc.1; rw [l2] at this; cases this
      exact absurd rfl (h "t")
    | schema d x found diff hd hc hx h hl hr =>
      have := hc.1; rw [l2] at this
      have h2 := congrArg fromUtf8 (Option.some.inj this)
      rw [fromUtf8_strBytes, fromUtf8_strBytes] at h2
      cases h2
      exact ⟨diff, rfl, hl, hr⟩
  have nx : ¬ ∃ x, Valid .disk (Kind.stored .disk damaged objD) "x" "sx" x := by
    rintro ⟨x, hx⟩
    have := hx.text
    rw [l2] at this
    have h2 := congrArg fromUtf8 (Option.some.inj this)
    rw [fromUtf8_strBytes, fromUtf8_strBytes] at h2
    revert h2; decide
  have sig : ∃ x, Valid .disk (Kind.stored .disk damaged objD) ("A" ++ ".archive") "sa" x :=
    ⟨[], ⟨image [], by decide +kernel, holds_image _ (by decide), by decide⟩, by decide +kernel, by change strBytes "sa" ≠ []; decide⟩
  obtain ⟨r, w', h, _, out⟩ := C31_open_partial .disk .release .little Two damaged objD (disk0_reachable _ _) Nat.zero_lt_one
    (disk0_noFault _) hc (.inl rfl)
  rcases out with ⟨a, _, h1, _⟩ | ⟨y, rfl, _⟩
  · unfold Two Complete at h1
    exact absurd (h1.2.1 ⟨"x", "sx", false, .raw⟩ (by simp) rfl ("x", "sx") (by simp [parts])) nx
  · have h1 := C49_open_partial .disk .release .little Two damaged w' objD y (disk0_reachable _ _) Nat.zero_lt_one (disk0_noFault _) hc h
    unfold Two ArchiveDefect required at h1
    change FirstDefect .disk (Kind.stored .disk damaged objD) [("A" ++ ".archive", "sa"), ("x", "sx"), ("z", "sz")] y ∨ _ at h1
    rcases h1 with h1 | h1
    · rcases h1 with h1 | ⟨_, h1 | ⟨h1, _⟩⟩
      · exact absurd sig h1.not_valid
      · obtain ⟨diff, rfl, h2, h3⟩ := dx y h1
        exact ⟨diff, w', h, h2, h3⟩
      · exact absurd h1 nx
    · exact absurd (h1.1 ("x", "sx") (by simp [parts])) nx

/-- Non-vacuity of `C49_names`: building where an archive exists names its signature. -/
example : (builderNew file .debug .little objD Two damaged).1 = .err (.io .alreadyExists "A.archive") := by decide +kernel

end Flatdata
