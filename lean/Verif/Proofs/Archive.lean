import Verif.Proofs.World
import Verif.Spec.Archive
/-!
# Opening archives
-/
namespace Flatdata
open Spec

section
variable {B : Backend} {L : Laws B}

/-- The slice a storage object has for a name shows what is stored. -/
def Cur (L : Laws B) (w : B.W) (o : B.Obj) (n : String) : Prop :=
  ∀ s, L.cache w o n = some s → ∃ d, L.medium w (L.loc o n) = some d ∧ L.readable d ∧ s.off = 0 ∧ s.len = d.length ∧
    L.bloc s.base = L.loc o n ∧ B.content w s.base = d

/-- The memory region belongs to something read before. -/
def Pinned (L : Laws B) (w : B.W) (b : B.Base) : Prop := ∃ o n s, L.cache w o n = some s ∧ s.base = b

/-- `w'` differs from `w` only in what has been read. -/
structure ReadOnly (L : Laws B) (w w' : B.W) : Prop where
  medium : ∀ l, L.medium w' l = L.medium w l
  cache : ∀ o n, (L.cache w' o n = L.cache w o n ∧ ∀ s, L.cache w o n = some s → B.content w' s.base = B.content w s.base) ∨
    (L.cache w o n = none ∧ ∃ s d, L.cache w' o n = some s ∧ L.medium w (L.loc o n) = some d ∧ L.readable d ∧ s.off = 0 ∧
      s.len = d.length ∧ L.bloc s.base = L.loc o n ∧ B.content w' s.base = d)
  noFault : L.noFault w → L.noFault w'

namespace ReadOnly

theorem refl (w : B.W) : ReadOnly L w w := ⟨fun _ => rfl, fun _ _ => .inl ⟨rfl, fun _ _ => rfl⟩, id⟩

theorem trans {a b c : B.W} (h : ReadOnly L a b) (k : ReadOnly L b c) : ReadOnly L a c := by
  refine ⟨fun l => (k.medium l).trans (h.medium l), fun o n => ?_, fun x => k.noFault (h.noFault x)⟩
  rcases h.cache o n with ⟨h1, h2⟩ | ⟨h1, s, d, h2, h3, h4, h5, h6, h7, h8⟩
  · rcases k.cache o n with ⟨k1, k2⟩ | ⟨k1, s, d, k2, k3, k4⟩
    · exact .inl ⟨k1.trans h1, fun s hs => (k2 s (h1.trans hs)).trans (h2 s hs)⟩
    · exact .inr ⟨h1.symm.trans k1, s, d, k2, (h.medium _).symm.trans k3, k4⟩
  · rcases k.cache o n with ⟨k1, k2⟩ | ⟨k1, _⟩
    · exact .inr ⟨h1, s, d, k1.trans h2, h3, h4, h5, h6, h7, (k2 s h2).trans h8⟩
    · rw [h2] at k1; cases k1

theorem read {o : B.Obj} {n : String} {w w' : B.W} {r} (h : B.readResource o n w = (r, w')) : ReadOnly L w w' :=
  ⟨(L.read_keeps h).1, L.read_mono h, (L.read_keeps h).2.2.2.2⟩

theorem of_keeps {w w' : B.W} (h : ∀ l, Keeps L w w' l) (hn : L.noFault w → L.noFault w') : ReadOnly L w w' :=
  ⟨fun l => (h l).medium, fun o n => .inl ⟨(h (L.loc o n)).cache o n rfl, fun s _ => (h _).content s.base rfl⟩, hn⟩

theorem cur {w w' : B.W} (h : ReadOnly L w w') {o : B.Obj} {n : String} (c : Cur L w o n) : Cur L w' o n := by
  intro s hs
  rcases h.cache o n with ⟨h1, h2⟩ | ⟨_, s', d, h2, h3, h4⟩
  · obtain ⟨d, c1, c2, c3, c4, c5, c6⟩ := c s (h1.symm.trans hs)
    exact ⟨d, (h.medium _).trans c1, c2, c3, c4, c5, (h2 s (h1.symm.trans hs)).trans c6⟩
  · rw [hs] at h2; cases h2
    exact ⟨d, (h.medium _).trans h3, h4⟩

theorem pinned {w w' : B.W} (h : ReadOnly L w w') {b : B.Base} (c : Pinned L w b) :
    Pinned L w' b ∧ B.content w' b = B.content w b := by
  obtain ⟨o, n, s, hs, rfl⟩ := c
  rcases h.cache o n with ⟨h1, h2⟩ | ⟨h1, _⟩
  · exact ⟨⟨o, n, s, h1.trans hs, rfl⟩, h2 s hs⟩
  · rw [h1] at hs; cases hs

end ReadOnly

/-- A slice shows bytes and will go on showing them while things are read. -/
def Shown (L : Laws B) (w : B.W) (s : Slice B.Base) (x : Bytes) : Prop := B.deref w s = .ok x ∧ Pinned L w s.base

theorem Shown.mono {w w' : B.W} {s : Slice B.Base} {x : Bytes} (h : Shown L w s x) (r : ReadOnly L w w') : Shown L w' s x :=
  ⟨(deref_keeps (r.pinned h.2).2).trans h.1, (r.pinned h.2).1⟩

theorem readResource_cur {o : B.Obj} {n : String} {w : B.W} (hc : Cur L w o n) :
    ∃ r w', B.readResource o n w = (r, w') ∧
    ((∃ s d, r = .ok s ∧ L.medium w (L.loc o n) = some d ∧ L.readable d ∧ Shown L w' s d) ∨
     (∃ x, r = .err x ∧ (L.noFault w → ∀ d, L.medium w (L.loc o n) = some d → ¬ L.readable d))) := by
  rcases L.read_total o n w with ⟨s, w', h⟩ | ⟨x, w', h⟩
  · refine ⟨_, w', h, .inl ⟨s, ?_⟩⟩
    have ro : ReadOnly L w w' := .read h
    have h1 := (L.read_ok h).1
    obtain ⟨d, c1, c2, c3, c4, c5, c6⟩ := ro.cur hc s h1
    refine ⟨d, rfl, (ro.medium _).symm.trans c1, c2, ?_, _, _, s, h1, rfl⟩
    unfold Backend.deref
    rw [c6, c3, c4]; simp
  · refine ⟨_, w', h, .inr ⟨x, rfl, fun hn d hd hr => ?_⟩⟩
    obtain ⟨s, w'', h'⟩ := L.read_some hn hd hr
    rw [h] at h'; cases h'

/-- What the verdict says, if not that the resource is good. -/
theorem verdict_cases [DiffLib] (p : Profile) (name expected : String) (d c : Bytes) :
    (∃ x, verdict p name expected d c = .ok x) ∨
    (∃ y, verdict p name expected d c = .err y ∧ ¬ ∃ x, Holds d x ∧ x.length + 16 < 2 ^ 64 ∧ c = strBytes expected) ∨
    (verdict p name expected d c = .panic ∧ p = .debug ∧ 16 ≤ d.length ∧ 2 ^ 64 ≤ leNat (d.take 8) + 16) := by
  cases hv : verdict p name expected d c with
  | ok x => exact .inl ⟨x, rfl⟩
  | err y =>
    refine .inr (.inl ⟨y, rfl, fun ⟨x, hx⟩ => ?_⟩)
    have := verdict_ok (p := p) (name := name) |>.mpr hx
    rw [hv] at this; cases this
  | panic =>
    unfold verdict at hv
    split at hv
    · cases hv
    · split at hv
      · split at hv
        · rename_i h1 h2 h3; exact .inr (.inr ⟨rfl, h3, by omega, h2⟩)
        · cases hv
      · split at hv
        · cases hv
        · split at hv
          · cases hv
          · split at hv <;> cases hv
  | ub =>
    exfalso
    unfold verdict at hv
    split at hv
    · cases hv
    · split at hv
      · split at hv <;> cases hv
      · split at hv
        · cases hv
        · split at hv
          · cases hv
          · split at hv <;> cases hv

end

/-! ## One resource -/

/-- What an outcome means: a value with a property, an error with a reason, a panic for a reason only in debug builds. -/
def Outcome {α : Type} (p : Profile) (good : α → Prop) (bad huge : Prop) : Res RErr α → Prop
  | .ok a => good a
  | .err _ => bad
  | .panic => p = .debug ∧ huge
  | .ub => False

section
variable {k : Kind} {p : Profile} {e : Endian}

theorem Spec.Kind.current_iff (k : Kind) (w : k.backend.W) (o : k.backend.Obj) (n : String) :
    k.current w o n ↔ Cur k.laws w o n := by
  cases k
  · constructor
    · intro h s hs
      change Option.map _ _ = _ at hs
      rw [Option.map_eq_some_iff] at hs
      obtain ⟨d, hd, rfl⟩ := hs
      refine ⟨d, h d hd, trivial, rfl, rfl, rfl, ?_⟩
      change (MemW.resources w (MemSt.loc o n)).getD [] = d
      rw [hd]; rfl
    · intro h d hd
      obtain ⟨d', h1, _, _, _, _, h2⟩ := h ⟨MemSt.loc o n, 0, d.length⟩ (by
        change Option.map _ (MemW.resources w (MemSt.loc o n)) = _
        rw [show MemW.resources w (MemSt.loc o n) = some d from hd]; rfl)
      change (MemW.resources w (MemSt.loc o n)).getD [] = d' at h2
      rw [show MemW.resources w (MemSt.loc o n) = some d from hd] at h2
      cases h2; exact h1
  · constructor
    · intro h s hs
      change Option.map _ _ = _ at hs
      rw [Option.map_eq_some_iff] at hs
      obtain ⟨x, hx, rfl⟩ := hs
      obtain ⟨d, h1, h2, rfl⟩ := h x hx
      refine ⟨d, h1, h2, rfl, rfl, rfl, ?_⟩
      change (FileW.fs w).files (key (join (Obj.path o) n)) = _ at h1
      change ((FileW.fs w).files (key (join (Obj.path o) n))).getD [] = d
      rw [h1]; rfl
    · intro h x hx
      obtain ⟨d, h1, h2, _, h3, h4, _⟩ := h ⟨x.1, 0, x.2⟩ (by
        change Option.map _ (FileW.maps w (Obj.id o) (join (Obj.path o) n)) = _
        rw [show FileW.maps w (Obj.id o) (join (Obj.path o) n) = some x from hx]; rfl)
      refine ⟨d, h1, h2, ?_⟩
      exact Prod.ext h4 h3

theorem Spec.Kind.dir_nil (k : Kind) (w : k.backend.W) (o : k.backend.Obj) : k.dir w o [] = k.stored w o := by
  cases k <;> rfl

theorem ReadOnly.dir {w w' : k.backend.W} (h : ReadOnly k.laws w w') (o : k.backend.Obj) : k.dir w' o = k.dir w o := by
  funext ds n
  cases k
  · cases ds with
    | nil => exact h.medium (MemSt.loc o n)
    | cons => rfl
  · exact h.medium _

theorem ReadOnly.stored {w w' : k.backend.W} (h : ReadOnly k.laws w w') (o : k.backend.Obj) : k.stored w' o = k.stored w o := by
  rw [← k.dir_nil, h.dir, k.dir_nil]

/-- From `w` to `w'` things have been read only. -/
structure Went (k : Kind) (w w' : k.backend.W) : Prop where
  ro : ReadOnly k.laws w w'
  steps : k.Steps w w'

theorem Went.refl (w : k.backend.W) : Went k w w := ⟨.refl w, .refl w⟩
theorem Went.trans {a b c : k.backend.W} (h : Went k a b) (h' : Went k b c) : Went k a c := ⟨h.ro.trans h'.ro, h.steps.trans h'.steps⟩

/-- The storage object is in a usable state for reading the names in `N`. -/
structure Usable (k : Kind) (w : k.backend.W) (o : k.backend.Obj) (N : String → Prop) : Prop where
  reach : k.Reachable w
  alive : k.alive w o
  cur : ∀ n, N n → Cur k.laws w o n ∧ Cur k.laws w o (Storage.schemaName n)

theorem Usable.went {w w' : k.backend.W} {o : k.backend.Obj} {N : String → Prop} (h : Usable k w o N) (g : Went k w w') : Usable k w' o N :=
  ⟨h.reach.steps g.steps, g.steps.alive h.alive, fun n hn => ⟨g.ro.cur (h.cur n hn).1, g.ro.cur (h.cur n hn).2⟩⟩

theorem Usable.mono {w : k.backend.W} {o : k.backend.Obj} {N M : String → Prop} (h : Usable k w o N) (hm : ∀ n, M n → N n) :
    Usable k w o M :=
  ⟨h.reach, h.alive, fun n hn => h.cur n (hm n hn)⟩

theorem readArchived [DiffLib] {w : k.backend.W} {o : k.backend.Obj} {N : String → Prop} {name : String} (u : Usable k w o N) (hN : N name)
    (schema : String) : ∃ r w', Storage.read k.backend p e o name schema w = (r, w') ∧ Went k w w' ∧
      Outcome p (fun s => ∃ x, Valid k (k.stored w o) name schema x ∧ Shown k.laws w' s x)
        (k.noFault w → ¬ ∃ x, Valid k (k.stored w o) name schema x) (Huge (k.stored w o) name) r := by
  obtain ⟨c1, c2⟩ := u.cur name hN
  have st : k.Steps w (Storage.read k.backend p e o name schema w).2 :=
    Kind.Calls.of (fun w0 => Kind.pres_storageRead) w u.alive
  obtain ⟨r1, w1, h1, o1⟩ := readResource_cur c1
  have ro1 : ReadOnly k.laws w w1 := .read h1
  rcases o1 with ⟨sd, d, rfl, m1, q1, s1⟩ | ⟨x, rfl, q1⟩
  · obtain ⟨r2, w2, h2, o2⟩ := readResource_cur (ro1.cur c2)
    have ro2 : ReadOnly k.laws w1 w2 := .read h2
    rcases o2 with ⟨ss, c, rfl, m2, q2, s2⟩ | ⟨x, rfl, q2⟩
    · have s1' := s1.mono ro2
      have h := read_from p e h1 h2 s1'.1 s2.1 (expected := schema)
      rw [h] at st
      refine ⟨_, w2, h, ⟨ro1.trans ro2, st⟩, ?_⟩
      rw [ro1.medium] at m2
      have m1' : k.stored w o name = some d := (k.stored_eq w o name).trans m1
      have m2' : k.stored w o (name ++ ".schema") = some c := (k.stored_eq w o _).trans m2
      rcases verdict_cases p name schema d c with ⟨x, hv⟩ | ⟨y, hv, hn⟩ | ⟨hv, hp, hl, hb⟩
      · rw [hv]
        obtain ⟨hx, hl, rfl⟩ := verdict_ok.mp hv
        refine ⟨x, ⟨⟨d, m1', hx, by rw [hx.length]; omega⟩, m2', (k.mappable_iff _).mpr q2⟩, ?_, s1'.2⟩
        rw [deref_sub s1'.1 (by have := deref_length s1'.1; have := hx.length; omega), hx.body]
      · rw [hv]
        intro _ ⟨x, hx⟩
        obtain ⟨d', e1, e2, e3⟩ := hx.data
        rw [m1'] at e1; cases e1
        have e4 := hx.text
        rw [m2'] at e4; cases e4
        exact hn ⟨x, e2, by rw [e2.length] at e3; omega, rfl⟩
      · rw [hv]
        exact ⟨hp, d, m1', hl, hb⟩
    · have h : Storage.read k.backend p e o name schema w = (.err (.io x name), w2) := by
        unfold Storage.read
        rw [Act.bind_ok (FileSt.mapErr_ok h1)]
        exact Act.bind_err (by unfold Act.mapErr; rw [h2])
      rw [h] at st
      refine ⟨_, w2, h, ⟨ro1.trans ro2, st⟩, ?_⟩
      intro hn ⟨y, hy⟩
      refine q2 (ro1.noFault ((k.noFault_iff w).mp hn)) _ ?_ ((k.mappable_iff _).mp hy.mappable)
      rw [ro1.medium]
      exact (k.stored_eq w o _).symm.trans hy.text
  · have h : Storage.read k.backend p e o name schema w = (.err (.io x name), w1) := by
      unfold Storage.read
      exact Act.bind_err (by unfold Act.mapErr; rw [h1])
    rw [h] at st
    refine ⟨_, w1, h, ⟨ro1, st⟩, ?_⟩
    intro hn ⟨y, hy⟩
    obtain ⟨d, e1, e2, _⟩ := hy.data
    refine q1 ((k.noFault_iff w).mp hn) d ((k.stored_eq w o _).symm.trans e1) (k.laws.readable_of_ne d ?_)
    intro he
    have := e2.length
    rw [he] at this; simp at this

/-- `check_resource!` -/
theorem checkRes_spec {α : Type} {good : α → Prop} {bad huge : Prop} {optional : Bool} {x : Act k.backend.W RErr α}
    {w w' : k.backend.W} {r : Res RErr α} (h : x w = (r, w')) (o : Outcome p good bad huge r) :
    ∃ r', checkRes k.backend optional x w = (r', w') ∧
      Outcome p (fun a => match a with | some a => good a | none => optional = true ∧ bad) (optional = false ∧ bad) huge r' := by
  unfold checkRes
  cases r with
  | ok a =>
    refine ⟨.ok (some a), ?_, o⟩
    exact Act.bind_ok (a := Except.ok a) (by unfold Act.attempt; rw [h])
  | err y =>
    have ha : ∀ E', (Act.attempt x : Act k.backend.W E' _) w = (.ok (.error y), w') := fun E' => by unfold Act.attempt; rw [h]
    cases optional
    · exact ⟨.err y, Act.bind_ok (ha _), rfl, o⟩
    · exact ⟨.ok none, Act.bind_ok (ha _), rfl, o⟩
  | panic =>
    refine ⟨.panic, ?_, o⟩
    exact Act.bind_panic (by unfold Act.attempt; rw [h])
  | ub => exact o.elim

/-! ## Monotonicity -/

section
variable {Base : Type} {clean clean' : Prop} {shows shows' : Slice Base → Bytes → Prop}

theorem Spec.SlotShows.mono {optional dir name schema} {x : Option (Slice Base)} (hc : clean' → clean) (hs : ∀ s x, shows s x → shows' s x)
    (h : SlotShows k clean shows optional dir name schema x) : SlotShows k clean' shows' optional dir name schema x := by
  cases x with
  | some s => obtain ⟨x, h1, h2⟩ := h; exact ⟨x, h1, hs _ _ h2⟩
  | none => exact ⟨h.1, fun c => h.2 (hc c)⟩

theorem Spec.ResShows.mono {dir r} {x : Opened Base} (hc : clean' → clean) (hs : ∀ s x, shows s x → shows' s x)
    (h : ResShows k clean shows dir r x) : ResShows k clean' shows' dir r x := by
  unfold ResShows at h ⊢
  cases hr : r.type <;> cases x <;> simp only [hr] at h ⊢
  all_goals first
    | exact h.mono hc hs
    | exact ⟨h.1.mono hc hs, h.2.mono hc hs⟩

theorem Spec.AllShow.mono {dir} (hc : clean' → clean) (hs : ∀ s x, shows s x → shows' s x) :
    ∀ {rs} {xs : List (Opened Base)}, AllShow k clean shows dir rs xs → AllShow k clean' shows' dir rs xs
  | [], [], _ => trivial
  | _ :: _, _ :: _, h => ⟨h.1.mono hc hs, AllShow.mono hc hs h.2⟩
  | [], _ :: _, h => h.elim
  | _ :: _, [], h => h.elim

mutual
theorem Spec.ArchiveShows.mono (hc : clean' → clean) (hs : ∀ s x, shows s x → shows' s x) :
    ∀ {D dir} {a : Archive Base}, ArchiveShows k clean shows D dir a → ArchiveShows k clean' shows' D dir a
  | .mk _ _ _ _, _, .mk _ _, h => by
    unfold ArchiveShows at h ⊢
    exact ⟨h.1, h.2.1.mono hc hs, Spec.SubsShow.mono hc hs h.2.2⟩

theorem Spec.SubsShow.mono (hc : clean' → clean) (hs : ∀ s x, shows s x → shows' s x) :
    ∀ {D dir} {a : SubArchives Base}, SubsShow k clean shows D dir a → SubsShow k clean' shows' D dir a
  | .nil, _, .nil, _ => by unfold SubsShow; trivial
  | .cons _ _ D rest, _, .cons a ss, h => by
    unfold SubsShow at h ⊢
    refine ⟨?_, Spec.SubsShow.mono hc hs h.2⟩
    cases a with
    | some a => exact Spec.ArchiveShows.mono hc hs h.1
    | none => exact ⟨h.1.1, fun c => h.1.2 (hc c)⟩
  | .nil, _, .cons _ _, h => by unfold SubsShow at h; exact h.elim
  | .cons _ _ _ _, _, .nil, h => by unfold SubsShow at h; exact h.elim
end

end
end
end Flatdata
