import Verif.Model.ExtVector
import Verif.Proofs.Storage
import Verif.Proofs.Vector
/-!
# Resource handles: what is at the place of a resource while it is written in pieces
-/
namespace Flatdata
open Spec

theorem paddingSize_eq : paddingSize = 8 := rfl
theorem zeros8 : List.replicate paddingSize 0#8 = zeros 8 := rfl

theorem Act.attempt_ok {W E E' α : Type} {x : Act W E α} {w w' : W} {a : α} (h : x w = (.ok a, w')) :
    (x.attempt : Act W E' (Except E α)) w = (.ok (.ok a), w') := by unfold Act.attempt; rw [h]

theorem Act.attempt_err {W E E' α : Type} {x : Act W E α} {w w' : W} {a : E} (h : x w = (.err a, w')) :
    (x.attempt : Act W E' (Except E α)) w = (.ok (.error a), w') := by unfold Act.attempt; rw [h]

theorem Act.mapErr_ok {W E E' α : Type} {x : Act W E α} {f : E → E'} {w w' : W} {a : α} (h : x w = (.ok a, w')) :
    x.mapErr f w = (.ok a, w') := by unfold Act.mapErr; rw [h]

theorem Act.mapErr_err {W E E' α : Type} {x : Act W E α} {f : E → E'} {w w' : W} {a : E} (h : x w = (.err a, w')) :
    x.mapErr f w = (.err (f a), w') := by unfold Act.mapErr; rw [h]

section
variable {B : Backend} {L : Laws B}

/-- `w'` differs from `w` only at the locations in `P` (there possibly also in the caches). -/
structure Off {B : Backend} (L : Laws B) (w w' : B.W) (P : L.Loc → Prop) : Prop where
  keeps : ∀ l, ¬ P l → Keeps L w w' l
  noFault : L.noFault w → L.noFault w'

theorem Off.refl (w : B.W) (P : L.Loc → Prop) : Off L w w P := ⟨fun _ _ => .refl w _, id⟩
theorem Off.trans {a b c : B.W} {P : L.Loc → Prop} (h : Off L a b P) (k : Off L b c P) : Off L a c P :=
  ⟨fun l hl => (h.keeps l hl).trans (k.keeps l hl), fun x => k.noFault (h.noFault x)⟩
theorem Only.off {a b : B.W} {P Q : L.Loc → Prop} (h : Only L a b P) (hPQ : ∀ l, P l → Q l) : Off L a b Q :=
  ⟨fun l hl => h.keeps l (fun hp => hl (hPQ l hp)), h.noFault⟩

/-- The locations of a resource. -/
def OwnLoc (L : Laws B) (o : B.Obj) (name : String) (l : L.Loc) : Prop := l = L.loc o name ∨ l = L.loc o (Storage.schemaName name)

/-- Everything a read of a resource not read before can result in, if the size field is not absurd. -/
theorem read_cases [DiffLib] (p : Profile) (e : Endian) {o : B.Obj} {name expected : String} {w : B.W}
    (hne : L.loc o (Storage.schemaName name) ≠ L.loc o name)
    (hkd : L.cache w o name = none) (hkc : L.cache w o (Storage.schemaName name) = none)
    (hsz : ∀ d, L.medium w (L.loc o name) = some d → leNat (d.take 8) + 16 < 2 ^ 64) :
    ∃ r w', Storage.read B p e o name expected w = (r, w') ∧ Off L w w' (OwnLoc L o name) ∧ (∀ l, L.medium w' l = L.medium w l) ∧
      ((∃ x, r = .err x) ∨ (∃ s d x, r = .ok s ∧ L.medium w (L.loc o name) = some d ∧
        L.medium w (L.loc o (Storage.schemaName name)) = some (strBytes expected) ∧ Holds d x ∧ B.deref w' s = .ok x ∧
        L.bloc s.base = L.loc o name)) := by
  have off : ∀ {n w r w'}, n = name ∨ n = Storage.schemaName name → B.readResource o n w = (r, w') →
      Off L w w' (OwnLoc L o name) := by
    intro n w r w' hn h
    refine ⟨fun l hl => .read h ?_, (L.read_keeps h).2.2.2.2⟩
    rintro rfl
    rcases hn with rfl | rfl
    · exact hl (.inl rfl)
    · exact hl (.inr rfl)
  rcases L.read_total o name w with ⟨sd, w1, h1⟩ | ⟨x, w1, h1⟩
  · have o1 := off (.inl rfl) h1
    have k1 := L.read_keeps h1
    have hkc' : L.cache w1 o (Storage.schemaName name) = none := by rw [k1.2.2.1 _ _ hne]; exact hkc
    rcases L.read_total o (Storage.schemaName name) w1 with ⟨ss, w2, h2⟩ | ⟨x, w2, h2⟩
    · have o2 := off (.inr rfl) h2
      have k2 := L.read_keeps h2
      obtain ⟨d, hd, dd, bd⟩ := readResource_ok_new hkd h1
      obtain ⟨c, hc, dc, bc⟩ := readResource_ok_new hkc' h2
      have dd2 : B.deref w2 sd = .ok d := by
        rw [deref_keeps (k2.2.2.2.1 sd.base (.inl (by rw [bd]; exact hne.symm)))]; exact dd
      have hr := read_from p e (expected := expected) h1 h2 dd2 dc
      refine ⟨_, w2, hr, o1.trans o2, fun l => (k2.1 l).trans (k1.1 l), ?_⟩
      have hs := hsz d hd
      cases hv : verdict p name expected d c with
      | ok x =>
        obtain ⟨v1, v2, v3⟩ := verdict_ok.mp hv
        refine .inr ⟨_, d, x, rfl, hd, ?_, v1, ?_, bd⟩
        · rw [← v3, ← hc, k1.1]
        · have h2 := deref_sub dd2 (a := 8) (n := x.length) (by have := v1.length; have := deref_length dd2; omega)
          rw [v1.body] at h2; exact h2
      | err x => exact .inl ⟨x, rfl⟩
      | panic =>
        exfalso
        unfold verdict at hv
        split at hv
        · cases hv
        · rw [if_neg (by omega)] at hv
          split at hv
          · cases hv
          · split at hv
            · cases hv
            · split at hv <;> cases hv
      | ub =>
        exfalso
        unfold verdict at hv
        split at hv
        · cases hv
        · rw [if_neg (by omega)] at hv
          split at hv
          · cases hv
          · split at hv
            · cases hv
            · split at hv <;> cases hv
    · refine ⟨.err (.io x name), w2, ?_, o1.trans (off (.inr rfl) h2), fun l => ((L.read_keeps h2).1 l).trans (k1.1 l), .inl ⟨_, rfl⟩⟩
      unfold Storage.read
      rw [Act.bind_ok (Act.mapErr_ok h1), Act.bind_err (Act.mapErr_err h2)]
  · refine ⟨.err (.io x name), w1, ?_, off (.inl rfl) h1, fun l => (L.read_keeps h1).1 l, .inl ⟨_, rfl⟩⟩
    unfold Storage.read
    rw [Act.bind_err (Act.mapErr_err h1)]

/-- Reading changes nothing that is stored. -/
theorem storageRead_medium [DiffLib] {p : Profile} {e : Endian} {o : B.Obj} {name expected : String} {w w' : B.W} {r}
    (h : Storage.read B p e o name expected w = (r, w')) (l : L.Loc) : L.medium w' l = L.medium w l := by
  have rd : ∀ n w r w', (B.readResource o n).mapErr (RErr.io · name) w = (r, w') → L.medium w' l = L.medium w l := by
    intro n w r w' h
    have h1 : ∃ r1 w1, B.readResource o n w = (r1, w1) := ⟨_, _, rfl⟩
    obtain ⟨r1, w1, h1⟩ := h1
    have := (L.read_keeps h1).1 l
    unfold Act.mapErr at h
    rw [h1] at h
    cases r1 <;> cases h <;> exact this
  unfold Storage.read at h
  rw [Act.bind_def] at h
  split at h
  · rename_i a w1 h1
    have e1 := rd _ _ _ _ h1
    rw [Act.bind_def] at h
    split at h
    · rename_i b w2 h2
      have e2 := rd _ _ _ _ h2
      have := (checkResource_same p e name expected (w := w2) (w' := w2) (sd := a) (ss := b) rfl rfl).2.1
      rw [h] at this
      rw [show w' = w2 from this, e2, e1]
    all_goals (rename_i w2 h2; cases h; rw [rd _ _ _ _ h2, e1])
  all_goals (rename_i w1 h1; cases h; rw [rd _ _ _ _ h1])

/-- An open handle: `pre` has been written successfully, `c` is what is at the place of the resource after the size
field; failed writes leave additional bytes there. -/
structure Writing (L : Laws B) (o : B.Obj) (name schema : String) (w : B.W) (h : Handle B) (pre c : Bytes) : Prop where
  obj : h.obj = o
  nameEq : h.name = name
  schemaEq : h.schema = schema
  size : h.size = pre.length
  stream : ∃ s, h.stream = some s ∧ Appending L w s (L.loc o name) (le64 0 ++ c)
  le : pre.length ≤ c.length
  clean : c.length = pre.length → c = pre
  schemaStored : L.medium w (L.loc o (Storage.schemaName name)) = some (strBytes schema)

/-- The storage object has read neither the resource nor its schema. -/
structure Unseen (L : Laws B) (o : B.Obj) (name : String) (w : B.W) : Prop where
  data : L.cache w o name = none
  schema : L.cache w o (Storage.schemaName name) = none

theorem Unseen.keeps {o : B.Obj} {name : String} {w w' : B.W} (h : Unseen L o name w)
    (k1 : Keeps L w w' (L.loc o name)) (k2 : Keeps L w w' (L.loc o (Storage.schemaName name))) : Unseen L o name w' :=
  ⟨(k1.cache _ _ rfl).trans h.data, (k2.cache _ _ rfl).trans h.schema⟩

theorem Unseen.only {o : B.Obj} {name : String} {w w' : B.W} {P : L.Loc → Prop} (h : Unseen L o name w) (k : Only L w w' P) :
    Unseen L o name w' := ⟨(k.cache _ _).trans h.data, (k.cache _ _).trans h.schema⟩

variable {o : B.Obj} {name schema : String}

theorem Writing.keeps {w w' : B.W} {h : Handle B} {pre c : Bytes} (i : Writing L o name schema w h pre c)
    (k1 : Keeps L w w' (L.loc o name)) (k2 : Keeps L w w' (L.loc o (Storage.schemaName name))) :
    Writing L o name schema w' h pre c := by
  obtain ⟨s, hs, a⟩ := i.stream
  exact ⟨i.obj, i.nameEq, i.schemaEq, i.size, ⟨s, hs, a.keeps k1⟩, i.le, i.clean, k2.medium.trans i.schemaStored⟩

/-- Reading, by anybody, changes nothing for an open handle. -/
theorem Writing.read {w w' : B.W} {h : Handle B} {pre c : Bytes} (i : Writing L o name schema w h pre c) {o' n r}
    (hr : B.readResource o' n w = (r, w')) : Writing L o name schema w' h pre c := by
  obtain ⟨s, hs, a⟩ := i.stream
  obtain ⟨k1, k2, _⟩ := L.read_keeps hr
  obtain ⟨a1, a2, a3⟩ := k2 s a.live
  exact ⟨i.obj, i.nameEq, i.schemaEq, i.size, ⟨s, hs, a1, a2.trans a.sloc, (k1 _).trans a.medium, a3.trans a.pos⟩, i.le, i.clean,
    (k1 _).trans i.schemaStored⟩

theorem Writing.isOpen {w : B.W} {h : Handle B} {pre c : Bytes} (i : Writing L o name schema w h pre c) : h.isOpen = true := by
  obtain ⟨s, hs, _⟩ := i.stream
  unfold Handle.isOpen; rw [hs]; rfl

theorem Writing.write {w : B.W} {h : Handle B} {pre c : Bytes} (i : Writing L o name schema w h pre c)
    (hne : L.loc o (Storage.schemaName name) ≠ L.loc o name) (p : Profile) (d : Bytes) (hb : pre.length + d.length < 2 ^ 64) :
    (∃ h' w', h.write p d w = (.ok h', w') ∧ Writing L o name schema w' h' (pre ++ d) (c ++ d) ∧ Only L w w' (· = L.loc o name)) ∨
    (∃ x d' w', h.write p d w = (.err x, w') ∧ Writing L o name schema w' h pre (c ++ d') ∧ Only L w w' (· = L.loc o name) ∧
      ¬ L.noFault w) := by
  obtain ⟨s, hs, a⟩ := i.stream
  have stay : ∀ {w' : B.W}, Only L w w' (· = L.loc o name) →
      L.medium w' (L.loc o (Storage.schemaName name)) = some (strBytes schema) := fun ow =>
    (ow.keeps _ hne).medium.trans i.schemaStored
  rcases append_step a d with ⟨w', h1, a1, o1⟩ | ⟨x, d', w', h1, hp, a1, o1, nf⟩
  · left
    refine ⟨{ h with size := h.size + d.length }, w', ?_, ?_, o1⟩
    · unfold Handle.write
      rw [hs]
      change (B.writeAll s d >>= _) w = _
      rw [Act.bind_ok h1, uadd_ok (by rw [i.size]; exact hb)]
      rfl
    · have s1 := stay o1
      refine ⟨i.obj, i.nameEq, i.schemaEq, by simp [i.size], ⟨s, hs, by rw [← List.append_assoc]; exact a1⟩, ?_, ?_, s1⟩
      · have := i.le; simp; omega
      · intro hl; have := i.clean (by simp at hl; omega); rw [this]
  · right
    refine ⟨x, d', w', ?_, ?_, o1, nf⟩
    · unfold Handle.write
      rw [hs]
      change (B.writeAll s d >>= _) w = _
      rw [Act.bind_err h1]
    · have s1 := stay o1
      refine ⟨i.obj, i.nameEq, i.schemaEq, i.size, ⟨s, hs, by rw [← List.append_assoc]; exact a1⟩, ?_, ?_, s1⟩
      · have := i.le; simp; omega
      · intro hl
        have hle := i.le
        simp at hl
        have h0 : d' = [] := List.eq_nil_of_length_eq_zero (by omega)
        rw [h0, List.append_nil]; exact i.clean (by omega)

/-- What can be read at the place of a resource is either everything or nothing; and reading does not overflow. -/
structure AllOrNothing (d all : Bytes) : Prop where
  small : 16 ≤ d.length → leNat (d.take 8) + 16 < 2 ^ 64
  reads : ∀ x, Holds d x → x = all ∨ (x = [] ∧ d.length = 16)

theorem allOrNothing_short {d : Bytes} (h : d.length < 16) (all : Bytes) : AllOrNothing d all :=
  ⟨fun h' => by omega, fun x hx => by have := hx.length; omega⟩

theorem take8_le64 (n : Nat) (c : Bytes) : (le64 n ++ c).take 8 = le64 n := by
  rw [List.take_append_of_le_length (by simp [length_le64]), List.take_of_length_le (by simp [length_le64])]

theorem drop8_le64 (n : Nat) (c : Bytes) : (le64 n ++ c).drop 8 = c := by
  have := List.drop_left (l₁ := le64 n) (l₂ := c)
  rwa [length_le64] at this

/-- As long as the size field is zero. -/
theorem allOrNothing_zero (c all : Bytes) : AllOrNothing (le64 0 ++ c) all := by
  refine ⟨fun _ => by rw [take8_le64, leNat_le64 (by decide)]; decide, fun x h => ?_⟩
  have h1 := h.size
  rw [take8_le64, leNat_le64 (by decide)] at h1
  have h2 := h.length
  exact .inr ⟨List.eq_nil_of_length_eq_zero h1.symm, by omega⟩

theorem leNat_prefix_le {a b : Bytes} (h : a <+: b) : leNat a ≤ leNat b := by
  obtain ⟨t, rfl⟩ := h; rw [leNat_append]; omega

theorem leNat_zeros (n : Nat) : leNat (zeros n) = 0 := by
  induction n with
  | zero => rfl
  | succ n ih => simp only [zeros, List.replicate_succ, leNat]; simp only [zeros] at ih; rw [ih]; rfl

theorem le64_zero : le64 0 = zeros 8 := by decide

/-- While the size field is being overwritten, and afterwards. -/
theorem allOrNothing_header {pre c h' : Bytes} (hb : pre.length < 2 ^ 63) (hle : pre.length ≤ c.length)
    (hclean : c.length = pre.length → c = pre) (hp : h' <+: le64 pre.length) :
    AllOrNothing (h' ++ (le64 0 ++ c ++ zeros 8).drop h'.length) pre := by
  have hl : h'.length ≤ 8 := by have := hp.length_le; rwa [length_le64] at this
  have e1 : (le64 0 ++ c ++ zeros 8).drop h'.length = zeros (8 - h'.length) ++ (c ++ zeros 8) := by
    rw [List.append_assoc, List.drop_append_of_le_length (by rw [length_le64]; exact hl), le64_zero]
    simp only [zeros, List.drop_replicate]
  rw [e1]
  have ht : (h' ++ (zeros (8 - h'.length) ++ (c ++ zeros 8))).take 8 = h' ++ zeros (8 - h'.length) := by
    rw [← List.append_assoc, List.take_append_of_le_length (by simp [zeros]; omega), List.take_of_length_le (by simp [zeros]; omega)]
  have hd : (h' ++ (zeros (8 - h'.length) ++ (c ++ zeros 8))).drop 8 = c ++ zeros 8 := by
    rw [← List.append_assoc]
    have : (h' ++ zeros (8 - h'.length)).length = 8 := by simp [zeros]; omega
    exact (congrArg (fun n => List.drop n _) this.symm).trans (List.drop_left ..)
  have h4 := leNat_prefix_le hp
  rw [leNat_le64 (by omega)] at h4
  refine ⟨fun _ => by rw [ht, leNat_append, leNat_zeros]; omega, fun x h => ?_⟩
  have h1 := h.size
  rw [ht, leNat_append, leNat_zeros] at h1
  have h2 := h.length
  have h3 := h.body
  rw [hd] at h3
  simp [zeros] at h2
  have h5 : c.length = pre.length := by omega
  have h6 := hclean h5
  left
  rw [← h3, h6, List.take_append_of_le_length (by omega), List.take_of_length_le (by omega)]

/-- Padding and size field. -/
theorem Writing.finish {w : B.W} {h : Handle B} {pre c : Bytes} (i : Writing L o name schema w h pre c)
    (p : Profile) (e : Endian) (hb : pre.length < 2 ^ 63) {s : B.Strm} (hs : h.stream = some s) :
    (∃ w1, h.finish p e s w = (.ok (), w1) ∧ Only L w w1 (· = L.loc o name) ∧
        L.medium w1 (L.loc o name) = some (le64 pre.length ++ c ++ zeros 8)) ∨
      (∃ x w1 d, h.finish p e s w = (.err x, w1) ∧ Only L w w1 (· = L.loc o name) ∧
        L.medium w1 (L.loc o name) = some d ∧ AllOrNothing d pre ∧ ¬ L.noFault w) := by
  obtain ⟨s', hs', a⟩ := i.stream
  rw [hs] at hs'; cases hs'
  unfold Handle.finish Storage.writePadding
  rw [zeros8]
  rcases append_step a (zeros 8) with ⟨w1, h1, a1, o1⟩ | ⟨x, d', w1, h1, hp, a1, o1, nf⟩
  · rw [Act.bind_ok h1]
    have sm : L.medium w1 (L.sloc w1 s) ≠ none := by rw [a1.sloc, a1.medium]; simp
    have sonly : ∀ {r w2}, B.seekStart s w1 = (r, w2) → Only L w1 w2 (· = L.loc o name) ∧ L.live w2 s ∧
        L.sloc w2 s = L.loc o name ∧ L.medium w2 (L.loc o name) = some (le64 0 ++ c ++ zeros 8) := by
      intro r w2 h2
      have k2 := L.seek_keeps a1.live h2
      exact ⟨⟨fun l hl => .seek a1.live h2 (by rw [a1.sloc]; exact hl), k2.2.2.1, k2.2.2.2.2⟩, (k2.2.1 s a1.live).1,
        (k2.2.1 s a1.live).2.1.trans a1.sloc, (k2.1 _).trans a1.medium⟩
    rcases L.seek_total a1.live sm with ⟨w2, h2⟩ | ⟨x, w2, h2⟩
    · obtain ⟨o2, l2, sl2, m2⟩ := sonly h2
      have p2 := L.seek_ok a1.live h2
      rw [Act.bind_ok h2, writeSize_eq p e s (by rw [i.size]; omega), i.size]
      have wonly : ∀ {r w3}, B.writeAll s (le64 pre.length) w2 = (r, w3) → Only L w2 w3 (· = L.loc o name) := by
        intro r w3 h3
        have k3 := L.write_keeps l2 h3
        exact ⟨fun l hl => .write l2 h3 (by rw [sl2]; exact hl), k3.2.2.1, k3.2.2.2.2⟩
      rcases L.write_total (le64 pre.length) l2 (by rw [sl2, m2]; simp) with ⟨w3, h3⟩ | ⟨x, w3, h3⟩
      · left
        refine ⟨w3, h3, (o1.trans o2).trans (wonly h3), ?_⟩
        have := (L.write_ok l2 (by rw [sl2]; exact m2) h3).1
        rw [sl2, p2, putAt_inside, length_le64, List.append_assoc, drop8_le64, ← List.append_assoc] at this
        exact this
      · right
        obtain ⟨h', hp, m3, _⟩ := L.write_err l2 (by rw [sl2]; exact m2) h3
        rw [sl2, p2, putAt_inside] at m3
        refine ⟨x, w3, _, h3, (o1.trans o2).trans (wonly h3), m3, allOrNothing_header (by omega) i.le i.clean hp, ?_⟩
        intro nf
        obtain ⟨w4, h4⟩ := L.write_noFault (b := le64 pre.length) l2 (by rw [sl2, m2]; simp) (o2.noFault (o1.noFault nf))
        rw [h3] at h4; cases h4
    · right
      obtain ⟨o2, l2, sl2, m2⟩ := sonly h2
      rw [List.append_assoc] at m2
      refine ⟨x, w2, _, Act.bind_err h2, o1.trans o2, m2, allOrNothing_zero _ _, ?_⟩
      intro nf
      obtain ⟨w4, h4⟩ := L.seek_noFault a1.live sm (o1.noFault nf)
      rw [h2] at h4; cases h4
  · right
    have m1 := a1.medium
    rw [List.append_assoc] at m1
    exact ⟨x, w1, _, Act.bind_err h1, o1, m1, allOrNothing_zero _ _, nf⟩

theorem finished_allOrNothing {pre c : Bytes} (hb : pre.length < 2 ^ 63) (hle : pre.length ≤ c.length)
    (hclean : c.length = pre.length → c = pre) : AllOrNothing (le64 pre.length ++ c ++ zeros 8) pre := by
  have := allOrNothing_header (h' := le64 pre.length) hb hle hclean (List.prefix_refl _)
  rw [length_le64, List.append_assoc, drop8_le64, ← List.append_assoc] at this
  exact this

/-- Closing an open handle. -/
inductive Closed [DiffLib] (p : Profile) (e : Endian) (L : Laws B) (o : B.Obj) (name schema : String) (h : Handle B) (pre c : Bytes) (w w' : B.W) :
    Except RErr (Slice B.Base) × Handle B → Prop
  /-- some I/O failed before the size was written -/
  | failed (x : IoErr) (nf : ¬ L.noFault w) : Closed p e L o name schema h pre c w w' (.error (.io x name), h)
  /-- everything is written, the final read failed -/
  | unread (x : RErr) (hm : L.medium w' (L.loc o name) = some (le64 pre.length ++ c ++ zeros 8))
      (nf : c = pre → L.readable (strBytes schema) → ¬ L.noFault w) :
      Closed p e L o name schema h pre c w w' (.error x, { h with stream := none })
  | ok (s : Slice B.Base) (hm : L.medium w' (L.loc o name) = some (image pre)) (hc : c = pre) (hs : B.deref w' s = .ok pre)
      (hr : ∃ w1, Unseen L o name w1 ∧ Storage.read B p e o name schema w1 = (.ok s, w')) (hb : L.bloc s.base = L.loc o name) :
      Closed p e L o name schema h pre c w w' (.ok s, { h with stream := none })

theorem Writing.close [DiffLib] {w : B.W} {h : Handle B} {pre c : Bytes} (i : Writing L o name schema w h pre c)
    (hu : Unseen L o name w)
    (hne : L.loc o (Storage.schemaName name) ≠ L.loc o name) (p : Profile) (e : Endian) (hb : pre.length < 2 ^ 63) :
    ∃ r w', h.close p e w = (.ok r, w') ∧ Closed p e L o name schema h pre c w w' r ∧ Off L w w' (OwnLoc L o name) ∧
      L.medium w' (L.loc o (Storage.schemaName name)) = some (strBytes schema) ∧
      ∃ d, L.medium w' (L.loc o name) = some d ∧ AllOrNothing d pre := by
  obtain ⟨s, hs, _⟩ := i.stream
  have own : ∀ l, l = L.loc o name → OwnLoc L o name l := fun _ => .inl
  unfold Handle.close
  rw [hs]
  change ∃ r w', (Act.attempt (h.finish p e s) >>= _) w = _ ∧ _
  have fin := i.finish p e hb hs
  rcases fin with ⟨w1, h1, o1, m1⟩ | ⟨x, w1, d, h1, o1, m1, an, nf⟩
  · rw [Act.bind_ok (Act.attempt_ok h1)]
    change ∃ r w', (Act.attempt (Storage.read B p e h.obj h.name h.schema) >>= _) w1 = _ ∧ _
    have hread : Storage.read B p e h.obj h.name h.schema = Storage.read B p e o name schema := by
      rw [i.obj, i.nameEq, i.schemaEq]
    rw [hread]
    have s1 : L.medium w1 (L.loc o (Storage.schemaName name)) = some (strBytes schema) := (o1.keeps _ hne).medium.trans i.schemaStored
    have c1 := (hu.only o1).data
    have c2 := (hu.only o1).schema
    have hsz : ∀ d, L.medium w1 (L.loc o name) = some d → leNat (d.take 8) + 16 < 2 ^ 64 := by
      intro d hd
      rw [m1] at hd; cases hd
      rw [List.append_assoc, take8_le64, leNat_le64 (by omega)]; omega
    have an := finished_allOrNothing hb i.le i.clean
    obtain ⟨r, w2, h2, o2, k2, hr⟩ := read_cases (expected := schema) p e hne c1 c2 hsz
    have m2 := (k2 (L.loc o name)).trans m1
    rcases hr with ⟨x, rfl⟩ | ⟨sl, d, y, rfl, hd, hsc, hh, hdr, hbl⟩
    · refine ⟨_, w2, Act.bind_ok (Act.attempt_err h2), .unread x m2 ?_, (o1.off own).trans o2, (k2 _).trans s1, _, m2, an⟩
      intro hc hr nf
      have hH : Holds (le64 pre.length ++ c ++ zeros 8) pre := by rw [hc]; exact holds_image pre (by omega)
      obtain ⟨s', w', h3, _⟩ := read_new_ok p e hne (o1.noFault nf) m1 s1 hH (by omega) hr c1 c2
      rw [h2] at h3; cases h3
    · rw [m1] at hd; cases hd
      have hc : c.length = pre.length := by
        have e1 := hh.size
        rw [List.append_assoc, take8_le64, leNat_le64 (by omega)] at e1
        have e2 := hh.length
        simp [length_le64, zeros] at e2
        omega
      have hc' := i.clean hc
      have hy : y = pre := by
        have e1 := hh.size
        rw [List.append_assoc, take8_le64, leNat_le64 (by omega)] at e1
        rcases an.reads y hh with h | ⟨h, _⟩
        · exact h
        · rw [h] at e1; rw [h]; exact (List.eq_nil_of_length_eq_zero e1).symm
      refine ⟨_, w2, Act.bind_ok (Act.attempt_ok h2), .ok sl ?_ hc' (by rw [← hy]; exact hdr) ⟨w1, hu.only o1, h2⟩ hbl, (o1.off own).trans o2,
        (k2 _).trans s1, _, m2, an⟩
      rw [m2, hc']; rfl
  · refine ⟨_, w1, ?_, .failed x nf, o1.off own, (o1.keeps _ hne).medium.trans i.schemaStored, d, m1, an⟩
    rw [Act.bind_ok (Act.attempt_err h1)]
    change (Res.ok (Except.error (RErr.io x h.name), h), w1) = _
    rw [i.nameEq]

/-- Whatever has been read before: without faults, closing leaves everything at the place of the resource. -/
theorem Writing.close_stored [DiffLib] {w : B.W} {h : Handle B} {pre c : Bytes} (i : Writing L o name schema w h pre c)
    (hne : L.loc o (Storage.schemaName name) ≠ L.loc o name) (p : Profile) (e : Endian) (hb : pre.length < 2 ^ 63)
    (hn : L.noFault w) {r w'} (hc : h.close p e w = (r, w')) :
    L.medium w' (L.loc o name) = some (le64 pre.length ++ c ++ zeros 8) ∧
    L.medium w' (L.loc o (Storage.schemaName name)) = some (strBytes schema) ∧ ∀ a, r = .ok a → a.2.isOpen = false := by
  obtain ⟨s, hs, _⟩ := i.stream
  rcases i.finish p e hb hs with ⟨w1, h1, o1, m1⟩ | ⟨_, _, _, _, _, _, _, nf⟩
  · unfold Handle.close at hc
    rw [hs] at hc
    change (Act.attempt (h.finish p e s) >>= _) w = _ at hc
    rw [Act.bind_ok (Act.attempt_ok h1)] at hc
    have h2 : ∃ r2 w2, (Storage.read B p e h.obj h.name h.schema) w1 = (r2, w2) := ⟨_, _, rfl⟩
    obtain ⟨r2, w2, h2⟩ := h2
    have m2 := storageRead_medium (L := L) h2
    change (Act.attempt (Storage.read B p e h.obj h.name h.schema) >>= _) w1 = _ at hc
    have fin : L.medium w2 (L.loc o name) = some (le64 pre.length ++ c ++ zeros 8) ∧
        L.medium w2 (L.loc o (Storage.schemaName name)) = some (strBytes schema) :=
      ⟨(m2 _).trans m1, (m2 _).trans ((o1.keeps _ hne).medium.trans i.schemaStored)⟩
    cases r2 with
    | ok s2 => rw [Act.bind_ok (Act.attempt_ok h2)] at hc; cases hc; exact ⟨fin.1, fin.2, fun a ha => by cases ha; rfl⟩
    | err x => rw [Act.bind_ok (Act.attempt_err h2)] at hc; cases hc; exact ⟨fin.1, fin.2, fun a ha => by cases ha; rfl⟩
    | panic =>
      rw [Act.bind_panic (by unfold Act.attempt; rw [h2])] at hc; cases hc; exact ⟨fin.1, fin.2, fun a ha => by cases ha⟩
    | ub =>
      rw [Act.bind_def] at hc
      have : (Act.attempt (Storage.read B p e h.obj h.name h.schema) : Act B.W Empty _) w1 = (.ub, w2) := by
        unfold Act.attempt; rw [h2]
      rw [this] at hc; cases hc; exact ⟨fin.1, fin.2, fun a ha => by cases ha⟩
  · exact absurd hn nf

/-- Reading again what has been read: the same slice with the same bytes, if nothing happened to it in between. -/
theorem read_again [DiffLib] {p : Profile} {e : Endian} {expected : String} {w0 w w' : B.W} {s : Slice B.Base}
    (hne : L.loc o (Storage.schemaName name) ≠ L.loc o name) (hi : L.inv w') (hn : L.noFault w')
    (h : Storage.read B p e o name expected w0 = (.ok s, w))
    (k1 : Keeps L w w' (L.loc o name)) (k2 : Keeps L w w' (L.loc o (Storage.schemaName name))) :
    ∃ w'', Storage.read B p e o name expected w' = (.ok s, w'') ∧ B.deref w'' s = B.deref w s := by
  unfold Storage.read at h
  obtain ⟨sd, w1, h1, h⟩ := Act.bind_eq_ok h
  obtain ⟨ss, w2, h2, h⟩ := Act.bind_eq_ok h
  have mok : ∀ {n : String} {w w' : B.W} {s : Slice B.Base}, (B.readResource o n).mapErr (RErr.io · name) w = (.ok s, w') →
      B.readResource o n w = (.ok s, w') := by
    intro n w w' s h
    unfold Act.mapErr at h
    split at h <;> cases h
    assumption
  replace h1 := mok h1
  replace h2 := mok h2
  have hw2 : w2 = w := by
    have := (checkResource_same p e name expected (w := w2) (w' := w2) (sd := sd) (ss := ss) rfl rfl).2.1
    rw [h] at this; exact this.symm
  subst hw2
  have hb := (checkResource_same p e name expected (w := w2) (w' := w2) (sd := sd) (ss := ss) rfl rfl).2.2 s (by rw [h])
  have cd : L.cache w2 o name = some sd := by
    rw [(L.read_keeps h2).2.2.1 _ _ hne.symm]; exact (L.read_ok h1).1
  have cs : L.cache w2 o (Storage.schemaName name) = some ss := (L.read_ok h2).1
  have cd' := (k1.cache _ _ rfl).trans cd
  have cs' := (k2.cache _ _ rfl).trans cs
  have bd := L.inv_bloc hi cd'
  have bs := L.inv_bloc hi cs'
  obtain ⟨w3, h3⟩ := L.read_cached hi hn cd'
  have q3 := L.read_keeps h3
  have cs3 : L.cache w3 o (Storage.schemaName name) = some ss := by rw [q3.2.2.1 _ _ hne]; exact cs'
  obtain ⟨w4, h4⟩ := L.read_cached (L.read_inv hi h3) (q3.2.2.2.2 hn) cs3
  have q4 := L.read_keeps h4
  have ed : B.content w4 sd.base = B.content w2 sd.base := by
    rw [q4.2.2.2.1 _ (.inr (by rw [cs3]; simp)), q3.2.2.2.1 _ (.inr (by rw [cd']; simp)), k1.content _ bd]
  have es : B.content w4 ss.base = B.content w2 ss.base := by
    rw [q4.2.2.2.1 _ (.inr (by rw [cs3]; simp)), q3.2.2.2.1 _ (.inr (by rw [cd']; simp)), k2.content _ bs]
  refine ⟨w4, ?_, deref_keeps (by rw [hb]; exact ed)⟩
  unfold Storage.read
  rw [Act.bind_ok (Act.mapErr_ok h3), Act.bind_ok (Act.mapErr_ok h4)]
  have same := checkResource_same p e name expected ed es
  rw [h] at same
  exact Prod.ext same.1 same.2.1

end

end Flatdata
