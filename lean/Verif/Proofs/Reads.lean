import Verif.Proofs.MultiVector
import Verif.Proofs.World
/-!
# Several reads one after the other
-/
namespace Flatdata
open Spec
variable {B : Backend} {L : Laws B}

/-- Reading a resource touches only what belongs to it, and changes nothing that is stored. -/
theorem storageRead_off [DiffLib] {p : Profile} {e : Endian} {o : B.Obj} {name expected : String} {w w' : B.W}
    {r : Res RErr (Slice B.Base)} (h : Storage.read B p e o name expected w = (r, w')) :
    Off L w w' (OwnLoc L o name) ∧ ∀ l, L.medium w' l = L.medium w l := by
  have step : ∀ n, n = name ∨ n = Storage.schemaName name →
      Act.Pres (fun w' => Off L w w' (OwnLoc L o name) ∧ ∀ l, L.medium w' l = L.medium w l) (B.readResource o n) := by
    intro n hn w1 h1
    have hr : B.readResource o n w1 = ((B.readResource o n w1).1, (B.readResource o n w1).2) := rfl
    refine ⟨h1.1.trans ⟨fun l hl => .read hr ?_, (L.read_keeps hr).2.2.2.2⟩, fun l => ((L.read_keeps hr).1 l).trans (h1.2 l)⟩
    rintro rfl
    rcases hn with rfl | rfl
    · exact hl (.inl rfl)
    · exact hl (.inr rfl)
  have : Act.Pres (fun w' => Off L w w' (OwnLoc L o name) ∧ ∀ l, L.medium w' l = L.medium w l)
      (Storage.read B p e o name expected) := by
    refine .bind (.mapErr (step _ (.inl rfl))) fun sd => .bind (.mapErr (step _ (.inr rfl))) fun ss => ?_
    intro w hw
    rw [(checkResource_same p e name expected (w := w) (w' := w) (sd := sd) (ss := ss) rfl rfl).2.1]
    exact hw
  have := this w ⟨.refl _ _, fun _ => rfl⟩
  rw [h] at this; exact this

/-- The result of a successful read lies in the resource. -/
theorem read_ok_bloc [DiffLib] {p : Profile} {e : Endian} {o : B.Obj} {name expected : String} {w w' : B.W} {s : Slice B.Base}
    (hne : L.loc o (Storage.schemaName name) ≠ L.loc o name)
    (hkd : L.cache w o name = none) (hkc : L.cache w o (Storage.schemaName name) = none)
    (h : Storage.read B p e o name expected w = (.ok s, w')) : L.bloc s.base = L.loc o name := by
  have h0 := h
  unfold Storage.read at h
  obtain ⟨sd, w1, h1, h⟩ := Act.bind_eq_ok h
  obtain ⟨ss, w2, h2, h⟩ := Act.bind_eq_ok h
  have me : ∀ {n : String} {w w' : B.W} {s : Slice B.Base},
      (B.readResource o n).mapErr (RErr.io · name) w = (.ok s, w') → B.readResource o n w = (.ok s, w') := by
    intro n w w' s h
    unfold Act.mapErr at h
    split at h <;> cases h
    assumption
  have h1 := me h1
  have h2 := me h2
  obtain ⟨d, hd, e1, b1⟩ := readResource_ok_new hkd h1
  have k1 := L.read_keeps h1
  obtain ⟨c, hc, e2, b2⟩ := readResource_ok_new ((k1.2.2.1 _ _ hne).trans hkc) h2
  have k2 := L.read_keeps h2
  have e1' : B.deref w2 sd = .ok d := by
    rw [deref_keeps (k2.2.2.2.1 sd.base (.inl (by rw [b1]; exact fun h => hne h.symm)))]; exact e1
  have hr := read_from p e h1 h2 e1' e2 (expected := expected)
  rw [h0] at hr
  cases hv : verdict p name expected d c with
  | ok x => rw [hv] at hr; cases hr; exact b1
  | err x => rw [hv] at hr; cases hr
  | panic => rw [hv] at hr; cases hr
  | ub => rw [hv] at hr; cases hr

end Flatdata
