import Verif.Props.MvClose
/-!
# C15, C25: `ResourceHandle`
-/
namespace Flatdata
open Spec StorageExample

/-- The text of a handle tells whether it is open and how many bytes have been written. -/
theorem C15_handle [DiffLib] (B : Backend) (p : Profile) (e : Endian) (o : B.Obj) (name schema : String) (s : B.Strm) (w : B.W) :
    (∀ h w', Handle.tryNew p e o name schema s w = (.ok h, w') → h.debug = "ResourceHandle { is_open: true, size_in_bytes: 0 }") ∧
    (∀ (h h' : Handle B) d w', h.size + d.length < 2 ^ 64 → h.write p d w = (.ok h', w') →
      h'.debug = "ResourceHandle { is_open: true, size_in_bytes: " ++ toString (h.size + d.length) ++ " }") ∧
    ∀ (h h' : Handle B) r w', h.close p e w = (.ok (.ok r, h'), w') →
      h'.debug = "ResourceHandle { is_open: false, size_in_bytes: " ++ toString h.size ++ " }" := by
  refine ⟨?_, ?_, ?_⟩
  · intro h w' hc
    unfold Handle.tryNew at hc
    obtain ⟨_, _, _, hc⟩ := Act.bind_eq_ok hc
    cases hc
    change "ResourceHandle { is_open: " ++ "true" ++ ", size_in_bytes: " ++ toString 0 ++ " }" = _
    decide
  · intro h h' d w' hb hw
    unfold Handle.write at hw
    cases hs : h.stream with
    | none => rw [hs] at hw; cases hw
    | some s =>
      rw [hs] at hw
      obtain ⟨_, _, _, hw⟩ := Act.bind_eq_ok hw
      obtain ⟨n, _, hn, hw⟩ := Act.bind_eq_ok hw
      cases hw
      rw [uadd_ok (by unfold usizeMod; omega)] at hn
      cases hn
      unfold Handle.debug Handle.isOpen
      simp
  · intro h h' r w' hc
    unfold Handle.close at hc
    cases hs : h.stream with
    | none => rw [hs] at hc; cases hc
    | some s =>
      rw [hs] at hc
      obtain ⟨r1, w1, h1, hc⟩ := Act.bind_eq_ok hc
      cases r1 with
      | error x => cases hc
      | ok _ =>
        obtain ⟨r2, w2, h2, hc⟩ := Act.bind_eq_ok hc
        cases hc
        rfl

/-- A copy of a handle stays open when the handle is closed, and panics when dropped. -/
theorem C25_clone_panics [DiffLib] (B : Backend) (p : Profile) (e : Endian) (h h' : Handle B) (r : Slice B.Base) (w w' w2 : B.W)
    (hc : h.close p e w = (.ok (.ok r, h'), w')) :
    (h'.drop : Act B.W Empty Unit) w2 = (.ok (), w2) ∧ (h.clone.drop : Act B.W Empty Unit) w2 = (.panic, w2) := by
  cases hs : h.stream with
  | none => unfold Handle.close at hc; rw [hs] at hc; cases hc
  | some s =>
    rcases C25_after_close B p e h h' s hs (.ok r) w w' hc with ⟨h1, _⟩ | ⟨_, x, h1, _⟩
    · refine ⟨?_, ?_⟩
      · unfold Handle.drop; rw [h1]; rfl
      · unfold Handle.drop Handle.isOpen Handle.clone; rw [hs]; rfl
    · cases h1

namespace HandleExample

/-- Writes a byte, closes the handle, writes another byte through a copy made before. -/
def cloned : Act FileW IoErr (Handle file) := do
  let s ← file.createOutputStream objD "x"
  let h ← Handle.tryNew (B := file) .debug .little objD "x" "s" s
  let t ← file.createOutputStream objD "x.schema"
  Storage.writeSchema file "s" t
  let h ← h.write .debug [1#8]
  let c := h.clone
  let r ← (@Handle.close file .debug .little naiveDiff h).mapErr Empty.elim
  match r.1 with
  | .ok _ => c.write .debug [9#8]
  | .error _ => Act.fail .unexpectedEof

/-- ... what a later process reads. -/
def reread : Option Bytes :=
  match cloned (disk0 []) with
  | (.ok _, w) => match @Storage.read file .debug .little naiveDiff objD "x" "s" (MvExample.restart w) with
    | (.ok r, w1) => match file.deref w1 r with
      | .ok b => some b
      | _ => none
    | _ => none
  | _ => none

end HandleExample

/-- Writing through a copy of a closed handle is no error: it overwrites the data, as the stream is positioned behind the size. -/
theorem C25_clone_overwrites : HandleExample.reread = some [9#8] := by decide +kernel

/-- That run also meets the hypotheses of `C15_handle` and `C25_clone_panics`. -/
example : ∃ (h h' : Handle file) (r : Slice file.Base) (w w' : FileW), @Handle.close file .debug .little naiveDiff h w = (.ok (.ok r, h'), w') ∧
    h.debug = "ResourceHandle { is_open: true, size_in_bytes: 1 }" ∧ h'.debug = "ResourceHandle { is_open: false, size_in_bytes: 1 }" ∧
    (h.clone.drop : Act FileW Empty Unit) w' = (.panic, w') := by
  have hok : (HandleExample.cloned (disk0 [])).1.isOk = true := by decide +kernel
  obtain ⟨c, w9, h⟩ := VecExample.isOk_run hok
  unfold HandleExample.cloned at h
  obtain ⟨s, w1, _, h⟩ := Act.bind_eq_ok h
  obtain ⟨h1, w2, hn, h⟩ := Act.bind_eq_ok h
  obtain ⟨t, w3, _, h⟩ := Act.bind_eq_ok h
  obtain ⟨_, w4, _, h⟩ := Act.bind_eq_ok h
  obtain ⟨h2, w5, hw, h⟩ := Act.bind_eq_ok h
  obtain ⟨r, w6, hc, h⟩ := Act.bind_eq_ok h
  obtain ⟨r, h'⟩ := r
  cases r with
  | error x => cases h
  | ok r =>
    have hc' : @Handle.close file .debug .little naiveDiff h2 w5 = (.ok (.ok r, h'), w6) := by
      unfold Act.mapErr at hc
      generalize @Handle.close file .debug .little naiveDiff h2 w5 = x at hc
      obtain ⟨x, w⟩ := x
      cases x with
      | ok a => cases hc; rfl
      | err x => exact x.elim
      | panic => cases hc
      | ub => cases hc
    have h0 : h1.size = 0 := by
      unfold Handle.tryNew at hn
      obtain ⟨_, _, _, hn⟩ := Act.bind_eq_ok hn
      cases hn; rfl
    have hs : h2.size = 1 := by
      unfold Handle.write at hw
      cases hst : h1.stream with
      | none => rw [hst] at hw; cases hw
      | some x =>
        rw [hst] at hw
        obtain ⟨_, _, _, hw⟩ := Act.bind_eq_ok hw
        obtain ⟨_, _, hu, hw⟩ := Act.bind_eq_ok hw
        cases hw
        rw [h0] at hu
        cases hu; rfl
    refine ⟨h2, h', r, w5, w6, hc', ?_, ?_, ?_⟩
    · rw [(@C15_handle naiveDiff file .debug .little objD "x" "s" s w4).2.1 h1 h2 [1#8] w5 (by rw [h0]; decide) hw, h0]; decide
    · rw [(@C15_handle naiveDiff file .debug .little objD "x" "s" s w5).2.2 h2 h' r w6 hc', hs]; decide
    · exact (@C25_clone_panics naiveDiff file .debug .little h2 h' r w5 w6 w6 hc').2

end Flatdata
