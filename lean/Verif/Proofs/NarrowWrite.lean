import Verif.Spec.NarrowWrite
import Verif.Proofs.Narrow
import Verif.Proofs.Grows
/-!
# Vectors on hosts with another width of `usize`: what the narrow host does is what the wide host does, with the counters cut
-/
namespace Flatdata
open Spec

namespace Narrow
variable {m : Nat}

/-! ## With 64 bits these are the functions of the model -/

theorem alloc_wide (n : Nat) : alloc usizeMod n = Flatdata.alloc n := by
  unfold alloc Flatdata.alloc usizeMod
  by_cases h : n < 2 ^ 63
  · rw [if_pos (by omega), if_pos h]
  · rw [if_neg (by omega), if_neg h]

section
variable {B : Backend} {p : Profile} {e : Endian}

theorem write_wide (h : Handle B) (d : Bytes) : Handle.write usizeMod p h d = h.write p d := by
  unfold Handle.write Flatdata.Handle.write
  simp only [uadd_wide]
  rfl

theorem handleClose_wide [DiffLib] (h : Handle B) : Handle.close usizeMod p e h = h.close p e := by
  unfold Handle.close Flatdata.Handle.close
  simp only [read_wide]
  rfl

theorem flush_wide (v : ExtVec B) : ExtVec.flush usizeMod p v = v.flush p := by
  unfold ExtVec.flush Flatdata.ExtVec.flush
  simp only [usub_wide, write_wide]

theorem grow_wide (size : Nat) (v : ExtVec B) : ExtVec.grow usizeMod p size v = v.grow p size := by
  unfold ExtVec.grow Flatdata.ExtVec.grow ExtVec.flushIfFull Flatdata.ExtVec.flushIfFull
  simp only [usub_wide, uadd_wide, alloc_wide, flush_wide]

theorem close_wide [DiffLib] (v : ExtVec B) : ExtVec.close usizeMod p e v = v.close p e := by
  unfold ExtVec.close Flatdata.ExtVec.close ExtVec.closeHandle Flatdata.ExtVec.closeHandle
  simp only [flush_wide, handleClose_wide]
  rfl

theorem addToIndex_wide (V : Variadic) (v : MultiVec B) : MultiVec.addToIndex usizeMod p e V v = v.addToIndex p e V := by
  unfold MultiVec.addToIndex Flatdata.MultiVec.addToIndex
  simp only [usub_wide, uadd_wide, grow_wide]

theorem mflush_wide (v : MultiVec B) : MultiVec.flush usizeMod p v = v.flush p := by
  unfold MultiVec.flush Flatdata.MultiVec.flush
  simp only [usub_wide, uadd_wide, write_wide]

theorem mgrow_wide (V : Variadic) (v : MultiVec B) : MultiVec.grow usizeMod p e V v = v.grow p e V := by
  unfold MultiVec.grow Flatdata.MultiVec.grow MultiVec.flushIfFull Flatdata.MultiVec.flushIfFull
  simp only [mflush_wide, addToIndex_wide]
  rfl

theorem builderAdd_wide (t : BitVec 8) (size : Nat) (d : Bytes) :
    MultiVec.builderAdd usizeMod p t size d = Flatdata.MultiVec.builderAdd p t size d := by
  unfold MultiVec.builderAdd Flatdata.MultiVec.builderAdd
  simp only [usub_wide, uadd_wide, alloc_wide]

theorem mclose_wide [DiffLib] (V : Variadic) (v : MultiVec B) : MultiVec.close usizeMod p e V v = v.close p e V := by
  unfold MultiVec.close Flatdata.MultiVec.close MultiVec.closeFlush Flatdata.MultiVec.closeFlush MultiVec.closeIndex
    Flatdata.MultiVec.closeIndex MultiVec.closeData Flatdata.MultiVec.closeData
  simp only [addToIndex_wide, mflush_wide, close_wide, handleClose_wide]
  rfl

end

/-! ## Handles -/

section
variable {B : Backend}

/-- The handle of the narrow host: its counter shows the low bits. -/
def cutH (m : Nat) (h : Handle B) : Handle B := { h with size := h.size % m }

/-- The vector of the narrow host. -/
def cut (m : Nat) (v : ExtVec B) : ExtVec B := { v with len := v.len % m, handle := cutH m v.handle }

theorem cut_eq {v : ExtVec B} (h1 : v.len < m) (h2 : v.handle.size < m) : cut m v = v := by
  unfold cut cutH
  rw [Nat.mod_eq_of_lt h1, Nat.mod_eq_of_lt h2]

theorem uadd_cut {p : Profile} (a b : Nat) :
    (uadd m p (a % m) b = .ok ((a + b) % m) ∧ (p = .debug → a % m + b < m)) ∨
    (p = .debug ∧ m ≤ a % m + b ∧ uadd m p (a % m) b = .panic) := by
  by_cases h : a % m + b < m
  · left
    refine ⟨?_, fun _ => h⟩
    rw [uadd_ok h, Nat.add_mod, ← Nat.mod_eq_of_lt h, Nat.add_mod (a % m) b, Nat.mod_mod]
  · cases p with
    | debug => exact .inr ⟨rfl, by omega, uadd_panic h⟩
    | release =>
      refine .inl ⟨?_, nofun⟩
      unfold uadd
      rw [if_neg h]
      simp

theorem write_cut_ok {p : Profile} {h h' : Handle B} {d : Bytes} {w w' : B.W} (hb : h.size + d.length < 2 ^ 64)
    (hw : Flatdata.Handle.write p h d w = (.ok h', w')) :
    h' = { h with size := h.size + d.length } ∧
    ((Handle.write m p (cutH m h) d w = (.ok (cutH m h'), w') ∧ (p = .debug → h.size % m + d.length < m)) ∨
     (p = .debug ∧ m ≤ h.size % m + d.length ∧ Handle.write m p (cutH m h) d w = (.panic, w'))) := by
  unfold Flatdata.Handle.write at hw
  unfold Handle.write
  change _ ∧ (((match h.stream with | none => _ | some s => _ : Act B.W IoErr (Handle B)) w = _ ∧ _) ∨
    (_ ∧ _ ∧ (match h.stream with | none => _ | some s => _ : Act B.W IoErr (Handle B)) w = _))
  cases hs : h.stream with
  | none => rw [hs] at hw; cases hw
  | some s =>
    rw [hs] at hw
    obtain ⟨_, w1, h1, hw⟩ := Act.bind_eq_ok hw
    obtain ⟨n, w2, h2, hw⟩ := Act.bind_eq_ok hw
    rw [Flatdata.uadd_ok hb] at h2
    cases h2
    cases hw
    refine ⟨rfl, ?_⟩
    dsimp only
    rcases uadd_cut (p := p) h.size d.length with ⟨h3, h4⟩ | ⟨h3, h4, h5⟩
    · left
      refine ⟨?_, h4⟩
      rw [Act.bind_ok h1]
      change (Act.lift (uadd m p (h.size % m) d.length) >>= _) w' = _
      rw [h3]
      change (Res.ok (⟨h.stream, _, _, _, _⟩ : Handle B), w') = _
      rw [hs]
      rfl
    · right
      refine ⟨h3, h4, ?_⟩
      rw [Act.bind_ok h1]
      change (Act.lift (uadd m p (h.size % m) d.length) >>= _) w' = _
      rw [h5]
      rfl

theorem write_cut_err {p : Profile} {h : Handle B} {d : Bytes} {w w' : B.W} {x : IoErr}
    (hw : Flatdata.Handle.write p h d w = (.err x, w')) : Handle.write m p (cutH m h) d w = (.err x, w') := by
  unfold Flatdata.Handle.write at hw
  unfold Handle.write
  change (match h.stream with | none => _ | some s => _ : Act B.W IoErr (Handle B)) w = _
  cases hs : h.stream with
  | none => rw [hs] at hw; exact hw
  | some s =>
    rw [hs] at hw
    dsimp only at hw ⊢
    rw [Act.bind_def] at hw ⊢
    cases h1 : B.writeAll s d w with
    | mk r w1 =>
      rw [h1] at hw
      cases r with
      | ok u =>
        dsimp only at hw
        have lift_err : ∀ {α β : Type} {a : Out α} {f : α → Act B.W IoErr β} {w w' : B.W} {x},
            (Act.lift a >>= f) w = (.err x, w') → ∃ y, a = .ok y ∧ f y w = (.err x, w') := by
          intro α β a f w w' x h
          cases a with
          | ok y => exact ⟨y, rfl, h⟩
          | panic => cases h
          | ub => cases h
        obtain ⟨_, _, h⟩ := lift_err hw
        cases h
      | err y => exact hw
      | panic => cases hw
      | ub => cases hw

/-! ## External vectors -/

variable {L : Laws B} {o : B.Obj} {name schema : String} {size : Nat} {w : B.W} {v : ExtVec B} {pre buf : List Bytes} {c : Bytes}

theorem body (i : EvInv L o name schema size w v pre buf c) (m : Nat) (p : Profile) :
    usub m p v.data.length paddingSize = .ok buf.flatten.length ∧ sliceRange v.data 0 buf.flatten.length = .ok buf.flatten := by
  have hl : v.data.length = buf.flatten.length + 8 := by rw [i.rep.eq]; simp [zeros]
  refine ⟨?_, (i.rep.body p).2⟩
  rw [paddingSize_eq, usub_ok (by omega), hl]; rfl

theorem flush_cut_ok (i : EvInv L o name schema size w v pre buf c) {p : Profile} {v' : ExtVec B} {w' : B.W}
    (hb : (pre ++ buf).length * size < 2 ^ 64) (hf : v.flush p w = (.ok v', w')) :
    v'.data = zeros 8 ∧ v'.len = v.len ∧ v'.handle.size = v.handle.size + buf.flatten.length ∧
    ((ExtVec.flush m p (cut m v) w = (.ok (cut m v'), w') ∧ (p = .debug → v.handle.size % m + buf.flatten.length < m)) ∨
     (p = .debug ∧ m ≤ v.handle.size % m + buf.flatten.length ∧ ExtVec.flush m p (cut m v) w = (.panic, w'))) := by
  obtain ⟨e1, e2⟩ := i.rep.body p
  obtain ⟨n1, n2⟩ := body i m p
  have hsum : v.handle.size + buf.flatten.length < 2 ^ 64 := by rw [i.writing.size, i.length]; exact hb
  unfold Flatdata.ExtVec.flush at hf
  rw [e1] at hf
  change (Act.lift (sliceRange v.data 0 buf.flatten.length) >>= _) w = _ at hf
  rw [e2] at hf
  change (v.handle.write p buf.flatten >>= _) w = _ at hf
  obtain ⟨h', w1, hw, hf⟩ := Act.bind_eq_ok hf
  cases hf
  obtain ⟨rfl, hn⟩ := write_cut_ok (m := m) hsum hw
  refine ⟨rfl, rfl, rfl, ?_⟩
  have key : ExtVec.flush m p (cut m v) w = (Handle.write m p (cutH m v.handle) buf.flatten >>= fun h =>
      (pure { cut m v with data := List.replicate paddingSize 0#8, handle := h } : Act B.W IoErr (Flatdata.ExtVec B))) w := by
    unfold ExtVec.flush
    change (Act.lift (usub m p v.data.length paddingSize) >>= _) w = _
    rw [n1]
    change (Act.lift (sliceRange v.data 0 buf.flatten.length) >>= _) w = _
    rw [n2]
    rfl
  rw [key]
  rcases hn with ⟨hn, hd⟩ | ⟨hp, hd, hn⟩
  · refine .inl ⟨?_, hd⟩
    rw [Act.bind_ok hn]
    rfl
  · exact .inr ⟨hp, hd, Act.bind_panic hn⟩

theorem flush_cut_err (i : EvInv L o name schema size w v pre buf c) {p : Profile} {x : IoErr} {w' : B.W}
    (hf : v.flush p w = (.err x, w')) : ExtVec.flush m p (cut m v) w = (.err x, w') := by
  obtain ⟨e1, e2⟩ := i.rep.body p
  obtain ⟨n1, n2⟩ := body i m p
  unfold Flatdata.ExtVec.flush at hf
  rw [e1] at hf
  change (Act.lift (sliceRange v.data 0 buf.flatten.length) >>= _) w = _ at hf
  rw [e2] at hf
  change (v.handle.write p buf.flatten >>= _) w = _ at hf
  unfold ExtVec.flush
  change (Act.lift (usub m p v.data.length paddingSize) >>= _) w = _
  rw [n1]
  change (Act.lift (sliceRange v.data 0 buf.flatten.length) >>= _) w = _
  rw [n2]
  change (Handle.write m p (cutH m v.handle) buf.flatten >>= _) w = _
  rw [Act.bind_def] at hf
  cases hw : v.handle.write p buf.flatten w with
  | mk r w1 =>
    rw [hw] at hf
    cases r with
    | ok h => cases hf
    | err y => cases hf; exact Act.bind_err (write_cut_err hw)
    | panic => cases hf
    | ub => cases hf

/-- One `grow` that succeeds on the wide host. -/
theorem grow_cut_ok (i : EvInv L o name schema size w v pre buf c) (hne : L.loc o (Storage.schemaName name) ≠ L.loc o name)
    {p : Profile} {v' : ExtVec B} {pos : Nat} {w' : B.W} (h16 : 16 < m) (hs : 2 * size < m) (hd : 2 * v.data.length < m)
    (hb : ((pre ++ buf).length + 1) * size + 8 < 2 ^ 63) (hl64 : (pre ++ buf).length + 1 < 2 ^ 64)
    (hg : v.grow p size w = (.ok (v', pos), w')) :
    (ExtVec.grow m p size (cut m v) w = (.ok (cut m v', pos), w') ∧ 2 * v'.data.length < m ∧
      (p = .debug → (v.handle.size < m → v'.handle.size < m) ∧ (v.len < m → v'.len < m))) ∨
    (ExtVec.grow m p size (cut m v) w = (.panic, w') ∧ (m ≤ 2 * v'.data.length ∨ (p = .debug ∧
      (m ≤ (pre ++ buf).length * size ∨ m ≤ (pre ++ buf).length + 1)))) := by
  have hm : 0 < m := by omega
  have hmul : ((pre ++ buf).length + 1) * size = (pre ++ buf).length * size + size := by rw [Nat.add_mul, Nat.one_mul]
  rw [hmul] at hb
  have hpre : v.handle.size + buf.flatten.length = (pre ++ buf).length * size := by rw [i.writing.size, i.length]
  -- the flush
  have step : ∀ {v1 : ExtVec B} {w1 : B.W}, v.flushIfFull p w = (.ok v1, w1) →
      v1.len = v.len ∧ 2 * v1.data.length < m ∧
      ((ExtVec.flushIfFull m p (cut m v) w = (.ok (cut m v1), w1) ∧ (p = .debug → v.handle.size < m → v1.handle.size < m)) ∨
       (ExtVec.flushIfFull m p (cut m v) w = (.panic, w1) ∧ p = .debug ∧ m ≤ (pre ++ buf).length * size)) := by
    intro v1 w1 h
    unfold Flatdata.ExtVec.flushIfFull at h
    unfold ExtVec.flushIfFull
    change _ ∧ _ ∧ (((if v.data.length > bufferLimit then ExtVec.flush m p (cut m v) else pure (cut m v)) w = _ ∧ _) ∨
      ((if v.data.length > bufferLimit then ExtVec.flush m p (cut m v) else pure (cut m v)) w = _ ∧ _))
    by_cases hfull : v.data.length > bufferLimit
    · rw [if_pos hfull] at h ⊢
      obtain ⟨a1, a2, a3, a4⟩ := flush_cut_ok (m := m) i (by omega) h
      refine ⟨a2, by rw [a1]; simp [zeros]; omega, ?_⟩
      have hmodle : v.handle.size % m ≤ v.handle.size := Nat.mod_le _ _
      rcases a4 with ⟨a4, a5⟩ | ⟨a4, a5, a6⟩
      · refine .inl ⟨a4, fun hp hlt => ?_⟩
        have := a5 hp
        rw [Nat.mod_eq_of_lt hlt] at this
        omega
      · exact .inr ⟨a6, a4, by omega⟩
    · rw [if_neg hfull] at h ⊢
      cases h
      exact ⟨rfl, hd, .inl ⟨rfl, fun _ h => h⟩⟩
  rcases i.flushIfFull hne p (by omega) with ⟨v1, w1, pre', buf', c', h1, i1, e1, -, -, -, -⟩ | ⟨x, d', w1, h1, -⟩
  · obtain ⟨s1, s2, s3⟩ := step h1
    have hlen := i1.rep.length
    have hv1 : v1.len = (pre ++ buf).length := by rw [i1.len, ← e1, List.length_append]
    have hv : v.len = (pre ++ buf).length := by rw [← s1, hv1]
    unfold Flatdata.ExtVec.grow at hg
    rw [Act.bind_ok h1] at hg
    have hle : buf'.length * size ≤ (pre ++ buf).length * size := by
      rw [← e1]; exact Nat.mul_le_mul_right _ (by simp)
    rw [Flatdata.uadd_ok (by unfold usizeMod; omega)] at hg
    change (Act.lift (Flatdata.alloc (v1.data.length + size)) >>= _) w1 = _ at hg
    rw [show Flatdata.alloc (v1.data.length + size) = .ok () by unfold Flatdata.alloc; rw [if_pos (by omega)]] at hg
    change (Act.lift (Flatdata.uadd p v1.len 1) >>= _) w1 = _ at hg
    rw [Flatdata.uadd_ok (by unfold usizeMod; omega)] at hg
    change (Act.lift (Flatdata.usub p v1.data.length paddingSize) >>= _) w1 = _ at hg
    rw [paddingSize_eq, Flatdata.usub_ok (by omega)] at hg
    change (Act.lift (sliceFrom (resize0 v1.data (v1.data.length + size)) (v1.data.length - 8)) >>= _) w1 = _ at hg
    obtain ⟨y, w2, hsl, hg⟩ := Act.bind_eq_ok hg
    cases hg
    have hw2 : w1 = w' ∧ sliceFrom (resize0 v1.data (v1.data.length + size)) (v1.data.length - 8) = .ok y := by
      cases hh : sliceFrom (resize0 v1.data (v1.data.length + size)) (v1.data.length - 8) <;> rw [hh] at hsl <;> cases hsl
      exact ⟨rfl, rfl⟩
    obtain ⟨rfl, hsl'⟩ := hw2
    have hr : (resize0 v1.data (v1.data.length + size)).length = v1.data.length + size := by
      rw [(resize0_rep i1.rep).length, hlen, List.length_append, Nat.add_mul]; simp; omega
    rcases s3 with ⟨s3, s4⟩ | ⟨s3, s4, s5⟩
    · have hgo : ExtVec.grow m p size (cut m v) w = (Act.lift (alloc m (v1.data.length + size)) >>= fun _ =>
          Act.lift (uadd m p (v1.len % m) 1) >>= fun len => Act.lift (usub m p v1.data.length paddingSize) >>= fun pos =>
          Act.lift (sliceFrom (resize0 v1.data (v1.data.length + size)) pos) >>= fun _ =>
          (pure (⟨resize0 v1.data (v1.data.length + size), len, cutH m v1.handle⟩, pos) : Act B.W IoErr (ExtVec B × Nat))) w1 := by
        unfold ExtVec.grow
        rw [Act.bind_ok s3]
        change (Act.lift (uadd m p v1.data.length size) >>= _) w1 = _
        rw [uadd_ok (by omega)]
        rfl
      rw [hgo]
      unfold alloc
      by_cases ha : 2 * (v1.data.length + size) < m
      · rw [if_pos ha]
        change ((Act.lift (uadd m p (v1.len % m) 1) >>= _) w1 = _ ∧ _) ∨ ((Act.lift (uadd m p (v1.len % m) 1) >>= _) w1 = _ ∧ _)
        rcases uadd_cut (m := m) (p := p) v1.len 1 with ⟨h3, h4⟩ | ⟨h3, h4, h5⟩
        · left
          refine ⟨?_, by change 2 * (resize0 v1.data (v1.data.length + size)).length < m; rw [hr]; exact ha, fun hp => ⟨s4 hp, fun hl => ?_⟩⟩
          · rw [h3]
            change (Act.lift (usub m p v1.data.length paddingSize) >>= _) w1 = _
            rw [paddingSize_eq, usub_ok (by omega)]
            change (Act.lift (sliceFrom _ _) >>= _) w1 = _
            rw [hsl']
            rfl
          · have := h4 hp
            rw [Nat.mod_eq_of_lt (by omega)] at this
            exact this
        · right
          refine ⟨?_, .inr ⟨h3, .inr ?_⟩⟩
          · rw [h5]; rfl
          · have := Nat.mod_le v1.len m
            omega
      · rw [if_neg ha]
        right
        refine ⟨rfl, .inl ?_⟩
        change m ≤ 2 * (resize0 v1.data (v1.data.length + size)).length
        rw [hr]; omega
    · right
      refine ⟨?_, .inr ⟨s4, .inl s5⟩⟩
      unfold ExtVec.grow
      exact Act.bind_panic s3
  · unfold Flatdata.ExtVec.grow at hg
    rw [Act.bind_err h1] at hg
    cases hg

theorem lift_err {α β : Type} {a : Out α} {f : α → Act B.W IoErr β} {w w' : B.W} {x : IoErr}
    (h : (Act.lift a >>= f) w = (.err x, w')) : ∃ y, a = .ok y ∧ f y w = (.err x, w') := by
  cases a with
  | ok y => exact ⟨y, rfl, h⟩
  | panic => cases h
  | ub => cases h

/-- One `grow` that fails on the wide host. -/
theorem grow_cut_err (i : EvInv L o name schema size w v pre buf c) (hne : L.loc o (Storage.schemaName name) ≠ L.loc o name)
    {p : Profile} {x : IoErr} {w' : B.W} (hb : (pre ++ buf).length * size < 2 ^ 64)
    (hg : v.grow p size w = (.err x, w')) : ExtVec.grow m p size (cut m v) w = (.err x, w') := by
  rcases i.flushIfFull hne p hb with ⟨v1, w1, pre', buf', c', h1, -⟩ | ⟨y, d', w1, h1, -⟩
  · exfalso
    unfold Flatdata.ExtVec.grow at hg
    rw [Act.bind_ok h1] at hg
    obtain ⟨_, _, hg⟩ := lift_err hg
    obtain ⟨_, _, hg⟩ := lift_err hg
    obtain ⟨_, _, hg⟩ := lift_err hg
    obtain ⟨_, _, hg⟩ := lift_err hg
    obtain ⟨_, _, hg⟩ := lift_err hg
    cases hg
  · have hg' : v.grow p size w = (.err y, w1) := by unfold Flatdata.ExtVec.grow; rw [Act.bind_err h1]
    rw [hg] at hg'; cases hg'
    unfold ExtVec.grow
    refine Act.bind_err ?_
    unfold Flatdata.ExtVec.flushIfFull at h1
    unfold ExtVec.flushIfFull
    change (if v.data.length > bufferLimit then ExtVec.flush m p (cut m v) else pure (cut m v)) w = _
    by_cases hfull : v.data.length > bufferLimit
    · rw [if_pos hfull] at h1 ⊢
      exact flush_cut_err i h1
    · rw [if_neg hfull] at h1; cases h1

/-- One `grow` that fails on the narrow host. -/
theorem grow_err_wide (i : EvInv L o name schema size w v pre buf c) (hne : L.loc o (Storage.schemaName name) ≠ L.loc o name)
    {p : Profile} {x : IoErr} {w' : B.W} (hb : (pre ++ buf).length * size < 2 ^ 64)
    (hg : ExtVec.grow m p size (cut m v) w = (.err x, w')) : v.grow p size w = (.err x, w') := by
  rcases i.flushIfFull hne p hb with ⟨v1, w1, pre', buf', c', h1, -⟩ | ⟨y, d', w1, h1, -⟩
  · exfalso
    have hn : ExtVec.flushIfFull m p (cut m v) w = (.ok (cut m v1), w1) ∨ ExtVec.flushIfFull m p (cut m v) w = (.panic, w1) := by
      unfold Flatdata.ExtVec.flushIfFull at h1
      unfold ExtVec.flushIfFull
      change (if v.data.length > bufferLimit then ExtVec.flush m p (cut m v) else pure (cut m v)) w = _ ∨
        (if v.data.length > bufferLimit then ExtVec.flush m p (cut m v) else pure (cut m v)) w = _
      by_cases hfull : v.data.length > bufferLimit
      · rw [if_pos hfull] at h1 ⊢
        rcases (flush_cut_ok (m := m) i hb h1).2.2.2 with ⟨a, -⟩ | ⟨-, -, a⟩
        · exact .inl a
        · exact .inr a
      · rw [if_neg hfull] at h1 ⊢
        cases h1
        exact .inl rfl
    unfold ExtVec.grow at hg
    rcases hn with hn | hn
    · rw [Act.bind_ok hn] at hg
      obtain ⟨_, _, hg⟩ := lift_err hg
      obtain ⟨_, _, hg⟩ := lift_err hg
      obtain ⟨_, _, hg⟩ := lift_err hg
      obtain ⟨_, _, hg⟩ := lift_err hg
      obtain ⟨_, _, hg⟩ := lift_err hg
      cases hg
    · rw [Act.bind_panic hn] at hg
      cases hg
  · have hg' : v.grow p size w = (.err y, w1) := by unfold Flatdata.ExtVec.grow; rw [Act.bind_err h1]
    have := grow_cut_err (m := m) i hne hb hg'
    rw [hg] at this
    cases this
    exact hg'

end

/-! ## Histories -/

variable {k : Kind} {p : Profile} {e : Endian} {S : StructDef} {o : k.backend.Obj} {name schema : String}
  {w w1 : k.backend.W} {v v1 : ExtVec k.backend} {es : List (List HandleOp)}

theorem writeAt_length {p : Profile} {e : Endian} {S : StructDef} {data d : Bytes} {pos : Nat} {ops : List HandleOp}
    (h : Vector.writeAt p e S data pos ops = .ok d) : d.length = data.length := by
  unfold Vector.writeAt at h
  obtain ⟨x, h1, h⟩ := Out.bind_eq_ok.mp h
  cases h
  have := runHandle_length _ _ _ h1
  simp at this ⊢
  omega

/-- What is true of the wide vector that a history on the narrow host imitates. -/
structure Imitates (m : Nat) (p : Profile) (v : ExtVec k.backend) : Prop where
  buffer : 2 * v.data.length < m
  debug : p = .debug → v.handle.size < m ∧ v.len < m

/-- A history on the narrow host is one on the wide host, with the same effects. -/
theorem ngrows_sim (i : EvInv k.laws o name schema S.size w v [] [] []) (hu : Unseen k.laws o name w) (hs : 0 < S.size) (h16 : 16 < m)
    (hS : 2 * S.size < m) {v1' : ExtVec k.backend} (g : NGrows m k p e S o name w v es w1 v1') :
    es.length * S.size + 8 < 2 ^ 63 →
    ∃ v1, Grows k p e S o name w v es w1 v1 ∧ v1' = cut m v1 ∧ Imitates m p v1 := by
  have hne := k.loc_schema_ne o name
  induction g with
  | start =>
    intro _
    have h1 : v.len = 0 := i.len
    have h2 : v.handle.size = 0 := i.writing.size
    have h3 := i.rep.length
    simp at h3
    exact ⟨v, .start, (cut_eq (by omega) (by omega)).symm, by omega, fun _ => by omega⟩
  | @grow es w1 v1' v2' pos w2 ops d g h hw ih =>
    intro hb
    have hb' := hb
    rw [List.length_append, Nat.add_mul] at hb
    simp only [List.length_singleton, Nat.one_mul] at hb
    obtain ⟨v1, g1, rfl, im⟩ := ih (by omega)
    obtain ⟨pre, buf, c, i1, el, u1, nf, fl⟩ := grows_inv i hu hs g1 (by omega)
    have hlen := el.length_eq
    have hb2 : ((pre ++ buf).length + 1) * S.size + 8 < 2 ^ 63 := by rw [← hlen]; simpa using hb'
    have hl64 : (pre ++ buf).length + 1 < 2 ^ 64 := by
      have := Nat.le_mul_of_pos_right ((pre ++ buf).length + 1) hs
      omega
    rcases i1.grow hne p hs hb2 with ⟨v2, pos', w', pre', buf', c', h1, i2, -⟩ | ⟨x, d', w', h1, -, -⟩
    · rcases grow_cut_ok i1 hne h16 hS im.buffer hb2 hl64 h1 with ⟨h2, h3, h4⟩ | ⟨h2, -⟩
      · rw [h] at h2; cases h2
        refine ⟨{ v2 with data := d }, .grow g1 h1 hw, rfl, ?_, fun hp => ⟨(h4 hp).1 (im.debug hp).1, (h4 hp).2 (im.debug hp).2⟩⟩
        have : d.length = v2.data.length := writeAt_length hw
        change 2 * d.length < m
        rw [this]; exact h3
      · rw [h] at h2; cases h2
    · have h2 := grow_cut_err (m := m) i1 hne (by rw [Nat.add_mul] at hb2; omega) h1
      rw [h] at h2; cases h2
  | @failed es w1 v1' x w2 g h ih =>
    intro hb
    obtain ⟨v1, g1, rfl, im⟩ := ih hb
    obtain ⟨pre, buf, c, i1, el, u1, nf, fl⟩ := grows_inv i hu hs g1 hb
    have hlen := el.length_eq
    exact ⟨v1, .failed g1 (grow_err_wide i1 hne (by rw [← hlen]; omega) h), rfl, im⟩
  | @other es w1 v1' w2 g h ih =>
    intro hb
    obtain ⟨v1, g1, rfl, im⟩ := ih hb
    exact ⟨v1, .other g1 h, rfl, im⟩
  | @elsewhere es w1 v1' o' n r w2 g ho hi h ih =>
    intro hb
    obtain ⟨v1, g1, rfl, im⟩ := ih hb
    exact ⟨v1, .elsewhere g1 ho hi h, rfl, im⟩

/-- The counters of the vectors that the narrow host can count. -/
theorem grows_cut (i : EvInv k.laws o name schema S.size w v [] [] []) (hu : Unseen k.laws o name w) (hs : 0 < S.size)
    (g : Grows k p e S o name w v es w1 v1) (hb : es.length * S.size + 8 < 2 ^ 63) (hm : es.length * S.size < m) : cut m v1 = v1 := by
  obtain ⟨pre, buf, c, i1, el, -⟩ := grows_inv i hu hs g hb
  have hlen := el.length_eq
  have hle := Nat.le_mul_of_pos_right es.length hs
  have h1 := i1.length
  have h2 := i1.len
  have h3 := i1.writing.size
  rw [← hlen] at h1
  rw [List.length_append] at hlen
  exact cut_eq (by omega) (by omega)

/-- A history on the wide host is one on the narrow host that can count the bytes and hold the buffer. -/
theorem ngrows_of_grows (i : EvInv k.laws o name schema S.size w v [] [] []) (hu : Unseen k.laws o name w) (hs : 0 < S.size) (h16 : 16 < m)
    (g : Grows k p e S o name w v es w1 v1) :
    es.length * S.size + 8 < 2 ^ 63 → es.length * S.size < m →
    2 * (bufferLimit + S.size) < m ∨ 2 * (es.length * S.size + 8) < m →
    NGrows m k p e S o name w v es w1 v1 ∧ cut m v1 = v1 ∧ 2 * v1.data.length < m := by
  have hne := k.loc_schema_ne o name
  have hcut : ∀ {w1 : k.backend.W} {v1 : ExtVec k.backend} {es : List (List HandleOp)}, Grows k p e S o name w v es w1 v1 →
      es.length * S.size + 8 < 2 ^ 63 → es.length * S.size < m → cut m v1 = v1 := fun g => grows_cut i hu hs g
  induction g with
  | start =>
    intro h1 h2 h3
    have h4 := i.rep.length
    simp at h4
    exact ⟨.start, hcut .start h1 h2, by omega⟩
  | @grow es w1 v1 v2 pos w2 ops d g h hw ih =>
    intro hb hm hbuf
    have hc := hcut (.grow g h hw) hb hm
    have hb' := hb
    rw [List.length_append, Nat.add_mul] at hb hm hbuf
    simp only [List.length_singleton, Nat.one_mul] at hb hm hbuf
    obtain ⟨g1, c1, l1⟩ := ih (by omega) (by omega) (by omega)
    obtain ⟨pre, buf, c, i1, el, -⟩ := grows_inv i hu hs g (by omega)
    have hlen := el.length_eq
    have hb2 : ((pre ++ buf).length + 1) * S.size + 8 < 2 ^ 63 := by rw [← hlen]; simpa using hb'
    have hle := Nat.le_mul_of_pos_right ((pre ++ buf).length + 1) hs
    have hmul : ((pre ++ buf).length + 1) * S.size = (pre ++ buf).length * S.size + S.size := by rw [Nat.add_mul, Nat.one_mul]
    have hl64 : (pre ++ buf).length + 1 < 2 ^ 64 := by omega
    rw [hlen] at hb hm hbuf
    have hv2 : v2.data.length ≤ bufferLimit + S.size ∧ v2.data.length ≤ (pre ++ buf).length * S.size + S.size + 8 := by
      rcases i1.grow hne p hs hb2 with ⟨v2', pos', w', pre', buf', c', h1, i2, e2, -, -, h3, -⟩ | ⟨x, d', w', h1, -, -⟩
      · rw [h] at h1; cases h1
        refine ⟨h3, ?_⟩
        have h4 := i2.rep.length
        have h5 : buf'.length * S.size ≤ (pre ++ buf).length * S.size := by
          rw [← e2]; exact Nat.mul_le_mul_right _ (by simp)
        rw [List.length_append, Nat.add_mul] at h4
        simp only [List.length_singleton] at h4
        omega
      · rw [h] at h1; cases h1
    rcases grow_cut_ok i1 hne h16 (by omega) l1 hb2 hl64 h with ⟨h2, h3, -⟩ | ⟨-, h2 | ⟨-, h2 | h2⟩⟩
    · rw [c1] at h2
      have h5 : cut m v2 = v2 := by
        have h6 : (cut m { v2 with data := d }).len = v2.len := by rw [hc]
        have h7 : (cut m { v2 with data := d }).handle = v2.handle := by rw [hc]
        change v2.len % m = v2.len at h6
        change cutH m v2.handle = v2.handle at h7
        unfold cut
        rw [h6, h7]
      rw [h5] at h2
      refine ⟨.grow g1 h2 hw, hc, ?_⟩
      change 2 * d.length < m
      rw [writeAt_length hw]; exact h3
    · omega
    · omega
    · omega
  | @failed es w1 v1 x w2 g h ih =>
    intro hb hm hbuf
    obtain ⟨g1, c1, l1⟩ := ih hb hm hbuf
    obtain ⟨pre, buf, c, i1, el, -⟩ := grows_inv i hu hs g hb
    have h2 := grow_cut_err (m := m) i1 hne (by rw [← el.length_eq]; omega) h
    rw [c1] at h2
    exact ⟨.failed g1 h2, c1, l1⟩
  | @other es w1 v1 w2 g h ih =>
    intro hb hm hbuf
    obtain ⟨g1, c1, l1⟩ := ih hb hm hbuf
    exact ⟨.other g1 h, c1, l1⟩
  | @elsewhere es w1 v1 o' n r w2 g ho hi h ih =>
    intro hb hm hbuf
    obtain ⟨g1, c1, l1⟩ := ih hb hm hbuf
    exact ⟨.elsewhere g1 ho hi h, c1, l1⟩

/-! ## Closing -/

section
variable {B : Backend} {L : Laws B} {o : B.Obj} {name schema : String} {size : Nat} {w : B.W} {v : ExtVec B} {pre buf : List Bytes} {c : Bytes}

/-- Padding and size field, whatever the counter shows. -/
theorem finish_any {h : Handle B} {pre c : Bytes} (i : Writing L o name schema w h pre c) (p : Profile) (e : Endian) {n : Nat}
    (hb : n < 2 ^ 64) {s : B.Strm} (hs : h.stream = some s) :
    (∃ w1, Flatdata.Handle.finish p e { h with size := n } s w = (.ok (), w1) ∧ Only L w w1 (· = L.loc o name) ∧
        L.medium w1 (L.loc o name) = some (le64 n ++ c ++ zeros 8)) ∨
      (∃ x w1, Flatdata.Handle.finish p e { h with size := n } s w = (.err x, w1) ∧ ¬ L.noFault w) := by
  obtain ⟨s', hs', a⟩ := i.stream
  rw [hs] at hs'; cases hs'
  unfold Flatdata.Handle.finish Storage.writePadding
  rw [zeros8]
  rcases append_step a (zeros 8) with ⟨w1, h1, a1, o1⟩ | ⟨x, d', w1, h1, hp, a1, o1, nf⟩
  · rw [Act.bind_ok h1]
    have sm : L.medium w1 (L.sloc w1 s) ≠ none := by rw [a1.sloc, a1.medium]; simp
    rcases L.seek_total a1.live sm with ⟨w2, h2⟩ | ⟨x, w2, h2⟩
    · have k2 := L.seek_keeps a1.live h2
      have o2 : Only L w1 w2 (· = L.loc o name) := ⟨fun l hl => .seek a1.live h2 (by rw [a1.sloc]; exact hl), k2.2.2.1, k2.2.2.2.2⟩
      have l2 := (k2.2.1 s a1.live).1
      have sl2 := (k2.2.1 s a1.live).2.1.trans a1.sloc
      have m2 := (k2.1 _).trans a1.medium
      have p2 := L.seek_ok a1.live h2
      rw [Act.bind_ok h2, writeSize_eq p e s hb]
      rcases L.write_total (le64 n) l2 (by rw [sl2, m2]; simp) with ⟨w3, h3⟩ | ⟨x, w3, h3⟩
      · left
        have k3 := L.write_keeps l2 h3
        refine ⟨w3, h3, (o1.trans o2).trans ⟨fun l hl => .write l2 h3 (by rw [sl2]; exact hl), k3.2.2.1, k3.2.2.2.2⟩, ?_⟩
        have := (L.write_ok l2 (by rw [sl2]; exact m2) h3).1
        rw [sl2, p2, putAt_inside, length_le64, List.append_assoc, drop8_le64, ← List.append_assoc] at this
        exact this
      · right
        refine ⟨x, w3, h3, fun nf => ?_⟩
        obtain ⟨w4, h4⟩ := L.write_noFault (b := le64 n) l2 (by rw [sl2, m2]; simp) (o2.noFault (o1.noFault nf))
        rw [h3] at h4; cases h4
    · right
      refine ⟨x, w2, Act.bind_err h2, fun nf => ?_⟩
      obtain ⟨w4, h4⟩ := L.seek_noFault a1.live sm (o1.noFault nf)
      rw [h2] at h4; cases h4
  · exact .inr ⟨x, w1, Act.bind_err h1, nf⟩

theorem closeHandle_read [DiffLib] {p : Profile} {e : Endian} {v : ExtVec B} {s : B.Strm} {w1 w2 w3 : B.W} {r : Res RErr (Slice B.Base)}
    (hs : v.handle.stream = some s) (h2 : Flatdata.Handle.finish p e v.handle s w1 = (.ok (), w2))
    (hr : read m B p e v.handle.obj v.handle.name v.handle.schema w2 = (r, w3)) : ExtVec.closeHandle m p e v w1 = (r, w3) := by
  have e1 : ∀ {a : Except RErr (Slice B.Base)}, (Act.attempt (read m B p e v.handle.obj v.handle.name v.handle.schema) : Act B.W Empty _) w2 = (.ok a, w3) →
      Handle.close m p e v.handle w1 = (.ok (a, { v.handle with stream := none }), w3) := by
    intro a ha
    unfold Handle.close
    rw [hs]
    dsimp only
    rw [Act.bind_ok (Act.attempt_ok h2)]
    dsimp only
    rw [Act.bind_ok ha]
    rfl
  unfold ExtVec.closeHandle
  cases r with
  | ok sl => rw [Act.bind_ok (Act.mapErr_ok (e1 (Act.attempt_ok hr)))]; rfl
  | err x => rw [Act.bind_ok (Act.mapErr_ok (e1 (Act.attempt_err hr)))]; rfl
  | panic =>
    refine Act.bind_panic ?_
    unfold Handle.close
    rw [hs]
    dsimp only
    unfold Act.mapErr
    rw [Act.bind_ok (Act.attempt_ok h2)]
    dsimp only
    have : (Act.attempt (read m B p e v.handle.obj v.handle.name v.handle.schema) : Act B.W Empty _) w2 = (.panic, w3) := by
      unfold Act.attempt; rw [hr]
    rw [Act.bind_panic this]
  | ub =>
    rw [Act.bind_def]
    unfold Handle.close
    rw [hs]
    dsimp only
    unfold Act.mapErr
    rw [Act.bind_ok (Act.attempt_ok h2)]
    dsimp only
    have : (Act.attempt (read m B p e v.handle.obj v.handle.name v.handle.schema) : Act B.W Empty _) w2 = (.ub, w3) := by
      unfold Act.attempt; rw [hr]
    rw [Act.bind_def, this]

theorem closeHandle_failed [DiffLib] {p : Profile} {e : Endian} {v : ExtVec B} {s : B.Strm} {w1 w2 : B.W} {x : IoErr}
    (hs : v.handle.stream = some s) (h2 : Flatdata.Handle.finish p e v.handle s w1 = (.err x, w2)) :
    ExtVec.closeHandle m p e v w1 = (.panic, w2) := by
  have e1 : Handle.close m p e v.handle w1 = (.ok (.error (.io x v.handle.name), v.handle), w2) := by
    unfold Handle.close
    rw [hs]
    dsimp only
    rw [Act.bind_ok (Act.attempt_err h2)]
    rfl
  unfold ExtVec.closeHandle
  rw [Act.bind_ok (Act.mapErr_ok e1)]
  refine Act.bind_panic ?_
  unfold Handle.drop Handle.isOpen
  rw [hs]
  rfl

/-- Everything that closing a vector on the narrow host can do: it panics, or the bytes and the low bits of their number have been
stored and the resource is read. -/
theorem close_cut [DiffLib] (i : EvInv L o name schema size w v pre buf c) (hu : Unseen L o name w)
    (hne : L.loc o (Storage.schemaName name) ≠ L.loc o name) (p : Profile) (e : Endian) (hm : 0 < m) (hm64 : m ≤ 2 ^ 64)
    (hb : (pre ++ buf).length * size < 2 ^ 63) {r : Res RErr (Slice B.Base)} {w' : B.W}
    (hc : ExtVec.close m p e (cut m v) w = (r, w')) :
    (r = .panic ∧ (¬ L.noFault w ∨ (p = .debug ∧ m ≤ v.handle.size % m + buf.flatten.length))) ∨
    (∃ w1, L.medium w1 (L.loc o name) = some (le64 ((pre ++ buf).length * size % m) ++ (c ++ buf.flatten) ++ zeros 8) ∧
      Unseen L o name w1 ∧ (L.noFault w → L.noFault w1) ∧ read m B p e o name schema w1 = (r, w') ∧
      (p = .debug → v.handle.size % m + buf.flatten.length < m)) := by
  unfold ExtVec.close at hc
  rcases i.flush hne p (by omega) with ⟨v', w1, h1, i1, o1⟩ | ⟨x, d', w1, h1, i1, o1, nf⟩
  · obtain ⟨-, -, hsz, hn⟩ := flush_cut_ok (m := m) i (by omega) h1
    rcases hn with ⟨hn, hd⟩ | ⟨hp, hd, hn⟩
    · rw [Act.bind_ok (Act.attempt_ok hn)] at hc
      change ExtVec.closeHandle m p e (cut m v') w1 = _ at hc
      obtain ⟨s, hs, -⟩ := i1.writing.stream
      have htot : v'.handle.size = (pre ++ buf).length * size := by rw [hsz, i.writing.size, i.length]
      have hmod : (pre ++ buf).length * size % m < 2 ^ 64 := Nat.lt_of_lt_of_le (Nat.mod_lt _ hm) hm64
      rcases finish_any i1.writing p e hmod hs with ⟨w2, h2, o2, m2⟩ | ⟨x, w2, h2, nf⟩
      · right
        have hread : read m B p e v'.handle.obj v'.handle.name v'.handle.schema = read m B p e o name schema := by
          rw [i1.writing.obj, i1.writing.nameEq, i1.writing.schemaEq]
        have h2' : Flatdata.Handle.finish p e (cut m v').handle s w1 = (.ok (), w2) := by
          rw [← htot] at h2; exact h2
        refine ⟨w2, m2, (hu.only o1).only o2, fun h => o2.noFault (o1.noFault h), ?_, hd⟩
        rw [← hread]
        cases hr : read m B p e v'.handle.obj v'.handle.name v'.handle.schema w2 with
        | mk r2 w3 => exact (closeHandle_read (v := cut m v') hs h2' hr).symm.trans hc
      · left
        have h2' : Flatdata.Handle.finish p e (cut m v').handle s w1 = (.err x, w2) := by
          rw [← htot] at h2; exact h2
        cases (closeHandle_failed (v := cut m v') (m := m) hs h2').symm.trans hc
        exact ⟨rfl, .inl fun h => nf (o1.noFault h)⟩
    · left
      have : (Act.attempt (ExtVec.flush m p (cut m v)) : Act B.W RErr _) w = (.panic, w1) := by unfold Act.attempt; rw [hn]
      rw [Act.bind_panic this] at hc
      cases hc
      exact ⟨rfl, .inr ⟨hp, hd⟩⟩
  · left
    rw [Act.bind_ok (Act.attempt_err (flush_cut_err i h1))] at hc
    have hopen : (cut m v).handle.isOpen = true := i.writing.isOpen
    change (((cut m v).drop : Act B.W RErr Unit) >>= _) w1 = _ at hc
    have hdrop : ((cut m v).drop : Act B.W RErr Unit) w1 = (.panic, w1) := by
      unfold Flatdata.ExtVec.drop Handle.drop; rw [if_pos hopen]; rfl
    rw [Act.bind_panic hdrop] at hc
    cases hc
    exact ⟨rfl, .inl nf⟩

/-- The slices a read gets, for a resource that has not been read. -/
theorem slices_new {o : B.Obj} {name : String} {w w1 w2 : B.W} {sd ss : Slice B.Base} {d : Bytes}
    (hne : L.loc o (Storage.schemaName name) ≠ L.loc o name) (hu : Unseen L o name w) (hd : L.medium w (L.loc o name) = some d)
    (h1 : B.readResource o name w = (.ok sd, w1)) (h2 : B.readResource o (Storage.schemaName name) w1 = (.ok ss, w2)) :
    ∃ c, B.deref w2 sd = .ok d ∧ B.deref w2 ss = .ok c := by
  have k1 := L.read_keeps h1
  have hkc' : L.cache w1 o (Storage.schemaName name) = none := by rw [k1.2.2.1 _ _ hne]; exact hu.schema
  have k2 := L.read_keeps h2
  obtain ⟨d', hd', dd, bd⟩ := readResource_ok_new hu.data h1
  rw [hd] at hd'; cases hd'
  obtain ⟨c, hc, dc, bc⟩ := readResource_ok_new hkc' h2
  refine ⟨c, ?_, dc⟩
  rw [deref_keeps (k2.2.2.2.1 sd.base (.inl (by rw [bd]; exact hne.symm)))]; exact dd

theorem verdict_small [DiffLib] {p : Profile} {name expected : String} {d c : Bytes} (h : leNat (d.take 8) + 16 < m) (hm : m ≤ 2 ^ 64) :
    verdict m p name expected d c = Flatdata.verdict p name expected d c := by
  unfold verdict Flatdata.verdict
  rw [Nat.mod_eq_of_lt (by omega), if_neg (show ¬ m ≤ _ by omega), if_neg (show ¬ 2 ^ 64 ≤ _ by omega)]
  cases fromUtf8 c <;> rfl

/-- Reading a resource with a small size field is the same on both hosts, whatever fails. -/
theorem read_same [DiffLib] (p : Profile) (e : Endian) {o : B.Obj} {name expected : String} {w : B.W} {d : Bytes}
    (hne : L.loc o (Storage.schemaName name) ≠ L.loc o name) (hu : Unseen L o name w) (hd : L.medium w (L.loc o name) = some d)
    (h : leNat (d.take 8) + 16 < m) (hm : m ≤ 2 ^ 64) :
    read m B p e o name expected w = Storage.read B p e o name expected w := by
  unfold read Storage.read
  rcases L.read_total o name w with ⟨sd, w1, h1⟩ | ⟨x, w1, h1⟩
  · rw [Act.bind_ok (Act.mapErr_ok h1), Act.bind_ok (Act.mapErr_ok h1)]
    rcases L.read_total o (Storage.schemaName name) w1 with ⟨ss, w2, h2⟩ | ⟨x, w2, h2⟩
    · rw [Act.bind_ok (Act.mapErr_ok h2), Act.bind_ok (Act.mapErr_ok h2)]
      obtain ⟨c, a, b⟩ := slices_new hne hu hd h1 h2
      rw [checkResource_spec p e name expected a b (by omega), Flatdata.checkResource_spec p e name expected a b, verdict_small h hm]
    · rw [Act.bind_err (Act.mapErr_err h2), Act.bind_err (Act.mapErr_err h2)]
  · rw [Act.bind_err (Act.mapErr_err h1), Act.bind_err (Act.mapErr_err h1)]

/-- Whatever is read on the narrow host is shorter than `m`. -/
theorem read_ok_small [DiffLib] {p : Profile} {e : Endian} {o : B.Obj} {name expected : String} {w w' : B.W} {d : Bytes} {s : Slice B.Base}
    (hne : L.loc o (Storage.schemaName name) ≠ L.loc o name) (hu : Unseen L o name w) (hd : L.medium w (L.loc o name) = some d)
    (h16 : 16 ≤ m) (h : read m B p e o name expected w = (.ok s, w')) : d.length < m := by
  unfold read at h
  obtain ⟨sd, w1, h1, h⟩ := Act.bind_eq_ok h
  obtain ⟨ss, w2, h2, h⟩ := Act.bind_eq_ok h
  have mok : ∀ {n : String} {w w' : B.W} {s : Slice B.Base}, (B.readResource o n).mapErr (RErr.io · name) w = (.ok s, w') →
      B.readResource o n w = (.ok s, w') := by
    intro n w w' s h
    unfold Act.mapErr at h
    split at h <;> cases h
    assumption
  obtain ⟨c, a, b⟩ := slices_new hne hu hd (mok h1) (mok h2)
  rw [checkResource_spec p e name expected a b h16] at h
  unfold verdict at h
  by_cases c1 : d.length < 16
  · omega
  · rw [if_neg c1] at h
    by_cases c2 : m ≤ leNat (d.take 8) % m + 16
    · rw [if_pos c2] at h
      split at h <;> cases h
    · rw [if_neg c2] at h
      by_cases c3 : leNat (d.take 8) % m + 16 ≠ d.length
      · rw [if_pos c3] at h; cases h
      · omega

/-- Reading on the narrow host changes nothing that is stored. -/
theorem read_medium [DiffLib] {p : Profile} {e : Endian} {o : B.Obj} {name expected : String} {w w' : B.W} {d : Bytes} {r}
    (hne : L.loc o (Storage.schemaName name) ≠ L.loc o name) (hu : Unseen L o name w) (hd : L.medium w (L.loc o name) = some d)
    (h16 : 16 ≤ m) (h : read m B p e o name expected w = (r, w')) (l : L.Loc) : L.medium w' l = L.medium w l := by
  unfold read at h
  rcases L.read_total o name w with ⟨sd, w1, h1⟩ | ⟨x, w1, h1⟩
  · rw [Act.bind_ok (Act.mapErr_ok h1)] at h
    have e1 := (L.read_keeps h1).1 l
    rcases L.read_total o (Storage.schemaName name) w1 with ⟨ss, w2, h2⟩ | ⟨x, w2, h2⟩
    · rw [Act.bind_ok (Act.mapErr_ok h2)] at h
      obtain ⟨c, a, b⟩ := slices_new hne hu hd h1 h2
      rw [checkResource_spec p e name expected a b h16] at h
      cases h
      exact ((L.read_keeps h2).1 l).trans e1
    · rw [Act.bind_err (Act.mapErr_err h2)] at h
      cases h
      exact ((L.read_keeps h2).1 l).trans e1
  · rw [Act.bind_err (Act.mapErr_err h1)] at h
    cases h
    exact (L.read_keeps h1).1 l

/-- Without overflow checks, reading on the narrow host does not panic. -/
theorem read_release [DiffLib] {e : Endian} {o : B.Obj} {name expected : String} {w w' : B.W} {d : Bytes} {r}
    (hne : L.loc o (Storage.schemaName name) ≠ L.loc o name) (hu : Unseen L o name w) (hd : L.medium w (L.loc o name) = some d)
    (h16 : 16 ≤ m) (h : read m B .release e o name expected w = (r, w')) : r ≠ .panic := by
  unfold read at h
  rcases L.read_total o name w with ⟨sd, w1, h1⟩ | ⟨x, w1, h1⟩
  · rw [Act.bind_ok (Act.mapErr_ok h1)] at h
    rcases L.read_total o (Storage.schemaName name) w1 with ⟨ss, w2, h2⟩ | ⟨x, w2, h2⟩
    · rw [Act.bind_ok (Act.mapErr_ok h2)] at h
      obtain ⟨c, a, b⟩ := slices_new hne hu hd h1 h2
      rw [checkResource_spec .release e name expected a b h16] at h
      cases h
      unfold verdict
      rw [if_neg (show ¬ Profile.release = .debug by decide)]
      split
      · simp [toSlice]
      · split
        · simp [toSlice]
        · split
          · simp [toSlice]
          · cases fromUtf8 c with
            | none => simp [toSlice]
            | some s => dsimp only; split <;> simp [toSlice]
    · rw [Act.bind_err (Act.mapErr_err h2)] at h
      cases h
      simp
  · rw [Act.bind_err (Act.mapErr_err h1)] at h
    cases h
    simp

/-- Closing a handle that the narrow host can count is the same on both hosts, whatever fails. -/
theorem handleClose_same [DiffLib] {h : Handle B} {pre c : Bytes} (i : Writing L o name schema w h pre c) (hu : Unseen L o name w)
    (hne : L.loc o (Storage.schemaName name) ≠ L.loc o name) (p : Profile) (e : Endian) (hm : m ≤ 2 ^ 64) (hT : h.size + 16 < m) :
    Handle.close m p e h w = h.close p e w := by
  obtain ⟨s, hs, -⟩ := i.stream
  have hn64 : h.size < 2 ^ 64 := by omega
  unfold Handle.close Flatdata.Handle.close
  rw [hs]
  dsimp only
  rcases finish_any i p e hn64 hs with ⟨w2, h2, o2, m2⟩ | ⟨x, w2, h2, nf⟩
  · have h2 : Flatdata.Handle.finish p e h s w = (.ok (), w2) := h2
    have hrd : read m B p e h.obj h.name h.schema w2 = Storage.read B p e h.obj h.name h.schema w2 := by
      rw [i.obj, i.nameEq, i.schemaEq]
      exact read_same p e hne (hu.only o2) m2 (by rw [List.append_assoc, take8_le64, leNat_le64 hn64]; omega) hm
    rw [Act.bind_ok (Act.attempt_ok h2), Act.bind_ok (Act.attempt_ok h2)]
    dsimp only
    rw [Act.bind_def, Act.bind_def]
    have : (Act.attempt (read m B p e h.obj h.name h.schema) : Act B.W Empty _) w2 =
        Act.attempt (Storage.read B p e h.obj h.name h.schema) w2 := by
      unfold Act.attempt
      rw [hrd]
    rw [this]
  · have h2 : Flatdata.Handle.finish p e h s w = (.err x, w2) := h2
    rw [Act.bind_ok (Act.attempt_err h2), Act.bind_ok (Act.attempt_err h2)]

/-- Closing a vector that the narrow host can count is the same on both hosts, whatever fails. -/
theorem close_same [DiffLib] (i : EvInv L o name schema size w v pre buf c) (hu : Unseen L o name w)
    (hne : L.loc o (Storage.schemaName name) ≠ L.loc o name) (p : Profile) (e : Endian) (hm : m ≤ 2 ^ 64)
    (hb : (pre ++ buf).length * size < 2 ^ 63) (hT : (pre ++ buf).length * size + 16 < m) (hc : cut m v = v) :
    ExtVec.close m p e v w = v.close p e w := by
  have hsz := i.writing.size
  have hl := i.length
  unfold ExtVec.close Flatdata.ExtVec.close
  rcases i.flush hne p (by omega) with ⟨v', w1, h1, i1, o1⟩ | ⟨x, d', w1, h1, i1, o1, nf⟩
  · obtain ⟨-, -, hsz', hn⟩ := flush_cut_ok (m := m) i (by omega) h1
    have htot : v'.handle.size = (pre ++ buf).length * size := by rw [hsz', i.writing.size, i.length]
    rcases hn with ⟨hn, hd⟩ | ⟨hp, hd, hn⟩
    · have hc' : cut m v' = v' := by
        have h6 : (cut m v).len = v.len := by rw [hc]
        have hlen : v'.len = v.len := (flush_cut_ok (m := m) i (by omega) h1).2.1
        unfold cut cutH
        rw [hlen, htot, Nat.mod_eq_of_lt (show (pre ++ buf).length * size < m by omega), ← htot]
        change { v' with len := (cut m v).len } = v'
        rw [h6, ← hlen]
      rw [hc, hc'] at hn
      rw [Act.bind_ok (Act.attempt_ok hn), Act.bind_ok (Act.attempt_ok h1)]
      change ExtVec.closeHandle m p e v' w1 = v'.closeHandle p e w1
      have key := handleClose_same i1.writing (hu.only o1) hne p e hm (show v'.handle.size + 16 < m by omega)
      unfold ExtVec.closeHandle Flatdata.ExtVec.closeHandle
      rw [Act.bind_def, Act.bind_def]
      have : (Handle.close m p e v'.handle).mapErr (E' := RErr) Empty.elim w1 = (v'.handle.close p e).mapErr Empty.elim w1 := by
        unfold Act.mapErr
        rw [key]
      rw [this]
    · have := Nat.mod_le v.handle.size m
      omega
  · have hn := flush_cut_err (m := m) i h1
    rw [hc] at hn
    rw [Act.bind_ok (Act.attempt_err hn), Act.bind_ok (Act.attempt_err h1)]

end

end Narrow
end Flatdata
