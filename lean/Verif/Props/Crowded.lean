import Verif.Proofs.Crowded
import Verif.Props.ExtVectors
import Verif.Proofs.WriteCalls
/-!
# Property C72: resources in memory to which others write
-/
namespace Flatdata
open Spec StorageExample VecExample

theorem created_crowd {p : Profile} {e : Endian} {o : Obj} {name schema : String} {w0 w : MemW} {v : ExtVec mem} (size : Nat)
    (ho : Kind.alive .memory w0 o) (hu : Kind.Unused .memory w0 o name)
    (h : createExternalVector (B := mem) p e o name schema w0 = (.ok v, w)) : Crowd o name schema size 0 w v [] [] := by
  obtain ⟨i, u, _⟩ := created_inv (k := .memory) size hu h
  obtain ⟨s, hs, a⟩ := i.writing.stream
  have hst : Kind.Steps .memory w0 w := Kind.steps_of (k := .memory) (fun _ => Kind.pres_createExternalVector) ho h
  have hsl : s = MemSt.loc o name := a.sloc
  subst hsl
  have hm : (w.streams (MemSt.loc o name)).map Prod.fst = some (le64 0 ++ []) := a.medium
  have hp : ((w.streams (MemSt.loc o name)).map Prod.snd).getD 0 = (le64 0 ++ []).length := a.pos
  refine ⟨hst.alive ho, ?_, ⟨le64 0, ?_, by rw [length_le64]; rfl, fun _ => by simp⟩, ?_, ?_, i.rep, i.len, i.all⟩
  · have := i.writing.obj
    have := i.writing.nameEq
    have := i.writing.schemaEq
    have := i.writing.size
    cases hh : v.handle
    simp_all
  · rw [List.append_nil] at hm hp
    cases hx : w.streams (MemSt.loc o name) with
    | none => rw [hx] at hm; cases hm
    | some x =>
      rw [hx] at hm hp
      have e1 : x.1 = le64 0 := Option.some.inj hm
      have e2 : x.2 = (le64 0).length := hp
      rw [← e2, ← e1]
  · have := u.data
    exact Option.map_eq_none_iff.mp this
  · have h1 : (w.streams (MemSt.loc o (Storage.schemaName name))).map Prod.fst = some (strBytes schema) := i.writing.schemaStored
    intro h0
    rw [h0] at h1; cases h1

/-- A second vector created for the same resource: both vectors find bytes of the other in the stream. -/
theorem second_crowd {p : Profile} {e : Endian} {o : Obj} {name schema schema' : String} {size size' n : Nat} {w w' : MemW}
    {v u : ExtVec mem} {pre buf : List Bytes} (i : Crowd o name schema size n w v pre buf)
    (h : createExternalVector (B := mem) p e o name schema' w = (.ok u, w')) :
    Crowd o name schema' size' (8 + pre.flatten.length + n) w' u [] [] ∧ Crowd o name schema size (n + 8) w' v pre buf := by
  have hne : MemSt.loc o (Storage.schemaName name) ≠ MemSt.loc o name := Kind.loc_schema_ne .memory o name
  obtain ⟨c, hs, hl, hc⟩ := i.stream
  unfold createExternalVector at h
  obtain ⟨s1, w1, h1, h⟩ := Act.bind_eq_ok h
  obtain ⟨_, w2, h2, h⟩ := Act.bind_eq_ok h
  obtain ⟨s3, w3, h3, h⟩ := Act.bind_eq_ok h
  obtain ⟨hd, w4, h4, h⟩ := Act.bind_eq_ok h
  cases h
  -- the schema
  have e1 : w1 = w ∧ s1 = MemSt.loc o (Storage.schemaName name) := by
    rcases MemSt.create_cases o (Storage.schemaName name) w with ⟨x, _, hx⟩ | ⟨hx, _⟩
    · have h1 : MemSt.createOutputStream o (Storage.schemaName name) w = _ := h1
      rw [h1] at hx; cases hx; exact ⟨rfl, rfl⟩
    · exact absurd hx i.schema
  obtain ⟨rfl, rfl⟩ := e1
  have e2 : w2.streams (MemSt.loc o name) = w1.streams (MemSt.loc o name) ∧ w2.resources = w1.resources ∧ w2.next = w1.next ∧
      w2.streams (MemSt.loc o (Storage.schemaName name)) ≠ none := by
    cases hx : w1.streams (MemSt.loc o (Storage.schemaName name)) with
    | none => exact absurd hx i.schema
    | some x =>
      obtain ⟨xc, xq⟩ := x
      have h2 : MemSt.writeAll (MemSt.loc o (Storage.schemaName name)) (strBytes schema') w1 = _ := h2
      rw [MemSt.writeAll_eq _ hx] at h2
      cases h2
      refine ⟨upd_other _ _ hne.symm, rfl, rfl, ?_⟩
      dsimp only
      rw [upd_same]; simp
  obtain ⟨a1, a2, a3, a4⟩ := e2
  have e3 : w3 = w2 ∧ s3 = MemSt.loc o name := by
    rcases MemSt.create_cases o name w2 with ⟨x, _, hx⟩ | ⟨hx, _⟩
    · have h3 : MemSt.createOutputStream o name w2 = _ := h3
      rw [h3] at hx; cases hx; exact ⟨rfl, rfl⟩
    · rw [a1, hs] at hx; cases hx
  obtain ⟨rfl, rfl⟩ := e3
  obtain ⟨w5, h5, s5, o5⟩ := mem_append (le64 0) (a1.trans hs)
  have hd4 : Handle.tryNew p e o name schema' (MemSt.loc o name) w3 = (.ok ⟨some (MemSt.loc o name), 0, o, name, schema'⟩, w5) := by
    unfold Handle.tryNew
    have : Storage.writeSize mem p e 0 (MemSt.loc o name) w3 = (.ok (), w5) := (writeSize_eq (B := mem) p e _ (by decide) w3).trans h5
    rw [Act.bind_ok this]; rfl
  have h4 : Handle.tryNew p e o name schema' (MemSt.loc o name) w3 = _ := h4
  rw [hd4] at h4
  cases h4
  have al : o.id < w'.next := by rw [o5.next, a3]; exact i.alive
  have un : w'.resources (MemSt.loc o name) = none := by rw [o5.resources, a2]; exact i.unread
  have sc : w'.streams (MemSt.loc o (Storage.schemaName name)) ≠ none := by rw [o5.streams _ hne]; exact a4
  refine ⟨⟨al, rfl, ⟨_, s5, ?_, fun h0 => absurd h0 (by omega)⟩, un, sc, rep_nil _, rfl, fun x hx => by cases hx⟩,
    al, i.handle, ⟨_, s5, ?_, fun h0 => absurd h0 (by omega)⟩, un, sc, i.rep, i.len, i.all⟩
  · rw [List.length_append, length_le64, hl]; simp; omega
  · rw [List.length_append, length_le64, hl]; omega

/-- What `close` says, exactly. -/
theorem crowd_close [DiffLib] {p : Profile} {e : Endian} {o : Obj} {name schema : String} {size n : Nat} {w w2 : MemW}
    {v : ExtVec mem} {pre buf : List Bytes} (i : Crowd o name schema size n w v pre buf)
    (hb : (pre ++ buf).length * size + 16 < 2 ^ 63) {r : Res RErr (Slice MemLoc)} (h : v.close p e w = (r, w2)) :
    (r = .err .unexpectedDataSize ↔ 0 < n) ∧ (∀ s, r = .ok s → mem.deref w2 s = .ok (pre ++ buf).flatten) := by
  have hp : (2 : Nat) ^ 63 < 2 ^ 64 := by decide
  obtain ⟨d, c, w', h1, hr, hd, hl, hi, _, _⟩ := i.close p e (by omega)
  rw [h] at h1
  have e1 := congrArg Prod.fst h1
  have e2 : w2 = w' := congrArg Prod.snd h1
  subst e2
  dsimp only at e1
  have hlen : (pre ++ buf).flatten.length = (pre ++ buf).length * size := (i.all.append i.rep.all).length_flatten
  by_cases h0 : 0 < n
  · have hv : verdict p name schema d c = .err .unexpectedDataSize := by
      unfold verdict
      rw [if_neg (by omega), if_neg (by omega), if_pos (by omega)]
    rw [hv] at e1
    subst e1
    exact ⟨⟨fun _ => h0, fun _ => rfl⟩, fun s hs => by cases hs⟩
  · have hn : n = 0 := by omega
    refine ⟨⟨fun he => ?_, fun h => absurd h h0⟩, fun s hs => ?_⟩
    · exfalso
      rw [e1] at he
      unfold verdict at he
      rw [if_neg (by omega), if_neg (by omega), if_neg (by omega)] at he
      cases hc : fromUtf8 c with
      | none => rw [hc] at he; cases he
      | some t =>
        rw [hc] at he
        dsimp only at he
        split at he <;> cases he
    · rw [e1] at hs
      cases hv : verdict p name schema d c with
      | err y => rw [hv] at hs; cases hs
      | panic => rw [hv] at hs; cases hs
      | ub => rw [hv] at hs; cases hs
      | ok x =>
        rw [hv] at hs
        cases hs
        obtain ⟨v1, v2, _⟩ := verdict_ok.mp hv
        have hx : x = (pre ++ buf).flatten := by
          have b1 := v1.body
          have b2 := v1.length
          rw [hi hn] at b1 b2
          rw [← b1]
          have : x.length = (pre ++ buf).flatten.length := by
            simp [image, length_le64, zeros] at b2; simp; omega
          rw [this]
          unfold image
          rw [List.append_assoc, List.drop_left' (length_le64 _), List.take_left]
        have hder : mem.deref w2 ⟨MemSt.loc o name, 0, d.length⟩ = .ok d := by
          change (if 0 + d.length ≤ ((w2.resources (MemSt.loc o name)).getD []).length then
            Out.ok ((((w2.resources (MemSt.loc o name)).getD []).drop 0).take d.length) else .ub) = _
          rw [hr]; simp
        have := v1.length
        rw [deref_sub hder (by simp only; omega), v1.body, hx]

/-- A close that succeeds has read the resource. -/
theorem close_reads [DiffLib] {p : Profile} {e : Endian} {o : Obj} {name : String} {w w' : MemW} {u : ExtVec mem} {s : Slice MemLoc}
    (al : o.id < w.next) (uo : u.handle.obj = o) (un : u.handle.name = name) (h : u.close p e w = (.ok s, w')) :
    ∃ wb, Kind.Steps .memory w wb ∧ ∃ t x, Storage.read mem p e o name u.handle.schema wb = (.ok t, x) := by
  unfold ExtVec.close at h
  obtain ⟨r1, wa, h1, h⟩ := Act.bind_eq_ok h
  cases r1 with
  | error x => obtain ⟨_, _, _, h⟩ := Act.bind_eq_ok h; cases h
  | ok u1 =>
    have hf := Act.attempt_inv h1
    have sta : Kind.Steps .memory w wa := Kind.steps_of (k := .memory) (o := o) (fun _ => Kind.pres_flush) al hf
    have e1 : u1.handle.obj = o ∧ u1.handle.name = name ∧ u1.handle.schema = u.handle.schema := by
      unfold ExtVec.flush at hf
      obtain ⟨_, _, _, hf⟩ := Act.bind_eq_ok hf
      obtain ⟨_, _, _, hf⟩ := Act.bind_eq_ok hf
      obtain ⟨h', _, hw, hf⟩ := Act.bind_eq_ok hf
      cases hf
      unfold Handle.write at hw
      cases hs : u.handle.stream with
      | none => rw [hs] at hw; cases hw
      | some s =>
        rw [hs] at hw
        obtain ⟨_, _, _, hw⟩ := Act.bind_eq_ok hw
        obtain ⟨_, _, _, hw⟩ := Act.bind_eq_ok hw
        cases hw
        exact ⟨uo, un, rfl⟩
    obtain ⟨eo, en, es⟩ := e1
    dsimp only at h
    unfold ExtVec.closeHandle at h
    obtain ⟨r, wb, h2, h⟩ := Act.bind_eq_ok h
    obtain ⟨_, wc, _, h⟩ := Act.bind_eq_ok h
    have h2 := mapErr_eq_ok h2
    have hr : ∃ t, r.1 = .ok t := by
      cases hr : r.1 with
      | error x => rw [hr] at h; cases h
      | ok t => exact ⟨t, rfl⟩
    obtain ⟨t, hr⟩ := hr
    unfold Handle.close at h2
    cases hs : u1.handle.stream with
    | none => rw [hs] at h2; cases h2; cases hr
    | some st =>
      rw [hs] at h2
      obtain ⟨q, wd, h3, h2⟩ := Act.bind_eq_ok h2
      cases q with
      | error x => cases h2; cases hr
      | ok q =>
        have hfin := Act.attempt_inv h3
        have std : Kind.Steps .memory wa wd := Kind.steps_of (k := .memory) (o := o) (fun _ => Kind.pres_finish) (sta.alive al) hfin
        dsimp only at h2
        obtain ⟨q2, we, h4, h2⟩ := Act.bind_eq_ok h2
        cases h2
        dsimp only at hr
        subst hr
        have hrd := Act.attempt_inv h4
        rw [eo, en, es] at hrd
        exact ⟨wd, sta.trans std, t, _, hrd⟩

/-- After foreign bytes were found, the resource can neither be read nor closed. -/
theorem crowd_lost [DiffLib] {p : Profile} {e : Endian} {o : Obj} {name schema : String} {size n : Nat} {w1 w2 : MemW}
    {v1 : ExtVec mem} {pre buf : List Bytes} (i : Crowd o name schema size n w1 v1 pre buf)
    (hb : (pre ++ buf).length * size + 16 < 2 ^ 63) (hn : 0 < n) {r : Res RErr (Slice MemLoc)} (h : v1.close p e w1 = (r, w2))
    {w3 : MemW} (st : Kind.Steps .memory w2 w3) (p' : Profile) (e' : Endian) (schema' : String) :
    (Storage.read mem p' e' o name schema' w3).1 = .err .unexpectedDataSize ∧ o.id < w3.next := by
  have hp : (2 : Nat) ^ 63 < 2 ^ 64 := by decide
  have hlen : (pre ++ buf).flatten.length = (pre ++ buf).length * size := (i.all.append i.rep.all).length_flatten
  obtain ⟨d, c, w', h1, hr, hd, hl, _, al, sc⟩ := i.close p e (by omega)
  rw [h] at h1
  obtain rfl : w2 = w' := congrArg Prod.snd h1
  have keep : ∀ {a b : Kind.memory.backend.W}, Kind.Steps .memory a b → o.id < a.next → a.resources (MemSt.loc o name) = some d →
      a.streams (MemSt.loc o (Storage.schemaName name)) ≠ none →
      b.resources (MemSt.loc o name) = some d ∧ b.streams (MemSt.loc o (Storage.schemaName name)) ≠ none := by
    intro a b st ha h1 h2
    induction st with
    | refl => exact ⟨h1, h2⟩
    | step st s' ih =>
      exact ⟨(s'.mem.2 (MemSt.loc o name) (st.alive ha)).2 d ih.1, (s'.mem.2 (MemSt.loc o (Storage.schemaName name)) (st.alive ha)).1 ih.2⟩
  obtain ⟨k1, k2⟩ := keep st al hr sc
  have hseen : memSeen w3 (MemSt.loc o name) = some d := by unfold memSeen; rw [k1]; rfl
  have hsch : ∃ t, memSeen w3 (MemSt.loc o (Storage.schemaName name)) = some t := by
    unfold memSeen
    cases h : MemW.resources w3 (MemSt.loc o (Storage.schemaName name)) with
    | some t => exact ⟨t, rfl⟩
    | none =>
      cases h' : MemW.streams w3 (MemSt.loc o (Storage.schemaName name)) with
      | none => exact absurd h' k2
      | some t => exact ⟨t.1, rfl⟩
  obtain ⟨t, ht⟩ := hsch
  obtain ⟨w5, h5, _⟩ := mem_read_seen (schema := schema') p' e' hseen ht
  have hv : verdict p' name schema' d t = .err .unexpectedDataSize := by
    unfold verdict
    rw [if_neg (by omega), if_neg (by omega), if_pos (by omega)]
  rw [h5, hv]
  exact ⟨rfl, st.alive (k := .memory) (o := o) al⟩

theorem crowd_other [DiffLib] {p : Profile} {e : Endian} {o : Obj} {name schema : String} {size n : Nat} {w1 w2 : MemW}
    {v1 : ExtVec mem} {pre buf : List Bytes} (i : Crowd o name schema size n w1 v1 pre buf)
    (hb : (pre ++ buf).length * size + 16 < 2 ^ 63) (hn : 0 < n) {r : Res RErr (Slice MemLoc)} (h : v1.close p e w1 = (r, w2))
    {w3 : MemW} (st : Kind.Steps .memory w2 w3) {p' : Profile} {e' : Endian} {u : ExtVec mem} (uo : u.handle.obj = o)
    (un : u.handle.name = name) {s : Slice MemLoc} {w4 : MemW} : u.close p' e' w3 ≠ (.ok s, w4) := by
  intro hcl
  obtain ⟨wb, stb, t, x, hr⟩ := close_reads (crowd_lost i hb hn h st p' e' schema).2 uo un hcl
  have hl := (crowd_lost i hb hn h (st.trans stb) p' e' u.handle.schema).1
  rw [hr] at hl
  cases hl

section
variable [DiffLib] (p : Profile) (e : Endian) (S : StructDef) (o : Obj) (name schema : String) (w0 w w1 w2 : MemW)
  (v v1 : ExtVec mem) (es : List (List HandleOp)) (n : Nat)
  (ho : Kind.alive .memory w0 o) (hu : Kind.Unused .memory w0 o name) (hs : 0 < S.size)
  (hc : createExternalVector (B := mem) p e o name schema w0 = (.ok v, w)) (g : Crowded p e S o name w v es n w1 v1)
  (hb : es.length * S.size + 16 < 2 ^ 63)
include ho hu hs hc g hb

/-- C72: however others write to the resource while a vector is written in memory, a view returned by `close` shows the
elements of this vector. -/
theorem C72_shown (xs : List Bytes) (el : Elements p e S es xs) (s : Slice MemLoc) (h : v1.close p e w1 = (.ok s, w2)) :
    mem.deref w2 s = .ok xs.flatten := by
  obtain ⟨pre, buf, i, el1⟩ := crowded_inv (created_crowd S.size ho hu hc) hs g (by omega)
  rw [el.unique el1]
  exact (crowd_close i (by rw [← el1.length_eq]; exact hb) h).2 s rfl

/-- The size is reported as wrong if and only if others have written to the resource. -/
theorem C72_exact (r : Res RErr (Slice MemLoc)) (h : v1.close p e w1 = (r, w2)) : r = .err .unexpectedDataSize ↔ 0 < n := by
  obtain ⟨pre, buf, i, el1⟩ := crowded_inv (created_crowd S.size ho hu hc) hs g (by omega)
  rw [(crowd_close i (by rw [← el1.length_eq]; exact hb) h).1, Nat.zero_add]

/-- After that, the resource cannot be read any more, whatever else is done. -/
theorem C72_lost (hn : 0 < n) (r : Res RErr (Slice MemLoc)) (h : v1.close p e w1 = (r, w2)) (w3 : MemW)
    (st : Kind.Steps .memory w2 w3) (p' : Profile) (e' : Endian) (schema' : String) :
    (Storage.read mem p' e' o name schema' w3).1 = .err .unexpectedDataSize := by
  obtain ⟨pre, buf, i, el1⟩ := crowded_inv (created_crowd S.size ho hu hc) hs g (by omega)
  exact (crowd_lost i (by rw [← el1.length_eq]; exact hb) (by omega) h st p' e' schema').1

/-- No other vector of the resource can be closed successfully any more, either. -/
theorem C72_other (hn : 0 < n) (r : Res RErr (Slice MemLoc)) (h : v1.close p e w1 = (r, w2)) (w3 : MemW)
    (st : Kind.Steps .memory w2 w3) (p' : Profile) (e' : Endian) (u : ExtVec mem) (uo : u.handle.obj = o) (un : u.handle.name = name)
    (s : Slice MemLoc) (w4 : MemW) : u.close p' e' w3 ≠ (.ok s, w4) := by
  obtain ⟨pre, buf, i, el1⟩ := crowded_inv (created_crowd S.size ho hu hc) hs g (by omega)
  exact crowd_other i (by rw [← el1.length_eq]; exact hb) (by omega) h st uo un

/-- In particular if the resource is started a second time while the vector is open: whichever of the two is closed first,
closing it reports a wrong size, and no vector of the resource can be closed successfully after that. -/
theorem C72_twice (schema' : String) (u : ExtVec mem) (h : createExternalVector (B := mem) p e o name schema' w1 = (.ok u, w2)) :
    (∀ w3 v3 es' m r w4, Crowded p e S o name w2 v1 es' m w3 v3 → (es ++ es').length * S.size + 16 < 2 ^ 63 →
      v3.close p e w3 = (r, w4) → r = .err .unexpectedDataSize ∧
        ∀ w5 p' e' x s w6, Kind.Steps .memory w4 w5 → x.handle.obj = o → x.handle.name = name → ExtVec.close (B := mem) p' e' x w5 ≠ (.ok s, w6)) ∧
    (∀ T w3 u3 fs m r w4, 0 < StructDef.size T → Crowded p e T o name w2 u fs m w3 u3 → fs.length * T.size + 16 < 2 ^ 63 →
      u3.close p e w3 = (r, w4) → r = .err .unexpectedDataSize ∧
        ∀ w5 p' e' x s w6, Kind.Steps .memory w4 w5 → x.handle.obj = o → x.handle.name = name → ExtVec.close (B := mem) p' e' x w5 ≠ (.ok s, w6)) := by
  obtain ⟨pre, buf, i, el1⟩ := crowded_inv (created_crowd S.size ho hu hc) hs g (by omega)
  constructor
  · intro w3 v3 es' m r w4 g' hb' hcl
    obtain ⟨_, i2⟩ := second_crowd (size' := S.size) i h
    obtain ⟨pre', buf', i3, el3⟩ := crowded_from i2 el1 hs g' (by omega)
    have hb3 : (pre' ++ buf').length * S.size + 16 < 2 ^ 63 := by rw [← el3.length_eq]; exact hb'
    exact ⟨(crowd_close i3 hb3 hcl).1.mpr (by omega), fun w5 p' e' x s w6 st xo xn => crowd_other i3 hb3 (by omega) hcl st xo xn⟩
  · intro T w3 u3 fs m r w4 hT g' hb' hcl
    obtain ⟨i2, _⟩ := second_crowd (size' := T.size) i h
    obtain ⟨pre', buf', i3, el3⟩ := crowded_inv i2 hT g' (by omega)
    have hb3 : (pre' ++ buf').length * T.size + 16 < 2 ^ 63 := by rw [← el3.length_eq]; exact hb'
    exact ⟨(crowd_close i3 hb3 hcl).1.mpr (by omega), fun w5 p' e' x s w6 st xo xn => crowd_other i3 hb3 (by omega) hcl st xo xn⟩

end

namespace CrowdExample

/-- Creates a vector and grows it by one element. -/
def begun : Act MemW IoErr (ExtVec mem) := build (B := mem) obj [[.set (.plain "a" .u64 0 64) 5]]

/-- Creates the stream of the same resource once more, and closes the vector. -/
def sharedRun : Act MemW RErr (Slice MemLoc) := do
  let v ← begun.mapErr (RErr.io · "x")
  let _ ← (mem.createOutputStream obj "x").mapErr (RErr.io · "x")
  @ExtVec.close mem .debug .little naiveDiff v

/-- Starts the same resource once more as a vector. -/
def twiceRun : Act MemW IoErr (ExtVec mem) := do
  let _ ← begun
  createExternalVector (B := mem) .debug .little obj "x" "t"

theorem sharedRun_ok : (sharedRun mem0).1.isOk = true := by decide

theorem twiceRun_ok : (twiceRun mem0).1.isOk = true := by decide

theorem begun_crowded {v1 : ExtVec mem} {w1 : MemW} (h : begun mem0 = (.ok v1, w1)) :
    ∃ v w, createExternalVector (B := mem) .debug .little obj "x" "s" mem0 = (.ok v, w) ∧
      Crowded .debug .little S obj "x" w v [[.set (.plain "a" .u64 0 64) 5]] 0 w1 v1 := by
  unfold begun build at h
  obtain ⟨v, w, hc, h⟩ := Act.bind_eq_ok h
  rw [List.foldlM_cons] at h
  obtain ⟨va, wa, h1, h⟩ := Act.bind_eq_ok h
  cases h
  obtain ⟨r, wb, h2, h1⟩ := Act.bind_eq_ok h1
  obtain ⟨d, wd, h3, h1⟩ := Act.bind_eq_ok h1
  cases h1
  obtain ⟨hw, hwb⟩ := Act.lift_eq_ok h3
  subst hwb
  exact ⟨v, w, hc, .grow (es := []) .start h2 hw⟩

end CrowdExample
open CrowdExample

/-- The hypotheses of `C72_shown` can be met: one element, and the stream of the resource created once more by somebody else. -/
example : ∃ v w v1 w1 s w2, createExternalVector (B := mem) .debug .little obj "x" "s" mem0 = (.ok v, w) ∧
    Crowded .debug .little S obj "x" w v [[.set (.plain "a" .u64 0 64) 5]] 0 w1 v1 ∧
    @ExtVec.close mem .debug .little naiveDiff v1 w1 = (.ok s, w2) ∧ mem.deref w2 s = .ok (le64 5) := by
  obtain ⟨s, w2, h⟩ := isOk_run sharedRun_ok
  unfold sharedRun at h
  obtain ⟨v1, wa, h1, k1⟩ := Act.bind_eq_ok h
  obtain ⟨t, w1, h2, k2⟩ := Act.bind_eq_ok k1
  obtain ⟨v, w, hc, g⟩ := begun_crowded (mapErr_eq_ok h1)
  have g1 := g.create (mapErr_eq_ok h2)
  exact ⟨v, w, v1, w1, s, w2, hc, g1, k2,
    @C72_shown naiveDiff .debug .little S obj "x" "s" mem0 w w1 w2 v v1 _ 0 Nat.zero_lt_one (unused_mem0 _) (by decide) hc g1
      (by decide) [le64 5] ⟨by decide, trivial⟩ s k2⟩

/-- The hypotheses of `C72_exact`, `C72_lost` and `C72_other` can be met with a byte written by somebody else: closing fails, and
reading afterwards and closing a copy of the vector do, too. -/
example [DiffLib] : ∃ v w v1 w1 w2, createExternalVector (B := mem) .debug .little obj "x" "s" mem0 = (.ok v, w) ∧
    Crowded .debug .little S obj "x" w v [[.set (.plain "a" .u64 0 64) 5]] 1 w1 v1 ∧
    v1.close .debug .little w1 = (.err .unexpectedDataSize, w2) ∧
    (Storage.read mem .debug .little obj "x" "s" w2).1 = .err .unexpectedDataSize ∧
    ∀ s w4, v.close .debug .little w2 ≠ (.ok s, w4) := by
  obtain ⟨v1, wa, h1⟩ := isOk_run (x := begun) (w := mem0) (by decide)
  obtain ⟨v, w, hc, g⟩ := begun_crowded h1
  cases h2 : mem.writeAll (Kind.place .memory obj "x") [7#8] wa with
  | mk r1 w1 =>
    have g1 := g.write h2
    cases h3 : v1.close .debug .little w1 with
    | mk r w2 =>
      have hr := (C72_exact .debug .little S obj "x" "s" mem0 w w1 w2 v v1 _ _ Nat.zero_lt_one (unused_mem0 _) (by decide) hc g1
        (by decide) r h3).mpr (by decide)
      have hl := C72_lost .debug .little S obj "x" "s" mem0 w w1 w2 v v1 _ _ Nat.zero_lt_one (unused_mem0 _) (by decide) hc g1
        (by decide) (by decide) r h3 w2 (.refl _) .debug .little "s"
      have hv := (created_crowd (o := obj) (w0 := mem0) S.size Nat.zero_lt_one (unused_mem0 _) hc).handle
      have hx := C72_other .debug .little S obj "x" "s" mem0 w w1 w2 v v1 _ _ Nat.zero_lt_one (unused_mem0 _) (by decide) hc g1
        (by decide) (by decide) r h3 w2 (.refl _) .debug .little v (by rw [hv]) (by rw [hv])
      exact ⟨v, w, v1, w1, w2, hc, g1, by rw [← hr]; exact h3, hl, hx⟩

/-- The hypotheses of `C72_twice` can be met: closing either of the two vectors fails. -/
example [DiffLib] : ∃ v w v1 w1 u w2, createExternalVector (B := mem) .debug .little obj "x" "s" mem0 = (.ok v, w) ∧
    Crowded .debug .little S obj "x" w v [[.set (.plain "a" .u64 0 64) 5]] 0 w1 v1 ∧
    createExternalVector (B := mem) .debug .little obj "x" "t" w1 = (.ok u, w2) ∧
    (v1.close .debug .little w2).1 = .err .unexpectedDataSize ∧ (u.close .debug .little w2).1 = .err .unexpectedDataSize := by
  obtain ⟨u, w2, h⟩ := isOk_run twiceRun_ok
  unfold twiceRun at h
  obtain ⟨v1, w1, h1, h2⟩ := Act.bind_eq_ok h
  obtain ⟨v, w, hc, g⟩ := begun_crowded h1
  obtain ⟨a, b⟩ := C72_twice .debug .little S obj "x" "s" mem0 w w1 w2 v v1 _ _ Nat.zero_lt_one (unused_mem0 _) (by decide) hc g
    (by decide) "t" u h2
  exact ⟨v, w, v1, w1, u, w2, hc, g, h2, (a w2 v1 [] 0 _ _ .start (by decide) rfl).1,
    (b S w2 u [] 0 _ _ (by decide) .start (by decide) rfl).1⟩

end Flatdata
