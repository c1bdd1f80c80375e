import Verif.Proofs.Neighbours
import Verif.Proofs.MGrows
/-!
# What a storage object has read stays as it was read
-/
namespace Flatdata
open Spec

variable {k : Kind} {o : k.backend.Obj}

/-- What a storage object has read stays in its maps. -/
theorem cache_steps {n : String} {w w' : k.backend.W} {s : Slice k.backend.Base} (hr : k.Reachable w) (h : Kind.Steps k w w')
    (hc : k.laws.cache w o n = some s) : k.laws.cache w' o n = some s := by
  induction h with
  | refl => exact hc
  | step st t ih =>
    have hr' := hr.steps st
    cases k
    · change Option.map _ (MemW.resources _ (MemSt.loc o n)) = some s at ih
      change Option.map _ (MemW.resources _ (MemSt.loc o n)) = some s
      rw [Option.map_eq_some_iff] at ih ⊢
      obtain ⟨d, hd, he⟩ := ih
      exact ⟨d, resources_steps hr' (.step (.refl _) t) hd, he⟩
    · change Option.map _ (FileW.maps _ (Obj.id o) (join (Obj.path o) n)) = some s at ih
      change Option.map _ (FileW.maps _ (Obj.id o) (join (Obj.path o) n)) = some s
      rw [Option.map_eq_some_iff] at ih ⊢
      obtain ⟨d, hd, he⟩ := ih
      exact ⟨d, t.maps hr' hd, he⟩

/-- The size field seen through a mapping does not fit the length of the mapping. -/
def Misfit {B : Backend} (w : B.W) (s : Slice B.Base) : Prop :=
  16 ≤ s.len → ∃ z, B.deref w ⟨s.base, s.off, 8⟩ = .ok (le64 z) ∧ z + 16 < 2 ^ 64 ∧ z + 16 ≠ s.len

theorem checkResource_misfit [DiffLib] {B : Backend} (p : Profile) (e : Endian) (name expected : String) {w : B.W}
    {sd ss : Slice B.Base} (h : Misfit w sd) :
    Storage.checkResource B p e name expected sd ss w = (.err .unexpectedDataSize, w) := by
  unfold Storage.checkResource
  rw [paddingSize_eq]
  by_cases h16 : sd.len < 8 + 8
  · rw [if_pos h16]; rfl
  · rw [if_neg h16]
    obtain ⟨z, h1, h2, h3⟩ := h (by omega)
    rw [Act.bind_ok (load_ok h1)]
    have e1 : (Act.lift (readBytes p e .u64 (le64 z) 0 64) : Act B.W RErr Int) w = (.ok (z : Int), w) := by
      rw [readBytes_header p e (length_le64 z), leNat_le64 (by omega)]; rfl
    rw [Act.bind_ok e1]
    simp only [Int.toNat_natCast]
    rw [uadd_ok (by unfold usizeMod; omega)]
    change (Act.lift (uadd p (z + 8) 8) >>= _) w = _
    rw [uadd_ok (by unfold usizeMod; omega)]
    change (if z + 8 + 8 ≠ sd.len then _ else _ : Act B.W RErr (Slice B.Base)) w = _
    rw [if_pos (by omega)]; rfl

/-- Reading what the storage object has mapped with a length that does not fit any more. -/
theorem read_misfit [DiffLib] (p : Profile) (e : Endian) {name expected : String} {w : k.backend.W} {s : Slice k.backend.Base}
    (hi : k.laws.inv w) (hn : k.noFault w) (hc : k.laws.cache w o name = some s) (h : Misfit w s) :
    ∃ x w', Storage.read k.backend p e o name expected w = (.err x, w') := by
  rw [Kind.noFault_iff] at hn
  obtain ⟨w1, h1⟩ := k.laws.read_cached hi hn hc
  have k1 := k.laws.read_keeps h1
  unfold Storage.read
  rw [Act.bind_ok (Act.mapErr_ok h1)]
  rcases k.laws.read_total o (Storage.schemaName name) w1 with ⟨ss, w2, h2⟩ | ⟨x, w2, h2⟩
  · have k2 := k.laws.read_keeps h2
    rw [Act.bind_ok (Act.mapErr_ok h2), checkResource_misfit p e name expected]
    · exact ⟨_, _, rfl⟩
    · intro h16
      obtain ⟨z, d1, d2⟩ := h h16
      refine ⟨z, ?_, d2⟩
      rw [← d1]
      apply deref_keeps
      rw [k2.2.2.2.1 _ (.inl ?_), k1.2.2.2.1 _ (.inr (by rw [hc]; simp))]
      rw [k.laws.inv_bloc hi hc]; exact (k.loc_schema_ne o name).symm
  · exact ⟨_, _, Act.bind_err (Act.mapErr_err h2)⟩

/-- What was mapped while a resource was being written does not fit when it is complete. -/
theorem unfinished_misfit {name : String} {w w' : k.backend.W} {s : Slice k.backend.Base} {c rest : Bytes} {n : Nat}
    (hr : k.Reachable w) (h : Kind.Steps k w w') (hc : k.laws.cache w o name = some s) (ho : s.off = 0) (hl : s.len = 8 + c.length)
    (hk : k.backend.content w s.base = le64 0 ++ c) (hm : k.laws.medium w' (k.laws.loc o name) = some (le64 n ++ rest))
    (h8 : c.length ≠ 8) (hle : c.length ≤ n) (hn : n + 16 < 2 ^ 64) : Misfit w' s := by
  have hb := k.laws.inv_bloc hr.inv hc
  have deref8 : ∀ {z : Nat} {t : Bytes}, k.backend.content w' s.base = le64 z ++ t →
      k.backend.deref w' ⟨s.base, s.off, 8⟩ = .ok (le64 z) := by
    intro z t ht
    unfold Backend.deref
    rw [ht, ho, if_pos (by simp [length_le64])]
    simp only [List.drop_zero]
    rw [take8_le64]
  intro _
  cases k
  · refine ⟨0, deref8 (t := c) ?_, by decide, by omega⟩
    rw [← hk]
    change ((w' : MemW).resources s.base).getD [] = ((w : MemW).resources s.base).getD []
    change Option.map _ (MemW.resources w (MemSt.loc o name)) = some s at hc
    rw [Option.map_eq_some_iff] at hc
    obtain ⟨d, hd, he⟩ := hc
    change s.base = MemSt.loc o name at hb
    rw [hb, hd, resources_steps hr h hd]
  · refine ⟨n, deref8 (t := rest) ?_, hn, by omega⟩
    change ((w' : FileW).fs.files s.base).getD [] = _
    change s.base = key (join (Obj.path o) name) at hb
    change (w' : FileW).fs.files (key (join (Obj.path o) name)) = _ at hm
    rw [hb, hm]; rfl

/-- Reading an unfinished resource maps it as it is. -/
theorem read_unfinished [DiffLib] {p : Profile} {e : Endian} {name schema schema' : String} {w w' : k.backend.W} {h : Handle k.backend}
    {pre c : Bytes} {r} (i : Writing k.laws o name schema w h pre c) (hu : k.laws.cache w o name = none) (hn : k.noFault w)
    (hr : Storage.read k.backend p e o name schema' w = (r, w')) :
    ∃ s, k.laws.cache w' o name = some s ∧ s.off = 0 ∧ s.len = 8 + c.length ∧ k.backend.content w' s.base = le64 0 ++ c := by
  obtain ⟨st, _, a⟩ := i.stream
  rw [Kind.noFault_iff] at hn
  obtain ⟨s, w1, h1⟩ := k.laws.read_some hn a.medium (k.laws.readable_of_ne _ (by
    intro h0; have := congrArg List.length h0; simp [length_le64] at this))
  obtain ⟨c1, c2 | ⟨_, d, m, so, sl, sb, sc, _⟩⟩ := k.laws.read_ok h1
  · rw [hu] at c2; cases c2
  rw [a.medium] at m; cases m
  unfold Storage.read at hr
  rw [Act.bind_ok (Act.mapErr_ok h1)] at hr
  have hw : ∃ r2 w2, k.backend.readResource o (Storage.schemaName name) w1 = (r2, w2) := ⟨_, _, rfl⟩
  obtain ⟨r2, w2, h2⟩ := hw
  have k2 := k.laws.read_keeps h2
  have key : k.laws.cache w2 o name = some s ∧ k.backend.content w2 s.base = le64 0 ++ c :=
    ⟨(k2.2.2.1 _ _ (k.loc_schema_ne o name).symm).trans c1,
      (k2.2.2.2.1 _ (.inl (by rw [sb]; exact (k.loc_schema_ne o name).symm))).trans sc⟩
  have hw : w' = w2 := by
    rw [Act.bind_def] at hr
    unfold Act.mapErr at hr
    rw [h2] at hr
    cases r2 with
    | ok ss =>
      have := (checkResource_same p e name schema' (w := w2) (w' := w2) (sd := s) (ss := ss) rfl rfl).2.1
      change Storage.checkResource k.backend p e name schema' s ss w2 = _ at hr
      rw [hr] at this; exact this
    | err x => cases hr; rfl
    | panic => cases hr; rfl
    | ub => cases hr; rfl
  subst hw
  exact ⟨s, key.1, so, by rw [sl]; simp [length_le64], key.2⟩

/-- Closing a handle whose unfinished resource has been mapped by its own storage object. -/
theorem Writing.close_misfit [DiffLib] {name schema : String} {w : k.backend.W} {h : Handle k.backend} {pre c : Bytes}
    (i : Writing k.laws o name schema w h pre c) (p : Profile) (e : Endian) (hb : pre.length < 2 ^ 63) (hn : k.noFault w)
    (hr : k.Reachable w) (ho : k.alive w o) {s : Slice k.backend.Base} (hc : k.laws.cache w o name = some s)
    (hm : ∀ w1, Kind.Steps k w w1 → k.laws.medium w1 (k.laws.loc o name) = some (le64 pre.length ++ (c ++ zeros 8)) → Misfit w1 s) :
    ∃ x w', h.close p e w = (.ok (.error x, { h with stream := none }), w') := by
  obtain ⟨st, hs, _⟩ := i.stream
  unfold Handle.close
  rw [hs]
  change ∃ x w', (Act.attempt (h.finish p e st) >>= _) w = _
  rcases i.finish p e hb hs with ⟨w1, h1, o1, m1⟩ | ⟨_, _, _, _, _, _, _, nf⟩
  · rw [Act.bind_ok (Act.attempt_ok h1)]
    change ∃ x w', (Act.attempt (Storage.read k.backend p e h.obj h.name h.schema) >>= _) w1 = _
    have s1 : Kind.Steps k w w1 := Kind.steps_of (fun _ => Kind.pres_finish) ho h1
    rw [List.append_assoc] at m1
    obtain ⟨x, w2, h2⟩ := read_misfit p e (expected := schema) (hr.steps s1).inv (s1.noFault hn) (cache_steps hr s1 hc) (hm w1 s1 m1)
    rw [← i.obj, ← i.nameEq, ← i.schemaEq] at h2
    exact ⟨x, w2, Act.bind_ok (Act.attempt_err h2)⟩
  · exact absurd ((k.noFault_iff _).mp hn) nf

/-- Growing, from any state of the vector, as long as nothing fails. -/
theorem grows_from {p : Profile} {e : Endian} {S : StructDef} {name schema : String}
    {w w1 : k.backend.W} {v v1 : ExtVec k.backend} {es : List (List HandleOp)} {pre0 buf0 : List Bytes}
    (i : EvInv k.laws o name schema S.size w v pre0 buf0 pre0.flatten) (hs : 0 < S.size) (hn : k.noFault w)
    (g : Grows k p e S o name w v es w1 v1) :
    ((pre0 ++ buf0).length + es.length) * S.size + 8 < 2 ^ 63 →
    ∃ pre buf, EvInv k.laws o name schema S.size w1 v1 pre buf pre.flatten ∧ k.noFault w1 ∧
      (pre ++ buf).length = (pre0 ++ buf0).length + es.length := by
  have hne := k.loc_schema_ne o name
  induction g with
  | start => exact fun _ => ⟨pre0, buf0, i, hn, rfl⟩
  | @grow es w1 v1 v2 pos w2 ops d g h hw ih =>
    intro hb
    have hb' := hb
    rw [List.length_append (as := es), ← Nat.add_assoc, Nat.add_mul] at hb
    simp only [List.length_singleton, Nat.one_mul] at hb
    obtain ⟨pre, buf, i1, nf, el⟩ := ih (by omega)
    rcases i1.grow hne p hs (by rw [el]; rw [List.length_append (as := es), ← Nat.add_assoc] at hb'; exact hb') with
      ⟨v', pos', w', pre', buf', c', h1, i2, e2, hp, hc, hl, hf, o2⟩ | ⟨_, _, _, h1, _⟩
    · rw [h] at h1; cases h1
      rw [hp] at hw
      obtain ⟨x, hx, i3⟩ := i2.writeAt hw
      rw [hc rfl] at i3
      refine ⟨pre', buf' ++ [x], i3, (k.noFault_iff _).mpr (o2.noFault ((k.noFault_iff _).mp nf)), ?_⟩
      rw [← List.append_assoc, e2, List.length_append, List.length_append (as := es), el]; simp; omega
    · rw [h] at h1; cases h1
  | @failed es w1 v1 x w2 g h ih =>
    intro hb
    obtain ⟨pre, buf, i1, nf, el⟩ := ih hb
    exfalso
    rw [← el] at hb
    rcases i1.flushIfFull hne p (by omega) with ⟨v', w', pre', buf', c', h1, i2, e2, hc, hl, hf, o2⟩ | ⟨x', d', w', h1, i2, o2, nf2⟩
    · unfold ExtVec.grow at h
      rw [Act.bind_ok h1] at h
      have lift_err : ∀ {α β : Type} {a : Out α} {f : α → Act k.backend.W IoErr β} {w w' : k.backend.W} {x},
          (Act.lift a >>= f) w = (.err x, w') → ∃ y, a = .ok y ∧ f y w = (.err x, w') := by
        intro α β a f w w' x h
        cases a with
        | ok y => exact ⟨y, rfl, h⟩
        | panic => cases h
        | ub => cases h
      obtain ⟨_, _, h⟩ := lift_err h
      obtain ⟨_, _, h⟩ := lift_err h
      obtain ⟨_, _, h⟩ := lift_err h
      obtain ⟨_, _, h⟩ := lift_err h
      obtain ⟨_, _, h⟩ := lift_err h
      cases h
    · exact nf2 ((k.noFault_iff _).mp nf)
  | @other es w1 v1 w2 g h ih =>
    intro hb
    obtain ⟨pre, buf, i1, nf, el⟩ := ih hb
    obtain ⟨k1, k2, k3⟩ := Kind.away_keeps h
    exact ⟨pre, buf, i1.keeps k1 k2, k3 nf, el⟩
  | @elsewhere es w1 v1 o' n r w2 g ho hi h ih =>
    intro hb
    obtain ⟨pre, buf, i1, nf, el⟩ := ih hb
    refine ⟨pre, buf, ⟨i1.writing.read h, i1.rep, i1.len, i1.all⟩, ?_, el⟩
    rw [Kind.noFault_iff] at nf ⊢
    exact (k.laws.read_keeps h).2.2.2.2 nf

/-- Closing a vector whose unfinished resource has been mapped by its own storage object. -/
theorem EvInv.close_misfit [DiffLib] {name schema : String} {size : Nat} {w : k.backend.W} {v : ExtVec k.backend} {pre buf : List Bytes}
    (i : EvInv k.laws o name schema size w v pre buf pre.flatten) (p : Profile) (e : Endian)
    (hb : (pre ++ buf).length * size < 2 ^ 63) (hn : k.noFault w)
    (hr : k.Reachable w) (ho : k.alive w o) {s : Slice k.backend.Base} (hc : k.laws.cache w o name = some s)
    (hm : ∀ w1 rest, Kind.Steps k w w1 →
      k.laws.medium w1 (k.laws.loc o name) = some (le64 (pre ++ buf).flatten.length ++ rest) → Misfit w1 s) :
    ∃ x w', v.close p e w = (.err x, w') := by
  have hne := k.loc_schema_ne o name
  unfold ExtVec.close
  rcases i.flush hne p (by omega) with ⟨v', w1, h1, i1, o1⟩ | ⟨_, _, _, _, _, _, nf⟩
  · rw [Act.bind_ok (Act.attempt_ok h1)]
    change ∃ x w', ExtVec.closeHandle p e v' w1 = _
    unfold ExtVec.closeHandle
    have s1 : Kind.Steps k w w1 := Kind.steps_of (fun _ => Kind.pres_flush) ho h1
    obtain ⟨x, w2, h2⟩ := i1.writing.close_misfit p e (by rw [i.all'.length_flatten]; exact hb) (s1.noFault hn) (hr.steps s1) (s1.alive ho)
      (cache_steps hr s1 hc) (fun w2 s2 m2 => hm w2 _ (s1.trans s2) m2)
    rw [Act.bind_ok (Act.mapErr_ok h2)]
    exact ⟨x, w2, rfl⟩
  · exact absurd ((k.noFault_iff _).mp hn) nf

/-- Items, from any state of the multivector, as long as nothing fails. -/
theorem mgrows_from {p : Profile} {e : Endian} {V : Variadic} {name schema : String}
    {w w1 : k.backend.W} {v v1 : MultiVec k.backend} {its : List (List Add)} (ok : IndexOK V) {preI0 bufI0 : List Bytes} {pre0 body0 : Bytes}
    (i : MvInv k.laws o name schema V w v preI0 bufI0 preI0.flatten pre0 body0 pre0) (hn : k.noFault w)
    (g : MGrows k p e V o name w v its w1 v1) :
    ((preI0 ++ bufI0).length + its.length + 1) * V.indexSize + 8 < 2 ^ 63 → pre0.length + body0.length + dataSize its + 8 < 2 ^ 63 →
    ∃ preI bufI pre body, MvInv k.laws o name schema V w1 v1 preI bufI preI.flatten pre body pre ∧ k.noFault w1 ∧
      (preI ++ bufI).length = (preI0 ++ bufI0).length + its.length ∧ pre.length + body.length = pre0.length + body0.length + dataSize its ∧
      (Unseen k.laws o (Storage.indexName name) w → Unseen k.laws o (Storage.indexName name) w1) := by
  have ap := k.apart o name
  induction g with
  | start => exact fun _ _ => ⟨preI0, bufI0, pre0, body0, i, hn, rfl, rfl, id⟩
  | @grow its w1 v1 v2 w2 g h ih =>
    intro hbI hb
    have hbI' : ((preI0 ++ bufI0).length + its.length + 1) * V.indexSize + 8 < 2 ^ 63 := by
      rw [List.length_append (as := its), ← Nat.add_assoc, Nat.add_right_comm, Nat.add_mul] at hbI; omega
    rw [dataSize_append, dataSize_singleton] at hb
    obtain ⟨preI, bufI, pre, body, i1, nf, l2, l1, un⟩ := ih hbI' (by omega)
    rcases i1.grow ap p e ok (by omega) (by rw [l2]; exact hbI') with
      ⟨v', w', preI', bufI', cI', pre', body', c', x, h1, i2, e2, e3, hx, hcI, hc, hfI, hf, o2⟩ | ⟨_, _, _, _, _, _, _, h1, _⟩
    · rw [h] at h1; cases h1
      rw [hcI rfl, hc rfl] at i2
      refine ⟨preI', bufI' ++ [x], pre', body', i2, (k.noFault_iff _).mpr (o2.noFault ((k.noFault_iff _).mp nf)), ?_, ?_, fun u => (un u).only o2⟩
      · rw [← List.append_assoc, e2, List.length_append, List.length_append (as := its), l2]; simp; omega
      · rw [← List.length_append, e3, List.length_append, l1, dataSize_append, dataSize_singleton]; simp [itemSize]
    · rw [h] at h1; cases h1
  | @add its as w1 v1 a d pos d' g hm h hw ih =>
    intro hbI hb
    rw [dataSize_append, dataSize_singleton, itemSize_append, itemSize_singleton] at hb
    obtain ⟨preI, bufI, pre, body, i1, nf, l2, l1, un⟩ := ih (by simpa using hbI)
      (by rw [dataSize_append, dataSize_singleton]; omega)
    rw [dataSize_append, dataSize_singleton] at l1
    obtain ⟨x, hx, i2⟩ := i1.add h hw (by omega)
    refine ⟨preI, bufI, pre, _, i2, nf, by simpa using l2, ?_, un⟩
    have := runHandle_length _ _ _ hx
    rw [dataSize_append, dataSize_singleton, itemSize_append, itemSize_singleton]
    simp [this, zeros]; omega
  | @failed its w1 v1 x v2 w2 g h ih =>
    intro hbI hb
    obtain ⟨preI, bufI, pre, body, i1, nf, l2, l1, un⟩ := ih hbI hb
    rcases i1.grow ap p e ok (by omega) (by rw [l2]; exact hbI) with
      ⟨_, _, _, _, _, _, _, _, _, h1, _⟩ | ⟨_, _, _, _, _, _, _, _, _, _, _, _, nf2⟩
    · rw [h] at h1; cases h1
    · exact absurd ((k.noFault_iff _).mp nf) nf2
  | @other its w1 v1 w2 g h ih =>
    intro hbI hb
    obtain ⟨preI, bufI, pre, body, i1, nf, l2, l1, un⟩ := ih hbI hb
    obtain ⟨k1, k2⟩ := Kind.away_mkeeps h
    exact ⟨preI, bufI, pre, body, i1.keeps k1, k2 nf, l2, l1, fun u => (un u).keeps (k1 _ (.inr (.inl rfl))) (k1 _ (.inr (.inr rfl)))⟩
  | @elsewhere its w1 v1 o' n r w2 g ho hi h ih =>
    intro hbI hb
    obtain ⟨preI, bufI, pre, body, i1, nf, l2, l1, un⟩ := ih hbI hb
    refine ⟨preI, bufI, pre, body, i1.read h, ?_, l2, l1, fun u => Kind.elsewhere_unseen hi h (un u)⟩
    rw [Kind.noFault_iff] at nf ⊢
    exact (k.laws.read_keeps h).2.2.2.2 nf

/-- Closing a multivector whose unfinished index has been mapped by its own storage object: the data handle is dropped open. -/
theorem MvInv.close_misfit_index [DiffLib] {name schema : String} {V : Variadic} {w : k.backend.W} {v : MultiVec k.backend}
    {preI bufI : List Bytes} {pre body : Bytes} (i : MvInv k.laws o name schema V w v preI bufI preI.flatten pre body pre)
    (p : Profile) (e : Endian) (ok : IndexOK V) (hb : pre.length + body.length + 8 < 2 ^ 63)
    (hbI : ((preI ++ bufI).length + 1) * V.indexSize + 8 < 2 ^ 63) (hn : k.noFault w)
    (hr : k.Reachable w) (ho : k.alive w o) {s : Slice k.backend.Base} (hc : k.laws.cache w o (Storage.indexName name) = some s)
    (hm : ∀ w1 n rest, Kind.Steps k w w1 → (preI ++ bufI).length * V.indexSize ≤ n → n < 2 ^ 63 →
      k.laws.medium w1 (k.laws.loc o (Storage.indexName name)) = some (le64 n ++ rest) → Misfit w1 s) :
    ∃ w', v.close p e V w = (.panic, w') := by
  have ap := k.apart o name
  unfold MultiVec.close
  rcases i.addToIndex ap p e ok hb hbI with
    ⟨v1, w1, preI', bufI', cI', x, h1, i1, e1, hx, hc1, hd1, hf1, o1⟩ | ⟨_, _, _, _, _, _, nf⟩
  · rw [Act.bind_ok (Act.attempt_ok h1)]
    change ∃ w', MultiVec.closeFlush p e v1 w1 = _
    unfold MultiVec.closeFlush
    rw [hc1 rfl] at i1
    rcases i1.flush ap p hb with ⟨v2, w2, h2, i2, hi2, o2⟩ | ⟨_, _, _, _, _, _, nf⟩
    · rw [Act.bind_ok (Act.attempt_ok h2)]
      change ∃ w', MultiVec.closeIndex p e v2 w2 = _
      unfold MultiVec.closeIndex
      have hlen : (preI' ++ (bufI' ++ [x])).length = (preI ++ bufI).length + 1 := by
        rw [← List.append_assoc, e1]; simp; omega
      have s1 : Kind.Steps k w w1 := Kind.steps_of (fun _ => Kind.pres_addToIndex) ho h1
      have s2 : Kind.Steps k w1 w2 := Kind.steps_of (fun _ => Kind.pres_mflush) (s1.alive ho) h2
      have s12 := s1.trans s2
      have hle : (preI ++ bufI).length * V.indexSize ≤ ((preI ++ bufI).length + 1) * V.indexSize := Nat.mul_le_mul_right _ (by omega)
      obtain ⟨y, w3, h3⟩ := i2.index.close_misfit p e (by rw [hlen]; omega) (s12.noFault hn) (hr.steps s12) (s12.alive ho)
        (cache_steps hr s12 hc) (fun w3 rest s3 m3 => by
          have hl := i2.index.all'.length_flatten
          rw [hlen] at hl
          exact hm w3 _ rest (s12.trans s3) (by rw [hl]; exact hle) (by rw [hl]; omega) m3)
      rw [Act.bind_ok (Act.attempt_err h3)]
      exact ⟨w3, Act.bind_panic (dropOpen i2.data.isOpen w3)⟩
    · exact absurd (o1.noFault ((k.noFault_iff _).mp hn)) nf
  · exact absurd ((k.noFault_iff _).mp hn) nf

/-- Closing a multivector whose unfinished data have been mapped by its own storage object, while its index has not been read. -/
theorem MvInv.close_misfit_data [DiffLib] {name schema : String} {V : Variadic} {w : k.backend.W} {v : MultiVec k.backend}
    {preI bufI : List Bytes} {pre body : Bytes} (i : MvInv k.laws o name schema V w v preI bufI preI.flatten pre body pre)
    (p : Profile) (e : Endian) (ok : IndexOK V) (hb : pre.length + body.length + 8 < 2 ^ 63)
    (hbI : ((preI ++ bufI).length + 1) * V.indexSize + 8 < 2 ^ 63) (hn : k.noFault w)
    (hr : k.Reachable w) (ho : k.alive w o) {s : Slice k.backend.Base} (hc : k.laws.cache w o name = some s)
    (huI : Unseen k.laws o (Storage.indexName name) w)
    (hm : ∀ w1 rest, Kind.Steps k w w1 →
      k.laws.medium w1 (k.laws.loc o name) = some (le64 (pre.length + body.length) ++ rest) → Misfit w1 s) :
    ∃ x w', v.close p e V w = (.err x, w') := by
  have ap := k.apart o name
  unfold MultiVec.close
  rcases i.addToIndex ap p e ok hb hbI with
    ⟨v1, w1, preI', bufI', cI', x, h1, i1, e1, hx, hc1, hd1, hf1, o1⟩ | ⟨_, _, _, _, _, _, nf⟩
  · rw [Act.bind_ok (Act.attempt_ok h1)]
    change ∃ x w', MultiVec.closeFlush p e v1 w1 = _
    unfold MultiVec.closeFlush
    rw [hc1 rfl] at i1
    rcases i1.flush ap p hb with ⟨v2, w2, h2, i2, hi2, o2⟩ | ⟨_, _, _, _, _, _, nf⟩
    · rw [Act.bind_ok (Act.attempt_ok h2)]
      change ∃ x w', MultiVec.closeIndex p e v2 w2 = _
      unfold MultiVec.closeIndex
      have hlen : (preI' ++ (bufI' ++ [x])).length = (preI ++ bufI).length + 1 := by
        rw [← List.append_assoc, e1]; simp; omega
      have s1 : Kind.Steps k w w1 := Kind.steps_of (fun _ => Kind.pres_addToIndex) ho h1
      have s2 : Kind.Steps k w1 w2 := Kind.steps_of (fun _ => Kind.pres_mflush) (s1.alive ho) h2
      have s12 := s1.trans s2
      have hob : v2.index.handle.obj = o := i2.index.writing.obj
      obtain ⟨r, w3, h3, cl, o3, _, _⟩ := i2.index.close ((huI.only o1).only o2) ap.index p e (by rw [hlen]; omega)
      have s3 : Kind.Steps k w2 w3 := Kind.steps_of (fun _ => Kind.pres_close hob) (s12.alive ho) h3
      have s13 := s12.trans s3
      have nf2 := (k.noFault_iff _).mp (s12.noFault hn)
      cases cl with
      | failed nf => exact absurd nf2 nf
      | unread y c' _ _ _ nf =>
        exact absurd nf2 (nf rfl (k.laws.readable_of_ne _ (by
          unfold Storage.indexSchema
          intro h0
          have := congrArg String.toList (strBytes_eq_nil.mp h0)
          simp [String.toList_append] at this)))
      | ok si hmI hsI hrI hbI =>
        rw [Act.bind_ok (Act.attempt_ok h3)]
        change ∃ x w', MultiVec.closeData p e v2 si w3 = _
        unfold MultiVec.closeData
        have d3 := i2.data.keeps (o3.keeps _ (ap.index_data (.inl rfl))) (o3.keeps _ (ap.index_data (.inr rfl)))
        obtain ⟨y, w4, h4⟩ := d3.close_misfit p e (by simp; omega) (s13.noFault hn) (hr.steps s13) (s13.alive ho) (cache_steps hr s13 hc)
          (fun w4 s4 m4 => hm w4 _ (s13.trans s4) (by rw [List.length_append] at m4; exact m4))
        rw [Act.bind_ok (Act.mapErr_ok h4)]
        exact ⟨y, w4, rfl⟩
    · exact absurd (o1.noFault ((k.noFault_iff _).mp hn)) nf
  · exact absurd ((k.noFault_iff _).mp hn) nf

end Flatdata
