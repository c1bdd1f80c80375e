import Verif.Spec.Peeked
import Verif.Props.Rewrite
/-!
# Properties C35 and C36 exactly
-/
namespace Flatdata
open Spec StorageExample

theorem Spec.Grows.then {k : Kind} {p : Profile} {e : Endian} {S : StructDef} {o : k.backend.Obj} {name : String}
    {w w1 w2 : k.backend.W} {v v1 v2 : ExtVec k.backend} {es es' : List (List HandleOp)}
    (g : Grows k p e S o name w v es w1 v1) (g' : Grows k p e S o name w1 v1 es' w2 v2) : Grows k p e S o name w v (es ++ es') w2 v2 := by
  induction g' with
  | start => rw [List.append_nil]; exact g
  | grow _ h hw ih => rw [← List.append_assoc]; exact .grow ih h hw
  | failed _ h ih => exact .failed ih h
  | other _ h ih => exact .other ih h
  | elsewhere _ ho hi h ih => exact .elsewhere ih ho hi h

section
variable [DiffLib] {k : Kind} {p : Profile} {e : Endian} {S : StructDef} {o : k.backend.Obj} {name schema : String}
  {w w1 : k.backend.W} {v v1 : ExtVec k.backend} {es : List (List HandleOp)} {b : Bool}

theorem Spec.Peeked.unread (g : Peeked k p e S o name w v b es w1 v1) (hb : b = false) : Grows k p e S o name w v es w1 v1 := by
  induction g with
  | start => exact .start
  | grows _ h ih => exact (ih hb).then h
  | read => cases hb

theorem Spec.Peeked.steps (g : Peeked k p e S o name w v b es w1 v1) (ho : k.alive w o) : Kind.Steps k w w1 := by
  induction g with
  | start => exact .refl _
  | grows _ h ih => exact ih.trans (h.steps (ih.alive ho))
  | read _ _ _ _ h ih => exact ih.trans (Kind.steps_of (fun _ => Kind.pres_storageRead) (ih.alive ho) h)

theorem Spec.Peeked.split (g : Peeked k p e S o name w v b es w1 v1) (hb : b = true) :
    ∃ es1 es2 wa va wb p' e' schema' r b', Grows k p e S o name w v es1 wa va ∧
      Storage.read k.backend p' e' o name schema' wa = (r, wb) ∧ Peeked k p e S o name wb va b' es2 w1 v1 ∧ es = es1 ++ es2 := by
  induction g with
  | start => cases hb
  | grows _ h ih =>
    obtain ⟨es1, es2, wa, va, wb, p', e', s', r, b', h1, h2, h3, rfl⟩ := ih hb
    exact ⟨es1, _, wa, va, wb, p', e', s', r, b', h1, h2, .grows h3 h, List.append_assoc ..⟩
  | @read b es w1 v1 w2 r p' e' s' g h ih =>
    cases b with
    | false => exact ⟨es, [], w1, v1, w2, p', e', s', r, false, g.unread rfl, h, .start, (List.append_nil _).symm⟩
    | true =>
      obtain ⟨es1, es2, wa, va, wb, p1, e1, s1, r1, b', h1, h2, h3, rfl⟩ := ih rfl
      exact ⟨es1, es2, wa, va, wb, p1, e1, s1, r1, true, h1, h2, .read p' e' s' h3 h, rfl⟩

theorem peeked_from {pre0 buf0 : List Bytes} (i : EvInv k.laws o name schema S.size w v pre0 buf0 pre0.flatten) (hs : 0 < S.size)
    (hn : k.noFault w) (g : Peeked k p e S o name w v b es w1 v1) : ((pre0 ++ buf0).length + es.length) * S.size + 8 < 2 ^ 63 →
    ∃ pre buf, EvInv k.laws o name schema S.size w1 v1 pre buf pre.flatten ∧ k.noFault w1 ∧
      (pre ++ buf).length = (pre0 ++ buf0).length + es.length := by
  induction g with
  | start => exact fun _ => ⟨pre0, buf0, i, hn, rfl⟩
  | @grows b es es' w1 v1 w2 v2 g h ih =>
    intro hb
    rw [List.length_append (as := es), ← Nat.add_assoc, Nat.add_mul] at hb
    obtain ⟨pre, buf, i1, n1, l1⟩ := ih (by omega)
    obtain ⟨pre2, buf2, i2, n2, l2⟩ := grows_from i1 hs n1 h (by rw [l1, Nat.add_mul]; exact hb)
    exact ⟨pre2, buf2, i2, n2, by rw [l2, l1, List.length_append (as := es)]; omega⟩
  | read p' e' s' g h ih =>
    intro hb
    obtain ⟨pre, buf, i1, n1, l1⟩ := ih hb
    exact ⟨pre, buf, ⟨i1.writing.storageRead h, i1.rep, i1.len, i1.all⟩, noFault_storageRead h n1, l1⟩

end

/-- C36 exactly: as long as nothing fails, a vector can be closed if and only if its resource has not been read through its own
storage object since it was created; the returned view shows the elements. Otherwise `close` returns an error. -/
theorem C36_exact [DiffLib] (k : Kind) (p : Profile) (e : Endian) (S : StructDef) (hs : 0 < S.size) (w0 w w1 : k.backend.W)
    (o : k.backend.Obj) (name schema : String) (v v1 : ExtVec k.backend) (es : List (List HandleOp)) (b : Bool) (hr : k.Reachable w0)
    (ho : k.alive w0 o) (hu : k.Unused w0 o name) (hn : k.noFault w0) (hm : k.mappable (strBytes schema))
    (hc : createExternalVector p e o name schema w0 = (.ok v, w)) (g : Peeked k p e S o name w v b es w1 v1)
    (hb : es.length * S.size + 8 < 2 ^ 63) :
    ((∃ s w2, v1.close p e w1 = (.ok s, w2)) ↔ b = false) ∧
    (b = false → ∃ xs s w2, Elements p e S es xs ∧ v1.close p e w1 = (.ok s, w2) ∧ k.backend.deref w2 s = .ok xs.flatten) ∧
    (b = true → ∃ x w2, v1.close p e w1 = (.err x, w2)) := by
  have hf : b = false → ∃ xs s w2, Elements p e S es xs ∧ v1.close p e w1 = (.ok s, w2) ∧ k.backend.deref w2 s = .ok xs.flatten := by
    intro h
    obtain ⟨_, xs, s, w2, h1, h2, h3, _⟩ := C21_roundtrip k p e S hs w0 w w1 o name schema v v1 es hu hn hm hc (g.unread h) hb
    exact ⟨xs, s, w2, h1, h2, h3⟩
  have ht : b = true → ∃ x w2, v1.close p e w1 = (.err x, w2) := by
    intro h
    obtain ⟨es1, es2, wa, va, wb, p', e', s', r, b', h1, h2, h3, rfl⟩ := g.split h
    rw [List.length_append] at hb
    obtain ⟨i, u, nf0⟩ := created_inv S.size hu hc
    obtain ⟨pre, buf, c, i1, el, u1, nf, fl⟩ := grows_inv i u hs h1 (by rw [Nat.add_mul] at hb; omega)
    obtain ⟨nf1, rfl⟩ := nf (nf0 hn)
    have s0 : Kind.Steps k w0 w := Kind.steps_of (fun _ => Kind.pres_createExternalVector) ho hc
    have s1 : Kind.Steps k w wa := h1.steps (s0.alive ho)
    have s01 := s0.trans s1
    have s2 : Kind.Steps k wa wb := Kind.steps_of (fun _ => Kind.pres_storageRead) (s01.alive ho) h2
    have s02 := s01.trans s2
    have i2 : EvInv k.laws o name schema S.size wb va pre buf pre.flatten := ⟨i1.writing.storageRead h2, i1.rep, i1.len, i1.all⟩
    obtain ⟨s, hs1, hs2, hs3, hs4⟩ := read_unfinished i1.writing u1.data nf1 h2
    have hel := el.length_eq
    have hb' : ((pre ++ buf).length + es2.length) * S.size + 8 < 2 ^ 63 := by rw [← hel]; exact hb
    obtain ⟨pre', buf', i3, nf3, hl⟩ := peeked_from i2 hs (noFault_storageRead h2 nf1) h3 hb'
    have s3 : Kind.Steps k wb w1 := h3.steps (s02.alive ho)
    rw [← hl] at hb'
    have e1 := i1.length
    have e2 : (pre ++ buf).length * S.size ≤ (pre' ++ buf').length * S.size := Nat.mul_le_mul_right _ (by omega)
    have e3 := i3.all'.length_flatten
    refine i3.close_misfit p e (by omega) nf3 ((hr.steps s02).steps s3) ((s02.trans s3).alive ho) (cache_steps (hr.steps s02) s3 hs1)
      fun w4 rest s4 m4 => ?_
    refine unfinished_misfit (hr.steps s02) (s3.trans s4) hs1 hs2 hs3 hs4 m4 ?_ (by omega) (by omega)
    rcases fl with rfl | fl
    · simp
    · have : bufferLimit = 33554432 := by decide
      omega
  refine ⟨⟨?_, fun h => ?_⟩, hf, ht⟩
  · rintro ⟨s, w2, h⟩
    cases b with
    | false => rfl
    | true =>
      obtain ⟨x, w3, h'⟩ := ht rfl
      rw [h'] at h; cases h
  · obtain ⟨_, s, w2, _, h2, _⟩ := hf h
    exact ⟨s, w2, h2⟩

/-- Non-vacuity: the two elements of the example, not read and read twice. -/
example [DiffLib] : ∃ v w v1 w1, createExternalVector (B := file) .debug .little objD "x" "s" (disk0 []) = (.ok v, w) ∧
    Peeked .disk .debug .little VecExample.S objD "x" w v false VecExample.es w1 v1 ∧
    ∃ w3, Peeked .disk .debug .little VecExample.S objD "x" w v true VecExample.es w3 v1 ∧
      (∃ s w2, v1.close .debug .little w1 = (.ok s, w2)) ∧ ∃ x w2, v1.close .debug .little w3 = (.err x, w2) := by
  obtain ⟨v, w, v1, w1, hc, g⟩ := VecExample.run_disk
  have g0 : Peeked .disk .debug .little VecExample.S objD "x" w v false VecExample.es w1 v1 := .grows (es := []) .start g
  have g1 : Peeked .disk .debug .little VecExample.S objD "x" w v true VecExample.es _ v1 :=
    .read .debug .little "s" (.read .release .big "t" g0 rfl) rfl
  have ex : ∀ b w', Peeked .disk .debug .little VecExample.S objD "x" w v b VecExample.es w' v1 → _ := fun b w' g =>
    C36_exact .disk .debug .little VecExample.S (by decide) (disk0 []) w w' objD "x" "s" v v1 VecExample.es b (disk0_reachable _ _)
      Nat.zero_lt_one (VecExample.unused_disk0 ..) (disk0_noFault _) (by change strBytes "s" ≠ []; decide) hc g (by decide)
  exact ⟨v, w, v1, w1, hc, g0, _, g1, (ex _ _ g0).1.mpr rfl, (ex _ _ g1).2.2 rfl⟩

/-- C35 on disk exactly: a slice that was handed out once shows the same bytes later if and only if the file of the resource still
begins with them. -/
theorem C35_disk_exact (w w1 w2 : FileW) (o : Obj) (n : String) (s : Slice Key) (d : Bytes) (hr : Kind.Reachable .disk w)
    (h : file.readResource o n w = (.ok s, w1)) (hd : file.deref w1 s = .ok d) (ho : Kind.alive .disk w o) (hs : Kind.Steps .disk w1 w2) :
    file.deref w2 s = .ok d ↔ ∃ c, Kind.stored .disk w2 o n = some (d ++ c) := by
  obtain ⟨h1, h2⟩ := read_slice hr h
  have st : Kind.Steps .disk w w1 := .step (.refl _) (.read ho h)
  have r1 : Kind.Reachable .disk w1 := hr.steps st
  have r2 : Kind.Reachable .disk w2 := r1.steps hs
  have c1 : fileLaws.cache w1 o n = some s := (fileLaws.read_ok h).1
  have c2 : fileLaws.cache w2 o n = some s := cache_steps (k := .disk) r1 hs c1
  have ex : ∀ w', Kind.Reachable .disk w' → fileLaws.cache w' o n = some s → ∃ c, w'.fs.files (key (join o.path n)) = some c := by
    intro w' r c
    cases hf : w'.fs.files (key (join o.path n)) with
    | some c => exact ⟨c, rfl⟩
    | none =>
      have := fileLaws.inv_cache (o := o) (n := n) r.inv hf
      rw [this] at c; cases c
  obtain ⟨a, ha⟩ := ex w1 r1 c1
  obtain ⟨c, hc⟩ := ex w2 r2 c2
  rw [deref_file h1 (by rw [h2]; exact ha)] at hd
  split at hd
  · rename_i hl
    have hd' : a.take s.len = d := Out.ok.inj hd
    have hdl : d.length = s.len := by rw [← hd', List.length_take]; omega
    rw [deref_file h1 (by rw [h2]; exact hc)]
    change _ ↔ ∃ c, w2.fs.files (key (join o.path n)) = some (d ++ c)
    rw [hc]
    constructor
    · intro hx
      split at hx
      · exact ⟨c.drop s.len, by rw [← Out.ok.inj hx, List.take_append_drop]⟩
      · cases hx
    · rintro ⟨c', hx⟩
      cases hx
      rw [if_pos (by rw [List.length_append]; omega), ← hdl, List.take_left]
  · cases hd

/-- Non-vacuity: a slice of the example, after the resource has been written again with the same bytes and with others. -/
example : ∃ s w1 w2 w3, file.readResource objD "x" disk1 = (.ok s, w1) ∧ file.deref w1 s = .ok (image [7#8]) ∧
    Storage.write file .debug .little objD "x" "s" [7#8] w1 = (.ok (), w2) ∧ file.deref w2 s = .ok (image [7#8]) ∧
    Storage.write file .debug .little objD "x" "s" [8#8] w1 = (.ok (), w3) ∧ file.deref w3 s ≠ .ok (image [7#8]) := by
  have h1 : file.readResource objD "x" disk1 = (.ok ⟨[['d'], ['x']], 0, 17⟩, _) := run_eq (by decide)
  have h2 : Storage.write file .debug .little objD "x" "s" [7#8] (file.readResource objD "x" disk1).2 = (.ok (), _) := run_eq (by decide +kernel)
  have h3 : Storage.write file .debug .little objD "x" "s" [8#8] (file.readResource objD "x" disk1).2 = (.ok (), _) := run_eq (by decide +kernel)
  have hd : file.deref (file.readResource objD "x" disk1).2 ⟨[['d'], ['x']], 0, 17⟩ = .ok (image [7#8]) := by decide
  have ha : Kind.alive .disk disk1 objD := Nat.zero_lt_one
  have st : Kind.Steps .disk disk1 (file.readResource objD "x" disk1).2 := .step (.refl _) (.read (k := .disk) ha h1)
  have ex : ∀ w', Kind.Steps .disk (file.readResource objD "x" disk1).2 w' → _ := fun w' st =>
    C35_disk_exact disk1 _ w' objD "x" _ _ (disk0_reachable _ _) h1 hd ha st
  refine ⟨_, _, _, _, h1, hd, h2, ?_, h3, ?_⟩
  · rw [ex _ (Kind.steps_of (fun _ => Kind.pres_storageWrite) (st.alive ha) h2)]
    refine ⟨[], ?_⟩
    rw [List.append_nil]
    exact (write_stored (k := .disk) (by decide) trivial trivial h2).1
  · intro h
    rw [ex _ (Kind.steps_of (fun _ => Kind.pres_storageWrite) (st.alive ha) h3)] at h
    obtain ⟨c, h⟩ := h
    have e1 : Kind.stored .disk _ objD "x" = some (image [8#8]) := (write_stored (k := .disk) (by decide) trivial trivial h3).1
    rw [e1] at h
    have := congrArg (List.take 17) (Option.some.inj h)
    rw [List.take_append_of_le_length (by decide)] at this
    exact absurd this (by decide)

end Flatdata
