import Verif.Model.MemStorage
/-!
# What both storages have in common

`Laws B` collects facts about a backend that generic proofs use. Each resource has a location (`loc`); `medium` is what
has been written there, `cache` the slice that later reads will return. Every operation on one location leaves all
other locations alone (`Keeps`). Both instances are proved below, for the file storage with an arbitrary fault oracle.
-/
namespace Flatdata

namespace Act
variable {W E E' α β : Type}

theorem bind_def (x : Act W E α) (f : α → Act W E β) (w : W) : (x >>= f) w = (match x w with
  | (.ok a, w) => f a w
  | (.err e, w) => (.err e, w)
  | (.panic, w) => (.panic, w)
  | (.ub, w) => (.ub, w)) := rfl

theorem bind_ok {x : Act W E α} {f : α → Act W E β} {w w' : W} {a : α} (h : x w = (.ok a, w')) : (x >>= f) w = f a w' := by
  rw [bind_def, h]

theorem bind_err {x : Act W E α} {f : α → Act W E β} {w w' : W} {e : E} (h : x w = (.err e, w')) :
    (x >>= f) w = (.err e, w') := by
  rw [bind_def, h]

theorem bind_panic {x : Act W E α} {f : α → Act W E β} {w w' : W} (h : x w = (.panic, w')) :
    (x >>= f) w = (.panic, w') := by
  rw [bind_def, h]

theorem bind_eq_ok {x : Act W E α} {f : α → Act W E β} {w w' : W} {b : β} (h : (x >>= f) w = (.ok b, w')) :
    ∃ a w1, x w = (.ok a, w1) ∧ f a w1 = (.ok b, w') := by
  rw [bind_def] at h
  split at h
  · rename_i a w1 heq; exact ⟨a, w1, heq, h⟩
  · cases h
  · cases h
  · cases h

@[simp] theorem pure_def (a : α) (w : W) : (pure a : Act W E α) w = (.ok a, w) := rfl
@[simp] theorem fail_def (e : E) (w : W) : (fail e : Act W E α) w = (.err e, w) := rfl
@[simp] theorem lift_ok (a : α) (w : W) : (lift (.ok a) : Act W E α) w = (.ok a, w) := rfl
@[simp] theorem lift_panic (w : W) : (lift .panic : Act W E α) w = (.panic, w) := rfl
@[simp] theorem lift_ub (w : W) : (lift .ub : Act W E α) w = (.ub, w) := rfl

theorem lift_eq_ok {x : Out α} {w w' : W} {a : α} (h : (lift x : Act W E α) w = (.ok a, w')) : x = .ok a ∧ w' = w := by
  cases x <;> cases h
  exact ⟨rfl, rfl⟩

end Act

/-- Facts about a backend; see the file comment. -/
structure Laws (B : Backend) where
  Loc : Type
  dec : DecidableEq Loc
  loc : B.Obj → String → Loc
  medium : B.W → Loc → Option Bytes
  /-- streams that exist, with location and position -/
  live : B.W → B.Strm → Prop
  sloc : B.W → B.Strm → Loc
  pos : B.W → B.Strm → Nat
  cache : B.W → B.Obj → String → Option (Slice B.Base)
  bloc : B.Base → Loc
  bloc_inj : ∀ {a b}, bloc a = bloc b → a = b
  /-- storage objects that exist -/
  objLive : B.W → B.Obj → Prop
  /-- no I/O call will fail from now on -/
  noFault : B.W → Prop
  /-- contents the storage is able to read -/
  readable : Bytes → Prop
  readable_of_ne : ∀ d, d ≠ [] → readable d
  /-- contents (or absence) which `create_output_stream` replaces by the empty content -/
  fresh : Option Bytes → Prop
  fresh_none : fresh none
  /-- invariant of reachable worlds -/
  inv : B.W → Prop
  inv_cache : ∀ {w o n}, inv w → medium w (loc o n) = none → cache w o n = none
  inv_bloc : ∀ {w o n s}, inv w → cache w o n = some s → bloc s.base = loc o n
  inv_live : ∀ {w s}, inv w → live w s → medium w (sloc w s) ≠ none
  subdir_inv : ∀ {o d w r w'}, inv w → B.subdir o d w = (r, w') → inv w'
  exists_inv : ∀ {o n w r w'}, inv w → B.existsRes o n w = (r, w') → inv w'
  read_inv : ∀ {o n w r w'}, inv w → B.readResource o n w = (r, w') → inv w'
  create_inv : ∀ {o n w r w'}, inv w → objLive w o → B.createOutputStream o n w = (r, w') → inv w'
  write_inv : ∀ {s b w r w'}, inv w → B.writeAll s b w = (r, w') → inv w'
  seek_inv : ∀ {s w r w'}, inv w → B.seekStart s w = (r, w') → inv w'
  -- reading
  read_total : ∀ o n w, (∃ s w', B.readResource o n w = (.ok s, w')) ∨ (∃ e w', B.readResource o n w = (.err e, w'))
  read_keeps : ∀ {o n w r w'}, B.readResource o n w = (r, w') →
    (∀ l, medium w' l = medium w l) ∧
    (∀ s, live w s → live w' s ∧ sloc w' s = sloc w s ∧ pos w' s = pos w s) ∧
    (∀ o' n', loc o' n' ≠ loc o n → cache w' o' n' = cache w o' n') ∧
    (∀ b, bloc b ≠ loc o n ∨ cache w o n ≠ none → B.content w' b = B.content w b) ∧
    (noFault w → noFault w')
  read_ok : ∀ {o n w s w'}, B.readResource o n w = (.ok s, w') → cache w' o n = some s ∧
    (cache w o n = some s ∨ (cache w o n = none ∧ ∃ d, medium w (loc o n) = some d ∧ s.off = 0 ∧ s.len = d.length ∧
      bloc s.base = loc o n ∧ B.content w' s.base = d ∧ readable d))
  read_err : ∀ {o n w e w'}, B.readResource o n w = (.err e, w') → cache w' o n = cache w o n
  read_some : ∀ {o n w d}, noFault w → medium w (loc o n) = some d → readable d →
    ∃ s w', B.readResource o n w = (.ok s, w')
  read_none : ∀ {o n w}, medium w (loc o n) = none → cache w o n = none →
    ∃ e w', B.readResource o n w = (.err e, w')
  read_cached : ∀ {o n w s}, inv w → noFault w → cache w o n = some s → ∃ w', B.readResource o n w = (.ok s, w')
  read_mono : ∀ {o n w r w'}, B.readResource o n w = (r, w') → ∀ o' n',
    (cache w' o' n' = cache w o' n' ∧ ∀ s, cache w o' n' = some s → B.content w' s.base = B.content w s.base) ∨
    (cache w o' n' = none ∧ ∃ s d, cache w' o' n' = some s ∧ medium w (loc o' n') = some d ∧ readable d ∧ s.off = 0 ∧
      s.len = d.length ∧ bloc s.base = loc o' n' ∧ B.content w' s.base = d)
  -- creating streams
  create_total : ∀ o n w, (∃ s w', B.createOutputStream o n w = (.ok s, w')) ∨
    (∃ e w', B.createOutputStream o n w = (.err e, w'))
  create_keeps : ∀ {o n w r w'}, B.createOutputStream o n w = (r, w') →
    (∀ l, l ≠ loc o n → medium w' l = medium w l) ∧
    (∀ s, live w s → live w' s ∧ sloc w' s = sloc w s ∧ pos w' s = pos w s) ∧
    (∀ o' n', cache w' o' n' = cache w o' n') ∧
    (∀ b, bloc b ≠ loc o n → B.content w' b = B.content w b) ∧
    (noFault w → noFault w')
  create_ok : ∀ {o n w s w'}, B.createOutputStream o n w = (.ok s, w') → live w' s ∧ sloc w' s = loc o n ∧
    (fresh (medium w (loc o n)) → medium w' (loc o n) = some [] ∧ pos w' s = 0)
  create_err : ∀ {o n w e w'}, B.createOutputStream o n w = (.err e, w') →
    medium w' (loc o n) = medium w (loc o n) ∨ medium w' (loc o n) = some []
  -- writing
  write_total : ∀ {s w} b, live w s →  medium w (sloc w s) ≠ none → (∃ w', B.writeAll s b w = (.ok (), w')) ∨
    (∃ e w', B.writeAll s b w = (.err e, w'))
  write_keeps : ∀ {s b w r w'}, live w s → B.writeAll s b w = (r, w') →
    (∀ l, l ≠ sloc w s → medium w' l = medium w l) ∧
    (∀ s', live w s' → live w' s' ∧ sloc w' s' = sloc w s' ∧ (sloc w s' ≠ sloc w s → pos w' s' = pos w s')) ∧
    (∀ o' n', cache w' o' n' = cache w o' n') ∧
    (∀ b, bloc b ≠ sloc w s → B.content w' b = B.content w b) ∧
    (noFault w → noFault w')
  write_ok : ∀ {s b w w' c}, live w s → medium w (sloc w s) = some c → B.writeAll s b w = (.ok (), w') →
    medium w' (sloc w s) = some (putAt c (pos w s) b) ∧ pos w' s = pos w s + b.length
  write_err : ∀ {s b w e w' c}, live w s → medium w (sloc w s) = some c → B.writeAll s b w = (.err e, w') →
    ∃ b', b' <+: b ∧ medium w' (sloc w s) = some (putAt c (pos w s) b') ∧ pos w' s = pos w s + b'.length
  write_noFault : ∀ {s b w}, live w s → medium w (sloc w s) ≠ none → noFault w → ∃ w', B.writeAll s b w = (.ok (), w')
  -- seeking
  seek_total : ∀ {s w}, live w s → medium w (sloc w s) ≠ none → (∃ w', B.seekStart s w = (.ok (), w')) ∨
    (∃ e w', B.seekStart s w = (.err e, w'))
  seek_keeps : ∀ {s w r w'}, live w s → B.seekStart s w = (r, w') →
    (∀ l, medium w' l = medium w l) ∧
    (∀ s', live w s' → live w' s' ∧ sloc w' s' = sloc w s' ∧ (sloc w s' ≠ sloc w s → pos w' s' = pos w s')) ∧
    (∀ o' n', cache w' o' n' = cache w o' n') ∧
    (∀ b, B.content w' b = B.content w b) ∧
    (noFault w → noFault w')
  seek_ok : ∀ {s w w'}, live w s → B.seekStart s w = (.ok (), w') → pos w' s = 0
  seek_noFault : ∀ {s w}, live w s → medium w (sloc w s) ≠ none → noFault w → ∃ w', B.seekStart s w = (.ok (), w')

/-! ## Memory -/

theorem upd_same {α β : Type} [DecidableEq α] (f : α → β) (a : α) (b : β) : upd f a b a = b := by simp [upd]
theorem upd_other {α β : Type} [DecidableEq α] (f : α → β) {a x : α} (b : β) (h : x ≠ a) : upd f a b x = f x := by
  simp [upd, h]

namespace MemSt

theorem read_cases (o : Obj) (n : String) (w : MemW) :
    (∃ d, w.resources (loc o n) = some d ∧ readResource o n w = (.ok ⟨loc o n, 0, d.length⟩, w)) ∨
    (∃ d q, w.resources (loc o n) = none ∧ w.streams (loc o n) = some (d, q) ∧ readResource o n w =
      (.ok ⟨loc o n, 0, d.length⟩, { w with resources := upd w.resources (loc o n) (some d) })) ∨
    (w.resources (loc o n) = none ∧ w.streams (loc o n) = none ∧ readResource o n w = (.err .notFound, w)) := by
  unfold readResource
  cases h : w.resources (loc o n) with
  | some d => exact .inl ⟨d, rfl, rfl⟩
  | none =>
    cases h' : w.streams (loc o n) with
    | some x => obtain ⟨d, q⟩ := x; exact .inr (.inl ⟨d, q, rfl, rfl, rfl⟩)
    | none => exact .inr (.inr ⟨rfl, rfl, rfl⟩)

theorem create_cases (o : Obj) (n : String) (w : MemW) :
    (∃ x, w.streams (loc o n) = some x ∧ createOutputStream o n w = (.ok (loc o n), w)) ∨
    (w.streams (loc o n) = none ∧ createOutputStream o n w =
      (.ok (loc o n), { w with streams := upd w.streams (loc o n) (some ([], 0)) })) := by
  unfold createOutputStream
  cases h : w.streams (loc o n) with
  | some x => exact .inl ⟨x, rfl, rfl⟩
  | none => exact .inr ⟨rfl, rfl⟩

theorem writeAll_eq {s : MemLoc} {w : MemW} {c : Bytes} {q : Nat} (b : Bytes) (h : w.streams s = some (c, q)) :
    writeAll s b w = (.ok (), { w with streams := upd w.streams s (some (putAt c q b, q + b.length)) }) := by
  unfold writeAll; rw [h]

theorem seekStart_eq {s : MemLoc} {w : MemW} {c : Bytes} {q : Nat} (h : w.streams s = some (c, q)) :
    seekStart s w = (.ok (), { w with streams := upd w.streams s (some (c, 0)) }) := by
  unfold seekStart; rw [h]

end MemSt

open MemSt in
/-- The memory storage satisfies the laws. -/
def memLaws : Laws mem where
  Loc := MemLoc
  dec := inferInstance
  loc := MemSt.loc
  medium w l := ((w : MemW).streams l).map Prod.fst
  live w s := (w : MemW).streams s ≠ none
  sloc _ s := s
  pos w s := (((w : MemW).streams s).map Prod.snd).getD 0
  cache w o n := ((w : MemW).resources (MemSt.loc o n)).map fun d => ⟨MemSt.loc o n, 0, d.length⟩
  bloc b := b
  bloc_inj h := h
  objLive w o := o.id < (w : MemW).next
  noFault _ := True
  readable _ := True
  readable_of_ne _ _ := trivial
  fresh c := c = none
  fresh_none := rfl
  inv w := (∀ l, (w : MemW).streams l = none → w.resources l = none) ∧ ∀ l, w.next ≤ l.1 → w.streams l = none
  inv_cache {w o n} h hn := by
    simp only [Option.map_eq_none_iff] at hn ⊢; exact h.1 _ hn
  inv_bloc {w o n s} _ hc := by
    simp only [Option.map_eq_some_iff] at hc
    obtain ⟨d, _, rfl⟩ := hc; rfl
  inv_live {w s} _ hl := by simpa using hl
  subdir_inv {o d w r w'} hi h := by
    cases h
    refine ⟨fun l => ?_, fun l hl => ?_⟩
    · simp only
      split
      · intro _; rfl
      · exact hi.1 l
    · have hl' : w.next + 1 ≤ l.1 := hl
      simp only
      split
      · rfl
      · exact hi.2 l (by omega)
  exists_inv {o n w r w'} hi h := by cases h; exact hi
  read_inv {o n w r w'} hi h := by
    change readResource o n w = (r, w') at h
    rcases read_cases o n w with ⟨d, h1, h2⟩ | ⟨d, q, h1, h3, h2⟩ | ⟨_, _, h2⟩ <;> rw [h2] at h <;> cases h
    · exact hi
    · refine ⟨fun l hl => ?_, hi.2⟩
      have hne : l ≠ loc o n := by intro he; rw [he] at hl; simp only [h3] at hl; cases hl
      simp only [upd_other _ _ hne]
      exact hi.1 l hl
    · exact hi
  create_inv {o n w r w'} hi ho h := by
    change createOutputStream o n w = (r, w') at h
    rcases create_cases o n w with ⟨x, h1, h2⟩ | ⟨h1, h2⟩ <;> rw [h2] at h <;> cases h
    · exact hi
    · refine ⟨fun l hl => ?_, fun l hl => ?_⟩
      · have hne : l ≠ loc o n := by intro he; rw [he] at hl; simp [upd_same] at hl
        simp only [upd_other _ _ hne] at hl
        exact hi.1 l hl
      · have hl' : w.next ≤ l.1 := hl
        have hne : l ≠ loc o n := by
          intro he
          have h1 : l.1 = o.id := by rw [he]; rfl
          exact absurd (h1 ▸ hl') (Nat.not_le.mpr ho)
        simp only [upd_other _ _ hne]
        exact hi.2 l hl
  write_inv {s b w r w'} hi h := by
    change writeAll s b w = (r, w') at h
    unfold writeAll at h
    split at h <;> cases h
    · rename_i hs
      refine ⟨fun l hl => ?_, fun l hl => ?_⟩
      · have hne : l ≠ s := by intro he; rw [he] at hl; simp [upd_same] at hl
        simp only [upd_other _ _ hne] at hl
        exact hi.1 l hl
      · have hne : l ≠ s := by
          intro he
          rw [← he, hi.2 l hl] at hs; cases hs
        simp only [upd_other _ _ hne]
        exact hi.2 l hl
    · exact hi
  seek_inv {s w r w'} hi h := by
    change seekStart s w = (r, w') at h
    unfold seekStart at h
    split at h <;> cases h
    · rename_i hs
      refine ⟨fun l hl => ?_, fun l hl => ?_⟩
      · have hne : l ≠ s := by intro he; rw [he] at hl; simp [upd_same] at hl
        simp only [upd_other _ _ hne] at hl
        exact hi.1 l hl
      · have hne : l ≠ s := by
          intro he
          rw [← he, hi.2 l hl] at hs; cases hs
        simp only [upd_other _ _ hne]
        exact hi.2 l hl
    · exact hi
  read_total o n w := by
    rcases read_cases o n w with ⟨d, _, h⟩ | ⟨d, q, _, _, h⟩ | ⟨_, _, h⟩
    · exact .inl ⟨_, _, h⟩
    · exact .inl ⟨_, _, h⟩
    · exact .inr ⟨_, _, h⟩
  read_keeps {o n w r w'} h := by
    change readResource o n w = (r, w') at h
    rcases read_cases o n w with ⟨d, h1, h2⟩ | ⟨d, q, h1, _, h2⟩ | ⟨_, _, h2⟩ <;> rw [h2] at h <;> cases h
    · exact ⟨fun _ => rfl, fun s hs => ⟨hs, rfl, rfl⟩, fun _ _ _ => rfl, fun _ _ => rfl, id⟩
    · refine ⟨fun _ => rfl, fun s hs => ⟨hs, rfl, rfl⟩, ?_, ?_, id⟩
      · intro o' n' hne
        simp only [upd_other _ _ hne]
      · intro b hb
        rcases hb with hb | hb
        · change ((upd w.resources (loc o n) (some d)) b).getD [] = (w.resources b).getD []
          rw [upd_other _ _ hb]
        · rw [h1] at hb; exact absurd rfl hb
    · exact ⟨fun _ => rfl, fun s hs => ⟨hs, rfl, rfl⟩, fun _ _ _ => rfl, fun _ _ => rfl, id⟩
  read_ok {o n w s w'} h := by
    change readResource o n w = (.ok s, w') at h
    rcases read_cases o n w with ⟨d, h1, h2⟩ | ⟨d, q, h1, h3, h2⟩ | ⟨_, _, h2⟩ <;> rw [h2] at h <;> cases h
    · simp only [h1, Option.map_some]; simp
    · refine ⟨?_, .inr ⟨?_, d, ?_, rfl, rfl, rfl, ?_, trivial⟩⟩
      · simp only [upd_same, Option.map_some]
      · simp only [h1, Option.map_none]
      · simp only [h3, Option.map_some]
      · change ((upd w.resources (loc o n) (some d)) (loc o n)).getD [] = d
        rw [upd_same]; rfl
  read_err {o n w e w'} h := by
    change readResource o n w = (.err e, w') at h
    rcases read_cases o n w with ⟨d, h1, h2⟩ | ⟨d, q, h1, h3, h2⟩ | ⟨_, _, h2⟩ <;> rw [h2] at h <;> cases h
    rfl
  read_some {o n w d} _ h _ := by
    rcases read_cases o n w with ⟨d, h1, h2⟩ | ⟨d, q, h1, h3, h2⟩ | ⟨_, h3, h2⟩
    · exact ⟨_, _, h2⟩
    · exact ⟨_, _, h2⟩
    · rw [h3] at h; cases h
  read_none {o n w} h hc := by
    rcases read_cases o n w with ⟨d, h1, h2⟩ | ⟨d, q, h1, h3, h2⟩ | ⟨_, h3, h2⟩
    · rw [h1] at hc; cases hc
    · rw [h3] at h; cases h
    · exact ⟨_, _, h2⟩
  read_cached {o n w s} _ _ hc := by
    rcases read_cases o n w with ⟨d, h1, h2⟩ | ⟨d, q, h1, h3, h2⟩ | ⟨h1, h3, h2⟩
    · rw [h1] at hc; cases hc; exact ⟨_, h2⟩
    · rw [h1] at hc; cases hc
    · rw [h1] at hc; cases hc
  read_mono {o n w r w'} h o' n' := by
    change readResource o n w = (r, w') at h
    rcases read_cases o n w with ⟨d, h1, h2⟩ | ⟨d, q, h1, h3, h2⟩ | ⟨_, _, h2⟩ <;> rw [h2] at h <;> cases h
    · exact .inl ⟨rfl, fun _ _ => rfl⟩
    · by_cases he : loc o' n' = loc o n
      · refine .inr ⟨by rw [he, h1]; rfl, ⟨loc o n, 0, d.length⟩, d, ?_, by rw [he, h3]; rfl, trivial, rfl, rfl, he.symm, ?_⟩
        · simp only [he, upd_same, Option.map_some]
        · change ((upd w.resources (loc o n) (some d)) (loc o n)).getD [] = d
          rw [upd_same]; rfl
      · refine .inl ⟨by simp only [upd_other _ _ he], fun s hs => ?_⟩
        simp only [Option.map_eq_some_iff] at hs
        obtain ⟨d', _, rfl⟩ := hs
        change ((upd w.resources (loc o n) (some d)) (loc o' n')).getD [] = _
        rw [upd_other _ _ he]
    · exact .inl ⟨rfl, fun _ _ => rfl⟩
  create_total o n w := by
    rcases create_cases o n w with ⟨_, _, h⟩ | ⟨_, h⟩ <;> exact .inl ⟨_, _, h⟩
  create_keeps {o n w r w'} h := by
    change createOutputStream o n w = (r, w') at h
    rcases create_cases o n w with ⟨x, h1, h2⟩ | ⟨h1, h2⟩ <;> rw [h2] at h <;> cases h
    · exact ⟨fun _ _ => rfl, fun s hs => ⟨hs, rfl, rfl⟩, fun _ _ => rfl, fun _ _ => rfl, id⟩
    · refine ⟨?_, ?_, fun _ _ => rfl, fun _ _ => rfl, id⟩
      · intro l hl; simp only [upd_other _ _ hl]
      · intro s hs
        have hne : s ≠ loc o n := by intro he; rw [he] at hs; exact hs h1
        simp only [upd_other _ _ hne]
        exact ⟨hs, trivial, trivial⟩
  create_ok {o n w s w'} h := by
    change createOutputStream o n w = (.ok s, w') at h
    rcases create_cases o n w with ⟨x, h1, h2⟩ | ⟨h1, h2⟩ <;> rw [h2] at h <;> cases h
    · refine ⟨by rw [h1]; simp, rfl, ?_⟩
      intro hn; rw [h1] at hn; cases hn
    · refine ⟨by simp [upd_same], rfl, ?_⟩
      intro _; simp [upd_same]
  create_err {o n w e w'} h := by
    change createOutputStream o n w = (.err e, w') at h
    rcases create_cases o n w with ⟨x, h1, h2⟩ | ⟨h1, h2⟩ <;> rw [h2] at h <;> cases h
  write_total {s w} b hl _ := by
    have hl' : (w : MemW).streams s ≠ none := hl
    obtain ⟨⟨c, q⟩, hc⟩ := Option.ne_none_iff_exists'.mp hl'
    exact .inl ⟨_, writeAll_eq b hc⟩
  write_keeps {s b w r w'} hl h := by
    have hl' : (w : MemW).streams s ≠ none := hl
    obtain ⟨⟨c, q⟩, hc⟩ := Option.ne_none_iff_exists'.mp hl'
    change writeAll s b w = (r, w') at h
    unfold writeAll at h; rw [hc] at h; cases h
    refine ⟨?_, ?_, fun _ _ => rfl, fun _ _ => rfl, id⟩
    · intro l hne; simp only [upd_other _ _ hne]
    · intro s' hs'
      refine ⟨?_, rfl, ?_⟩
      · by_cases he : s' = s
        · subst he; simp [upd_same]
        · simp only [upd_other _ _ he]; exact hs'
      · intro hne; simp only [upd_other _ _ hne]
  write_ok {s b w w' c} hl hm h := by
    have hl' : (w : MemW).streams s ≠ none := hl
    obtain ⟨⟨c', q⟩, hc⟩ := Option.ne_none_iff_exists'.mp hl'
    change writeAll s b w = (.ok (), w') at h
    unfold writeAll at h; rw [hc] at h; cases h
    simp only [hc, Option.map_some, Option.some.injEq] at hm
    subst hm
    simp [upd_same, hc]
  write_err {s b w e w' c} hl hm h := by
    have hl' : (w : MemW).streams s ≠ none := hl
    obtain ⟨⟨c', q⟩, hc⟩ := Option.ne_none_iff_exists'.mp hl'
    change writeAll s b w = (.err e, w') at h
    unfold writeAll at h; rw [hc] at h; cases h
  write_noFault {s b w} hl _ _ := by
    have hl' : (w : MemW).streams s ≠ none := hl
    obtain ⟨⟨c', q⟩, hc⟩ := Option.ne_none_iff_exists'.mp hl'
    exact ⟨_, writeAll_eq b hc⟩
  seek_total {s w} hl _ := by
    have hl' : (w : MemW).streams s ≠ none := hl
    obtain ⟨⟨c', q⟩, hc⟩ := Option.ne_none_iff_exists'.mp hl'
    exact .inl ⟨_, seekStart_eq hc⟩
  seek_keeps {s w r w'} hl h := by
    have hl' : (w : MemW).streams s ≠ none := hl
    obtain ⟨⟨c, q⟩, hc⟩ := Option.ne_none_iff_exists'.mp hl'
    change seekStart s w = (r, w') at h
    unfold seekStart at h; rw [hc] at h; cases h
    refine ⟨?_, ?_, fun _ _ => rfl, fun _ => rfl, id⟩
    · intro l
      by_cases he : l = s
      · subst he; simp [upd_same, hc]
      · simp only [upd_other _ _ he]
    · intro s' hs'
      refine ⟨?_, rfl, ?_⟩
      · by_cases he : s' = s
        · subst he; simp [upd_same]
        · simp only [upd_other _ _ he]; exact hs'
      · intro hne; simp only [upd_other _ _ hne]
  seek_ok {s w w'} hl h := by
    have hl' : (w : MemW).streams s ≠ none := hl
    obtain ⟨⟨c, q⟩, hc⟩ := Option.ne_none_iff_exists'.mp hl'
    change seekStart s w = (.ok (), w') at h
    unfold seekStart at h; rw [hc] at h; cases h
    simp [upd_same]
  seek_noFault {s w} hl _ _ := by
    have hl' : (w : MemW).streams s ≠ none := hl
    obtain ⟨⟨c', q⟩, hc⟩ := Option.ne_none_iff_exists'.mp hl'
    exact ⟨_, seekStart_eq hc⟩

end Flatdata
