import Verif.Proofs.Build
import Verif.Proofs.Aside
import Verif.Spec.Program
import Mathlib.Data.List.Nodup
import Mathlib.Data.List.Pairwise
/-!
# Running a building program
-/
namespace Flatdata
open Spec

variable {k : Kind} {p : Profile} {e : Endian} {o : k.backend.Obj}

/-! ## one resource -/

/-- The names of the files of a resource. -/
def resFiles (r : ResDecl) : List String := (parts r).flatMap fun q => [q.1, q.1 ++ ".schema"]

/-- The index of a multivector has the name that the builder gives it. -/
def IndexNamed (r : ResDecl) : Prop := ∀ V i, r.type = .multi V i → i = r.name ++ "_index"

theorem name_mem_resFiles (r : ResDecl) : r.name ∈ resFiles r ∧ r.name ++ ".schema" ∈ resFiles r := by
  unfold resFiles parts; cases r.type <;> simp

theorem index_mem_resFiles {r : ResDecl} (hi : IndexNamed r) {V i} (h : r.type = .multi V i) :
    r.name ++ "_index" ∈ resFiles r ∧ r.name ++ "_index" ++ ".schema" ∈ resFiles r := by
  have := hi V i h
  unfold resFiles parts; rw [h]; simp [this]

namespace Spec.Kind
variable {N : k.Place → Prop} {I : k.backend.W → Prop}

theorem withinT_iff {w : k.backend.W} : WithinT k o N I (fun _ => False) w ↔ Within k o I w :=
  ⟨fun h => h.1, fun h => ⟨h, fun _ hs => hs.elim⟩⟩

theorem within_writeResource [DiffLib] [Closed k o N I] {r : ResDecl} {s : Source} (hi : IndexNamed r) (hP : ∀ n ∈ resFiles r, N (k.place o n)) :
    Act.Pres (Within k o I) (writeResource k.backend p e o r s) := by
  have n1 := hP _ (name_mem_resFiles r).1
  have n2 := hP _ (name_mem_resFiles r).2
  unfold writeResource
  split
  · refine .mapErr ?_
    unfold setStruct
    split
    · exact .lift _
    · exact within_storageWrite n1 n2
  · exact .mapErr (within_storageWrite n1 n2)
  · exact .mapErr (within_storageWrite n1 n2)
  · rename_i S es ht
    have hA : Act.Tri (WithinT k o N I fun _ => False) (WithinT k o N I fun _ => False) (writeResource k.backend p e o r (.elements es))
        (fun _ _ => True) := by
      unfold writeResource
      simp only [ht]
      refine .bind (withinT_createExternalVector n1 n2).mapErr fun v => ?_
      rintro w ⟨T', h1, h2, h3⟩
      have hk : Act.Keep (WithinT k o N I T') ((es.foldlM (growOne k.backend p e S) v).mapErr (RErr.io · r.name)
          >>= fun v => v.close p e >>= fun _ => (pure () : Act k.backend.W RErr Unit)) (fun _ => True) := by
        refine .bind (Q := fun v => Inside k o N T' v.handle) (.mapErr (.foldlM ?_ h3)) fun v hv => ?_
        · intro v ops hv
          exact .bind (keep_grow hv) fun r hr => .bind (.lift _) fun _ _ => .pure hr
        · exact .bind (.of_pres (keep_close hv)) fun _ _ => .pure trivial
      exact ⟨(hk w h2).1.weaken h1, fun _ _ => trivial⟩
    intro w hw
    have := (hA w (withinT_iff.mpr hw)).1
    unfold writeResource at this
    simp only [ht] at this
    exact withinT_iff.mp this
  · rename_i V i its ht
    obtain ⟨n3, n4⟩ := index_mem_resFiles hi ht
    have hA : Act.Tri (WithinT k o N I fun _ => False) (WithinT k o N I fun _ => False) (writeResource k.backend p e o r (.items its))
        (fun _ _ => True) := by
      unfold writeResource
      simp only [ht]
      refine .bind (withinT_createMultiVector n1 n2 (hP _ n3) (hP _ n4)).mapErr fun v => ?_
      rintro w ⟨T', h1, h2, h3⟩
      have hk : Act.Keep (WithinT k o N I T') ((its.foldlM (growItem k.backend p e V) v).mapErr (RErr.io · r.name)
          >>= fun v => v.close p e V >>= fun _ => (pure () : Act k.backend.W RErr Unit)) (fun _ => True) := by
        refine .bind (Q := fun v => MInside k o N T' v) (.mapErr (.foldlM ?_ h3)) fun v hv => ?_
        · intro v as hv
          refine .bind (keep_mgrow hv).mapErr fun r hr => .bind (.of_pres pres_ofExcept) fun _ _ => .foldlM ?_ hr
          intro v a hv
          exact .bind (.lift _) fun _ _ => .bind (.lift _) fun _ _ => .pure ⟨hv.index, hv.data⟩
        · exact .bind (.of_pres (keep_mclose hv)) fun _ _ => .pure trivial
      exact ⟨(hk w h2).1.weaken h1, fun _ _ => trivial⟩
    intro w hw
    have := (hA w (withinT_iff.mpr hw)).1
    unfold writeResource at this
    simp only [ht] at this
    exact withinT_iff.mp this
  · exact .lift _

variable {P : k.Place → Prop} {w0 : k.backend.W}

theorem aside_writeResource [DiffLib] {r : ResDecl} {s : Source} (hi : IndexNamed r) (hP : ∀ n ∈ resFiles r, ¬ P (k.place o n)) :
    Act.Pres (Aside k o P w0) (writeResource k.backend p e o r s) :=
  within_writeResource (N := fun l => ¬ P l) hi hP

theorem StepsAway.mono {Q : k.Place → Prop} {w w' : k.backend.W} (h : StepsAway k P w w') (hq : ∀ l, Q l → P l) :
    StepsAway k Q w w' := by
  induction h with
  | refl => exact .refl _
  | step _ s ih =>
    refine .step ih ?_
    cases s with
    | subdir hu h => exact .subdir hu h
    | exists_ h => exact .exists_ h
    | read ho hp h => exact .read ho (fun hh => hp (hq _ hh)) h
    | create ho hp h => exact .create ho (fun hh => hp (hq _ hh)) h
    | write hs hp h => exact .write hs (fun hh => hp (hq _ hh)) h
    | seek hs hp h => exact .seek hs (fun hh => hp (hq _ hh)) h

theorem StepsAway.trans {a b c : k.backend.W} (h : StepsAway k P a b) (h' : StepsAway k P b c) : StepsAway k P a c := by
  induction h' with
  | refl => exact h
  | step _ s ih => exact .step ih s

theorem Quiet.aways {a b c : k.backend.W} (h : k.Quiet P a b) (h' : StepsAway k P b c) : k.Quiet P a c := by
  induction h' with
  | refl => exact h
  | step _ s ih => exact .away ih s

end Spec.Kind

theorem own_resFiles {r : ResDecl} {P : k.Place → Prop} (hP : ∀ n ∈ resFiles r, P (k.place o n)) :
    ∀ l, k.Own o r.name l → P l := by
  rintro l (rfl | rfl)
  · exact hP _ (name_mem_resFiles r).1
  · exact hP _ (name_mem_resFiles r).2

variable [DiffLib]

/-- A finished resource stays finished. -/
theorem Spec.Written.away {r : ResDecl} {x : Payload} {P : k.Place → Prop} {w w' : k.backend.W} (h : Written k p e o r w x)
    (s : k.StepsAway P w w') (hP : ∀ n ∈ resFiles r, P (k.place o n)) : Written k p e o r w' x := by
  have s1 := s.mono (own_resFiles hP)
  cases h with
  | struct ht hl hr ho hu h q => exact .struct ht hl hr ho hu h (q.aways s1)
  | vector ht hl hr ho hu h q => exact .vector ht hl hr ho hu h (q.aways s1)
  | raw ht hl hr ho hu h q => exact .raw ht hl hr ho hu h (q.aways s1)
  | grown ht hs hr ho hu hc g hx hb hcl q => exact .grown ht hs hr ho hu hc g hx hb hcl (q.aways s1)
  | @multi V index w0 w1 w2 w3 v v1 its xss sl ht hi ok hr ho hu hc g hx hbI hb hbits hcl q =>
    refine .multi ht hi ok hr ho hu hc g hx hbI hb hbits hcl (q.aways (s.mono ?_))
    rintro l (h | h)
    · exact own_resFiles hP l h
    · have hin : IndexNamed r := fun V' i' h' => by rw [ht] at h'; cases h'; exact hi
      obtain ⟨n3, n4⟩ := index_mem_resFiles hin ht
      rcases h with rfl | rfl
      · exact hP _ n3
      · exact hP _ n4

omit [DiffLib] in
theorem mapErr_eq_ok {W E E' α : Type} {x : Act W E α} {f : E → E'} {w w' : W} {a : α} (h : x.mapErr f w = (.ok a, w')) :
    x w = (.ok a, w') := by
  unfold Act.mapErr at h
  cases hx : x w with
  | mk r w1 =>
    rw [hx] at h
    cases r <;> cases h
    rfl

omit [DiffLib] in
theorem grows_of_fold {S : StructDef} {n : String} {w w1 : k.backend.W} {v : ExtVec k.backend} :
    ∀ {es pre : List (List HandleOp)} {va wa v1}, Grows k p e S o n w v pre wa va →
    es.foldlM (growOne k.backend p e S) va wa = (.ok v1, w1) → Grows k p e S o n w v (pre ++ es) w1 v1
  | [], pre, va, wa, v1, g, h => by cases h; simpa using g
  | ops :: es, pre, va, wa, v1, g, h => by
    rw [List.foldlM_cons] at h
    obtain ⟨vb, wb, h1, h⟩ := Act.bind_eq_ok h
    unfold growOne at h1
    obtain ⟨r, wc, h2, h1⟩ := Act.bind_eq_ok h1
    obtain ⟨d, wd, h3, h1⟩ := Act.bind_eq_ok h1
    obtain ⟨h4, hw⟩ := Act.lift_eq_ok h3
    cases h1
    rw [hw] at h
    have := grows_of_fold (pre := pre ++ [ops]) (.grow g h2 h4) h
    simpa using this

omit [DiffLib] in
theorem adds_of_fold {V : Variadic} {n : String} {w w1 w2 : k.backend.W} {v v2 : MultiVec k.backend} {its : List (List Add)} :
    ∀ {as pre : List Add} {v1}, (∀ a ∈ as, (a.type, a.struct) ∈ V.types) →
    MGrows k p e V o n w v (its ++ [pre]) w1 v1 → as.foldlM (addOne k.backend p e) v1 w1 = (.ok v2, w2) →
    MGrows k p e V o n w v (its ++ [pre ++ as]) w2 v2
  | [], pre, v1, _, g, h => by cases h; simpa using g
  | a :: as, pre, v1, hm, g, h => by
    rw [List.foldlM_cons] at h
    obtain ⟨vb, wb, h1, hrest⟩ := Act.bind_eq_ok h
    unfold addOne at h1
    obtain ⟨r, wc, h2, h3⟩ := Act.bind_eq_ok h1
    obtain ⟨d, wd, h4, h5⟩ := Act.bind_eq_ok h3
    obtain ⟨h6, hw⟩ := Act.lift_eq_ok h2
    obtain ⟨h7, hw'⟩ := Act.lift_eq_ok h4
    cases h5
    rw [hw', hw] at hrest
    have := adds_of_fold (as := as) (pre := pre ++ [a]) (fun a ha => hm a (by simp [ha])) (.add g (hm a (by simp)) h6 h7) hrest
    simpa using this

omit [DiffLib] in
theorem mgrows_of_fold {V : Variadic} {n : String} {w w1 : k.backend.W} {v v1 : MultiVec k.backend} :
    ∀ {its pre : List (List Add)} {va wa}, (∀ as ∈ its, ∀ a ∈ as, (a.type, a.struct) ∈ V.types) →
    MGrows k p e V o n w v pre wa va → its.foldlM (growItem k.backend p e V) va wa = (.ok v1, w1) →
    MGrows k p e V o n w v (pre ++ its) w1 v1
  | [], pre, va, wa, _, g, h => by cases h; simpa using g
  | as :: its, pre, va, wa, hm, g, h => by
    rw [List.foldlM_cons] at h
    obtain ⟨vb, wb, h1, h⟩ := Act.bind_eq_ok h
    unfold growItem at h1
    obtain ⟨r, wc, h2, h1⟩ := Act.bind_eq_ok h1
    obtain ⟨d, wd, h3, h1⟩ := Act.bind_eq_ok h1
    have h4 := mapErr_eq_ok h2
    obtain ⟨r1, vc⟩ := r
    cases r1 with
    | error x => cases h3
    | ok u =>
      cases h3
      have g2 := adds_of_fold (pre := []) (hm as (by simp)) (.grow g h4) h1
      have := mgrows_of_fold (pre := pre ++ [as]) (fun as ha => hm as (by simp [ha])) (by simpa using g2) h
      simpa using this

/-- Writing a resource. -/
theorem written_of_run {r : ResDecl} {s : Source} {x : Payload} {w w' : k.backend.W} (hr : k.Reachable w) (ho : k.alive w o)
    (hu : ∀ q ∈ parts r, k.Unused w o q.1) (hg : Gives p e r s x) (h : writeResource k.backend p e o r s w = (.ok (), w')) :
    Written k p e o r w' x := by
  have hn : k.Unused w o r.name := by
    refine hu (r.name, r.schema) ?_
    unfold parts; cases r.type <;> simp
  cases s with
  | struct item =>
    cases x with
    | items xss => exact hg.elim
    | bytes b =>
      obtain ⟨S, ht, hl, _, rfl⟩ := hg
      unfold writeResource at h
      rw [ht] at h
      exact .struct ht hl hr ho hn (mapErr_eq_ok h) (.refl _)
  | data d =>
    cases x with
    | items xss => exact hg.elim
    | bytes b =>
      obtain ⟨⟨S, ht⟩ | ht, hl, rfl⟩ := hg
      · unfold writeResource at h
        rw [ht] at h
        exact .vector ht hl hr ho hn (mapErr_eq_ok h) (.refl _)
      · unfold writeResource at h
        rw [ht] at h
        exact .raw ht hl hr ho hn (mapErr_eq_ok h) (.refl _)
  | elements es =>
    cases x with
    | items xss => exact hg.elim
    | bytes b =>
      obtain ⟨S, xs, ht, hs, hx, hb, rfl⟩ := hg
      unfold writeResource at h
      simp only [ht] at h
      obtain ⟨v, w1, h1, h⟩ := Act.bind_eq_ok h
      obtain ⟨v1, w2, h2, h⟩ := Act.bind_eq_ok h
      obtain ⟨sl, w3, h3, h⟩ := Act.bind_eq_ok h
      cases h
      refine .grown ht hs hr ho hn (mapErr_eq_ok h1) ?_ hx hb h3 (.refl _)
      simpa using grows_of_fold (pre := []) (Grows.start (k := k) (p := p) (e := e) (S := S) (o := o) (name := r.name)) (mapErr_eq_ok h2)
  | items its =>
    cases x with
    | bytes b => exact hg.elim
    | items xss =>
      obtain ⟨V, ht, ok, hx, hm, hbI, hb, hbits⟩ := hg
      unfold writeResource at h
      simp only [ht] at h
      obtain ⟨v, w1, h1, h⟩ := Act.bind_eq_ok h
      obtain ⟨v1, w2, h2, h⟩ := Act.bind_eq_ok h
      obtain ⟨sl, w3, h3, h⟩ := Act.bind_eq_ok h
      cases h
      have hun : k.MUnused w o r.name := ⟨hn, hu (r.name ++ "_index", "index(" ++ r.schema ++ ")") (by unfold parts; rw [ht]; simp)⟩
      refine .multi ht rfl ok hr ho hun (mapErr_eq_ok h1) ?_ hx hbI hb hbits h3 (.refl _)
      simpa using mgrows_of_fold (pre := []) hm (MGrows.start (k := k) (p := p) (e := e) (V := V) (o := o) (name := r.name)) (mapErr_eq_ok h2)

end Flatdata
