import Verif.Spec.Owner
import Verif.Proofs.Straddle
/-!
# Lemmas for C61
-/
namespace Flatdata
namespace Owner
open Spec

/-- The heap is sound if `l` are the storages of all `Rc`s: counts are right, and the live regions are those of the maps of live
storages, each of exactly one entry. -/
structure Sound (h : Heap) (l : List Nat) : Prop where
  count : ∀ o st, h.stores o = some st → st.strong = l.count o ∧ 0 < l.count o
  gone : ∀ o, h.stores o = none → l.count o = 0
  freshS : ∀ o, h.nextStore ≤ o → h.stores o = none
  freshR : ∀ r, h.nextRegion ≤ r → h.regions r = none
  live : ∀ o st k r, h.stores o = some st → (k, r) ∈ st.maps → ∃ d, h.regions r = some d
  owned : ∀ r d, h.regions r = some d → ∃ o st k, h.stores o = some st ∧ (k, r) ∈ st.maps
  once : ∀ o st k o' st' k' r, h.stores o = some st → (k, r) ∈ st.maps → h.stores o' = some st' → (k', r) ∈ st'.maps → o = o'
  regions : ∀ o st, h.stores o = some st → (st.maps.map Prod.snd).Nodup

theorem Sound.congr {h : Heap} {l l' : List Nat} (s : Sound h l) (hl : ∀ o, l.count o = l'.count o) : Sound h l' :=
  { s with
    count := fun o st ho => by rw [← hl]; exact s.count o st ho
    gone := fun o ho => by rw [← hl]; exact s.gone o ho }

theorem Sound.alive {h : Heap} {l : List Nat} (s : Sound h l) {o : Nat} (ho : o ∈ l) : ∃ st, h.stores o = some st := by
  cases hs : h.stores o with
  | some st => exact ⟨st, rfl⟩
  | none => exact absurd (List.count_pos_iff.mpr ho) (by rw [s.gone o hs]; omega)

/-- The slice points into a region in a map of the live storage `o`. -/
def Valid (h : Heap) (o : Nat) (s : Slice Nat) : Prop :=
  ∃ st k d, h.stores o = some st ∧ (k, s.base) ∈ st.maps ∧ h.regions s.base = some d ∧ s.off + s.len ≤ d.length

/-- What is valid stays valid as long as its storage lives. -/
structure Keeps0 (h h' : Heap) : Prop where
  next : h.nextStore ≤ h'.nextStore
  old : ∀ o, o < h.nextStore → (h'.stores o).isSome → (h.stores o).isSome
  valid : ∀ o s, o < h.nextStore → Valid h o s → (h'.stores o).isSome → Valid h' o s

/-- And the bytes are the same. -/
structure Keeps (h h' : Heap) : Prop extends Keeps0 h h' where
  nextR : h.nextRegion ≤ h'.nextRegion
  same : ∀ r, r < h.nextRegion → h'.regions r = h.regions r ∨ h'.regions r = none

instance {h h' : Heap} : Coe (Keeps h h') (Keeps0 h h') := ⟨Keeps.toKeeps0⟩

theorem Keeps.refl (h : Heap) : Keeps h h := ⟨⟨Nat.le_refl _, fun _ _ h => h, fun _ _ _ h _ => h⟩, Nat.le_refl _, fun _ _ => .inl rfl⟩

theorem Keeps.trans {h h' h'' : Heap} (a : Keeps h h') (b : Keeps h' h'') : Keeps h h'' :=
  ⟨⟨Nat.le_trans a.next b.next, fun o ho hs => a.old o ho (b.old o (Nat.lt_of_lt_of_le ho a.next) hs),
    fun o s ho hv hs => b.valid o s (Nat.lt_of_lt_of_le ho a.next)
      (a.valid o s ho hv (b.old o (Nat.lt_of_lt_of_le ho a.next) hs)) hs⟩, Nat.le_trans a.nextR b.nextR, fun r hr => by
    rcases b.same r (Nat.lt_of_lt_of_le hr a.nextR) with h1 | h1
    · rw [h1]; exact a.same r hr
    · exact .inr h1⟩

/-- Only the time changes. -/
theorem Sound.tick {h : Heap} {l : List Nat} (s : Sound h l) (t : Nat) : Sound { h with time := t } l :=
  ⟨s.count, s.gone, s.freshS, s.freshR, s.live, s.owned, s.once, s.regions⟩

theorem Keeps.tick (h : Heap) (t : Nat) : Keeps h { h with time := t } :=
  ⟨⟨Nat.le_refl _, fun _ _ h => h, fun _ _ _ h _ => h⟩, Nat.le_refl _, fun _ _ => .inl rfl⟩

/-- After an action, begun in `h`: what the `Rc`s are (`good` after success, `bad` otherwise), and that nothing undefined happened. -/
def After {E α : Type} (r : Res E α × Heap) (h : Heap) (good : α → List Nat) (bad : List Nat) (ok : α → Heap → Prop) : Prop :=
  match r with
  | (.ok a, h') => Sound h' (good a) ∧ Keeps h h' ∧ ok a h'
  | (.err _, h') => Sound h' bad ∧ Keeps h h'
  | (.panic, h') => Sound h' bad ∧ Keeps h h'
  | (.ub, _) => False

variable {E E' α β : Type}

theorem After.congr {r : Res E α × Heap} {h : Heap} {good good' : α → List Nat} {bad bad' : List Nat} {ok ok' : α → Heap → Prop}
    (d : After r h good bad ok) (hg : ∀ a o, (good a).count o = (good' a).count o) (hb : ∀ o, bad.count o = bad'.count o)
    (hok : ∀ a h', ok a h' → ok' a h') : After r h good' bad' ok' := by
  obtain ⟨r, h'⟩ := r
  cases r with
  | ok a => exact ⟨d.1.congr (hg a), d.2.1, hok a h' d.2.2⟩
  | err e => exact ⟨d.1.congr hb, d.2⟩
  | panic => exact ⟨d.1.congr hb, d.2⟩
  | ub => exact d

theorem After.bind {x : Act Heap E α} {f : α → Act Heap E β} {h : Heap} {bad : List Nat} {ok : α → Heap → Prop} {ok' : β → Heap → Prop}
    {good : α → List Nat} {good' : β → List Nat} (dx : After (x h) h good bad ok)
    (df : ∀ a h', Sound h' (good a) → Keeps h h' → ok a h' → After (f a h') h' good' bad ok') : After ((x >>= f) h) h good' bad ok' := by
  change After (Act.bind x f h) h good' bad ok'
  unfold Act.bind
  cases hx : x h with
  | mk r h' =>
    rw [hx] at dx
    cases r with
    | ok a =>
      simp only
      have d2 := df a h' dx.1 dx.2.1 dx.2.2
      cases hf : f a h' with
      | mk r2 h2 =>
        rw [hf] at d2
        cases r2 with
        | ok b => exact ⟨d2.1, dx.2.1.trans d2.2.1, d2.2.2⟩
        | err e => exact ⟨d2.1, dx.2.1.trans d2.2⟩
        | panic => exact ⟨d2.1, dx.2.1.trans d2.2⟩
        | ub => exact d2
    | err e => exact dx
    | panic => exact dx
    | ub => exact dx

theorem After.mapErr {x : Act Heap E α} {f : E → E'} {h : Heap} {bad : List Nat} {ok : α → Heap → Prop} {good : α → List Nat}
    (d : After (x h) h good bad ok) : After (x.mapErr f h) h good bad ok := by
  unfold Act.mapErr
  cases hx : x h with
  | mk r h' => rw [hx] at d; cases r <;> exact d

theorem After.pure {a : α} {h : Heap} {bad : List Nat} {ok : α → Heap → Prop} {good : α → List Nat} (s : Sound h (good a)) (k : ok a h) :
    After ((Pure.pure a : Act Heap E α) h) h good bad ok := ⟨s, .refl h, k⟩

theorem After.fail {e : E} {h : Heap} {bad : List Nat} {ok : α → Heap → Prop} {good : α → List Nat} (s : Sound h bad) :
    After ((Act.fail e : Act Heap E α) h) h good bad ok := ⟨s, .refl h⟩

/-! ## The heap -/

theorem free_ok {h : Heap} {r : Nat} {d : Bytes} (hr : h.regions r = some d) : free (E := E) r h = (.ok (), { h with regions := upd h.regions r none }) := by
  unfold free; rw [hr]

/-- All values of a map can be dropped. -/
theorem freeAll_ok : ∀ (m : List (Key × Nat)) (h : Heap), (∀ x ∈ m, ∃ d, h.regions x.2 = some d) → (m.map Prod.snd).Nodup →
    freeAll (E := E) m h = (.ok (), { h with regions := fun r => if r ∈ m.map Prod.snd then none else h.regions r })
  | [], h, _, _ => by
    simp only [List.map_nil, List.not_mem_nil, if_false]; rfl
  | x :: m, h, hl, hn => by
    obtain ⟨d, hd⟩ := hl x (by simp)
    rw [List.map_cons, List.nodup_cons] at hn
    change Act.bind (free x.2) (fun _ => freeAll m) h = _
    unfold Act.bind
    rw [free_ok hd]
    simp only
    rw [freeAll_ok m _ (fun y hy => by
      obtain ⟨d, hd⟩ := hl y (by simp [hy])
      refine ⟨d, ?_⟩
      simp only [upd]
      rw [if_neg (fun hxy => hn.1 (by rw [← hxy]; exact List.mem_map.mpr ⟨y, hy, rfl⟩))]
      exact hd) hn.2]
    congr 2
    funext r
    simp only [upd, List.map_cons, List.mem_cons]
    by_cases h1 : r ∈ m.map Prod.snd
    · simp [h1]
    · by_cases h2 : r = x.2 <;> simp [h1, h2]

/-- Only the count of one storage changes. -/
theorem Sound.recount {h : Heap} {o n : Nat} {st : Store} {l l' : List Nat} (s : Sound h l) (hst : h.stores o = some st) (hn : l'.count o = n) (hpos : 0 < n)
    (hcx : ∀ x, x ≠ o → l.count x = l'.count x) :
    Sound { h with stores := upd h.stores o (some { st with strong := n }) } l' ∧ Keeps h { h with stores := upd h.stores o (some { st with strong := n }) } := by
  have hstore : ∀ x st', upd h.stores o (some { st with strong := n }) x = some st' →
      ∃ st0, h.stores x = some st0 ∧ st0.maps = st'.maps ∧ (x = o → st'.strong = n) ∧ (x ≠ o → st' = st0) := by
    intro x st' hx
    unfold upd at hx
    split at hx
    · rename_i hxo
      subst hxo
      cases hx
      exact ⟨st, hst, rfl, fun _ => rfl, fun h => absurd rfl h⟩
    · exact ⟨st', hx, rfl, fun h => absurd h (by assumption), fun _ => rfl⟩
  refine ⟨⟨?_, ?_, ?_, s.freshR, ?_, ?_, ?_, ?_⟩, ⟨⟨Nat.le_refl _, ?_, ?_⟩, Nat.le_refl _, fun _ _ => .inl rfl⟩⟩
  · intro x st' hx
    obtain ⟨st0, h2, _, h3, h4⟩ := hstore x st' hx
    by_cases hxo : x = o
    · subst hxo
      rw [h3 rfl]; omega
    · rw [h4 hxo, ← hcx x hxo]; exact s.count x st0 h2
  · intro x hx
    by_cases hxo : x = o
    · simp [upd, hxo] at hx
    · rw [← hcx x hxo]
      refine s.gone x ?_
      simpa [upd, hxo] using hx
  · intro x hx
    by_cases hxo : x = o
    · subst hxo
      rw [s.freshS x hx] at hst; cases hst
    · simpa [upd, hxo] using s.freshS x hx
  · intro x st' k r hx hm
    obtain ⟨st0, h2, h3, _⟩ := hstore x st' hx
    exact s.live x st0 k r h2 (by rw [h3]; exact hm)
  · intro r d hr
    obtain ⟨x, st', k, hx, hm⟩ := s.owned r d hr
    by_cases hxo : x = o
    · subst hxo
      rw [hst] at hx
      cases hx
      exact ⟨x, { st with strong := n }, k, by simp [upd], hm⟩
    · exact ⟨x, st', k, by simpa [upd, hxo] using hx, hm⟩
  · intro x st1 k y st2 k' r hx hm hy hm'
    obtain ⟨a, a1, a2, _⟩ := hstore x st1 hx
    obtain ⟨b, b1, b2, _⟩ := hstore y st2 hy
    exact s.once x a k y b k' r a1 (by rw [a2]; exact hm) b1 (by rw [b2]; exact hm')
  · intro x st' hx
    obtain ⟨st0, h2, h3, _⟩ := hstore x st' hx
    rw [← h3]; exact s.regions x st0 h2
  · intro x _ hx
    obtain ⟨st', hx⟩ := Option.isSome_iff_exists.mp hx
    obtain ⟨st0, h2, _⟩ := hstore x st' hx
    rw [h2]; rfl
  · intro x sl _ hv hx
    obtain ⟨st', hx⟩ := Option.isSome_iff_exists.mp hx
    obtain ⟨st0, h2, h3, _⟩ := hstore x st' hx
    obtain ⟨st2, k, d, g1, g2, g3, g4⟩ := hv
    rw [h2] at g1
    cases g1
    exact ⟨st', k, d, hx, by rw [← h3]; exact g2, g3, g4⟩

theorem dropRc_after {h : Heap} {o : Nat} {l bad : List Nat} (s : Sound h (o :: l)) : After (dropRc (E := E) o h) h (fun _ => l) bad (fun _ _ => True) := by
  obtain ⟨st, hst⟩ := s.alive (List.mem_cons_self ..)
  obtain ⟨hc, hpos⟩ := s.count o st hst
  have hco : (o :: l).count o = l.count o + 1 := by simp
  have hcx : ∀ x, x ≠ o → (o :: l).count x = l.count x := fun x hx => List.count_cons_of_ne (fun h => hx h.symm) 
  unfold dropRc
  simp only [hst]
  by_cases h1 : st.strong = 1
  · rw [if_pos h1, freeAll_ok st.maps { h with stores := upd h.stores o none } (fun x hx => s.live o st x.1 x.2 hst hx) (s.regions o st hst)]
    have hl0 : l.count o = 0 := by omega
    have hstore : ∀ x st', upd h.stores o none x = some st' → x ≠ o ∧ h.stores x = some st' := by
      intro x st' hx
      unfold upd at hx
      split at hx
      · cases hx
      · exact ⟨by assumption, hx⟩
    have hother : ∀ x st' k r, x ≠ o → h.stores x = some st' → (k, r) ∈ st'.maps → r ∉ st.maps.map Prod.snd := by
      intro x st' k r hx hs hm hr
      obtain ⟨y, hy, rfl⟩ := List.mem_map.mp hr
      exact hx (s.once x st' k o st y.1 y.2 hs hm hst hy)
    refine ⟨⟨?_, ?_, ?_, ?_, ?_, ?_, ?_, ?_⟩, ⟨⟨Nat.le_refl _, ?_, ?_⟩, Nat.le_refl _, fun r _ => by dsimp only; split; exact .inr rfl; exact .inl rfl⟩, trivial⟩
    · intro x st' hx
      obtain ⟨hne, hx⟩ := hstore x st' hx
      rw [← hcx x hne]; exact s.count x st' hx
    · intro x hx
      by_cases hxo : x = o
      · subst hxo; exact hl0
      · rw [← hcx x hxo]
        refine s.gone x ?_
        simpa [upd, hxo] using hx
    · intro x hx
      by_cases hxo : x = o
      · simp [upd, hxo]
      · simpa [upd, hxo] using s.freshS x hx
    · intro r hr
      simp only
      rw [s.freshR r hr]; simp
    · intro x st' k r hx hm
      obtain ⟨hne, hx⟩ := hstore x st' hx
      simp only
      rw [if_neg (hother x st' k r hne hx hm)]
      exact s.live x st' k r hx hm
    · intro r d hr
      simp only at hr
      split at hr
      · cases hr
      · rename_i hn
        obtain ⟨x, st', k, hx, hm⟩ := s.owned r d hr
        have hne : x ≠ o := by
          rintro rfl
          rw [hst] at hx
          cases hx
          exact hn (List.mem_map.mpr ⟨_, hm, rfl⟩)
        exact ⟨x, st', k, by simpa [upd, hne] using hx, hm⟩
    · intro x st1 k y st2 k' r hx hm hy hm'
      exact s.once x st1 k y st2 k' r (hstore x st1 hx).2 hm (hstore y st2 hy).2 hm'
    · intro x st' hx
      exact s.regions x st' (hstore x st' hx).2
    · intro x _ hx
      obtain ⟨st', hx⟩ := Option.isSome_iff_exists.mp hx
      rw [(hstore x st' hx).2]; rfl
    · intro x sl _ hv hx
      obtain ⟨st', hx⟩ := Option.isSome_iff_exists.mp hx
      obtain ⟨hne, hx'⟩ := hstore x st' hx
      obtain ⟨st2, k, d, h1, h2, h3, h4⟩ := hv
      rw [hx'] at h1
      cases h1
      refine ⟨st', k, d, hx, h2, ?_, h4⟩
      simp only
      rw [if_neg (hother x st' k sl.base hne hx' h2)]
      exact h3
  · rw [if_neg h1]
    obtain ⟨h2, h3⟩ := s.recount (n := st.strong - 1) (l' := l) hst (by omega) (by omega) hcx
    exact ⟨h2, h3, trivial⟩

theorem cloneRc_after {h : Heap} {o : Nat} {l bad : List Nat} (s : Sound h (o :: l)) :
    After (cloneRc (E := E) o h) h (fun _ => o :: o :: l) bad (fun _ _ => True) := by
  obtain ⟨st, hst⟩ := s.alive (List.mem_cons_self ..)
  obtain ⟨hc, hpos⟩ := s.count o st hst
  unfold cloneRc
  simp only [hst]
  obtain ⟨h2, h3⟩ := s.recount (n := st.strong + 1) (l' := o :: o :: l) hst (by rw [List.count_cons_self, hc]) (by omega)
    fun x hx => by
      have hne : o ≠ x := fun h => hx h.symm
      rw [List.count_cons_of_ne hne, List.count_cons_of_ne hne, List.count_cons_of_ne hne]
  exact ⟨h2, h3, trivial⟩

theorem newStore_after {h : Heap} {path : Path} {l bad : List Nat} (s : Sound h l) :
    After (newStore (E := E) path h) h (fun o => o :: l) bad (fun o h' => o = h.nextStore ∧ (∀ x, x ≠ o → h'.stores x = h.stores x)) := by
  have hnone := s.freshS h.nextStore (Nat.le_refl _)
  have h0 := s.gone _ hnone
  unfold newStore
  have hstore : ∀ x st', upd h.stores h.nextStore (some ⟨path, 1, []⟩) x = some st' → (x = h.nextStore ∧ st' = ⟨path, 1, []⟩) ∨ (x ≠ h.nextStore ∧ h.stores x = some st') := by
    intro x st' hx
    unfold upd at hx
    split at hx
    · rename_i hxo
      cases hx
      exact .inl ⟨hxo, rfl⟩
    · exact .inr ⟨by assumption, hx⟩
  have hmaps : ∀ x st' y, upd h.stores h.nextStore (some ⟨path, 1, []⟩) x = some st' → y ∈ st'.maps → h.stores x = some st' := by
    intro x st' y hx hy
    rcases hstore x st' hx with ⟨_, rfl⟩ | ⟨_, h2⟩
    · cases hy
    · exact h2
  refine ⟨⟨?_, ?_, ?_, s.freshR, ?_, ?_, ?_, ?_⟩, ⟨⟨Nat.le_succ _, ?_, ?_⟩, Nat.le_refl _, fun _ _ => .inl rfl⟩, rfl, ?_⟩
  · intro x st' hx
    rcases hstore x st' hx with ⟨rfl, rfl⟩ | ⟨h1, h2⟩
    · rw [List.count_cons_self, h0]; exact ⟨rfl, Nat.one_pos⟩
    · rw [List.count_cons_of_ne (fun h => h1 h.symm)]; exact s.count x st' h2
  · intro x hx
    by_cases hxo : x = h.nextStore
    · simp [upd, hxo] at hx
    · rw [List.count_cons_of_ne (fun h => hxo h.symm)]
      exact s.gone x (by simpa [upd, hxo] using hx)
  · intro x hx
    have hxo : x ≠ h.nextStore := by simp only at hx; omega
    simpa [upd, hxo] using s.freshS x (by simp only at hx; omega)
  · intro x st' k r hx hm
    exact s.live x st' k r (hmaps x st' _ hx hm) hm
  · intro r d hr
    obtain ⟨x, st', k, hx, hm⟩ := s.owned r d hr
    have hxo : x ≠ h.nextStore := by rintro rfl; rw [hnone] at hx; cases hx
    exact ⟨x, st', k, by simpa [upd, hxo] using hx, hm⟩
  · intro x st1 k y st2 k' r hx hm hy hm'
    exact s.once x st1 k y st2 k' r (hmaps x st1 _ hx hm) hm (hmaps y st2 _ hy hm') hm'
  · intro x st' hx
    rcases hstore x st' hx with ⟨rfl, rfl⟩ | ⟨h1, h2⟩
    · exact List.nodup_nil
    · exact s.regions x st' h2
  · intro x hxl hx
    have hxo : x ≠ h.nextStore := by omega
    simpa [upd, hxo] using hx
  · intro x sl hxl hv _
    have hxo : x ≠ h.nextStore := by omega
    obtain ⟨st2, k, d, g1, g2⟩ := hv
    exact ⟨st2, k, d, by simpa [upd, hxo] using g1, g2⟩
  · intro x hx
    simp [upd, hx]

/-- Copying or mapping the bytes of a resource that is not in the map yet. -/
theorem insert_after {h : Heap} {o : Nat} {st : Store} {k : Key} {d : Bytes} {l bad : List Nat} (s : Sound h l) (hst : h.stores o = some st)
    (hk : st.maps.lookup k = none) : After (insert (E := E) o st k d h) h (fun _ => l) bad (fun sl h' => Valid h' o sl) := by
  have hnk : ∀ x ∈ st.maps, x.1 ≠ k := by
    intro x hx he
    have : ∀ m : List (Key × Nat), x ∈ m → m.lookup k ≠ none := by
      intro m hm
      induction m with
      | nil => cases hm
      | cons y m ih =>
        rw [List.lookup_cons]
        by_cases hy : k = y.1
        · simp [hy]
        · rw [show (k == y.1) = false by simpa using hy]
          rcases List.mem_cons.mp hm with rfl | hm
          · exact absurd he.symm hy
          · exact ih hm
    exact this _ hx hk
  have hf1 : st.maps.filter (fun x => x.1 = k) = [] := by
    rw [List.filter_eq_nil_iff]
    intro x hx
    simpa using hnk x hx
  have hf2 : st.maps.filter (fun x => x.1 ≠ k) = st.maps := by
    rw [List.filter_eq_self]
    intro x hx
    simpa using hnk x hx
  have hfresh : ∀ x st' k, h.stores x = some st' → (k, h.nextRegion) ∉ st'.maps := by
    intro x st' k hx hm
    obtain ⟨d, hd⟩ := s.live x st' k _ hx hm
    rw [s.freshR _ (Nat.le_refl _)] at hd
    cases hd
  have hrun : insert (E := E) o st k d h = (.ok ⟨h.nextRegion, 0, d.length⟩, { h with
      regions := upd h.regions h.nextRegion (some d)
      nextRegion := h.nextRegion + 1
      stores := upd h.stores o (some { st with maps := (k, h.nextRegion) :: st.maps }) }) := by
    unfold insert
    simp only [hf1, hf2]
    change pointer _ _ = _
    unfold pointer
    simp [upd]
  rw [hrun]
  have hstore : ∀ x st', upd h.stores o (some { st with maps := (k, h.nextRegion) :: st.maps }) x = some st' →
      (x = o ∧ st' = { st with maps := (k, h.nextRegion) :: st.maps }) ∨ (x ≠ o ∧ h.stores x = some st') := by
    intro x st' hx
    unfold upd at hx
    split at hx
    · rename_i hxo
      cases hx
      exact .inl ⟨hxo, rfl⟩
    · exact .inr ⟨by assumption, hx⟩
  have hmaps : ∀ x st' k' r, upd h.stores o (some { st with maps := (k, h.nextRegion) :: st.maps }) x = some st' → (k', r) ∈ st'.maps →
      (x = o ∧ r = h.nextRegion) ∨ (r ≠ h.nextRegion ∧ ∃ st0, h.stores x = some st0 ∧ (k', r) ∈ st0.maps) := by
    intro x st' k' r hx hm
    rcases hstore x st' hx with ⟨rfl, rfl⟩ | ⟨_, h2⟩
    · rcases List.mem_cons.mp hm with hm | hm
      · cases hm; exact .inl ⟨rfl, rfl⟩
      · exact .inr ⟨by rintro rfl; exact hfresh x st k' hst hm, st, hst, hm⟩
    · exact .inr ⟨by rintro rfl; exact hfresh x st' k' h2 hm, st', h2, hm⟩
  have hreg : ∀ r d', h.regions r = some d' → upd h.regions h.nextRegion (some d) r = some d' := by
    intro r d' hr
    have : r ≠ h.nextRegion := by rintro rfl; rw [s.freshR _ (Nat.le_refl _)] at hr; cases hr
    simpa [upd, this] using hr
  refine ⟨⟨?_, ?_, ?_, ?_, ?_, ?_, ?_, ?_⟩, ⟨⟨Nat.le_refl _, ?_, ?_⟩, Nat.le_succ _, fun x hx => .inl (by simp only [upd, if_neg (Nat.ne_of_lt hx)])⟩, ?_⟩
  · intro x st' hx
    rcases hstore x st' hx with ⟨rfl, rfl⟩ | ⟨_, h2⟩
    · exact s.count x st hst
    · exact s.count x st' h2
  · intro x hx
    by_cases hxo : x = o
    · simp [upd, hxo] at hx
    · exact s.gone x (by simpa [upd, hxo] using hx)
  · intro x hx
    by_cases hxo : x = o
    · subst hxo; rw [s.freshS x hx] at hst; cases hst
    · simpa [upd, hxo] using s.freshS x hx
  · intro r hr
    have h1 : r ≠ h.nextRegion := by simp only at hr; omega
    simpa [upd, h1] using s.freshR r (by simp only at hr; omega)
  · intro x st' k' r hx hm
    rcases hmaps x st' k' r hx hm with ⟨rfl, rfl⟩ | ⟨_, st0, h1, h2⟩
    · exact ⟨d, by simp [upd]⟩
    · obtain ⟨d', hd'⟩ := s.live x st0 k' r h1 h2
      exact ⟨d', hreg r d' hd'⟩
  · intro r d' hr
    by_cases hrn : r = h.nextRegion
    · exact ⟨o, _, k, by simp [upd]; rfl, by rw [hrn]; simp⟩
    · obtain ⟨x, st', k', hx, hm⟩ := s.owned r d' (by simpa [upd, hrn] using hr)
      by_cases hxo : x = o
      · subst hxo
        rw [hst] at hx; cases hx
        exact ⟨x, _, k', by simp [upd]; rfl, by simp [hm]⟩
      · exact ⟨x, st', k', by simpa [upd, hxo] using hx, hm⟩
  · intro x st1 k1 y st2 k2 r hx hm hy hm'
    rcases hmaps x st1 k1 r hx hm with ⟨h1, h2⟩ | ⟨h1, a, a1, a2⟩ <;> rcases hmaps y st2 k2 r hy hm' with ⟨h3, h4⟩ | ⟨h3, b, b1, b2⟩
    · rw [h1, h3]
    · exact absurd h2 h3
    · exact absurd h4 h1
    · exact s.once x a k1 y b k2 r a1 a2 b1 b2
  · intro x st' hx
    rcases hstore x st' hx with ⟨rfl, rfl⟩ | ⟨_, h2⟩
    · rw [List.map_cons, List.nodup_cons]
      refine ⟨?_, s.regions x st hst⟩
      intro hm
      obtain ⟨y, hy, he⟩ := List.mem_map.mp hm
      have he : y.2 = h.nextRegion := he
      exact hfresh x st y.1 hst (by rw [← he]; exact hy)
    · exact s.regions x st' h2
  · intro x _ hx
    by_cases hxo : x = o
    · rw [hxo, hst]; rfl
    · simpa [upd, hxo] using hx
  · intro x sl _ hv _
    obtain ⟨st', k', d', h1, h2, h3, h4⟩ := hv
    by_cases hxo : x = o
    · subst hxo
      rw [hst] at h1; cases h1
      exact ⟨_, k', d', by simp [upd]; rfl, by simp [h2], hreg _ _ h3, h4⟩
    · exact ⟨st', k', d', by simpa [upd, hxo] using h1, h2, hreg _ _ h3, h4⟩
  · exact ⟨_, k, d, by simp [upd]; rfl, by simp, by simp [upd], by simp⟩

theorem lookup_mem {m : List (Key × Nat)} {k : Key} {r : Nat} : m.lookup k = some r → (k, r) ∈ m := by
  induction m with
  | nil => intro h; cases h
  | cons x m ih =>
    rw [List.lookup_cons]
    by_cases hx : k = x.1
    · subst hx; simp; rintro rfl; exact .inl rfl
    · rw [show (k == x.1) = false by simpa using hx]
      intro h; exact List.mem_cons_of_mem _ (ih h)

theorem After.keeps {r : Res E α × Heap} {h0 h : Heap} {good : α → List Nat} {bad : List Nat} {ok : α → Heap → Prop} (k : Keeps h0 h)
    (d : After r h good bad ok) : After r h0 good bad ok := by
  obtain ⟨r, h'⟩ := r
  cases r with
  | ok a => exact ⟨d.1, k.trans d.2.1, d.2.2⟩
  | err e => exact ⟨d.1, k.trans d.2⟩
  | panic => exact ⟨d.1, k.trans d.2⟩
  | ub => exact d

theorem readResource_after {h : Heap} {o : Nat} {name : String} {l : List Nat} (s : Sound h l) (ho : o ∈ l) :
    After (readResource o name h) h (fun _ => l) l (fun sl h' => Valid h' o sl) := by
  obtain ⟨st, hst⟩ := s.alive ho
  have st' := s.tick (h.time + 1)
  have kp := Keeps.tick h (h.time + 1)
  unfold readResource
  simp only [hst]
  cases henv : h.env h.time with
  | none => exact ⟨st', kp⟩
  | some d =>
    simp only
    cases hl : st.maps.lookup (key (join st.path name)) with
    | none =>
      simp only
      exact .keeps kp (insert_after st' hst hl)
    | some r =>
      simp only
      obtain ⟨d', hd'⟩ := s.live o st _ r hst (lookup_mem hl)
      unfold pointer
      simp only [hd']
      exact ⟨st', kp, st, _, d', hst, lookup_mem hl, hd', by simp⟩

theorem ask_after {h : Heap} {l bad : List Nat} (s : Sound h l) : After (ask (E := E) h) h (fun _ => l) bad (fun _ _ => True) :=
  ⟨s.tick _, .tick h _, trivial⟩

theorem subdir_after {h : Heap} {o : Nat} {dir : String} {l bad : List Nat} (s : Sound h l) (ho : o ∈ l) :
    After (subdir (E := E) o dir h) h (fun o' => o' :: l) bad (fun o' h' => o' = h.nextStore ∧ (∀ x, x ≠ o' → h'.stores x = h.stores x)) := by
  obtain ⟨st, hst⟩ := s.alive ho
  unfold subdir
  simp only [hst]
  exact newStore_after s

/-! ## Reading -/

theorem Valid.deref {h : Heap} {o : Nat} {s : Slice Nat} (v : Valid h o s) : ∃ b, owning.deref h s = .ok b ∧ b.length = s.len := by
  obtain ⟨st, k, d, _, _, h3, h4⟩ := v
  have hc : owning.content h s.base = d := by
    change (h.regions s.base).getD [] = d
    rw [h3, Option.getD_some]
  unfold Backend.deref
  rw [hc, if_pos h4]
  refine ⟨_, rfl, ?_⟩
  rw [List.length_take, List.length_drop]
  omega

theorem After.load {E : Type} {h : Heap} {o : Nat} {s : Slice Nat} {l bad : List Nat} (hs : Sound h l) (v : Valid h o s) :
    After (owning.load (E := E) s h) h (fun _ => l) bad (fun b h' => h' = h ∧ b.length = s.len) := by
  obtain ⟨b, hb, hl⟩ := v.deref
  unfold Backend.load
  rw [hb]
  exact ⟨hs, .refl h, rfl, hl⟩

theorem After.lift {E α : Type} {x : Out α} {h : Heap} {l : List Nat} {P : α → Prop} (hs : Sound h l) (hu : x ≠ .ub) (hP : ∀ a, x = .ok a → P a) :
    After (Act.lift (E := E) x h) h (fun _ => l) l (fun a h' => h' = h ∧ P a) := by
  cases x with
  | ok a => exact ⟨hs, .refl h, rfl, hP a rfl⟩
  | panic => exact ⟨hs, .refl h⟩
  | ub => exact absurd rfl hu

theorem uadd_ne_ub (p : Profile) (a b : Nat) : uadd p a b ≠ .ub := by
  unfold uadd
  split
  · simp
  · split <;> simp

variable [DiffLib]

theorem read_after {p : Profile} {e : Endian} {h : Heap} {o : Nat} {name schema : String} {l : List Nat} (s : Sound h l) (ho : o ∈ l) :
    After (Storage.read owning p e o name schema h) h (fun _ => l) l (fun sl h' => Valid h' o sl) := by
  unfold Storage.read
  refine (readResource_after s ho).mapErr.bind fun data h1 s1 _ v1 => ?_
  refine (readResource_after s1 ho).mapErr.bind fun sch h2 s2 k2 v2 => ?_
  have hlt : o < h1.nextStore := by
    obtain ⟨st, hst⟩ := s1.alive ho
    refine Classical.byContradiction fun hn => ?_
    rw [s1.freshS o (by omega)] at hst; cases hst
  have hsome : (h2.stores o).isSome := by
    obtain ⟨st, hst⟩ := s2.alive ho
    rw [hst]; rfl
  have v1 := k2.valid o data hlt v1 hsome
  unfold Storage.checkResource
  by_cases hlen : data.len < 8 + paddingSize
  · rw [if_pos hlen]
    exact ⟨s2, .refl _⟩
  · rw [if_neg hlen]
    have hp : paddingSize = 8 := rfl
    have v8 : Valid h2 o ⟨data.base, data.off, 8⟩ := by
      obtain ⟨st, k, d, g1, g2, g3, g4⟩ := v1
      exact ⟨st, k, d, g1, g2, g3, by simp only; omega⟩
    refine (After.load s2 v8).bind fun header h3 s3 _ ⟨rfl, hl3⟩ => ?_
    have hread : ∃ v, readBytes p e .u64 header 0 64 = .ok v := by
      have := readInt_spec (p := p) (e := e) (T := .u64) (by simp) (d := header) (o := 0) (n := 64) (by omega) (by simp [IntTy.bits])
        (by simp only at hl3; omega) (by simp [NoStraddle]) (by simp [IntTy.signed])
      exact ⟨_, this⟩
    obtain ⟨size, hread⟩ := hread
    rw [hread]
    refine (After.lift (P := fun _ => True) s3 (by simp) fun _ _ => trivial).bind fun size h4 s4 _ ⟨h4e, _⟩ => ?_
    subst h4e
    refine (After.lift (P := fun _ => True) s4 (uadd_ne_ub _ _ _) fun _ _ => trivial).bind fun t h5 s5 _ ⟨h5e, _⟩ => ?_
    subst h5e
    refine (After.lift (P := fun _ => True) s5 (uadd_ne_ub _ _ _) fun _ _ => trivial).bind fun t h6 s6 _ ⟨h6e, _⟩ => ?_
    subst h6e
    by_cases ht : t ≠ data.len
    · rw [if_pos ht]
      exact ⟨s6, .refl _⟩
    · rw [if_neg ht]
      refine (After.load s6 v2).bind fun stored h7 s7 _ ⟨h7e, _⟩ => ?_
      subst h7e
      unfold Storage.checkSchema
      cases fromUtf8 stored with
      | none => exact ⟨s7, .refl _⟩
      | some x =>
        simp only
        by_cases hx : x ≠ schema
        · rw [if_pos hx]; exact ⟨s7, .refl _⟩
        · rw [if_neg hx]
          unfold Storage.payload
          by_cases hc : 8 ≤ data.len ∧ size.toNat ≤ data.len - 8
          · rw [if_pos hc]
            refine ⟨s7, .refl _, ?_⟩
            obtain ⟨st, k, d, g1, g2, g3, g4⟩ := v1
            exact ⟨st, k, d, g1, g2, g3, by simp only; omega⟩
          · rw [if_neg hc]
            exact ⟨s7, .refl _⟩

end Owner

/-! ## Archives -/

namespace Owner
open Spec
variable {E α : Type}

mutual
/-- All descriptors of an archive are valid. -/
def Arch.Valid (h : Heap) : Arch → Prop
  | .mk o xs ss => (∀ x ∈ xs, ∀ s, some s ∈ slices x → Owner.Valid h o s) ∧ ss.Valid h

def Subs.Valid (h : Heap) : Subs → Prop
  | .nil => True
  | .cons none rest => rest.Valid h
  | .cons (some a) rest => a.Valid h ∧ rest.Valid h
end

/-- The storages of an optional archive. -/
def heldOpt : Option Arch → List Nat
  | none => []
  | some a => a.held

theorem held_cons (a : Option Arch) (rest : Subs) : (Subs.cons a rest).held = heldOpt a ++ rest.held := by
  cases a <;> simp [Subs.held, heldOpt]

theorem Valid.lt {h : Heap} {l : List Nat} {o : Nat} {s : Slice Nat} (hs : Sound h l) (v : Valid h o s) : o < h.nextStore := by
  obtain ⟨st, _, _, g1, _⟩ := v
  refine Classical.byContradiction fun hn => ?_
  rw [hs.freshS o (by omega)] at g1; cases g1

theorem Sound.isSome {h : Heap} {l : List Nat} {o : Nat} (hs : Sound h l) (ho : o ∈ l) : (h.stores o).isSome := by
  obtain ⟨st, hst⟩ := hs.alive ho
  rw [hst]; rfl

theorem Valid.keep {h h' : Heap} {l l' : List Nat} {o : Nat} {s : Slice Nat} (v : Valid h o s) (hs : Sound h l) (hs' : Sound h' l') (k : Keeps0 h h')
    (ho : o ∈ l') : Valid h' o s := k.valid o s (v.lt hs) v (hs'.isSome ho)

mutual
theorem Arch.Valid.keep {h h' : Heap} {l l' : List Nat} (hs : Sound h l) (hs' : Sound h' l') (k : Keeps0 h h') :
    ∀ A : Arch, A.Valid h → (∀ o ∈ A.held, o ∈ l') → A.Valid h'
  | .mk o xs ss, v, hl => by
    refine ⟨fun x hx s hsl => (v.1 x hx s hsl).keep hs hs' k (hl o (by simp [Arch.held])), ?_⟩
    exact Subs.Valid.keep hs hs' k ss v.2 fun x hx => hl x (by simp [Arch.held, hx])

theorem Subs.Valid.keep {h h' : Heap} {l l' : List Nat} (hs : Sound h l) (hs' : Sound h' l') (k : Keeps0 h h') :
    ∀ ss : Subs, ss.Valid h → (∀ o ∈ ss.held, o ∈ l') → ss.Valid h'
  | .nil, _, _ => trivial
  | .cons none rest, v, hl => Subs.Valid.keep hs hs' k rest v hl
  | .cons (some a) rest, v, hl =>
    ⟨Arch.Valid.keep hs hs' k a v.1 fun x hx => hl x (by simp [Subs.held, hx]),
      Subs.Valid.keep hs hs' k rest v.2 fun x hx => hl x (by simp [Subs.held, hx])⟩
end

mutual
theorem dropArch_after {h : Heap} {l bad : List Nat} : ∀ (A : Arch), Sound h (A.held ++ l) →
    After (dropArch (E := E) A h) h (fun _ => l) bad (fun _ _ => True)
  | .mk _ _ ss, s => (dropRc_after (l := ss.held ++ l) s).bind fun _ _ s1 _ _ => dropSubs_after ss s1

theorem dropSubs_after {h : Heap} {l bad : List Nat} : ∀ (ss : Subs), Sound h (ss.held ++ l) →
    After (dropSubs (E := E) ss h) h (fun _ => l) bad (fun _ _ => True)
  | .nil, s => .pure s trivial
  | .cons none rest, s => dropSubs_after rest s
  | .cons (some a) rest, s => by
    have s' : Sound h (a.held ++ (rest.held ++ l)) := s.congr fun o => by rw [Subs.held, List.append_assoc]
    exact (dropArch_after a s').bind fun _ _ s1 _ _ => dropSubs_after rest s1
end

mutual
theorem cloneArch_after {h : Heap} {l bad : List Nat} : ∀ (A : Arch), Sound h (A.held ++ l) →
    After (cloneArch (E := E) A h) h (fun _ => A.held ++ (A.held ++ l)) bad (fun _ _ => True)
  | .mk o xs ss, s => by
    refine (cloneRc_after (l := ss.held ++ l) s).bind fun _ _ s1 _ _ => ?_
    have s2 := s1.congr (l' := ss.held ++ (o :: o :: l)) fun x => by simp only [List.count_append, List.count_cons]; omega
    exact (cloneSubs_after ss s2).congr (fun _ x => by simp only [Arch.held, List.count_append, List.count_cons]; omega) (fun _ => rfl) fun _ _ h => h

theorem cloneSubs_after {h : Heap} {l bad : List Nat} : ∀ (ss : Subs), Sound h (ss.held ++ l) →
    After (cloneSubs (E := E) ss h) h (fun _ => ss.held ++ (ss.held ++ l)) bad (fun _ _ => True)
  | .nil, s => .pure s trivial
  | .cons none rest, s => cloneSubs_after rest s
  | .cons (some a) rest, s => by
    have s' : Sound h (a.held ++ (rest.held ++ l)) := s.congr fun o => by rw [Subs.held, List.append_assoc]
    refine (cloneArch_after a s').bind fun _ _ s1 _ _ => ?_
    have s2 := s1.congr (l' := rest.held ++ (a.held ++ (a.held ++ l))) fun x => by simp only [List.count_append]; omega
    exact (cloneSubs_after rest s2).congr (fun _ x => by simp only [Subs.held, List.count_append]; omega) (fun _ => rfl) fun _ _ h => h
end

theorem orDrop_after {d : Act Heap Empty Unit} {x : Act Heap E α} {h : Heap} {good : α → List Nat} {bad bad' : List Nat} {ok : α → Heap → Prop}
    (dx : After (x h) h good bad' ok) (dd : ∀ h', Sound h' bad' → After (d h') h' (fun _ => bad) bad (fun _ _ => True)) :
    After (orDrop d x h) h good bad ok := by
  unfold orDrop
  cases hx : x h with
  | mk r h' =>
    rw [hx] at dx
    cases r with
    | ok a => exact dx
    | err e =>
      simp only
      exact .keeps dx.2 ((dd h' dx.1).mapErr.bind fun _ _ s _ _ => ⟨s, .refl _⟩)
    | panic =>
      simp only
      exact .keeps dx.2 ((dd h' dx.1).mapErr.bind fun _ _ s _ _ => ⟨s, .refl _⟩)
    | ub => exact dx

/-- What is held after `check_resource!`. -/
def heldRes (good : α → List Nat) (bad : List Nat) : Option α → List Nat
  | some a => good a
  | none => bad

theorem checkRes_after {x : Act Heap RErr α} {h : Heap} {optional : Bool} {good : α → List Nat} {bad : List Nat} {ok : α → Heap → Prop}
    (dx : After (x h) h good bad ok) :
    After (checkRes owning optional x h) h (heldRes good bad) bad (fun r h' => ∀ a, r = some a → ok a h') := by
  unfold checkRes
  change After (Act.bind (Act.attempt x) _ h) h _ _ _
  unfold Act.bind Act.attempt
  cases hx : x h with
  | mk r h' =>
    rw [hx] at dx
    cases r with
    | ok a => exact ⟨dx.1, dx.2.1, fun _ h => by cases h; exact dx.2.2⟩
    | err e =>
      simp only
      cases optional with
      | true => exact ⟨dx.1, dx.2, fun _ h => by cases h⟩
      | false => exact dx
    | panic => exact dx
    | ub => exact dx

theorem dropOpt_after {h : Heap} {l bad : List Nat} (a : Option Arch) (s : Sound h (heldOpt a ++ l)) :
    After (dropOpt (E := E) a h) h (fun _ => l) bad (fun _ _ => True) := by
  cases a with
  | none => exact .pure s trivial
  | some a => exact dropArch_after a s

section
variable [DiffLib] {p : Profile} {e : Endian}

theorem readOpt_after {h : Heap} {o : Nat} {name schema : String} {optional : Bool} {l : List Nat} (s : Sound h l) (ho : o ∈ l) :
    After (checkRes owning optional (Storage.read owning p e o name schema) h) h (fun _ => l) l (fun r h' => ∀ a, r = some a → Valid h' o a) :=
  (checkRes_after (optional := optional) (read_after (p := p) (e := e) s ho)).congr (fun a _ => by cases a <;> rfl) (fun _ => rfl) fun _ _ h => h

theorem openResource_after {h : Heap} {o : Nat} {r : ResDecl} {l : List Nat} (s : Sound h l) (ho : o ∈ l) :
    After (openResource owning p e o r h) h (fun _ => l) l (fun x h' => ∀ sl, some sl ∈ slices x → Valid h' o sl) := by
  unfold openResource
  cases r.type with
  | multi V index =>
    refine (readOpt_after s ho).bind fun i h1 s1 _ v1 => ?_
    refine (readOpt_after s1 ho).bind fun d h2 s2 k2 v2 => ?_
    refine .pure s2 fun sl hsl => ?_
    simp only [slices, List.mem_cons, List.not_mem_nil, or_false] at hsl
    rcases hsl with hsl | hsl
    · exact (v1 sl hsl.symm).keep s1 s2 k2 ho
    · exact v2 sl hsl.symm
  | struct S =>
    refine (readOpt_after s ho).bind fun d h1 s1 _ v1 => .pure s1 fun sl hsl => ?_
    simp only [slices, List.mem_cons, List.not_mem_nil, or_false] at hsl
    exact v1 sl hsl.symm
  | vector S =>
    refine (readOpt_after s ho).bind fun d h1 s1 _ v1 => .pure s1 fun sl hsl => ?_
    simp only [slices, List.mem_cons, List.not_mem_nil, or_false] at hsl
    exact v1 sl hsl.symm
  | raw =>
    refine (readOpt_after s ho).bind fun d h1 s1 _ v1 => .pure s1 fun sl hsl => ?_
    simp only [slices, List.mem_cons, List.not_mem_nil, or_false] at hsl
    exact v1 sl hsl.symm

theorem openResources_after {o : Nat} {l : List Nat} (ho : o ∈ l) : ∀ (rs : List ResDecl) (h : Heap), Sound h l →
    After (openResources owning p e o rs h) h (fun _ => l) l (fun xs h' => ∀ x ∈ xs, ∀ sl, some sl ∈ slices x → Valid h' o sl)
  | [], h, s => .pure s fun _ h => by cases h
  | r :: rs, h, s => by
    refine (openResource_after s ho).bind fun x h1 s1 _ v1 => ?_
    refine (openResources_after ho rs h1 s1).bind fun xs h2 s2 k2 v2 => ?_
    refine .pure s2 fun y hy sl hsl => ?_
    rcases List.mem_cons.mp hy with rfl | hy
    · exact (v1 sl hsl).keep s1 s2 k2 ho
    · exact v2 y hy sl hsl

mutual
theorem openOwned_after (o : Nat) (l : List Nat) : ∀ (D : ArchiveDef) (h : Heap), Sound h (o :: l) →
    After (openOwned p e o D h) h (fun A => A.held ++ l) l (fun A h' => A.Valid h')
  | .mk name schema resources subs, h, s => by
    refine orDrop_after (bad' := o :: l) ?_ fun h' s' => dropRc_after s'
    refine (read_after s (List.mem_cons_self ..)).bind fun _ h1 s1 _ _ => ?_
    refine (openResources_after (List.mem_cons_self ..) resources h1 s1).bind fun xs h2 s2 _ v2 => ?_
    refine (openSubsOwned_after o l subs h2 s2).bind fun ss h3 s3 k3 v3 => ?_
    refine .pure s3 ⟨fun x hx sl hsl => (v2 x hx sl hsl).keep s2 s3 k3 (List.mem_cons_self ..), v3⟩

theorem openSubsOwned_after (o : Nat) (l : List Nat) : ∀ (D : SubDefs) (h : Heap), Sound h (o :: l) →
    After (openSubsOwned p e o D h) h (fun ss => o :: ss.held ++ l) (o :: l) (fun ss h' => ss.Valid h')
  | .nil, h, s => .pure s trivial
  | .cons name optional archive rest, h, s => by
    refine (subdir_after s (List.mem_cons_self ..)).bind fun o' h1 s1 _ _ => ?_
    refine (checkRes_after (optional := optional) (openOwned_after o' (o :: l) archive h1 s1)).bind fun a h2 s2 _ v2 => ?_
    have s2' : Sound h2 (o :: (heldOpt a ++ l)) := s2.congr fun x => by
      cases a <;> simp only [heldRes, heldOpt, List.count_append, List.count_cons, List.nil_append]
      omega
    refine orDrop_after (bad' := o :: (heldOpt a ++ l)) ?_ fun h' s' =>
      dropOpt_after a (s'.congr fun x => by simp only [List.count_append, List.count_cons]; omega)
    refine (openSubsOwned_after o (heldOpt a ++ l) rest h2 s2').bind fun ss h3 s3 k3 v3 => ?_
    refine .pure (s3.congr fun x => by simp only [held_cons, List.count_append, List.count_cons]; omega) ?_
    cases a with
    | none => exact v3
    | some a =>
      refine ⟨Arch.Valid.keep s2' s3 k3 a (v2 a rfl) fun x hx => ?_, v3⟩
      simp [heldOpt, hx]
end

omit [DiffLib] in
theorem createOutputStream_after {h : Heap} {o : Nat} {name : String} {l : List Nat} (s : Sound h l) (ho : o ∈ l) :
    After (createOutputStream o name h) h (fun _ => l) l (fun _ _ => True) := by
  obtain ⟨st, hst⟩ := s.alive ho
  unfold createOutputStream
  simp only [hst]
  refine (ask_after s).bind fun b h1 s1 _ _ => ?_
  cases b <;> exact After.congr (E := IoErr) (good := fun _ => l) (bad := l) (ok := fun _ _ => True)
    (by first | exact ⟨s1, .refl _⟩ | exact ⟨s1, .refl _, trivial⟩) (fun _ _ => rfl) (fun _ => rfl) fun _ _ h => h

omit [DiffLib] in
theorem writeAll_after {h : Heap} {b : Bytes} {l : List Nat} (s : Sound h l) :
    After (owning.writeAll () b h) h (fun _ => l) l (fun _ _ => True) := by
  change After ((do if (← ask) then pure () else Act.fail IoErr.other : Act Heap IoErr Unit) h) h _ _ _
  refine (ask_after s).bind fun b h1 s1 _ _ => ?_
  cases b <;> exact After.congr (E := IoErr) (good := fun _ => l) (bad := l) (ok := fun _ _ => True)
    (by first | exact ⟨s1, .refl _⟩ | exact ⟨s1, .refl _, trivial⟩) (fun _ _ => rfl) (fun _ => rfl) fun _ _ h => h

omit [DiffLib] in
theorem write_after {h : Heap} {o : Nat} {name schema : String} {data : Bytes} {l : List Nat} (s : Sound h l) (ho : o ∈ l) :
    After (Storage.write owning p e o name schema data h) h (fun _ => l) l (fun _ _ => True) := by
  unfold Storage.write
  refine (createOutputStream_after (name := name) s ho).bind fun _ h1 s1 _ _ => ?_
  have hw : After (Storage.writeToStream owning p e data () h1) h1 (fun _ => l) l (fun _ _ => True) := by
    unfold Storage.writeToStream
    have hsize : After (Storage.writeSize owning p e data.length () h1) h1 (fun _ => l) l (fun _ _ => True) := by
      unfold Storage.writeSize
      obtain ⟨d', hd', _⟩ := writeBytes_total (p := p) (e := e) (signed := false) (v := data.length) (d := List.replicate 8 0#8) (o := 0) (n := 64)
        (by omega) (by omega) (by simp)
      rw [hd']
      exact (After.lift (P := fun _ => True) s1 (by simp) fun _ _ => trivial).bind fun _ _ s2 _ _ => writeAll_after s2
    refine hsize.bind fun _ h2 s2 _ _ => ?_
    refine (writeAll_after s2).bind fun _ h3 s3 _ _ => ?_
    exact writeAll_after s3
  refine hw.bind fun _ h2 s2 _ _ => ?_
  refine (createOutputStream_after (name := Storage.schemaName name) s2 ho).bind fun _ h3 s3 _ _ => ?_
  exact writeAll_after s3

omit [DiffLib] in
theorem createArchive_after {h : Heap} {o : Nat} {name schema : String} {l : List Nat} (s : Sound h l) (ho : o ∈ l) :
    After (Storage.createArchive owning p e o name schema h) h (fun _ => l) l (fun _ _ => True) := by
  unfold Storage.createArchive
  have hx : After (existsRes (E := Empty) o name h) h (fun _ => l) l (fun _ _ => True) := by
    obtain ⟨st, hst⟩ := s.alive ho
    unfold existsRes
    simp only [hst]
    exact ask_after s
  refine hx.mapErr.bind fun b h1 s1 _ _ => ?_
  cases b with
  | true => exact ⟨s1, .refl _⟩
  | false => exact (write_after s1 ho).mapErr

omit [DiffLib] in
theorem buildOwned_after {h : Heap} {o : Nat} {D : ArchiveDef} {l : List Nat} (s : Sound h (o :: l)) :
    After (buildOwned p e o D h) h (fun _ => o :: l) l (fun _ _ => True) :=
  orDrop_after (createArchive_after s (List.mem_cons_self ..)) fun _ s' => dropRc_after s'

omit [DiffLib] in
theorem buildSubOwned_after {h : Heap} {o : Nat} {name : String} {D : ArchiveDef} {l : List Nat} (s : Sound h l) (ho : o ∈ l) :
    After (buildSubOwned p e o name D h) h (fun o' => o' :: l) l (fun _ _ => True) := by
  unfold buildSubOwned
  refine (subdir_after s ho).bind fun o' h1 s1 _ _ => ?_
  refine (buildOwned_after s1).bind fun _ h2 s2 _ _ => ?_
  exact .pure s2 trivial

end
end Owner

/-! ## Clients -/

namespace Spec
open Owner

/-- The storages of all `Rc`s of the variables. -/
def holds (vars : List (Nat × Owned)) : List Nat := vars.flatMap fun x => x.2.held

/-- A borrowed value is fine if it belongs to a storage that the variable owns. -/
def LoanOK (h : Heap) (x : Owned) : Loan → Prop
  | .storage o => o ∈ x.held
  | .bytes s => ∃ o ∈ x.held, Valid h o s

namespace Holder

/-- The state of a client is fine; `extra` is what was moved out of variables. -/
structure Fine (H : Holder) (extra : List Nat) : Prop where
  sound : Sound H.heap (extra ++ holds H.vars)
  names : (H.vars.map Prod.fst).Nodup
  fresh : ∀ x ∈ H.vars, x.1 < H.next
  archives : ∀ v A, (v, .archive A) ∈ H.vars → A.Valid H.heap
  loans : ∀ v l, (v, l) ∈ H.loans → ∃ x, (v, x) ∈ H.vars ∧ LoanOK H.heap x l

theorem mem_holds {vars : List (Nat × Owned)} {v o : Nat} {x : Owned} (hx : (v, x) ∈ vars) (ho : o ∈ x.held) : o ∈ holds vars :=
  List.mem_flatMap.mpr ⟨_, hx, ho⟩

theorem Fine.heap {H : Holder} {extra extra' : List Nat} (f : H.Fine extra) {h : Heap} (s : Sound h (extra' ++ holds H.vars)) (k : Keeps0 H.heap h) :
    ({ H with heap := h } : Holder).Fine extra' where
  sound := s
  names := f.names
  fresh := f.fresh
  archives v A hA := Arch.Valid.keep f.sound s k A (f.archives v A hA) fun o ho => List.mem_append_right _ (mem_holds hA ho)
  loans v l hl := by
    obtain ⟨x, hx, hok⟩ := f.loans v l hl
    refine ⟨x, hx, ?_⟩
    cases l with
    | storage o => exact hok
    | bytes sl =>
      obtain ⟨o, ho, hv⟩ := hok
      exact ⟨o, ho, hv.keep f.sound s k (List.mem_append_right _ (mem_holds hx ho))⟩

theorem Fine.bindVar {H : Holder} {x : Owned} (f : H.Fine x.held) (hA : ∀ A, x = .archive A → A.Valid H.heap) : (H.bindVar x).Fine [] where
  sound := f.sound
  names := by
    change ((H.next, x) :: H.vars |>.map Prod.fst).Nodup
    rw [List.map_cons, List.nodup_cons]
    refine ⟨fun hm => ?_, f.names⟩
    obtain ⟨y, hy, he⟩ := List.mem_map.mp hm
    have := f.fresh y hy
    simp only at he
    omega
  fresh y hy := by
    rcases List.mem_cons.mp hy with rfl | hy
    · exact Nat.lt_succ_self _
    · exact Nat.lt_succ_of_lt (f.fresh y hy)
  archives v A h := by
    rcases List.mem_cons.mp h with h | h
    · exact hA A (congrArg Prod.snd h).symm
    · exact f.archives v A h
  loans v l hl := by
    obtain ⟨y, hy, hok⟩ := f.loans v l hl
    exact ⟨y, List.mem_cons_of_mem _ hy, hok⟩

theorem lookup_mem {vars : List (Nat × Owned)} {v : Nat} {x : Owned} : vars.lookup v = some x → (v, x) ∈ vars := by
  induction vars with
  | nil => intro h; cases h
  | cons y m ih =>
    obtain ⟨w, y⟩ := y
    rw [List.lookup_cons]
    by_cases hx : v = w
    · subst hx; simp; rintro rfl; exact .inl rfl
    · rw [show (v == w) = false by simpa using hx]
      intro h; exact List.mem_cons_of_mem _ (ih h)

theorem holds_unbind {vars : List (Nat × Owned)} {v : Nat} {x : Owned} (hn : (vars.map Prod.fst).Nodup) (hx : (v, x) ∈ vars) (o : Nat) :
    (holds vars).count o = (x.held ++ holds (vars.filter fun y => y.1 ≠ v)).count o := by
  induction vars with
  | nil => cases hx
  | cons y m ih =>
    rw [List.map_cons, List.nodup_cons] at hn
    rcases List.mem_cons.mp hx with h | h
    · subst h
      have hf : m.filter (fun y => y.1 ≠ v) = m := by
        rw [List.filter_eq_self]
        intro z hz
        have : z.1 ≠ v := fun he => hn.1 (List.mem_map.mpr ⟨z, hz, he⟩)
        simpa using this
      rw [List.filter_cons_of_neg (by simp), hf]
      rfl
    · have hy : y.1 ≠ v := fun he => hn.1 (by rw [he]; exact List.mem_map.mpr ⟨_, h, rfl⟩)
      rw [List.filter_cons_of_pos (by simpa using hy)]
      have := ih hn.2 h
      simp only [holds, List.flatMap_cons, List.count_append] at this ⊢
      omega

theorem Fine.unbind {H : Holder} {v : Nat} {x : Owned} (f : H.Fine []) (hx : (v, x) ∈ H.vars) (hfree : H.free v = true) :
    (H.unbind v).Fine x.held where
  sound := f.sound.congr fun o => holds_unbind f.names hx o
  names := f.names.sublist ((List.filter_sublist).map _)
  fresh y hy := f.fresh y (List.mem_filter.mp hy).1
  archives w A h := f.archives w A (List.mem_filter.mp h).1
  loans w l hl := by
    obtain ⟨y, hy, hok⟩ := f.loans w l hl
    refine ⟨y, List.mem_filter.mpr ⟨hy, ?_⟩, hok⟩
    have := List.all_eq_true.mp hfree (w, l) hl
    simpa using this

theorem Fine.lend {H : Holder} {v : Nat} {x : Owned} {l : Loan} (f : H.Fine []) (hx : (v, x) ∈ H.vars) (hl : LoanOK H.heap x l) : (H.lend v l).Fine [] :=
  { f with
    loans := fun w l' hl' => by
      rcases List.mem_cons.mp hl' with h | h
      · cases h; exact ⟨x, hx, hl⟩
      · exact f.loans w l' h }

/-- A call keeps everything fine. -/
theorem call_fine {E α : Type} {H : Holder} {x : Act Heap E α} {g : Holder → α → Holder} {extra : List Nat} {good : α → List Nat} {ok : α → Heap → Prop}
    (f : H.Fine extra) (d : After (x H.heap) H.heap (fun a => good a ++ holds H.vars) (holds H.vars) ok)
    (hg : ∀ a h, ({ H with heap := h } : Holder).Fine (good a) → ok a h → (g { H with heap := h } a).Fine [])
    {P : Prop} (hh : ∀ H a, (g H a).heap = H.heap := by intros; rfl) :
    ∃ H', H.call x g = .ok H' ∧ H'.Fine [] ∧ (P → Keeps H.heap H'.heap) := by
  unfold call
  cases hx : x H.heap with
  | mk r h =>
    rw [hx] at d
    cases r with
    | ok a => exact ⟨_, rfl, hg a h (f.heap d.1 d.2.1) d.2.2, fun _ => by rw [hh]; exact d.2.1⟩
    | err e => exact ⟨_, rfl, f.heap (extra' := []) d.1 d.2, fun _ => d.2⟩
    | panic => exact ⟨_, rfl, f.heap (extra' := []) d.1 d.2, fun _ => d.2⟩
    | ub => exact d.elim

/-- The storages are among those held. -/
theorem Fine.mem {H : Holder} (f : H.Fine []) {v o : Nat} {l : Loan} (hl : (v, l) ∈ H.loans) (ho : l = .storage o) : ∃ x, (v, x) ∈ H.vars ∧ o ∈ x.held := by
  obtain ⟨x, hx, hok⟩ := f.loans v l hl
  subst ho
  exact ⟨x, hx, hok⟩

mutual
theorem sub_valid {h : Heap} : ∀ (path : List Nat) (A A' : Arch), subArch path A = some A' → A.Valid h → A'.Valid h ∧ ∀ o ∈ A'.held, o ∈ A.held
  | [], A, A', hs, v => by cases hs; exact ⟨v, fun _ h => h⟩
  | i :: is, .mk o xs ss, A', hs, v => by
    change (subArch.nth i ss).bind (subArch is) = some A' at hs
    obtain ⟨B, hB, hs⟩ := Option.bind_eq_some_iff.mp hs
    obtain ⟨h1, h2⟩ := nth_valid i ss B hB v.2
    obtain ⟨h3, h4⟩ := sub_valid is B A' hs h1
    exact ⟨h3, fun x hx => List.mem_cons_of_mem _ (h2 x (h4 x hx))⟩

theorem nth_valid {h : Heap} : ∀ (i : Nat) (ss : Subs) (A : Arch), subArch.nth i ss = some A → ss.Valid h → A.Valid h ∧ ∀ o ∈ A.held, o ∈ ss.held
  | _, .nil, A, hs, _ => by unfold subArch.nth at hs; cases hs
  | 0, .cons a rest, A, hs, v => by
    change a = some A at hs
    subst hs
    exact ⟨v.1, fun x hx => List.mem_append_left _ hx⟩
  | i + 1, .cons a rest, A, hs, v => by
    change subArch.nth i rest = some A at hs
    have hv : rest.Valid h := by cases a with
      | none => exact v
      | some a => exact v.2
    obtain ⟨h1, h2⟩ := nth_valid i rest A hs hv
    refine ⟨h1, fun x hx => ?_⟩
    rw [held_cons]
    exact List.mem_append_right _ (h2 x hx)
end

mutual
theorem sub_held : ∀ (path : List Nat) (A A' : Arch), subArch path A = some A' → ∃ l : List Nat, ∀ o, A.held.count o = A'.held.count o + l.count o
  | [], A, A', hs => by cases hs; exact ⟨[], fun _ => rfl⟩
  | i :: is, .mk o xs ss, A', hs => by
    change (subArch.nth i ss).bind (subArch is) = some A' at hs
    obtain ⟨B, hB, hs⟩ := Option.bind_eq_some_iff.mp hs
    obtain ⟨l, hl⟩ := nth_held i ss B hB
    obtain ⟨l', hl'⟩ := sub_held is B A' hs
    refine ⟨o :: (l ++ l'), fun x => ?_⟩
    simp only [Arch.held, List.count_cons, List.count_append, hl x, hl' x]
    omega

theorem nth_held : ∀ (i : Nat) (ss : Subs) (A : Arch), subArch.nth i ss = some A → ∃ l : List Nat, ∀ o, ss.held.count o = A.held.count o + l.count o
  | _, .nil, A, hs => by unfold subArch.nth at hs; cases hs
  | 0, .cons a rest, A, hs => by
    change a = some A at hs
    subst hs
    exact ⟨rest.held, fun x => by rw [Subs.held, List.count_append]⟩
  | i + 1, .cons a rest, A, hs => by
    change subArch.nth i rest = some A at hs
    obtain ⟨l, hl⟩ := nth_held i rest A hs
    refine ⟨heldOpt a ++ l, fun x => ?_⟩
    rw [held_cons]
    simp only [List.count_append, hl x]
    omega
end

theorem dropOwned_after {x : Owned} {h : Heap} {l bad : List Nat} (s : Sound h (x.held ++ l)) : After (dropOwned x h) h (fun _ => l) bad (fun _ _ => True) := by
  cases x with
  | storage o => exact dropRc_after s
  | builder o => exact dropRc_after s
  | archive A => exact dropArch_after A s

theorem cloneOwned_after {x : Owned} {h : Heap} {l bad : List Nat} (s : Sound h (x.held ++ l)) :
    After (cloneOwned x h) h (fun _ => x.held ++ (x.held ++ l)) bad (fun _ _ => True) := by
  cases x with
  | storage o => exact cloneRc_after s
  | builder o => exact cloneRc_after s
  | archive A => exact cloneArch_after A s

/-- Bytes of a region are changed from outside. -/
theorem Fine.other {H : Holder} (f : H.Fine []) {r : Nat} {d d' : Bytes} (hr : H.heap.regions r = some d) (hd : d'.length = d.length) :
    ({ H with heap := { H.heap with regions := upd H.heap.regions r (some d') } } : Holder).Fine [] := by
  have s := f.sound
  have hreg : ∀ x y, H.heap.regions x = some y → ∃ y', upd H.heap.regions r (some d') x = some y' ∧ y'.length = y.length := by
    intro x y hx
    by_cases hxr : x = r
    · subst hxr
      rw [hr] at hx; cases hx
      exact ⟨d', by simp [upd], hd⟩
    · exact ⟨y, by simpa [upd, hxr] using hx, rfl⟩
  refine f.heap (extra' := []) ⟨s.count, s.gone, s.freshS, ?_, ?_, ?_, s.once, s.regions⟩ ⟨Nat.le_refl _, fun _ _ h => h, ?_⟩
  · intro x hx
    have hxr : x ≠ r := by
      rintro rfl
      rw [s.freshR x hx] at hr; cases hr
    simpa [upd, hxr] using s.freshR x hx
  · intro o st k x ho hm
    obtain ⟨y, hy⟩ := s.live o st k x ho hm
    obtain ⟨y', hy', _⟩ := hreg x y hy
    exact ⟨y', hy'⟩
  · intro x y hx
    by_cases hxr : x = r
    · subst hxr; exact s.owned x d hr
    · exact s.owned x y (by simpa [upd, hxr] using hx)
  · intro o sl _ hv _
    obtain ⟨st, k, y, h1, h2, h3, h4⟩ := hv
    obtain ⟨y', hy', hl⟩ := hreg _ y h3
    exact ⟨st, k, y', h1, h2, hy', by rw [hl]; exact h4⟩

section
variable [DiffLib] {p : Profile} {e : Endian}

theorem step_fine {H : Holder} (f : H.Fine []) (m : Move) : 
    ∃ H', step p e H m = .ok H' ∧ H'.Fine [] ∧ ((∀ r g, m ≠ .other r g) → Keeps H.heap H'.heap) := by
  have same : ∃ H', Out.ok H = .ok H' ∧ H'.Fine [] ∧ ((∀ r g, m ≠ .other r g) → Keeps H.heap H'.heap) := ⟨H, rfl, f, fun _ => .refl _⟩
  cases m with
  | new path =>
    simp only [step]
    exact call_fine f (good := fun o => [o]) (newStore_after f.sound) fun o h f' _ => f'.bindVar (x := .storage o) fun _ h => by cases h
  | clone v =>
    simp only [step]
    cases hl : H.vars.lookup v with
    | none => exact same
    | some x =>
      simp only
      have hx := lookup_mem hl
      have s := f.sound.congr fun o => holds_unbind f.names hx o
      have hc := (cloneOwned_after (bad := holds H.vars) s).congr (good' := fun _ => x.held ++ holds H.vars) (bad' := holds H.vars)
        (fun _ o => by
          have := holds_unbind f.names hx o
          simp only [List.count_append] at this ⊢
          omega) (fun _ => rfl) (fun _ _ h => h)
      refine call_fine f (good := fun _ => x.held) (ok := fun _ h => ∀ A, x = .archive A → A.Valid h) ?_ fun _ h f' hv => f'.bindVar (x := x) ?_
      · cases hr : cloneOwned x H.heap with
        | mk r h =>
          rw [hr] at hc
          cases r with
          | ok a =>
            refine ⟨hc.1, hc.2.1, fun A hA => ?_⟩
            subst hA
            exact Arch.Valid.keep f.sound hc.1 hc.2.1 A (f.archives v A hx) fun o ho => List.mem_append_left _ ho
          | err e => exact hc
          | panic => exact hc
          | ub => exact hc
      · exact hv
  | drop v =>
    simp only [step]
    cases hl : H.vars.lookup v with
    | none => exact same
    | some x =>
      cases hf : H.free v with
      | false => exact same
      | true =>
        have f' := f.unbind (lookup_mem hl) hf
        exact call_fine f' (good := fun _ => []) (dropOwned_after f'.sound) fun _ _ f'' _ => f''
  | openA v D =>
    simp only [step]
    cases hl : H.vars.lookup v with
    | none => exact same
    | some x =>
      cases x with
      | archive A => exact same
      | builder o => exact same
      | storage o =>
        cases hf : H.free v with
        | false => exact same
        | true =>
          have f' := f.unbind (lookup_mem hl) hf
          exact call_fine f' (good := fun A => A.held) (openOwned_after o _ D _ f'.sound) fun A _ f'' hv =>
            f''.bindVar (x := .archive A) fun _ h => by cases h; exact hv
  | build v D =>
    simp only [step]
    cases hl : H.vars.lookup v with
    | none => exact same
    | some x =>
      cases x with
      | archive A => exact same
      | builder o => exact same
      | storage o =>
        cases hf : H.free v with
        | false => exact same
        | true =>
          have f' := f.unbind (lookup_mem hl) hf
          exact call_fine f' (good := fun _ => [o]) (buildOwned_after f'.sound) fun _ _ f'' hv =>
            f''.bindVar (x := .builder o) fun _ h => by cases h
  | buildSub v name D =>
    simp only [step]
    cases hl : H.vars.lookup v with
    | none => exact same
    | some x =>
      cases x with
      | archive A => exact same
      | storage o => exact same
      | builder o =>
        have ho : o ∈ holds H.vars := mem_holds (lookup_mem hl) (List.mem_cons_self ..)
        exact call_fine f (good := fun o' => [o']) (buildSubOwned_after f.sound ho) fun o' _ f'' _ =>
          f''.bindVar (x := .builder o') fun _ h => by cases h
  | cloneSub v path =>
    simp only [step]
    cases hl : H.vars.lookup v with
    | none => exact same
    | some x =>
      cases x with
      | builder o => exact same
      | storage o => exact same
      | archive A =>
        simp only
        cases hs : subArch path A with
        | none => exact same
        | some A' =>
          simp only
          have hx := lookup_mem hl
          obtain ⟨hv', hheld⟩ := sub_valid path A A' hs (f.archives v A hx)
          obtain ⟨l, hl'⟩ := sub_held path A A' hs
          have hcount : ∀ o, (holds H.vars).count o = (A'.held ++ (l ++ holds (H.vars.filter fun y => y.1 ≠ v))).count o := by
            intro o
            rw [holds_unbind f.names hx o]
            simp only [Owned.held, List.count_append, hl' o]
            omega
          have hc := (cloneArch_after (E := Empty) (bad := holds H.vars) A' (f.sound.congr hcount)).congr (good' := fun _ => A'.held ++ holds H.vars)
            (bad' := holds H.vars) (fun _ o => by rw [List.count_append, ← hcount o, List.count_append]) (fun _ => rfl) (fun _ _ h => h)
          refine call_fine f (good := fun _ => A'.held) (ok := fun _ h => A'.Valid h) ?_ fun _ h f' hv => f'.bindVar (x := .archive A') fun _ h => by cases h; exact hv
          cases hr : cloneArch (E := Empty) A' H.heap with
          | mk r h =>
            rw [hr] at hc
            cases r with
            | ok a => exact ⟨hc.1, hc.2.1, Arch.Valid.keep f.sound hc.1 hc.2.1 A' hv' fun o ho => List.mem_append_left _ ho⟩
            | err e => exact hc
            | panic => exact hc
            | ub => exact hc
  | ref v =>
    simp only [step]
    cases hl : H.vars.lookup v with
    | none => exact same
    | some x =>
      cases x with
      | archive A => exact same
      | storage o => exact ⟨_, rfl, f.lend (lookup_mem hl) (List.mem_cons_self ..), fun _ => .refl _⟩
      | builder o => exact ⟨_, rfl, f.lend (lookup_mem hl) (List.mem_cons_self ..), fun _ => .refl _⟩
  | look v path i j =>
    simp only [step]
    cases hl : H.vars.lookup v with
    | none => exact same
    | some x =>
      cases x with
      | storage o => exact same
      | builder o => exact same
      | archive A =>
        simp only
        cases hs : subArch path A with
        | none => exact same
        | some A' =>
          obtain ⟨o, xs, ss⟩ := A'
          simp only
          have hx := lookup_mem hl
          obtain ⟨hv', hheld⟩ := sub_valid path A _ hs (f.archives v A hx)
          cases hi : xs[i]?.bind fun x => (slices x)[j]? with
          | none => exact same
          | some y =>
            cases y with
            | none => exact same
            | some sl =>
              obtain ⟨y, hy, hj⟩ := Option.bind_eq_some_iff.mp hi
              exact ⟨_, rfl, f.lend hx ⟨o, hheld o (by simp [Arch.held]), hv'.1 y (List.mem_of_getElem? hy) sl (List.mem_of_getElem? hj)⟩, fun _ => .refl _⟩
  | subdir k dir =>
    simp only [step]
    cases hl : H.loans[k]? with
    | none => exact same
    | some x =>
      obtain ⟨v, x⟩ := x
      cases x with
      | bytes s => exact same
      | storage o =>
        obtain ⟨x, hx, ho⟩ := f.mem (List.mem_of_getElem? hl) rfl
        exact call_fine f (good := fun o' => [o']) (subdir_after f.sound (mem_holds hx ho)) fun o' _ f'' _ =>
          f''.bindVar (x := .storage o') fun _ h => by cases h
  | readRaw k name =>
    simp only [step]
    cases hl : H.loans[k]? with
    | none => exact same
    | some x =>
      obtain ⟨v, x⟩ := x
      cases x with
      | bytes s => exact same
      | storage o =>
        obtain ⟨x, hx, ho⟩ := f.mem (List.mem_of_getElem? hl) rfl
        exact call_fine f (good := fun _ => []) (readResource_after f.sound (mem_holds hx ho)) fun s _ f'' hv =>
          f''.lend (x := x) (l := .bytes s) hx ⟨o, ho, hv⟩
  | read k name schema =>
    simp only [step]
    cases hl : H.loans[k]? with
    | none => exact same
    | some x =>
      obtain ⟨v, x⟩ := x
      cases x with
      | bytes s => exact same
      | storage o =>
        obtain ⟨x, hx, ho⟩ := f.mem (List.mem_of_getElem? hl) rfl
        exact call_fine f (good := fun _ => []) (read_after f.sound (mem_holds hx ho)) fun s _ f'' hv =>
          f''.lend (x := x) (l := .bytes s) hx ⟨o, ho, hv⟩
  | write k name schema data =>
    simp only [step]
    cases hl : H.loans[k]? with
    | none => exact same
    | some x =>
      obtain ⟨v, x⟩ := x
      cases x with
      | bytes s => exact same
      | storage o =>
        obtain ⟨x, hx, ho⟩ := f.mem (List.mem_of_getElem? hl) rfl
        exact call_fine f (good := fun _ => []) (write_after f.sound (mem_holds hx ho)) fun _ _ f'' _ => f''
  | release k =>
    exact ⟨_, rfl, { f with loans := fun v l hl => f.loans v l ((List.eraseIdx_sublist ..).mem hl) }, fun _ => .refl _⟩
  | other r g =>
    simp only [step]
    cases hr : H.heap.regions r with
    | none => exact same
    | some d =>
      simp only
      by_cases hd : (g d).length = d.length
      · rw [if_pos hd]
        exact ⟨_, rfl, f.other hr hd, fun h => absurd rfl (h r g)⟩
      · rw [if_neg hd]
        exact same

theorem run_fine : ∀ (ms : List Move) {H : Holder}, H.Fine [] → ∃ H', run p e H ms = .ok H' ∧ H'.Fine []
  | [], H, f => ⟨H, rfl, f⟩
  | m :: ms, H, f => by
    obtain ⟨H1, h1, f1, _⟩ := step_fine (p := p) (e := e) f m
    obtain ⟨H2, h2, f2⟩ := run_fine ms f1
    exact ⟨H2, by rw [run, h1]; exact h2, f2⟩

theorem run_append : ∀ (ms ms' : List Move) (H : Holder), run p e H (ms ++ ms') = (run p e H ms).bind fun H => run p e H ms'
  | [], _, _ => rfl
  | m :: ms, ms', H => by
    rw [List.cons_append, run, run]
    cases step p e H m with
    | ok H' => exact run_append ms ms' H'
    | panic => rfl
    | ub => rfl

omit [DiffLib] in
theorem start_fine (env : Nat → Option Bytes) : (start env).Fine [] where
  sound := ⟨(fun _ _ h => by cases h), (fun _ _ => rfl), (fun _ _ => rfl), (fun _ _ => rfl), (fun _ _ _ _ h => by cases h), (fun _ _ h => by cases h),
    (fun _ _ _ _ _ _ _ h => by cases h), (fun _ _ h => by cases h)⟩
  names := List.nodup_nil
  fresh _ h := by cases h
  archives _ _ h := by cases h
  loans _ _ h := by cases h

end
end Holder
end Spec
end Flatdata
