import Verif.Proofs.Safe
/-!
# Opening, building and showing archives performs no undefined access
-/
namespace Flatdata
open Spec

namespace Spec.Kind
variable {k : Kind} {J : k.backend.W → Prop} {p : Profile} {e : Endian} {o : k.backend.Obj}

/-! ## Archives stay accessible -/

theorem AllHeld.steps {w w' : k.backend.W} (hr : Reachable k w) (h : Steps k w w') {l : List (Option (Slice k.backend.Base))}
    (hl : AllHeld w l) : AllHeld w' l := fun s hs => h.held hr (hl s hs)

theorem AllFine.steps {w w' : k.backend.W} (hr : Reachable k w) (h : Steps k w w') :
    ∀ (rs : List ResDecl) (xs : List (Opened k.backend.Base)), AllFine w rs xs → AllFine w' rs xs
  | [], [], _ => trivial
  | _ :: rs, _ :: xs, hf => ⟨⟨hf.1.1, hf.1.2.1, AllHeld.steps hr h hf.1.2.2⟩, AllFine.steps hr h rs xs hf.2⟩
  | [], _ :: _, hf => hf.elim
  | _ :: _, [], hf => hf.elim

mutual
theorem ArchiveFine.steps {w w' : k.backend.W} (hr : Reachable k w) (h : Steps k w w') :
    ∀ (D : ArchiveDef) (a : Archive k.backend.Base), ArchiveFine w D a → ArchiveFine w' D a
  | .mk _ _ rs subs, .mk xs ss, hf => by
    unfold ArchiveFine at hf ⊢
    exact ⟨AllFine.steps hr h rs xs hf.1, SubsFine.steps hr h subs ss hf.2⟩

theorem SubsFine.steps {w w' : k.backend.W} (hr : Reachable k w) (h : Steps k w w') :
    ∀ (D : SubDefs) (a : SubArchives k.backend.Base), SubsFine w D a → SubsFine w' D a
  | .nil, .nil, _ => by unfold SubsFine; trivial
  | .cons _ _ D rest, .cons none ss, hf => by
    unfold SubsFine at hf ⊢
    exact ⟨hf.1, SubsFine.steps hr h rest ss hf.2⟩
  | .cons _ _ D rest, .cons (some a) ss, hf => by
    unfold SubsFine at hf ⊢
    exact ⟨ArchiveFine.steps hr h D a hf.1, SubsFine.steps hr h rest ss hf.2⟩
  | .nil, .cons _ _, hf => by unfold SubsFine at hf; exact hf.elim
  | .cons _ _ _ _, .nil, hf => by unfold SubsFine at hf; exact hf.elim
end

/-! ## Opening -/

theorem safe_checkRes {α : Type} {P : k.backend.W → Prop} {Q : α → k.backend.W → Prop} {opt : Bool} {x : Act k.backend.W RErr α}
    (hx : Safe k (Steps k) P x Q) (hJ : Stable k (Steps k) J) (hP : ∀ w, J w → P w) :
    Safe k (Steps k) J (checkRes k.backend opt x) (fun r w => J w ∧ (r = none → opt = true) ∧ ∀ a, r = some a → Q a w) := by
  refine .bind (hx.attempt' hJ hP) fun r => ?_
  cases r with
  | ok a => exact .pure _ fun w hw => ⟨hw.1, (fun h => by cases h), fun b hb => by cases hb; exact hw.2 a rfl⟩
  | error x =>
    dsimp only
    split
    · next ho => exact .pure _ fun w hw => ⟨hw.1, fun _ => ho, fun b hb => by cases hb⟩
    · exact .fail _

theorem safe_checkRead [DiffLib] {opt : Bool} {name schema : String} (hJ : Stable k (Steps k) J) (ho : ∀ w, J w → k.alive w o) :
    Safe k (Steps k) J (checkRes k.backend opt (Storage.read k.backend p e o name schema))
      (fun r w => J w ∧ (r = none → opt = true) ∧ AllHeld w [r]) :=
  (safe_checkRes (safe_storageRead hJ ho) hJ fun _ h => h).mono (fun _ h => h) fun _ _ h =>
    ⟨h.1, h.2.1, fun s hs => (h.2.2 s (List.mem_singleton.mp hs).symm).2⟩

theorem stable_allHeld {l : List (Option (Slice k.backend.Base))} : Stable k (Steps k) (fun w => AllHeld w l) :=
  fun _ _ hr h => AllHeld.steps hr h

theorem safe_openOne [DiffLib] {r : ResDecl} (hm : ∀ V i, r.type ≠ .multi V i) (hJ : Stable k (Steps k) J) (ho : ∀ w, J w → k.alive w o) :
    Safe k (Steps k) J (do
      let d ← checkRes k.backend r.optional (Storage.read k.backend p e o r.name r.schema)
      pure (.one d)) (fun x w => J w ∧ ResFine w r x) := by
  refine .bind (safe_checkRead hJ ho) fun d => .pure _ fun w hw => ⟨hw.1, ?_, ?_, ?_⟩
  · cases ht : r.type with
    | multi V i => exact absurd ht (hm V i)
    | _ => trivial
  · intro hopt hn
    have := hw.2.1 (List.mem_singleton.mp hn).symm
    rw [hopt] at this; cases this
  · exact hw.2.2

theorem safe_openResource [DiffLib] {r : ResDecl} (hJ : Stable k (Steps k) J) (ho : ∀ w, J w → k.alive w o) :
    Safe k (Steps k) J (openResource k.backend p e o r) (fun x w => J w ∧ ResFine w r x) := by
  unfold openResource
  split
  · next V index ht =>
    refine .bind (safe_checkRead hJ ho) fun i => ?_
    have h1 : Stable k (Steps k) (fun w => J w ∧ (i = none → r.optional = true) ∧ AllHeld w [i]) :=
      hJ.and (stable_const.and stable_allHeld)
    refine .bind (safe_checkRead h1 fun w hw => ho w hw.1) fun d => .pure _ fun w hw => ⟨hw.1.1, ?_, ?_, ?_⟩
    · rw [ht]; trivial
    · intro hopt hn
      rcases List.mem_cons.mp hn with hn | hn
      · have := hw.1.2.1 hn.symm; rw [hopt] at this; cases this
      · have := hw.2.1 (List.mem_singleton.mp hn).symm; rw [hopt] at this; cases this
    · intro s hs
      rcases List.mem_cons.mp hs with hs | hs
      · exact hw.1.2.2 s (List.mem_singleton.mpr hs)
      · exact hw.2.2 s hs
  · next hm => exact safe_openOne (fun V i h => hm V i h) hJ ho

theorem stable_res {r : ResDecl} {x : Opened k.backend.Base} : Stable k (Steps k) (fun w => ResFine w r x) :=
  fun _ _ hr h hf => ⟨hf.1, hf.2.1, AllHeld.steps hr h hf.2.2⟩

theorem safe_openResources [DiffLib] : ∀ (rs : List ResDecl) {J : k.backend.W → Prop}, Stable k (Steps k) J → (∀ w, J w → k.alive w o) →
    Safe k (Steps k) J (openResources k.backend p e o rs) (fun xs w => J w ∧ AllFine w rs xs)
  | [], _, _, _ => .pure _ fun _ h => ⟨h, trivial⟩
  | r :: rs, J, hJ, ho => by
    refine .bind (safe_openResource hJ ho) fun x => ?_
    refine .bind (safe_openResources rs (hJ.and stable_res) fun w h => ho w h.1) fun xs => ?_
    exact .pure _ fun w hw => ⟨hw.1.1, hw.1.2, hw.2⟩

mutual
theorem safe_openArchive [DiffLib] : ∀ (D : ArchiveDef) {o : k.backend.Obj} {J : k.backend.W → Prop}, Stable k (Steps k) J →
    (∀ w, J w → k.alive w o) → Safe k (Steps k) J (openArchive k.backend p e o D) (fun a w => J w ∧ ArchiveFine w D a)
  | .mk name schema rs subs, o, J, hJ, ho => by
    unfold openArchive
    refine .bind ((safe_storageRead hJ ho).mono (fun _ h => h) fun _ _ h => h.1) fun _ => ?_
    refine .bind (safe_openResources rs hJ ho) fun xs => ?_
    have h1 : Stable k (Steps k) (fun w => J w ∧ AllFine w rs xs) := hJ.and fun _ _ hr h => AllFine.steps hr h rs xs
    refine .bind (safe_openSubs subs h1 fun w h => ho w h.1) fun ss => ?_
    refine .pure _ fun w hw => ⟨hw.1.1, ?_⟩
    unfold ArchiveFine
    exact ⟨hw.1.2, hw.2⟩

theorem safe_openSubs [DiffLib] : ∀ (D : SubDefs) {o : k.backend.Obj} {J : k.backend.W → Prop}, Stable k (Steps k) J →
    (∀ w, J w → k.alive w o) → Safe k (Steps k) J (openSubs k.backend p e o D) (fun a w => J w ∧ SubsFine w D a)
  | .nil, o, J, hJ, ho => by
    unfold openSubs
    exact .pure _ fun w hw => ⟨hw, by unfold SubsFine; trivial⟩
  | .cons name optional D rest, o, J, hJ, ho => by
    unfold openSubs
    refine .bind ((safe_subdir (N := fun _ => False)).of_still.mapErr.keep hJ fun w _ n hn => hn.elim) fun o' => ?_
    have h1 : Stable k (Steps k) (fun w => J w ∧ k.alive w o') := hJ.and stable_alive
    refine Safe.mono (P := fun w => J w ∧ k.alive w o') ?_ (fun w h => ⟨h.1, h.2.1⟩) fun _ _ h => h
    refine .bind (safe_checkRes (safe_openArchive D h1 fun _ h => h.2) h1 fun _ h => h) fun a => ?_
    have h2 : Stable k (Steps k) (fun w => J w ∧ (a = none → optional = true) ∧ ∀ b, a = some b → ArchiveFine w D b) :=
      hJ.and (stable_const.and fun _ _ hr h hf b hb => ArchiveFine.steps hr h D b (hf b hb))
    refine .bind ((safe_openSubs rest h2 fun w h => ho w h.1).mono (fun w h => ⟨h.1.1, h.2.1, fun b hb => (h.2.2 b hb).2⟩) fun _ _ h => h) fun ss => ?_
    refine .pure _ fun w hw => ⟨hw.1.1, ?_⟩
    cases a with
    | none => unfold SubsFine; exact ⟨hw.1.2.1 rfl, hw.2⟩
    | some b => unfold SubsFine; exact ⟨hw.1.2.2 b rfl, hw.2⟩
end

/-! ## Building -/

theorem safe_builderNew {D : ArchiveDef} (hJ : Stable k (Still k) J) (h : ∀ w, J w → Free k o D.signature w) :
    Safe k (Still k) J (builderNew k.backend p e o D) (fun r w => J w ∧ k.alive w r) :=
  .bind (safe_createArchive hJ h) fun _ => .pure _ fun w hw => ⟨hw, (h w hw).1⟩

theorem safe_builderSub {name : String} {D : ArchiveDef} :
    Safe k (Still k) (fun w => k.subUnmapped w o name D.signature ∧ k.subUnmapped w o name (D.signature ++ ".schema"))
      (builderSub k.backend p e o name D) (fun r w => k.alive w r) := by
  refine .bind (Safe.mono (safe_subdir (N := fun n => n = D.signature ∨ n = D.signature ++ ".schema")).mapErr
    (fun w hw n hn => ?_) fun o' w h => (show Free k o' D.signature w from ⟨h.1, h.2 _ (.inl rfl), h.2 _ (.inr rfl)⟩)) fun o' => ?_
  · rcases hn with rfl | rfl
    · exact hw.1
    · exact hw.2
  · exact (safe_builderNew stable_free fun _ h => h).mono (fun _ h => h) fun _ _ h => h.2

/-! ## Showing -/

theorem bytes_ne_ub {w : k.backend.W} (hi : k.intact w) {r : ResDecl} {x : Opened k.backend.Base} (h : ResFine w r x) :
    x.bytes k.backend w ≠ .ub := by
  unfold Opened.bytes
  split
  · next s =>
    obtain ⟨b, h1, _⟩ := deref_held hi (h.2.2 s (by simp [descriptors]))
    rw [h1]; simp [Out.bind]
  · simp
  · simp

theorem multi_ne_ub {w : k.backend.W} (hi : k.intact w) {r : ResDecl} {x : Opened k.backend.Base} (h : ResFine w r x) :
    x.multi k.backend w ≠ .ub := by
  unfold Opened.multi
  split
  · next s t =>
    obtain ⟨b, h1, _⟩ := deref_held hi (h.2.2 s (by simp [descriptors]))
    obtain ⟨c, h2, _⟩ := deref_held hi (h.2.2 t (by simp [descriptors]))
    rw [h1, h2]; simp [Out.bind]
  · simp
  · simp

theorem showOpt_ne_ub {opt : Bool} {x : Option String} (h : opt = false → x ≠ none) : showOpt opt x ≠ .ub := by
  unfold showOpt
  split
  · simp
  · exact absurd rfl (h rfl)
  · simp
  · simp

theorem formatSome_ne_ub {α : Type} {f : α → Out String} {x : Option α} (h : ∀ a, x = some a → f a ≠ .ub) : formatSome f x ≠ .ub := by
  cases x
  · exact ok_ne_ub
  · exact Out.bind_ne_ub (h _ rfl) fun _ _ => ok_ne_ub

theorem formatSome_none {α : Type} {f : α → Out String} {x : Option α} (h : formatSome f x = .ok none) : x = none := by
  cases x
  · rfl
  · obtain ⟨_, _, h⟩ := Out.bind_eq_ok.mp h; cases h

theorem bytes_none {w : k.backend.W} {r : ResDecl} {x : Opened k.backend.Base} (hf : ResFine w r x) (hm : ∀ V i, r.type ≠ .multi V i)
    (h : x.bytes k.backend w = .ok none) : r.optional = true := by
  refine Decidable.byContradiction fun hc => ?_
  have hn := hf.2.1 (by simpa using hc)
  cases x with
  | one d =>
    cases d with
    | none => simp [descriptors] at hn
    | some s => obtain ⟨b, _, h⟩ := Out.bind_eq_ok.mp h; cases h
  | two i d =>
    have := hf.1
    cases ht : r.type with
    | multi V i => exact hm V i ht
    | _ => rw [ht] at this; exact this

theorem multi_none {w : k.backend.W} {r : ResDecl} {x : Opened k.backend.Base} (hf : ResFine w r x) {V : Variadic} {index : String}
    (hm : r.type = .multi V index) (h : x.multi k.backend w = .ok none) : r.optional = true := by
  refine Decidable.byContradiction fun hc => ?_
  have hn := hf.2.1 (by simpa using hc)
  cases x with
  | one d => have := hf.1; rw [hm] at this; exact this
  | two i d =>
    cases i with
    | none => simp [descriptors] at hn
    | some i =>
      cases d with
      | none => simp [descriptors] at hn
      | some d =>
        obtain ⟨b, _, h⟩ := Out.bind_eq_ok.mp h
        obtain ⟨c, _, h⟩ := Out.bind_eq_ok.mp h
        cases h

theorem resDebug_ne_ub {w : k.backend.W} (hi : k.intact w) {addr : Slice k.backend.Base → String} {r : ResDecl} {x : Opened k.backend.Base}
    (hf : ResFine w r x) (hc : ContentReadable k w r x) : resDebug k.backend w p e addr r x ≠ .ub := by
  unfold resDebug
  unfold ContentReadable at hc
  split
  · next S ht =>
    rw [ht] at hc
    refine Out.bind_ne_ub (bytes_ne_ub hi hf) fun b hb => Out.bind_ne_ub (formatSome_ne_ub fun a ha => ?_) fun s hs => showOpt_ne_ub fun ho hn => ?_
    · subst ha; exact structDebug_ne_ub (hc a hb)
    · subst hn
      have := formatSome_none hs
      subst this
      rw [bytes_none hf (fun V i h => by rw [ht] at h; cases h) hb] at ho; cases ho
  · next S ht =>
    rw [ht] at hc
    refine Out.bind_ne_ub (bytes_ne_ub hi hf) fun b hb => Out.bind_ne_ub (formatSome_ne_ub fun a ha => ?_) fun s hs => showOpt_ne_ub fun ho hn => ?_
    · subst ha; exact viewDebug_ne_ub (hc a hb)
    · subst hn
      have := formatSome_none hs
      subst this
      rw [bytes_none hf (fun V i h => by rw [ht] at h; cases h) hb] at ho; cases ho
  · next V index ht =>
    rw [ht] at hc
    refine Out.bind_ne_ub (multi_ne_ub hi hf) fun b hb => Out.bind_ne_ub (formatSome_ne_ub fun a ha => ?_) fun s hs => showOpt_ne_ub fun ho hn => ?_
    · subst ha; exact multiDebug_ne_ub (hc.2 a hb) hc.1
    · subst hn
      have := formatSome_none hs
      subst this
      rw [multi_none hf ht hb] at ho; cases ho
  · next ht =>
    refine showOpt_ne_ub fun ho hn => ?_
    have hd : x.desc k.backend = none := by simpa using hn
    have h1 := hf.2.1 ho
    cases x with
    | one d =>
      change d = none at hd
      subst hd
      simp [descriptors] at h1
    | two i d => have := hf.1; rw [ht] at this; exact this

theorem allDebug_ne_ub {w : k.backend.W} (hi : k.intact w) {addr : Slice k.backend.Base → String} :
    ∀ (rs : List ResDecl) (xs : List (Opened k.backend.Base)), AllFine w rs xs → AllReadable k w rs xs →
      allDebug k.backend w p e addr rs xs ≠ .ub
  | [], [], _, _ => ok_ne_ub
  | _ :: rs, _ :: xs, hf, hc => Out.bind_ne_ub (resDebug_ne_ub hi hf.1 hc.1) fun _ _ =>
    Out.bind_ne_ub (allDebug_ne_ub hi rs xs hf.2 hc.2) fun _ _ => ok_ne_ub
  | [], _ :: _, hf, _ => hf.elim
  | _ :: _, [], hf, _ => hf.elim

mutual
theorem archiveDebug_ne_ub {w : k.backend.W} (hi : k.intact w) {addr : Slice k.backend.Base → String} :
    ∀ (D : ArchiveDef) (a : Archive k.backend.Base), ArchiveFine w D a → ArchiveReadable k w D a →
      archiveDebug k.backend w p e addr D a ≠ .ub
  | .mk _ _ rs subs, .mk xs ss, hf, hc => by
    unfold ArchiveFine at hf
    unfold ArchiveReadable at hc
    unfold archiveDebug
    exact Out.bind_ne_ub (allDebug_ne_ub hi rs xs hf.1 hc.1) fun _ _ => Out.bind_ne_ub (subsDebug_ne_ub hi subs ss hf.2 hc.2) fun _ _ => ok_ne_ub

theorem subsDebug_ne_ub {w : k.backend.W} (hi : k.intact w) {addr : Slice k.backend.Base → String} :
    ∀ (D : SubDefs) (a : SubArchives k.backend.Base), SubsFine w D a → SubsReadable k w D a →
      subsDebug k.backend w p e addr D a ≠ .ub
  | .nil, .nil, _, _ => by unfold subsDebug; exact ok_ne_ub
  | .cons _ _ D rest, .cons none ss, hf, hc => by
    unfold SubsFine at hf
    unfold SubsReadable at hc
    unfold subsDebug
    refine Out.bind_ne_ub ok_ne_ub fun s hs => Out.bind_ne_ub (showOpt_ne_ub fun ho hn => ?_) fun _ _ =>
      Out.bind_ne_ub (subsDebug_ne_ub hi rest ss hf.2 hc.2) fun _ _ => ok_ne_ub
    have := hf.1
    rw [this] at ho; cases ho
  | .cons _ _ D rest, .cons (some a) ss, hf, hc => by
    unfold SubsFine at hf
    unfold SubsReadable at hc
    unfold subsDebug
    refine Out.bind_ne_ub (Out.bind_ne_ub (archiveDebug_ne_ub hi D a hf.1 hc.1) fun _ _ => ok_ne_ub) fun s hs =>
      Out.bind_ne_ub (showOpt_ne_ub fun ho hn => ?_) fun _ _ => Out.bind_ne_ub (subsDebug_ne_ub hi rest ss hf.2 hc.2) fun _ _ => ok_ne_ub
    subst hn
    obtain ⟨_, _, h⟩ := Out.bind_eq_ok.mp hs
    cases h
  | .nil, .cons _ _, hf, _ => by unfold SubsFine at hf; exact hf.elim
  | .cons _ _ _ _, .nil, hf, _ => by unfold SubsFine at hf; exact hf.elim
end

end Spec.Kind
end Flatdata
