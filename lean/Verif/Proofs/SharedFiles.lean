import Verif.Proofs.Shared
/-!
# The moments of a process: files grow, and size fields are filled in
-/
namespace Flatdata
open Spec

/-- The bytes with only the first `j` bytes of the size field. -/
def torn (j : Nat) (d : Bytes) : Bytes := d.take j ++ (zeros (8 - j) ++ d.drop 8)

/-- Towards `d'`: a part of it, or, if `soft` holds, a part of it with an incomplete size field. -/
def Toward (soft : Prop) (d d' : Bytes) : Prop := d <+: d' ∨ (soft ∧ 8 ≤ d'.length ∧ ∃ j < 8, d <+: torn j d')

theorem length_torn {j : Nat} {d : Bytes} (hj : j ≤ 8) (hd : 8 ≤ d.length) : (torn j d).length = d.length := by
  simp [torn, zeros]; omega

theorem torn_append {j : Nat} {d : Bytes} (hj : j ≤ 8) (hd : 8 ≤ d.length) (t : Bytes) : torn j (d ++ t) = torn j d ++ t := by
  unfold torn
  rw [List.take_append_of_le_length (by omega), List.drop_append_of_le_length hd]
  simp only [List.append_assoc]

theorem torn_prefix {j : Nat} {d d' : Bytes} (hj : j ≤ 8) (hd : 8 ≤ d.length) (h : d <+: d') : torn j d <+: torn j d' := by
  obtain ⟨t, rfl⟩ := h
  rw [torn_append hj hd]
  exact List.prefix_append _ _

theorem torn_torn {j m : Nat} {d : Bytes} (hj : j ≤ 8) (hm : m ≤ 8) (hd : 8 ≤ d.length) : torn j (torn m d) = torn (min j m) d := by
  have hl : (d.take m).length = m := by simp; omega
  have h8 : (torn m d).drop 8 = d.drop 8 := by
    unfold torn
    rw [← List.append_assoc]
    have : (d.take m ++ zeros (8 - m)).length = 8 := by simp [zeros]; omega
    exact (congrArg (fun n => List.drop n _) this.symm).trans (List.drop_left ..)
  have ht : (torn m d).take j ++ zeros (8 - j) = d.take (min j m) ++ zeros (8 - min j m) := by
    unfold torn
    by_cases h : j ≤ m
    · rw [List.take_append_of_le_length (by omega), List.take_take, Nat.min_eq_left h]
    · rw [Nat.min_eq_right (by omega), List.take_append, hl, List.take_of_length_le (by omega),
        List.take_append_of_le_length (by simp [zeros]; omega), List.append_assoc]
      congr 1
      simp only [zeros, List.take_replicate, List.replicate_append_replicate]
      congr 1
      omega
  have e : torn j (torn m d) = (torn m d).take j ++ (zeros (8 - j) ++ (torn m d).drop 8) := rfl
  rw [e, h8, ← List.append_assoc, ht, List.append_assoc]
  rfl

theorem Toward.refl (soft : Prop) (d : Bytes) : Toward soft d d := .inl (List.prefix_refl _)

theorem Toward.length {soft : Prop} {d d' : Bytes} (h : Toward soft d d') : d.length ≤ d'.length := by
  rcases h with h | ⟨_, h8, j, hj, h⟩
  · exact h.length_le
  · have := h.length_le
    rwa [length_torn (by omega) h8] at this

theorem Toward.trans {soft : Prop} {a b c : Bytes} (h : Toward soft a b) (h' : Toward soft b c) : Toward soft a c := by
  have hl := h'.length
  rcases h with h | ⟨hs, h8, j, hj, h⟩
  · rcases h' with h' | ⟨hs, h8, j, hj, h'⟩
    · exact .inl (h.trans h')
    · exact .inr ⟨hs, h8, j, hj, h.trans h'⟩
  · rcases h' with h' | ⟨_, h8', m, hm, h'⟩
    · exact .inr ⟨hs, by omega, j, hj, h.trans (torn_prefix (by omega) h8 h')⟩
    · refine .inr ⟨hs, h8', min j m, by omega, h.trans ?_⟩
      rw [← torn_torn (by omega) (by omega) h8']
      exact torn_prefix (by omega) h8 h'

/-- Every file there is, is on its way to what it is later. -/
def Forward (soft : Key → Prop) (a b : Key → Option Bytes) : Prop := ∀ k d, a k = some d → ∃ d', b k = some d' ∧ Toward (soft k) d d'

theorem Forward.refl (soft : Key → Prop) (a : Key → Option Bytes) : Forward soft a a := fun _ d h => ⟨d, h, .refl _ d⟩
theorem Forward.trans {soft : Key → Prop} {a b c : Key → Option Bytes} (h : Forward soft a b) (h' : Forward soft b c) : Forward soft a c := by
  intro k d hd
  obtain ⟨d1, h1, t1⟩ := h k d hd
  obtain ⟨d2, h2, t2⟩ := h' k d1 h1
  exact ⟨d2, h2, t1.trans t2⟩

/-- Only one file changes. -/
theorem Forward.one {soft : Key → Prop} {a b : Key → Option Bytes} {k : Key} (h : ∀ k', k' ≠ k → b k' = a k')
    (hk : ∀ d, a k = some d → ∃ d', b k = some d' ∧ Toward (soft k) d d') : Forward soft a b := by
  intro k' d hd
  by_cases he : k' = k
  · rw [he] at hd ⊢; exact hk d hd
  · exact ⟨d, (h k' he).trans hd, .refl _ d⟩

/-! ## moments -/

theorem Spec.Moment.le_refl (i : Moment) : i.le i := .inr ⟨rfl, Nat.le_refl _⟩

/-- The faults up to a moment. -/
def cutFault (i : Moment) : Nat → Option Nat := fun t => if t < i.call then none else if t = i.call then some i.bytes else some 0

theorem stoppedAt_eq (i : Moment) (w : FileW) : stoppedAt i w = withFault (cutFault i) w := rfl

/-- No system call fails. -/
def Clean (w : FileW) : Prop := ∀ t, w.fs.tick ≤ t → w.fs.fault t = none

/-- Files go forward while `x` runs. -/
def Advances {E α : Type} (soft : Key → Prop) (x : Act FileW E α) (w : FileW) : Prop :=
  ∀ i j : Moment, i.le j → Forward soft (during x w i).files (during x w j).files

section
variable {E E' α β : Type} {soft : Key → Prop}

/-- Before the moment comes. -/
theorem Tame.before {x : Act FileW E α} (h : Tame x) {w : FileW} (hc : Clean w) {i : Moment} (hi : (x w).2.fs.tick ≤ i.call) :
    x (stoppedAt i w) = ((x w).1, stoppedAt i (x w).2) := by
  refine h.loc w _ fun t h1 h2 => ?_
  rw [hc t h1, if_pos (by omega)]

/-- After the moment. -/
theorem Tame.after {x : Act FileW E α} (h : Tame x) {w : FileW} (hc : Clean w) {i : Moment} (hi : i.call < (x w).2.fs.tick) :
    Frozen (x (stoppedAt i w)).2 := by
  intro t ht
  rw [h.fault]
  change cutFault i t = some 0
  have hlt : i.call < (x (stoppedAt i w)).2.fs.tick := by
    refine Nat.lt_of_not_le fun hle => ?_
    have := h.loc (stoppedAt i w) w.fs.fault fun t h1 h2 => ?_
    · have e1 : withFault w.fs.fault (stoppedAt i w) = w := rfl
      rw [e1] at this
      rw [this] at hi
      change i.call < (x (stoppedAt i w)).2.fs.tick at hi
      omega
    · rw [hc t h1]
      change none = cutFault i t
      unfold cutFault
      rw [if_pos (by omega)]
  unfold cutFault
  rw [if_neg (by omega), if_neg (by omega)]

theorem Clean.next {x : Act FileW E α} (h : Tame x) {w : FileW} (hc : Clean w) : Clean (x w).2 := by
  intro t ht
  rw [h.fault]
  exact hc t (Nat.le_trans (h.tick w) ht)

/-- Code that changes no file. -/
theorem Advances.of_still {x : Act FileW E α} (h : ∀ w, (x w).2.fs.files = w.fs.files) (w : FileW) : Advances soft x w := by
  intro i j _
  unfold during
  rw [h, h]
  exact .refl _ _

theorem Advances.mapErr {x : Act FileW E α} {f : E → E'} {w : FileW} (h : Advances soft x w) : Advances soft (x.mapErr f) w := by
  have e : ∀ w, (x.mapErr f w).2 = (x w).2 := fun w => by unfold Act.mapErr; split <;> rename_i h <;> rw [h]
  intro i j hij
  have := h i j hij
  unfold during at this ⊢
  rw [e, e]; exact this

theorem Advances.attempt {x : Act FileW E α} {w : FileW} (h : Advances soft x w) : Advances soft (x.attempt : Act FileW E' (Except E α)) w := by
  have e : ∀ w, ((x.attempt : Act FileW E' (Except E α)) w).2 = (x w).2 := fun w => by unfold Act.attempt; split <;> rename_i h <;> rw [h]
  intro i j hij
  have := h i j hij
  unfold during at this ⊢
  rw [e, e]; exact this

theorem Advances.bind {x : Act FileW E α} {f : α → Act FileW E β} {w : FileW} (tx : Tame x) (tf : ∀ a, Tame (f a)) (hc : Clean w)
    (hx : Advances soft x w) (hf : ∀ a w', x w = (.ok a, w') → Clean w' → Advances soft (f a) w') : Advances soft (x >>= f) w := by
  intro i j hij
  have h0 := hx i j hij
  have c1 := hc.next tx
  -- stopped within `x`
  have early : ∀ i : Moment, i.call < (x w).2.fs.tick → (during (x >>= f) w i).files = (during x w i).files := by
    intro i hi
    have fr := tx.after hc hi
    unfold during
    rw [Act.bind_def]
    cases h : x (stoppedAt i w) with
    | mk r w1 =>
      rw [h] at fr
      cases r with
      | ok a => exact (tf a).still w1 fr
      | err x => rfl
      | panic => rfl
      | ub => rfl
  have late : ∀ i : Moment, (x w).2.fs.tick ≤ i.call → ((during x w i).files = (x w).2.fs.files) ∧
      ((∃ a, (x w).1 = .ok a ∧ (during (x >>= f) w i).files = (during (f a) (x w).2 i).files) ∨
        ((∀ a, (x w).1 ≠ .ok a) ∧ (during (x >>= f) w i).files = (x w).2.fs.files)) := by
    intro i hi
    have hb := tx.before hc hi
    refine ⟨by unfold during; rw [hb]; rfl, ?_⟩
    unfold during
    rw [Act.bind_def, hb]
    cases h : x w with
    | mk r w1 =>
      cases r with
      | ok a => exact .inl ⟨a, rfl, rfl⟩
      | err x => exact .inr ⟨(fun a h => by cases h), rfl⟩
      | panic => exact .inr ⟨(fun a h => by cases h), rfl⟩
      | ub => exact .inr ⟨(fun a h => by cases h), rfl⟩
  by_cases hi : i.call < (x w).2.fs.tick
  · rw [early i hi]
    by_cases hj : j.call < (x w).2.fs.tick
    · rw [early j hj]; exact h0
    · obtain ⟨e1, e2⟩ := late j (by omega)
      refine h0.trans ?_
      rw [e1]
      rcases e2 with ⟨a, ha, e2⟩ | ⟨_, e2⟩
      · rw [e2]
        have := hf a (x w).2 (by rw [← ha]) c1 ⟨(x w).2.fs.tick, 0⟩ j (by
          rcases Nat.lt_or_eq_of_le (show (x w).2.fs.tick ≤ j.call by omega) with h | h
          · exact .inl h
          · exact .inr ⟨h, Nat.zero_le _⟩)
        refine Forward.trans ?_ this
        have fr : Frozen (stoppedAt ⟨(x w).2.fs.tick, 0⟩ (x w).2) := by
          intro t ht
          change cutFault ⟨(x w).2.fs.tick, 0⟩ t = some 0
          change (x w).2.fs.tick ≤ t at ht
          unfold cutFault
          rw [if_neg (by simp only; omega)]
          split <;> rfl
        unfold during
        rw [(tf a).still _ fr]
        exact .refl _ _
      · rw [e2]; exact .refl _ _
  · have hj : (x w).2.fs.tick ≤ j.call := by
      rcases hij with h | ⟨h, _⟩ <;> omega
    obtain ⟨_, e1⟩ := late i (by omega)
    obtain ⟨_, e2⟩ := late j hj
    rcases e1 with ⟨a, ha, e1⟩ | ⟨ha, e1⟩ <;> rcases e2 with ⟨b, hb, e2⟩ | ⟨hb, e2⟩
    · rw [ha] at hb; cases hb
      rw [e1, e2]
      exact hf a (x w).2 (by rw [← ha]) c1 i j hij
    · exact absurd ha (hb a)
    · exact absurd hb (ha b)
    · rw [e1, e2]; exact .refl _ _

theorem Advances.pure (a : α) (w : FileW) : Advances soft (Pure.pure a : Act FileW E α) w := .of_still (fun _ => rfl) w
theorem Advances.fail (e : E) (w : FileW) : Advances soft (Act.fail e : Act FileW E α) w := .of_still (fun _ => rfl) w
theorem Advances.lift (x : Out α) (w : FileW) : Advances soft (Act.lift x : Act FileW E α) w := .of_still (fun _ => by cases x <;> rfl) w

/-- One system call. -/
theorem Advances.syscall {normal : FS → Res IoErr α × FS} {faulty : Nat → FS → FS} {w : FileW}
    (h1 : ∀ fs : FS, fs.files = w.fs.files → fs.fds = w.fs.fds → ∀ a b, a ≤ b → Forward soft (faulty a fs).files (faulty b fs).files)
    (h2 : ∀ fs : FS, fs.files = w.fs.files → fs.fds = w.fs.fds → ∀ a, Forward soft (faulty a fs).files (normal fs).2.files)
    (h3 : ∀ fs g k, (faulty k { fs with fault := g }).files = (faulty k fs).files)
    (h4 : ∀ fs g, (normal { fs with fault := g }).2.files = (normal fs).2.files) : Advances soft (FileSt.syscall normal faulty) w := by
  have e : ∀ i : Moment, (during (FileSt.syscall normal faulty) w i).files =
      (match cutFault i w.fs.tick with
        | none => (normal { w.fs with tick := w.fs.tick + 1 }).2.files
        | some k => (faulty k { w.fs with tick := w.fs.tick + 1 }).files) := by
    intro i
    have hf : (stoppedAt i w).fs.fault (stoppedAt i w).fs.tick = cutFault i w.fs.tick := rfl
    unfold during FileSt.syscall
    rw [hf]
    cases cutFault i w.fs.tick with
    | none => exact h4 { w.fs with tick := w.fs.tick + 1 } (cutFault i)
    | some k => exact h3 { w.fs with tick := w.fs.tick + 1 } (cutFault i) k
  intro i j hij
  rw [e, e]
  unfold cutFault
  have H1 := h1 { w.fs with tick := w.fs.tick + 1 } rfl rfl
  have H2 := h2 { w.fs with tick := w.fs.tick + 1 } rfl rfl
  by_cases hi : w.fs.tick < i.call
  · rw [if_pos hi, if_pos (by rcases hij with h | ⟨h, _⟩ <;> omega)]
    exact .refl _ _
  · rw [if_neg hi]
    by_cases hj : w.fs.tick < j.call
    · rw [if_pos hj]
      split
      · rename_i h; split at h <;> cases h
      · exact H2 _
    · rw [if_neg hj]
      by_cases hi' : w.fs.tick = i.call
      · rw [if_pos hi', if_pos (by rcases hij with h | ⟨h, _⟩ <;> omega)]
        exact H1 _ _ (by rcases hij with h | ⟨_, h⟩ <;> omega)
      · rw [if_neg hi']
        by_cases hj' : w.fs.tick = j.call
        · rw [if_pos hj']; exact H1 _ _ (Nat.zero_le _)
        · rw [if_neg hj']; exact .refl _ _

end

/-! ## the storage -/

section
variable {soft : Key → Prop} {w : FileW}

theorem still_pathExists (p : Path) (w : FileW) : (FileSt.pathExists p w).2.fs.files = w.fs.files := by
  have e : (FileSt.pathExists p w).2.fs.files = (FileSt.syscall (α := Bool) (fun fs => (.ok ((fs.files (key p)).isSome || (p ≠ [] && FileSt.dirOK fs (key p))), fs))
    (fun _ fs => fs) w).2.fs.files := by unfold FileSt.pathExists; split <;> rename_i h <;> rw [h]
  rw [e]
  unfold FileSt.syscall
  split <;> rfl

theorem still_createDirAll (p : Path) (w : FileW) : (FileSt.createDirAll p w).2.fs.files = w.fs.files := by
  unfold FileSt.createDirAll FileSt.syscall
  simp only
  split <;> split <;> rfl

theorem still_seekStart (s : Nat) (w : FileW) : (FileSt.seekStart s w).2.fs.files = w.fs.files := by
  unfold FileSt.seekStart FileSt.syscall
  simp only
  split
  · rfl
  · split <;> rfl

theorem still_readResource (o : Obj) (n : String) (w : FileW) : (FileSt.readResource o n w).2.fs.files = w.fs.files := by
  have := fun l => (fileLaws.read_keeps (o := o) (n := n) (w := w) (w' := (FileSt.readResource o n w).2) (r := (FileSt.readResource o n w).1) rfl).1 l
  exact funext this

theorem Forward.create {fs : FS} {k : Key} (h : fs.files k = none) : Forward soft fs.files (FileSt.truncated fs k).files := by
  refine .one (k := k) (fun k' hk => upd_other _ _ hk) fun d hd => ?_
  rw [h] at hd; cases hd

theorem advances_fileCreate (p : Path) (h : w.fs.files (key p) = none) : Advances soft (FileSt.fileCreate p) w := by
  unfold FileSt.fileCreate
  refine .syscall (fun fs hf _ a b hab => ?_) (fun fs hf _ a => ?_) (fun fs g k => ?_) (fun fs g => ?_)
  · have hn : fs.files (key p) = none := by rw [hf]; exact h
    by_cases hc : FileSt.canCreate fs (key p) = true
    · by_cases ha : 0 < a
      · rw [if_pos ⟨hc, ha⟩, if_pos ⟨hc, by omega⟩]; exact .refl _ _
      · rw [if_neg (fun h => ha h.2)]
        by_cases hb : 0 < b
        · rw [if_pos ⟨hc, hb⟩]; exact .create hn
        · rw [if_neg (fun h => hb h.2)]; exact .refl _ _
    · rw [if_neg (fun h => hc h.1), if_neg (fun h => hc h.1)]; exact .refl _ _
  · have hn : fs.files (key p) = none := by rw [hf]; exact h
    by_cases hc : FileSt.canCreate fs (key p) = true
    · rw [if_pos hc]
      by_cases ha : 0 < a
      · rw [if_pos ⟨hc, ha⟩]; exact .refl _ _
      · rw [if_neg (fun h => ha h.2)]; exact .create hn
    · rw [if_neg hc, if_neg (fun h => hc h.1)]; exact .refl _ _
  · have hb : FileSt.canCreate { fs with fault := g } (key p) = FileSt.canCreate fs (key p) := rfl
    rw [hb]; split <;> rfl
  · have hb : FileSt.canCreate { fs with fault := g } (key p) = FileSt.canCreate fs (key p) := rfl
    rw [hb]; split <;> rfl

/-- A file is created where there was none. -/
theorem advances_create (o : Obj) (n : String) (hc : Clean w) (h : w.fs.files (key (join o.path n)) = none) :
    Advances soft (FileSt.createOutputStream o n) w := by
  unfold FileSt.createOutputStream
  refine .bind (.mapErr (FileSt.tame_pathExists _)) (fun x => ?_) hc (.mapErr (.of_still (still_pathExists _) w)) fun x w1 h1 c1 => ?_
  · split
    · exact .bind (FileSt.tame_createDirAll _) fun _ => FileSt.tame_fileCreate _
    · exact FileSt.tame_fileCreate _
  have e1 : w1.fs.files = w.fs.files := by
    have := still_pathExists o.path w
    rw [← mapErr_snd (f := (Empty.elim : Empty → IoErr)), h1] at this
    exact this
  split
  · refine .bind (FileSt.tame_createDirAll _) (fun _ => FileSt.tame_fileCreate _) c1 (.of_still (still_createDirAll _) w1) fun _ w2 h2 _ => ?_
    have e2 := still_createDirAll o.path w1
    rw [h2] at e2
    exact advances_fileCreate _ (by rw [e2, e1]; exact h)
  · exact advances_fileCreate _ (by rw [e1]; exact h)

theorem advances_writeAll {s : Nat} {b c : Bytes} {k : Key} {pos : Nat} (hs : w.fs.fds s = (k, pos)) (hk : w.fs.files k = some c)
    (h : ∀ n m, n ≤ m → Toward (soft k) (putAt c pos (b.take n)) (putAt c pos (b.take m))) : Advances soft (FileSt.writeAll s b) w := by
  have step : ∀ fs : FS, fs.files = w.fs.files → fs.fds = w.fs.fds → ∀ x y, Toward (soft k) (putAt c pos x) (putAt c pos y) →
      Forward soft (upd fs.files (fs.fds s).1 ((fs.files (fs.fds s).1).map (putAt · (fs.fds s).2 x)))
        (upd fs.files (fs.fds s).1 ((fs.files (fs.fds s).1).map (putAt · (fs.fds s).2 y))) := by
    intro fs hf hd x y hxy
    rw [hd, hs, hf]
    simp only [hk]
    refine .one (k := k) (fun k' hk' => ?_) fun d hd => ⟨_, upd_same .., ?_⟩
    · rw [upd_other _ _ hk', upd_other _ _ hk']
    · rw [upd_same] at hd; cases hd
      exact hxy
  unfold FileSt.writeAll
  refine .syscall (fun fs hf hd a a' hab => ?_) (fun fs hf hd a => ?_) (fun fs g k => rfl) (fun fs g => rfl)
  · exact step fs hf hd _ _ (h a a' hab)
  · refine step fs hf hd _ _ ?_
    by_cases ha : a ≤ b.length
    · have := h a b.length ha
      rwa [List.take_length] at this
    · rw [List.take_of_length_le (by omega)]; exact .refl _ _

/-- Writing at the end of a file. -/
theorem advances_append {s : Nat} {b c : Bytes} {k : Key} (a : Appending fileLaws w s k c) : Advances soft (FileSt.writeAll s b) w := by
  have hs : w.fs.fds s = (k, c.length) := Prod.ext a.sloc a.pos
  refine advances_writeAll hs a.medium fun n m hnm => .inl ?_
  rw [putAt_end, putAt_end]
  exact (List.prefix_append_right_inj _).mpr (by
    have := List.take_prefix n (b.take m)
    rwa [List.take_take, Nat.min_eq_left hnm] at this)

/-- Writing the size field. -/
theorem advances_size {s : Nat} {b c : Bytes} {k : Key} (hs : w.fs.fds s = (k, 0)) (hk : w.fs.files k = some (zeros 8 ++ c)) (hb : b.length = 8)
    (hsoft : soft k) : Advances soft (FileSt.writeAll s b) w := by
  refine advances_writeAll hs hk fun n m hnm => ?_
  have e : ∀ n, n ≤ 8 → putAt (zeros 8 ++ c) 0 (b.take n) = b.take n ++ (zeros (8 - n) ++ c) := by
    intro n hn
    rw [putAt_inside, List.length_take, hb, Nat.min_eq_left hn, List.drop_append_of_le_length (by simp [zeros]; omega)]
    simp only [zeros, List.drop_replicate]
  have e8 : ∀ n, putAt (zeros 8 ++ c) 0 (b.take n) = putAt (zeros 8 ++ c) 0 (b.take (min n 8)) := by
    intro n
    congr 1
    by_cases h : n ≤ 8
    · rw [Nat.min_eq_left h]
    · rw [Nat.min_eq_right (by omega), List.take_of_length_le (by omega), List.take_of_length_le (by omega)]
  rw [e8 n, e8 m, e _ (Nat.min_le_right _ _), e _ (Nat.min_le_right _ _)]
  generalize hn' : min n 8 = n'
  generalize hm' : min m 8 = m'
  by_cases h8 : n' < 8
  · refine .inr ⟨hsoft, by simp [zeros]; omega, n', h8, ?_⟩
    have hl : (b.take m').length = m' := by simp; omega
    have h1 : (b.take m' ++ (zeros (8 - m') ++ c)).take n' = b.take n' := by
      rw [List.take_append_of_le_length (by omega), List.take_take, Nat.min_eq_left (by omega)]
    have h2 : (b.take m' ++ (zeros (8 - m') ++ c)).drop 8 = c := by
      rw [← List.append_assoc]
      have : (b.take m' ++ zeros (8 - m')).length = 8 := by simp [zeros]; omega
      exact (congrArg (fun n => List.drop n _) this.symm).trans (List.drop_left ..)
    unfold torn
    rw [h1, h2]
    exact List.prefix_refl _
  · have : n' = m' := by omega
    rw [this]; exact .refl _ _

end
end Flatdata
