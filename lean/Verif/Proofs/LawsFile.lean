import Verif.Model.FileStorage
import Verif.Proofs.Laws
/-!
# The file storage satisfies the laws, whatever calls fail
-/
namespace Flatdata
namespace FileSt

/-- No system call will fail any more. -/
def NoFault (w : FileW) : Prop := ∀ t, w.fs.tick ≤ t → w.fs.fault t = none

/-- `w'` differs from `w` only in the clock and in directories. -/
structure Quiet (w w' : FileW) : Prop where
  files : w'.fs.files = w.fs.files
  fds : w'.fs.fds = w.fs.fds
  nextFd : w'.fs.nextFd = w.fs.nextFd
  fault : w'.fs.fault = w.fs.fault
  tick : w.fs.tick ≤ w'.fs.tick
  maps : w'.maps = w.maps
  next : w'.next = w.next

theorem Quiet.refl (w : FileW) : Quiet w w := ⟨rfl, rfl, rfl, rfl, Nat.le_refl _, rfl, rfl⟩

theorem Quiet.trans {a b c : FileW} (h : Quiet a b) (k : Quiet b c) : Quiet a c :=
  ⟨k.files.trans h.files, k.fds.trans h.fds, k.nextFd.trans h.nextFd, k.fault.trans h.fault,
    Nat.le_trans h.tick k.tick, k.maps.trans h.maps, k.next.trans h.next⟩

theorem Quiet.noFault {a b : FileW} (h : Quiet a b) (n : NoFault a) : NoFault b := by
  intro t ht; rw [h.fault]; exact n t (Nat.le_trans h.tick ht)

/-- The world after one tick. -/
def tk (w : FileW) : FileW := { w with fs := { w.fs with tick := w.fs.tick + 1 } }

theorem tk_quiet (w : FileW) : Quiet w (tk w) := ⟨rfl, rfl, rfl, rfl, Nat.le_succ _, rfl, rfl⟩

theorem syscall_noFault {α : Type} {f : FS → Res IoErr α × FS} {g : Nat → FS → FS} {w : FileW}
    (h : w.fs.fault w.fs.tick = none) :
    syscall f g w = ((f (tk w).fs).1, { w with fs := (f (tk w).fs).2 }) := by
  unfold syscall; simp only [h]; rfl

theorem syscall_fault {α : Type} {f : FS → Res IoErr α × FS} {g : Nat → FS → FS} {w : FileW} {k : Nat}
    (h : w.fs.fault w.fs.tick = some k) :
    syscall f g w = (.err .other, { w with fs := g k (tk w).fs }) := by
  unfold syscall; simp only [h]; rfl

theorem pathExists_spec (p : Path) (w : FileW) : ∃ b w', pathExists p w = (.ok b, w') ∧ Quiet w w' ∧
    w'.fs.isDir = w.fs.isDir ∧
    (NoFault w → b = ((w.fs.files (key p)).isSome || (p ≠ [] && dirOK w.fs (key p)))) ∧
    (b = true → ((w.fs.files (key p)).isSome || dirOK w.fs (key p)) = true) := by
  unfold pathExists
  cases h : w.fs.fault w.fs.tick with
  | none =>
    rw [syscall_noFault h]
    refine ⟨_, _, rfl, tk_quiet w, rfl, fun _ => rfl, ?_⟩
    intro hb
    simp only [Bool.or_eq_true, Bool.and_eq_true] at hb ⊢
    rcases hb with hb | ⟨_, hb⟩
    · exact .inl hb
    · exact .inr hb
  | some k =>
    rw [syscall_fault h]
    refine ⟨_, _, rfl, tk_quiet w, rfl, ?_, by simp⟩
    intro hn; rw [hn _ (Nat.le_refl _)] at h; cases h

/-- Reading `p` through the maps of `o`: cached, newly mapped, or an error. -/
theorem mapRead_spec (o : Obj) (p : Path) (w : FileW) :
    (∃ k n, w.maps o.id p = some (k, n) ∧ mapRead o p w = (.ok ⟨k, 0, n⟩, w)) ∨
    (∃ d w1, w.maps o.id p = none ∧ w.fs.files (key p) = some d ∧ d ≠ [] ∧ Quiet w w1 ∧ w1.fs.isDir = w.fs.isDir ∧
      mapRead o p w = (.ok ⟨key p, 0, d.length⟩,
        { w1 with maps := upd w1.maps o.id (upd (w1.maps o.id) p (some (key p, d.length))) })) ∨
    (∃ e w1, w.maps o.id p = none ∧ Quiet w w1 ∧ w1.fs.isDir = w.fs.isDir ∧ mapRead o p w = (.err e, w1) ∧
      ∀ d, NoFault w → w.fs.files (key p) = some d → d = []) := by
  unfold mapRead
  cases hm : w.maps o.id p with
  | some x => obtain ⟨k, n⟩ := x; exact .inl ⟨k, n, rfl, rfl⟩
  | none =>
    refine .inr ?_
    dsimp only
    cases h1 : w.fs.fault w.fs.tick with
    | some k =>
      refine .inr ⟨.other, tk w, rfl, tk_quiet w, rfl, Act.bind_err (syscall_fault h1), ?_⟩
      intro d hn; rw [hn _ (Nat.le_refl _)] at h1; cases h1
    | none =>
      have e1 : fileOpen p w = (if ((w.fs.files (key p)).isSome || dirOK w.fs (key p)) then
          (.ok (key p), tk w) else (.err .notFound, tk w)) := by
        unfold fileOpen
        rw [syscall_noFault h1]
        by_cases hc : ((w.fs.files (key p)).isSome || dirOK w.fs (key p)) = true
        · have hc' : (((tk w).fs.files (key p)).isSome || dirOK (tk w).fs (key p)) = true := hc
          simp only [hc, hc', if_true]; rfl
        · have hc' : ¬ (((tk w).fs.files (key p)).isSome || dirOK (tk w).fs (key p)) = true := hc
          simp only [hc, hc']; rfl
      by_cases hc : ((w.fs.files (key p)).isSome || dirOK w.fs (key p)) = true
      · rw [if_pos hc] at e1
        rw [Act.bind_ok e1]
        cases h2 : (tk w).fs.fault (tk w).fs.tick with
        | some k =>
          refine .inr ⟨.other, tk (tk w), rfl, (tk_quiet w).trans (tk_quiet _), rfl,
            Act.bind_err (syscall_fault h2), ?_⟩
          intro d hn; rw [(tk_quiet w).noFault hn _ (Nat.le_refl _)] at h2; cases h2
        | none =>
          have e2 : mmapLen (key p) (tk w) = (match w.fs.files (key p) with
              | none => (.err .other, tk (tk w))
              | some d => if d.length = 0 then (.err .invalidInput, tk (tk w)) else (.ok d.length, tk (tk w))) := by
            unfold mmapLen
            rw [syscall_noFault h2]
            change ((match w.fs.files (key p) with
              | none => (Res.err IoErr.other, (tk (tk w)).fs)
              | some d => if d.length = 0 then (.err .invalidInput, (tk (tk w)).fs) else (.ok d.length, (tk (tk w)).fs)).1, _) = _
            change (_, { w with fs := (match w.fs.files (key p) with
              | none => (Res.err IoErr.other, (tk (tk w)).fs)
              | some d => if d.length = 0 then (.err .invalidInput, (tk (tk w)).fs) else (.ok d.length, (tk (tk w)).fs)).2 }) = _
            cases w.fs.files (key p) with
            | none => rfl
            | some d => dsimp only; split <;> rfl
          cases hf : w.fs.files (key p) with
          | none =>
            rw [hf] at e2
            refine .inr ⟨.other, tk (tk w), rfl, (tk_quiet w).trans (tk_quiet _), rfl, Act.bind_err e2, ?_⟩
            intro d _ h; cases h
          | some d =>
            rw [hf] at e2
            dsimp only at e2
            by_cases hd : d.length = 0
            · rw [if_pos hd] at e2
              refine .inr ⟨.invalidInput, tk (tk w), rfl, (tk_quiet w).trans (tk_quiet _), rfl, Act.bind_err e2, ?_⟩
              intro d' _ h; cases h; exact List.length_eq_zero_iff.mp hd
            · rw [if_neg hd] at e2
              refine .inl ⟨d, tk (tk w), rfl, rfl, ?_, (tk_quiet w).trans (tk_quiet _), rfl, ?_⟩
              · intro h; rw [h] at hd; exact hd rfl
              · rw [Act.bind_ok e2]; rfl
      · rw [if_neg hc] at e1
        refine .inr ⟨.notFound, tk w, rfl, tk_quiet w, rfl, Act.bind_err e1, ?_⟩
        intro d _ h; rw [h] at hc; simp at hc

theorem mapErr_ok {W E E' α : Type} {f : E → E'} {x : Act W E α} {w w' : W} {a : α} (h : x w = (.ok a, w')) :
    x.mapErr f w = (.ok a, w') := by
  unfold Act.mapErr; rw [h]

/-- `read_resource`: cached, newly mapped, or an error. -/
theorem read_spec (o : Obj) (n : String) (w : FileW) :
    (∃ k m w1, w.maps o.id (join o.path n) = some (k, m) ∧ Quiet w w1 ∧ w1.fs.isDir = w.fs.isDir ∧
      readResource o n w = (.ok ⟨k, 0, m⟩, w1)) ∨
    (∃ d w1, w.maps o.id (join o.path n) = none ∧ w.fs.files (key (join o.path n)) = some d ∧ d ≠ [] ∧ Quiet w w1 ∧
      w1.fs.isDir = w.fs.isDir ∧
      readResource o n w = (.ok ⟨key (join o.path n), 0, d.length⟩, { w1 with
        maps := upd w1.maps o.id (upd (w1.maps o.id) (join o.path n) (some (key (join o.path n), d.length))) })) ∨
    (∃ e w1, Quiet w w1 ∧ w1.fs.isDir = w.fs.isDir ∧ readResource o n w = (.err e, w1) ∧
      ∀ d, NoFault w → w.fs.files (key (join o.path n)) = some d → d = []) := by
  obtain ⟨b, w1, h1, q1, d1, c1, c2⟩ := pathExists_spec (join o.path n) w
  unfold readResource
  rw [Act.bind_ok (mapErr_ok h1)]
  cases b with
  | false =>
    refine .inr (.inr ⟨.notFound, w1, q1, d1, rfl, ?_⟩)
    intro d hn hd
    have := c1 hn
    rw [hd] at this; simp at this
  | true =>
    change _ ∨ _ ∨ _
    simp only [Bool.not_true, Bool.false_eq_true, if_false]
    rcases mapRead_spec o (join o.path n) w1 with ⟨k, m, h, h'⟩ | ⟨d, w2, h, h2, h3, h4, h5, h'⟩ | ⟨e, w2, h, h4, h5, h', h6⟩
    · exact .inl ⟨k, m, w1, by rw [← q1.maps]; exact h, q1, d1, h'⟩
    · exact .inr (.inl ⟨d, w2, by rw [← q1.maps]; exact h, by rw [← q1.files]; exact h2, h3, q1.trans h4, h5.trans d1, h'⟩)
    · exact .inr (.inr ⟨e, w2, q1.trans h4, h5.trans d1, h', fun d hn hd => h6 d (q1.noFault hn) (by rw [q1.files]; exact hd)⟩)

/-- World after opening `k` for writing. -/
def opened (w : FileW) (k : Key) : FileW :=
  { w with fs := { truncated w.fs k with fds := upd w.fs.fds w.fs.nextFd (k, 0), nextFd := w.fs.nextFd + 1 } }

theorem fileCreate_spec (p : Path) (w : FileW) :
    (canCreate w.fs (key p) = true ∧ fileCreate p w = (.ok w.fs.nextFd, opened (tk w) (key p))) ∨
    (∃ e, fileCreate p w = (.err e, tk w) ∧ (NoFault w → canCreate w.fs (key p) = false)) ∨
    (∃ e, canCreate w.fs (key p) = true ∧ fileCreate p w = (.err e, { tk w with fs := truncated (tk w).fs (key p) }) ∧
      ¬ NoFault w) := by
  unfold fileCreate
  cases h : w.fs.fault w.fs.tick with
  | none =>
    rw [syscall_noFault h]
    by_cases hc : canCreate w.fs (key p) = true
    · have hc' : canCreate (tk w).fs (key p) = true := hc
      refine .inl ⟨hc, ?_⟩
      simp only [hc', if_true]; rfl
    · have hc' : ¬ canCreate (tk w).fs (key p) = true := hc
      refine .inr (.inl ⟨.other, ?_, fun _ => by simpa using hc⟩)
      simp only [hc']; rfl
  | some k =>
    rw [syscall_fault h]
    have hnf : ¬ NoFault w := by intro hn; rw [hn _ (Nat.le_refl _)] at h; cases h
    by_cases hc : canCreate (tk w).fs (key p) = true ∧ 0 < k
    · refine .inr (.inr ⟨.other, hc.1, ?_, hnf⟩)
      simp only [hc, and_self, if_true]; rfl
    · refine .inr (.inl ⟨.other, ?_, fun hn => absurd hn hnf⟩)
      simp only [hc]; rfl

theorem createDirAll_spec (p : Path) (w : FileW) :
    (∃ w1, createDirAll p w = (.ok (), w1) ∧ Quiet w w1 ∧ (∀ x, w1.fs.isDir x = (w.fs.isDir x || x.isPrefixOf (key p)))) ∨
    (∃ e w1, createDirAll p w = (.err e, w1) ∧ Quiet w w1 ∧ (NoFault w → blocked w.fs (key p) = true) ∧
      ∃ m, ∀ x, w1.fs.isDir x = (w.fs.isDir x || (!m && x.isPrefixOf ((key p)) && w1.fs.isDir x))) := by
  unfold createDirAll
  cases h : w.fs.fault w.fs.tick with
  | none =>
    rw [syscall_noFault h]
    by_cases hc : blocked w.fs (key p) = true
    · have hc' : blocked (tk w).fs (key p) = true := hc
      simp only [hc', if_true]
      exact .inr ⟨_, _, rfl, tk_quiet w, fun _ => hc, true, fun x => by simp; rfl⟩
    · have hc' : ¬ blocked (tk w).fs (key p) = true := hc
      simp only [hc']
      exact .inl ⟨_, rfl, ⟨rfl, rfl, rfl, rfl, Nat.le_succ _, rfl, rfl⟩, fun _ => rfl⟩
  | some k =>
    rw [syscall_fault h]
    have hnf : ¬ NoFault w := by intro hn; rw [hn _ (Nat.le_refl _)] at h; cases h
    by_cases hc : blocked (tk w).fs (key p) = true
    · simp only [hc, if_true]
      exact .inr ⟨_, _, rfl, tk_quiet w, fun hn => absurd hn hnf, true, fun x => by simp; rfl⟩
    · simp only [hc]
      refine .inr ⟨_, _, rfl, ⟨rfl, rfl, rfl, rfl, Nat.le_succ _, rfl, rfl⟩, fun hn => absurd hn hnf, false, fun x => ?_⟩
      change (w.fs.isDir x || x.isPrefixOf ((key p).take k)) = (w.fs.isDir x || (true && x.isPrefixOf (key p) &&
        (w.fs.isDir x || x.isPrefixOf ((key p).take k))))
      cases w.fs.isDir x with
      | true => simp
      | false =>
        cases hx : x.isPrefixOf ((key p).take k) with
        | false => simp
        | true =>
          have : x.isPrefixOf (key p) = true := by
            rw [List.isPrefixOf_iff_prefix] at hx ⊢
            exact hx.trans (List.take_prefix _ _)
          simp [this]

/-- `create_output_stream`: a fresh descriptor on an emptied file, or an error. -/
theorem create_spec (o : Obj) (n : String) (w : FileW) :
    (∃ w1, Quiet w w1 ∧ canCreate w1.fs (key (join o.path n)) = true ∧
      createOutputStream o n w = (.ok w1.fs.nextFd, opened w1 (key (join o.path n)))) ∨
    (∃ e w1, Quiet w w1 ∧ createOutputStream o n w = (.err e, w1)) ∨
    (∃ e w1, Quiet w w1 ∧ createOutputStream o n w = (.err e, { w1 with fs := truncated w1.fs (key (join o.path n)) })) := by
  have fc : ∀ w0, Quiet w w0 →
    (∃ w1, Quiet w w1 ∧ canCreate w1.fs (key (join o.path n)) = true ∧
      fileCreate (join o.path n) w0 = (.ok w1.fs.nextFd, opened w1 (key (join o.path n)))) ∨
    (∃ e w1, Quiet w w1 ∧ fileCreate (join o.path n) w0 = (.err e, w1)) ∨
    (∃ e w1, Quiet w w1 ∧ fileCreate (join o.path n) w0 =
      (.err e, { w1 with fs := truncated w1.fs (key (join o.path n)) })) := by
    intro w0 q0
    rcases fileCreate_spec (join o.path n) w0 with ⟨hc, h⟩ | ⟨e, h, _⟩ | ⟨e, _, h, _⟩
    · exact .inl ⟨tk w0, q0.trans (tk_quiet _), hc, h⟩
    · exact .inr (.inl ⟨e, _, q0.trans (tk_quiet _), h⟩)
    · exact .inr (.inr ⟨e, _, q0.trans (tk_quiet _), h⟩)
  obtain ⟨b, w1, h1, q1, _, _, _⟩ := pathExists_spec o.path w
  unfold createOutputStream
  rw [Act.bind_ok (mapErr_ok h1)]
  cases b with
  | true =>
    simp only [Bool.not_true, Bool.false_eq_true, if_false]
    exact fc w1 q1
  | false =>
    simp only [Bool.not_false, if_true]
    rcases createDirAll_spec o.path w1 with ⟨w2, h2, q2, _⟩ | ⟨e, w2, h2, q2, _⟩
    · rw [Act.bind_ok h2]; exact fc w2 (q1.trans q2)
    · rw [Act.bind_err h2]; exact .inr (.inl ⟨e, w2, q1.trans q2, rfl⟩)

/-- World after writing `b` through `s`. -/
def written (w : FileW) (s : Nat) (b : Bytes) : FileW :=
  { w with fs := { w.fs with
      files := upd w.fs.files (w.fs.fds s).1 ((w.fs.files (w.fs.fds s).1).map (putAt · (w.fs.fds s).2 b))
      fds := upd w.fs.fds s ((w.fs.fds s).1, (w.fs.fds s).2 + b.length) } }

theorem writeAll_spec (s : Nat) (b : Bytes) (w : FileW) :
    writeAll s b w = (.ok (), written (tk w) s b) ∨
    (∃ e k, writeAll s b w = (.err e, written (tk w) s (b.take k)) ∧ ¬ NoFault w) := by
  unfold writeAll
  cases h : w.fs.fault w.fs.tick with
  | none => dsimp only; rw [syscall_noFault h]; exact .inl rfl
  | some k =>
    dsimp only
    rw [syscall_fault h]
    refine .inr ⟨_, k, rfl, ?_⟩
    intro hn; rw [hn _ (Nat.le_refl _)] at h; cases h

/-- World after seeking `s` to the start. -/
def rewound (w : FileW) (s : Nat) : FileW := { w with fs := { w.fs with fds := upd w.fs.fds s ((w.fs.fds s).1, 0) } }

theorem seekStart_spec (s : Nat) (w : FileW) :
    seekStart s w = (.ok (), rewound (tk w) s) ∨
    (∃ e, (seekStart s w = (.err e, rewound (tk w) s) ∨ seekStart s w = (.err e, tk w)) ∧ ¬ NoFault w) := by
  unfold seekStart
  cases h : w.fs.fault w.fs.tick with
  | none => dsimp only; rw [syscall_noFault h]; exact .inl rfl
  | some k =>
    dsimp only
    rw [syscall_fault h]
    refine .inr ⟨.other, ?_, ?_⟩
    · by_cases hk : 0 < k
      · rw [if_pos hk]; exact .inl rfl
      · rw [if_neg hk]; exact .inr rfl
    · intro hn; rw [hn _ (Nat.le_refl _)] at h; cases h

theorem written_keeps (w : FileW) (s : Nat) (b : Bytes) :
    (∀ l, l ≠ (w.fs.fds s).1 → (written w s b).fs.files l = w.fs.files l) ∧
    (∀ s', ((written w s b).fs.fds s').1 = (w.fs.fds s').1 ∧ (s' ≠ s → ((written w s b).fs.fds s').2 = (w.fs.fds s').2)) := by
  refine ⟨fun l hl => upd_other _ _ hl, fun s' => ?_⟩
  by_cases he : s' = s
  · subst he
    refine ⟨?_, fun h => absurd rfl h⟩
    change (upd w.fs.fds s' _ s').1 = _
    rw [upd_same]
  · change (upd w.fs.fds s _ s').1 = _ ∧ (_ → (upd w.fs.fds s _ s').2 = _)
    rw [upd_other _ _ he]
    exact ⟨rfl, fun _ => rfl⟩

theorem rewound_keeps (w : FileW) (s : Nat) :
    (∀ s', ((rewound w s).fs.fds s').1 = (w.fs.fds s').1 ∧ (s' ≠ s → ((rewound w s).fs.fds s').2 = (w.fs.fds s').2)) := by
  intro s'
  by_cases he : s' = s
  · subst he
    refine ⟨?_, fun h => absurd rfl h⟩
    change (upd w.fs.fds s' _ s').1 = _
    rw [upd_same]
  · change (upd w.fs.fds s _ s').1 = _ ∧ (_ → (upd w.fs.fds s _ s').2 = _)
    rw [upd_other _ _ he]
    exact ⟨rfl, fun _ => rfl⟩

/-- Invariant of reachable worlds: mapped and open files exist. -/
structure Inv (w : FileW) : Prop where
  maps : ∀ i p k n, w.maps i p = some (k, n) → k = key p ∧ w.fs.files k ≠ none
  fds : ∀ s, s < w.fs.nextFd → w.fs.files (w.fs.fds s).1 ≠ none

theorem Inv.quiet {w w' : FileW} (h : Inv w) (q : Quiet w w') : Inv w' :=
  ⟨fun i p k n hm => by rw [q.maps] at hm; rw [q.files]; exact h.maps i p k n hm,
   fun s hs => by rw [q.nextFd] at hs; rw [q.files, q.fds]; exact h.fds s hs⟩

theorem Inv.moreFiles {w : FileW} (h : Inv w) (k : Key) (d : Bytes) :
    Inv { w with fs := { w.fs with files := upd w.fs.files k (some d) } } := by
  have h1 : ∀ l, w.fs.files l ≠ none → upd w.fs.files k (some d) l ≠ none := by
    intro l hl
    by_cases he : l = k
    · rw [he, upd_same]; simp
    · rw [upd_other _ _ he]; exact hl
  exact ⟨fun i p k n hm => ⟨(h.maps i p k n hm).1, h1 _ (h.maps i p k n hm).2⟩, fun s hs => h1 _ (h.fds s hs)⟩

theorem Inv.changedFile {w : FileW} (h : Inv w) (k : Key) (f : Bytes → Bytes) :
    Inv { w with fs := { w.fs with files := upd w.fs.files k ((w.fs.files k).map f) } } := by
  have h1 : ∀ l, w.fs.files l ≠ none → upd w.fs.files k ((w.fs.files k).map f) l ≠ none := by
    intro l hl
    by_cases he : l = k
    · subst he
      rw [upd_same]
      cases hf : w.fs.files l with
      | none => exact absurd hf hl
      | some d => simp
    · rw [upd_other _ _ he]; exact hl
  exact ⟨fun i p k n hm => ⟨(h.maps i p k n hm).1, h1 _ (h.maps i p k n hm).2⟩, fun s hs => h1 _ (h.fds s hs)⟩

end FileSt

open FileSt in
/-- The file storage satisfies the laws. -/
def fileLaws : Laws file where
  Loc := Key
  dec := inferInstance
  loc o n := key (join o.path n)
  medium w l := w.fs.files l
  live w s := s < w.fs.nextFd
  sloc w s := (w.fs.fds s).1
  pos w s := (w.fs.fds s).2
  cache w o n := (w.maps o.id (join o.path n)).map fun x => ⟨x.1, 0, x.2⟩
  bloc b := b
  bloc_inj h := h
  objLive w o := o.id < w.next
  noFault := NoFault
  readable d := d ≠ []
  readable_of_ne _ h := h
  fresh _ := True
  fresh_none := trivial
  inv := Inv
  inv_cache {w o n} h hn := by
    cases hm : w.maps o.id (join o.path n) with
    | none => rfl
    | some x =>
      obtain ⟨k, m⟩ := x
      obtain ⟨h1, h2⟩ := h.maps _ _ _ _ hm
      rw [h1] at h2; exact absurd hn h2
  inv_bloc {w o n s} hi hc := by
    rw [Option.map_eq_some_iff] at hc
    obtain ⟨⟨k, m⟩, hm, rfl⟩ := hc
    exact (hi.maps _ _ _ _ hm).1
  inv_live {w s} h hl := h.fds s hl
  subdir_inv {o d w r w'} hi h := by
    cases h
    refine ⟨?_, hi.fds⟩
    intro i p k n hm
    change upd w.maps w.next (fun _ => none) i p = some (k, n) at hm
    by_cases he : i = w.next
    · rw [he, upd_same] at hm; cases hm
    · rw [upd_other _ _ he] at hm; exact hi.maps i p k n hm
  exists_inv {o n w r w'} hi h := by
    change pathExists (join o.path n) w = (r, w') at h
    obtain ⟨b, w1, h1, q1, _⟩ := pathExists_spec (join o.path n) w
    rw [h1] at h; cases h; exact hi.quiet q1
  read_inv {o n w r w'} hi h := by
    change readResource o n w = (r, w') at h
    rcases read_spec o n w with ⟨k, m, w1, h1, q, _, h2⟩ | ⟨d, w1, h1, h3, h4, q, _, h2⟩ | ⟨e, w1, q, _, h2, _⟩ <;>
      rw [h2] at h <;> cases h
    · exact hi.quiet q
    · have hi' := hi.quiet q
      refine ⟨?_, hi'.fds⟩
      intro i p k m hm
      change upd w1.maps o.id (upd (w1.maps o.id) (join o.path n) _) i p = _ at hm
      by_cases he : i = o.id
      · rw [he, upd_same] at hm
        by_cases hp : p = join o.path n
        · rw [hp, upd_same] at hm
          cases hm
          refine ⟨by rw [hp], ?_⟩
          change w1.fs.files _ ≠ none
          rw [q.files, h3]; simp
        · rw [upd_other _ _ hp] at hm; exact hi'.maps _ _ _ _ hm
      · rw [upd_other _ _ he] at hm; exact hi'.maps _ _ _ _ hm
    · exact hi.quiet q
  create_inv {o n w r w'} hi _ h := by
    change createOutputStream o n w = (r, w') at h
    rcases create_spec o n w with ⟨w1, q, _, h2⟩ | ⟨e, w1, q, h2⟩ | ⟨e, w1, q, h2⟩ <;> rw [h2] at h <;> cases h
    · have hi' := (hi.quiet q).moreFiles (key (join o.path n)) []
      refine ⟨hi'.maps, ?_⟩
      intro s hs
      change s < w1.fs.nextFd + 1 at hs
      change upd w1.fs.files _ (some []) (upd w1.fs.fds w1.fs.nextFd (key (join o.path n), 0) s).1 ≠ none
      by_cases he : s = w1.fs.nextFd
      · rw [he, upd_same, upd_same]; simp
      · rw [upd_other _ _ he]; exact hi'.fds s (Nat.lt_of_le_of_ne (Nat.lt_succ_iff.mp hs) he)
    · exact hi.quiet q
    · exact (hi.quiet q).moreFiles _ _
  write_inv {s b w r w'} hi h := by
    change writeAll s b w = (r, w') at h
    have key : ∃ b', w' = written (tk w) s b' := by
      rcases writeAll_spec s b w with h' | ⟨e, k, h', _⟩ <;> rw [h'] at h <;> cases h
      · exact ⟨_, rfl⟩
      · exact ⟨_, rfl⟩
    obtain ⟨b', rfl⟩ := key
    have hi' := (hi.quiet (tk_quiet w)).changedFile (w.fs.fds s).1 (putAt · (w.fs.fds s).2 b')
    refine ⟨hi'.maps, ?_⟩
    intro s' hs'
    rw [((written_keeps (tk w) s b').2 s').1]
    exact hi'.fds s' hs'
  seek_inv {s w r w'} hi h := by
    change seekStart s w = (r, w') at h
    have hi' := hi.quiet (tk_quiet w)
    have key : w' = rewound (tk w) s ∨ w' = tk w := by
      rcases seekStart_spec s w with h' | ⟨e, h' | h', _⟩ <;> rw [h'] at h <;> cases h
      · exact .inl rfl
      · exact .inl rfl
      · exact .inr rfl
    rcases key with rfl | rfl
    · refine ⟨hi'.maps, ?_⟩
      intro s' hs'
      rw [(rewound_keeps (tk w) s s').1]
      exact hi'.fds s' hs'
    · exact hi'
  read_total o n w := by
    rcases read_spec o n w with ⟨k, m, w1, _, _, _, h⟩ | ⟨d, w1, _, _, _, _, _, h⟩ | ⟨e, w1, _, _, h, _⟩
    · exact .inl ⟨_, _, h⟩
    · exact .inl ⟨_, _, h⟩
    · exact .inr ⟨_, _, h⟩
  read_keeps {o n w r w'} h := by
    change readResource o n w = (r, w') at h
    have quiet : ∀ {w'}, Quiet w w' → _ := fun {w'} (q : Quiet w w') =>
      show (∀ l, w'.fs.files l = w.fs.files l) ∧
        (∀ s, s < w.fs.nextFd → s < w'.fs.nextFd ∧ (w'.fs.fds s).1 = (w.fs.fds s).1 ∧ (w'.fs.fds s).2 = (w.fs.fds s).2) ∧
        (NoFault w → NoFault w') from
        ⟨fun l => by rw [q.files], fun s hs => ⟨by rw [q.nextFd]; exact hs, by rw [q.fds], by rw [q.fds]⟩, q.noFault⟩
    rcases read_spec o n w with ⟨k, m, w1, h1, q, _, h2⟩ | ⟨d, w1, h1, h3, h4, q, _, h2⟩ | ⟨e, w1, q, _, h2, _⟩ <;>
      rw [h2] at h <;> cases h
    · obtain ⟨a, b, c⟩ := quiet q
      exact ⟨a, b, fun _ _ _ => by rw [q.maps], fun b _ => by show (w'.fs.files b).getD [] = _; rw [a], c⟩
    · obtain ⟨a, b, c⟩ := quiet q
      refine ⟨a, b, ?_, fun b _ => by show (w1.fs.files b).getD [] = _; rw [a], c⟩
      intro o' n' hne
      have hp : join o'.path n' ≠ join o.path n := by intro he; rw [he] at hne; exact hne rfl
      congr 1
      change upd w1.maps o.id (upd (w1.maps o.id) (join o.path n) _) o'.id (join o'.path n') = w.maps o'.id (join o'.path n')
      rw [← q.maps]
      by_cases ho : o'.id = o.id
      · rw [ho, upd_same, upd_other _ _ hp]
      · rw [upd_other _ _ ho]
    · obtain ⟨a, b, c⟩ := quiet q
      exact ⟨a, b, fun _ _ _ => by rw [q.maps], fun b _ => by show (w'.fs.files b).getD [] = _; rw [a], c⟩
  read_ok {o n w s w'} h := by
    change readResource o n w = (.ok s, w') at h
    rcases read_spec o n w with ⟨k, m, w1, h1, q, _, h2⟩ | ⟨d, w1, h1, h3, h4, q, _, h2⟩ | ⟨e, w1, q, _, h2, _⟩ <;>
      rw [h2] at h <;> cases h
    · rw [q.maps, h1]; exact ⟨rfl, .inl rfl⟩
    · refine ⟨?_, .inr ⟨by rw [h1]; rfl, d, h3, rfl, rfl, rfl, ?_, h4⟩⟩
      · change (upd w1.maps o.id _ o.id (join o.path n)).map _ = _
        rw [upd_same, upd_same]; rfl
      · change (w1.fs.files (key (join o.path n))).getD [] = d
        rw [q.files, h3]; rfl
  read_err {o n w e w'} h := by
    change readResource o n w = (.err e, w') at h
    rcases read_spec o n w with ⟨k, m, w1, h1, q, _, h2⟩ | ⟨d, w1, h1, h3, h4, q, _, h2⟩ | ⟨e, w1, q, _, h2, _⟩ <;>
      rw [h2] at h <;> cases h
    rw [q.maps]
  read_some {o n w d} hn hm hr := by
    rcases read_spec o n w with ⟨k, m, w1, _, _, _, h⟩ | ⟨d, w1, _, _, _, _, _, h⟩ | ⟨e, w1, _, _, h, hx⟩
    · exact ⟨_, _, h⟩
    · exact ⟨_, _, h⟩
    · exact absurd (hx d hn hm) hr
  read_none {o n w} hm hc := by
    rcases read_spec o n w with ⟨k, m, w1, h1, _, _, h⟩ | ⟨d, w1, _, h3, _, _, _, h⟩ | ⟨e, w1, _, _, h, hx⟩
    · rw [h1] at hc; cases hc
    · rw [hm] at h3; cases h3
    · exact ⟨_, _, h⟩
  read_cached {o n w s} hi hn hc := by
    obtain ⟨b, w1, h1, q1, _, c1, _⟩ := pathExists_spec (join o.path n) w
    rw [Option.map_eq_some_iff] at hc
    obtain ⟨⟨k, m⟩, hm, rfl⟩ := hc
    have hb : b = true := by
      rw [c1 hn]
      have := hi.maps _ _ _ _ hm
      rw [← this.1]
      cases hf : w.fs.files k with
      | none => exact absurd hf this.2
      | some d => rfl
    subst hb
    refine ⟨w1, ?_⟩
    change readResource o n w = _
    unfold readResource
    rw [Act.bind_ok (mapErr_ok h1)]
    simp only [Bool.not_true, Bool.false_eq_true, if_false]
    unfold mapRead
    rw [q1.maps, hm]
  read_mono {o n w r w'} h o' n' := by
    change readResource o n w = (r, w') at h
    rcases read_spec o n w with ⟨k, m, w1, h1, q, _, h2⟩ | ⟨d, w1, h1, h3, h4, q, _, h2⟩ | ⟨e, w1, q, _, h2, _⟩ <;>
      rw [h2] at h <;> cases h
    · exact .inl ⟨by rw [q.maps], fun s _ => by show (w'.fs.files s.base).getD [] = _; rw [q.files]⟩
    · by_cases he : o'.id = o.id ∧ join o'.path n' = join o.path n
      · refine .inr ⟨by rw [he.1, he.2, h1]; rfl, ⟨key (join o.path n), 0, d.length⟩, d, ?_, by rw [he.2]; exact h3, h4, rfl, rfl,
          by rw [he.2], ?_⟩
        · change (upd w1.maps o.id _ o'.id (join o'.path n')).map _ = _
          rw [he.1, he.2, upd_same, upd_same]; rfl
        · change (w1.fs.files (key (join o.path n))).getD [] = d
          rw [q.files, h3]; rfl
      · refine .inl ⟨?_, fun s _ => by show (w1.fs.files s.base).getD [] = _; rw [q.files]⟩
        congr 1
        change upd w1.maps o.id (upd (w1.maps o.id) (join o.path n) _) o'.id (join o'.path n') = w.maps o'.id (join o'.path n')
        rw [← q.maps]
        by_cases ho : o'.id = o.id
        · rw [ho, upd_same, upd_other _ _ (fun hp => he ⟨ho, hp⟩)]
        · rw [upd_other _ _ ho]
    · exact .inl ⟨by rw [q.maps], fun s _ => by show (w'.fs.files s.base).getD [] = _; rw [q.files]⟩
  create_total o n w := by
    rcases create_spec o n w with ⟨w1, _, _, h⟩ | ⟨e, w1, _, h⟩ | ⟨e, w1, _, h⟩
    · exact .inl ⟨_, _, h⟩
    · exact .inr ⟨_, _, h⟩
    · exact .inr ⟨_, _, h⟩
  create_keeps {o n w r w'} h := by
    change createOutputStream o n w = (r, w') at h
    rcases create_spec o n w with ⟨w1, q, _, h2⟩ | ⟨e, w1, q, h2⟩ | ⟨e, w1, q, h2⟩ <;> rw [h2] at h <;> cases h
    · refine ⟨?_, ?_, fun _ _ => ?_, ?_, fun hn => ?_⟩
      · intro l hl
        change upd w1.fs.files _ _ l = _
        rw [upd_other _ _ hl, q.files]
      · intro s hs
        have hne : s ≠ w1.fs.nextFd := by rw [q.nextFd]; exact Nat.ne_of_lt hs
        refine ⟨?_, ?_, ?_⟩
        · change s < w1.fs.nextFd + 1; rw [q.nextFd]; exact Nat.lt_succ_of_lt hs
        · change (upd w1.fs.fds _ _ s).1 = _; rw [upd_other _ _ hne, q.fds]
        · change (upd w1.fs.fds _ _ s).2 = _; rw [upd_other _ _ hne, q.fds]
      · change (w1.maps _ _).map _ = _; rw [q.maps]
      · intro b hb
        change (upd w1.fs.files _ _ b).getD [] = _
        rw [upd_other _ _ hb, q.files]
      · exact q.noFault hn
    · exact ⟨fun l _ => by rw [q.files], fun s hs => ⟨by rw [q.nextFd]; exact hs, by rw [q.fds], by rw [q.fds]⟩,
        fun _ _ => by rw [q.maps], fun b _ => by show (w'.fs.files b).getD [] = _; rw [q.files], q.noFault⟩
    · refine ⟨?_, fun s hs => ⟨?_, ?_, ?_⟩, fun _ _ => ?_, ?_, fun hn => ?_⟩
      · intro l hl
        change upd w1.fs.files _ _ l = _
        rw [upd_other _ _ hl, q.files]
      · change s < w1.fs.nextFd; rw [q.nextFd]; exact hs
      · change (w1.fs.fds s).1 = _; rw [q.fds]
      · change (w1.fs.fds s).2 = _; rw [q.fds]
      · change (w1.maps _ _).map _ = _; rw [q.maps]
      · intro b hb
        change (upd w1.fs.files _ _ b).getD [] = _
        rw [upd_other _ _ hb, q.files]
      · exact q.noFault hn
  create_ok {o n w s w'} h := by
    change createOutputStream o n w = (.ok s, w') at h
    rcases create_spec o n w with ⟨w1, q, _, h2⟩ | ⟨e, w1, q, h2⟩ | ⟨e, w1, q, h2⟩ <;> rw [h2] at h <;> cases h
    refine ⟨Nat.lt_succ_self _, ?_, fun _ => ⟨?_, ?_⟩⟩
    · change (upd w1.fs.fds _ _ w1.fs.nextFd).1 = _; rw [upd_same]
    · change upd w1.fs.files _ _ _ = _; rw [upd_same]
    · change (upd w1.fs.fds _ _ w1.fs.nextFd).2 = _; rw [upd_same]
  create_err {o n w e w'} h := by
    change createOutputStream o n w = (.err e, w') at h
    rcases create_spec o n w with ⟨w1, q, _, h2⟩ | ⟨e, w1, q, h2⟩ | ⟨e, w1, q, h2⟩ <;> rw [h2] at h <;> cases h
    · left; rw [q.files]
    · right; change upd w1.fs.files _ _ _ = _; rw [upd_same]
  write_total {s w} b _ _ := by
    rcases writeAll_spec s b w with h | ⟨e, k, h, _⟩
    · exact .inl ⟨_, h⟩
    · exact .inr ⟨_, _, h⟩
  write_keeps {s b w r w'} hl h := by
    change writeAll s b w = (r, w') at h
    have key : ∃ b', w' = written (tk w) s b' := by
      rcases writeAll_spec s b w with h' | ⟨e, k, h', _⟩ <;> rw [h'] at h <;> cases h
      · exact ⟨_, rfl⟩
      · exact ⟨_, rfl⟩
    obtain ⟨b', rfl⟩ := key
    obtain ⟨k1, k2⟩ := written_keeps (tk w) s b'
    refine ⟨k1, ?_, fun _ _ => rfl, ?_, (tk_quiet w).noFault⟩
    · intro s' hs'
      refine ⟨hs', (k2 s').1, fun hne => (k2 s').2 ?_⟩
      intro he; rw [he] at hne; exact hne rfl
    · intro c hc
      change ((written (tk w) s b').fs.files c).getD [] = _
      rw [k1 c hc]; rfl
  write_ok {s b w w' c} hl hm h := by
    change writeAll s b w = (.ok (), w') at h
    rcases writeAll_spec s b w with h' | ⟨e, k, h', _⟩ <;> rw [h'] at h <;> cases h
    have hm' : w.fs.files (w.fs.fds s).1 = some c := hm
    refine ⟨?_, ?_⟩
    · change upd w.fs.files (w.fs.fds s).1 ((w.fs.files (w.fs.fds s).1).map (putAt · (w.fs.fds s).2 b)) _ = _
      rw [upd_same, hm']; rfl
    · change (upd w.fs.fds s _ s).2 = _
      rw [upd_same]; rfl
  write_err {s b w e w' c} hl hm h := by
    change writeAll s b w = (.err e, w') at h
    rcases writeAll_spec s b w with h' | ⟨e, k, h', _⟩ <;> rw [h'] at h <;> cases h
    have hm' : w.fs.files (w.fs.fds s).1 = some c := hm
    refine ⟨b.take k, List.take_prefix _ _, ?_, ?_⟩
    · change upd w.fs.files (w.fs.fds s).1 ((w.fs.files (w.fs.fds s).1).map (putAt · (w.fs.fds s).2 (b.take k))) _ = _
      rw [upd_same, hm']; rfl
    · change (upd w.fs.fds s _ s).2 = _
      rw [upd_same]; rfl
  write_noFault {s b w} _ _ hn := by
    rcases writeAll_spec s b w with h' | ⟨e, k, h', hx⟩
    · exact ⟨_, h'⟩
    · exact absurd hn hx
  seek_total {s w} _ _ := by
    rcases seekStart_spec s w with h | ⟨e, h | h, _⟩
    · exact .inl ⟨_, h⟩
    · exact .inr ⟨_, _, h⟩
    · exact .inr ⟨_, _, h⟩
  seek_keeps {s w r w'} hl h := by
    change seekStart s w = (r, w') at h
    have key : w' = rewound (tk w) s ∨ w' = tk w := by
      rcases seekStart_spec s w with h' | ⟨e, h' | h', _⟩ <;> rw [h'] at h <;> cases h
      · exact .inl rfl
      · exact .inl rfl
      · exact .inr rfl
    rcases key with rfl | rfl
    · refine ⟨fun _ => rfl, ?_, fun _ _ => rfl, fun _ => rfl, (tk_quiet w).noFault⟩
      intro s' hs'
      refine ⟨hs', (rewound_keeps (tk w) s s').1, fun hne => (rewound_keeps (tk w) s s').2 ?_⟩
      intro he; rw [he] at hne; exact hne rfl
    · exact ⟨fun _ => rfl, fun s' hs' => ⟨hs', rfl, fun _ => rfl⟩, fun _ _ => rfl, fun _ => rfl, (tk_quiet w).noFault⟩
  seek_ok {s w w'} hl h := by
    change seekStart s w = (.ok (), w') at h
    rcases seekStart_spec s w with h' | ⟨e, h' | h', _⟩ <;> rw [h'] at h <;> cases h
    change (upd w.fs.fds s _ s).2 = _
    rw [upd_same]
  seek_noFault {s w} _ _ hn := by
    rcases seekStart_spec s w with h' | ⟨e, _, hx⟩
    · exact ⟨_, h'⟩
    · exact absurd hn hx

end Flatdata
