import Verif.Spec.Parallel
import Verif.Proofs.Simulate
/-!
# A process among others behaves as if it were alone, if the others leave its files alone
-/
namespace Flatdata
open Spec

/-- What happened to the disk does not concern the files `K`. -/
structure Foreign (K : Key → Prop) (d d' : Disk) : Prop where
  files : ∀ k, K k → d'.files k = d.files k
  noDir : ∀ k, K k → d.isDir k = false → d'.isDir k = false
  above : ∀ k x, K k → x <+: k → x ≠ k → d.files x = none → d'.files x = none
  dirs : ∀ x, d.isDir x = true → d'.isDir x = true

theorem Foreign.refl (K : Key → Prop) (d : Disk) : Foreign K d d := ⟨fun _ _ => rfl, fun _ _ h => h, fun _ _ _ _ _ h => h, fun _ h => h⟩

theorem Foreign.trans {K : Key → Prop} {a b c : Disk} (h : Foreign K a b) (h' : Foreign K b c) : Foreign K a c :=
  ⟨fun k hk => (h'.files k hk).trans (h.files k hk), fun k hk hd => h'.noDir k hk (h.noDir k hk hd),
    fun k x hk hx hn hf => h'.above k x hk hx hn (h.above k x hk hx hn hf), fun x hx => h'.dirs x (h.dirs x hx)⟩

/-- No file is a prefix of another one. -/
def PrefixFree (K : Key → Prop) : Prop := ∀ a b, K a → K b → a <+: b → a = b

/-- There is room for the files `K`, and no call fails. -/
structure Roomy (K : Key → Prop) (fs : FS) : Prop where
  above : ∀ k x, K k → x <+: k → x ≠ k → fs.files x = none
  noDir : ∀ k, K k → fs.isDir k = false
  fault : ∀ t, fs.fault t = none

theorem Roomy.on {K : Key → Prop} {fs : FS} {d : Disk} (h : Roomy K fs) (hf : Foreign K fs.disk d) : Roomy K (fs.on d) :=
  ⟨fun k x hk hx hn => hf.above k x hk hx hn (h.above k x hk hx hn), fun k hk => hf.noDir k hk (h.noDir k hk), h.fault⟩

/-- Two processes in the same state, for which the files `K` are the same. -/
structure Twins (K : Key → Prop) (w w' : FileW) : Prop where
  fds : w'.fs.fds = w.fs.fds
  nextFd : w'.fs.nextFd = w.fs.nextFd
  next : w'.next = w.next
  maps : w'.maps = w.maps
  files : ∀ k, K k → w'.fs.files k = w.fs.files k
  room : Roomy K w.fs
  room' : Roomy K w'.fs
  cached : ∀ i p k n, w.maps i p = some (k, n) → k = key p

variable {K : Key → Prop}

namespace Twins

/-- The others do something else. -/
theorem on {w w' : FileW} {d : Disk} (h : Twins K w w') (hf : Foreign K w'.fs.disk d) : Twins K w { w' with fs := w'.fs.on d } where
  fds := h.fds
  nextFd := h.nextFd
  next := h.next
  maps := h.maps
  files k hk := (hf.files k hk).trans (h.files k hk)
  room := h.room
  room' := h.room'.on hf
  cached := h.cached

end Twins

theorem syscall_none {α : Type} {normal : FS → Res IoErr α × FS} {faulty : Nat → FS → FS} {w : FileW} (h : ∀ t, w.fs.fault t = none) :
    FileSt.syscall normal faulty w =
      ((normal { w.fs with tick := w.fs.tick + 1 }).1, { w with fs := (normal { w.fs with tick := w.fs.tick + 1 }).2 }) := by
  unfold FileSt.syscall
  rw [h]

/-- A system call that behaves alike without the others. -/
theorem call_alike {E α : Type} {V : α → α → Prop} {env : Others} {x : Act FileW E α} (he : ∀ n d, Foreign K d (env n d))
    (h : Simul (Twins K) V x x) : Simul (fun w v => Twins K w v.w) V x (env.call x) := by
  intro w v hr
  exact h w (env.meet v) (hr.on (he _ _))

/-! ## The calls -/

/-- The name is that of a file of `K`. -/
def Named (K : Key → Prop) (o : Obj) (n : String) : Prop := PlainName n ∧ K (key o.path ++ [n.toList])

theorem Named.key {o : Obj} {n : String} (h : Named K o n) : K (key (join o.path n)) := by
  rw [key_join_plain _ h.1]; exact h.2

theorem Named.above {o : Obj} {n : String} (h : Named K o n) {fs : FS} (hr : Roomy K fs) {x : Key} (hx : x <+: Flatdata.key o.path) :
    fs.files x = none := by
  refine hr.above _ x h.2 (hx.trans (List.prefix_append _ _)) fun he => ?_
  have h1 := hx.length_le
  rw [he, List.length_append] at h1
  exact absurd h1 (Nat.not_succ_le_self _)

theorem pathExists_alike {o : Obj} {n : String} (h : Named K o n) :
    Simul (Twins K) (fun a b => a = b) (FileSt.pathExists (join o.path n)) (FileSt.pathExists (join o.path n)) := by
  intro w w' hr
  unfold FileSt.pathExists
  rw [syscall_none hr.room.fault, syscall_none hr.room'.fault]
  have hk := h.key
  have hne : Flatdata.key (join o.path n) ≠ [] := by rw [key_join_plain _ h.1]; simp
  refine ⟨?_, ⟨hr.fds, hr.nextFd, hr.next, hr.maps, hr.files, ⟨hr.room.above, hr.room.noDir, hr.room.fault⟩,
    ⟨hr.room'.above, hr.room'.noDir, hr.room'.fault⟩, hr.cached⟩⟩
  change _ = _
  dsimp only [FileSt.dirOK]
  rw [hr.files _ hk, hr.room.noDir _ hk, hr.room'.noDir _ hk]

theorem fileOpen_alike {p : Path} (hk : K (key p)) (hne : key p ≠ []) :
    Simul (Twins K) (fun a b => a = b ∧ a = key p) (FileSt.fileOpen p) (FileSt.fileOpen p) := by
  intro w w' hr
  unfold FileSt.fileOpen
  rw [syscall_none hr.room.fault, syscall_none hr.room'.fault]
  have hd : ∀ fs : FS, Roomy K fs → FileSt.dirOK fs (key p) = false := fun fs h => by simp [FileSt.dirOK, h.noDir _ hk, hne]
  have h1 : Roomy K { w.fs with tick := w.fs.tick + 1 } := ⟨hr.room.above, hr.room.noDir, hr.room.fault⟩
  have h2 : Roomy K { w'.fs with tick := w'.fs.tick + 1 } := ⟨hr.room'.above, hr.room'.noDir, hr.room'.fault⟩
  simp only [hd _ h1, hd _ h2, Bool.or_false]
  rw [hr.files _ hk]
  have ht : Twins K { w with fs := { w.fs with tick := w.fs.tick + 1 } } { w' with fs := { w'.fs with tick := w'.fs.tick + 1 } } :=
    ⟨hr.fds, hr.nextFd, hr.next, hr.maps, hr.files, ⟨hr.room.above, hr.room.noDir, hr.room.fault⟩,
      ⟨hr.room'.above, hr.room'.noDir, hr.room'.fault⟩, hr.cached⟩
  by_cases hc : (w.fs.files (key p)).isSome = true
  · rw [if_pos hc, if_pos hc]; exact ⟨⟨rfl, rfl⟩, ht⟩
  · rw [if_neg hc, if_neg hc]; exact ⟨rfl, ht⟩

theorem mmapLen_alike {k : Key} (hk : K k) : Simul (Twins K) (fun a b => a = b) (FileSt.mmapLen k) (FileSt.mmapLen k) := by
  intro w w' hr
  unfold FileSt.mmapLen
  rw [syscall_none hr.room.fault, syscall_none hr.room'.fault]
  dsimp only
  rw [hr.files _ hk]
  have ht : Twins K { w with fs := { w.fs with tick := w.fs.tick + 1 } } { w' with fs := { w'.fs with tick := w'.fs.tick + 1 } } :=
    ⟨hr.fds, hr.nextFd, hr.next, hr.maps, hr.files, ⟨hr.room.above, hr.room.noDir, hr.room.fault⟩,
      ⟨hr.room'.above, hr.room'.noDir, hr.room'.fault⟩, hr.cached⟩
  cases w.fs.files k with
  | none => exact ⟨rfl, ht⟩
  | some d =>
    dsimp only
    by_cases hc : d.length = 0
    · rw [if_pos hc, if_pos hc]; exact ⟨rfl, ht⟩
    · rw [if_neg hc, if_neg hc]; exact ⟨rfl, ht⟩

theorem put_above {files : Key → Option Bytes} {k x : Key} {f : Bytes → Bytes} (h : files x = none) : upd files k ((files k).map f) x = none := by
  unfold upd
  by_cases hx : x = k
  · rw [if_pos hx, ← hx, h]; rfl
  · rw [if_neg hx, h]

theorem writeAll_alike (s : Nat) (b : Bytes) : Simul (Twins K) (fun _ _ => True) (FileSt.writeAll s b) (FileSt.writeAll s b) := by
  intro w w' hr
  unfold FileSt.writeAll
  rw [syscall_none hr.room.fault, syscall_none hr.room'.fault]
  refine ⟨trivial, ⟨?_, hr.nextFd, hr.next, hr.maps, fun k hk => ?_, ⟨fun k x hk hx hn => put_above (hr.room.above k x hk hx hn), hr.room.noDir,
    hr.room.fault⟩, ⟨fun k x hk hx hn => put_above (hr.room'.above k x hk hx hn), hr.room'.noDir, hr.room'.fault⟩, hr.cached⟩⟩
  · dsimp only; rw [hr.fds]
  · dsimp only
    rw [hr.fds]
    unfold upd
    by_cases hx : k = (w.fs.fds s).1
    · rw [if_pos hx, if_pos hx, ← hx, hr.files k hk]
    · rw [if_neg hx, if_neg hx, hr.files k hk]

theorem seekStart_alike (s : Nat) : Simul (Twins K) (fun _ _ => True) (FileSt.seekStart s) (FileSt.seekStart s) := by
  intro w w' hr
  unfold FileSt.seekStart
  rw [syscall_none hr.room.fault, syscall_none hr.room'.fault]
  refine ⟨trivial, ⟨?_, hr.nextFd, hr.next, hr.maps, hr.files, ⟨hr.room.above, hr.room.noDir,
    hr.room.fault⟩, ⟨hr.room'.above, hr.room'.noDir, hr.room'.fault⟩, hr.cached⟩⟩
  dsimp only; rw [hr.fds]

theorem insertMap_alike {o : Obj} {p : Path} {k : Key} (n : Nat) (hk : k = key p) :
    Simul (Twins K) (fun a b => a = b ∧ a.base = k) (FileSt.insertMap o p k n) (FileSt.insertMap o p k n) := by
  intro w w' hr
  refine ⟨⟨rfl, rfl⟩, ⟨hr.fds, hr.nextFd, hr.next, ?_, hr.files, hr.room, hr.room', ?_⟩⟩
  · dsimp only [FileSt.insertMap]; rw [hr.maps]
  · intro i q k' n' h
    dsimp only [FileSt.insertMap] at h
    unfold upd at h
    by_cases hi : i = o.id
    · rw [if_pos hi] at h
      by_cases hq : q = p
      · rw [if_pos hq] at h
        cases h
        rw [hk, hq]
      · rw [if_neg hq] at h
        exact hr.cached _ _ _ _ h
    · rw [if_neg hi] at h
      exact hr.cached _ _ _ _ h

/-! ## Creating a file -/

/-- What `create_output_stream` does, as far as the files `K` are concerned. -/
structure Creates (K : Key → Prop) (k : Key) (w w1 : FileW) : Prop where
  fds : w1.fs.fds = upd w.fs.fds w.fs.nextFd (k, 0)
  nextFd : w1.fs.nextFd = w.fs.nextFd + 1
  next : w1.next = w.next
  maps : w1.maps = w.maps
  files : ∀ x, K x → w1.fs.files x = upd w.fs.files k (some []) x
  room : Roomy K w1.fs

/-- Nothing, as far as they are concerned. -/
structure Idle (K : Key → Prop) (w w1 : FileW) : Prop where
  fds : w1.fs.fds = w.fs.fds
  nextFd : w1.fs.nextFd = w.fs.nextFd
  next : w1.next = w.next
  maps : w1.maps = w.maps
  files : ∀ x, K x → w1.fs.files x = w.fs.files x
  room : Roomy K w1.fs

theorem Idle.creates {k : Key} {w w1 w2 : FileW} (h : Idle K w w1) (h' : Creates K k w1 w2) : Creates K k w w2 where
  fds := by rw [h'.fds, h.fds, h.nextFd]
  nextFd := by rw [h'.nextFd, h.nextFd]
  next := h'.next.trans h.next
  maps := h'.maps.trans h.maps
  files x hx := by
    rw [h'.files x hx]
    unfold upd
    by_cases he : x = k
    · rw [if_pos he, if_pos he]
    · rw [if_neg he, if_neg he, h.files x hx]
  room := h'.room

theorem Idle.trans {w w1 w2 : FileW} (h : Idle K w w1) (h' : Idle K w1 w2) : Idle K w w2 where
  fds := h'.fds.trans h.fds
  nextFd := h'.nextFd.trans h.nextFd
  next := h'.next.trans h.next
  maps := h'.maps.trans h.maps
  files x hx := (h'.files x hx).trans (h.files x hx)
  room := h'.room

theorem Idle.on {w : FileW} {d : Disk} (hr : Roomy K w.fs) (hf : Foreign K w.fs.disk d) : Idle K w { w with fs := w.fs.on d } :=
  ⟨rfl, rfl, rfl, rfl, fun k hk => hf.files k hk, hr.on hf⟩

variable {o : Obj} {n : String}

theorem pathExists_dir (h : Named K o n) {w : FileW} (hr : Roomy K w.fs) : ∃ b w1, FileSt.pathExists o.path w = (.ok b, w1) ∧ Idle K w w1 ∧
    w1.fs.disk = w.fs.disk ∧ (b = true → FileSt.dirOK w1.fs (key o.path) = true) := by
  unfold FileSt.pathExists
  rw [syscall_none hr.fault]
  refine ⟨_, _, rfl, ⟨rfl, rfl, rfl, rfl, fun _ _ => rfl, ⟨hr.above, hr.noDir, hr.fault⟩⟩, rfl, fun hb => ?_⟩
  dsimp only at hb ⊢
  rw [h.above hr (List.prefix_refl _)] at hb
  simp only [Option.isSome_none, Bool.false_or, Bool.and_eq_true] at hb
  exact hb.2

theorem createDirAll_dir (hp : PrefixFree K) (h : Named K o n) {w : FileW} (hr : Roomy K w.fs) : ∃ w1, FileSt.createDirAll o.path w = (.ok (), w1) ∧
    Idle K w w1 ∧ FileSt.dirOK w1.fs (key o.path) = true := by
  unfold FileSt.createDirAll
  rw [syscall_none hr.fault]
  dsimp only
  rw [if_neg (by
    simp only [FileSt.blocked, List.any_eq_true, not_exists, not_and]
    intro i _
    rw [h.above hr (List.take_prefix _ _)]
    simp)]
  refine ⟨_, rfl, ⟨rfl, rfl, rfl, rfl, fun _ _ => rfl, ⟨hr.above, fun k hk => ?_, hr.fault⟩⟩, ?_⟩
  · simp only [FileSt.mkdirs, hr.noDir k hk, Bool.false_or]
    refine Bool.eq_false_iff.2 fun hx => ?_
    have hx := List.isPrefixOf_iff_prefix.1 hx
    have := hp _ _ hk h.2 (hx.trans (List.prefix_append _ _))
    have hl := hx.length_le
    rw [this, List.length_append] at hl
    exact absurd hl (Nat.not_succ_le_self _)
  · simp only [FileSt.dirOK, FileSt.mkdirs, Bool.or_eq_true]
    exact .inr (.inr (List.isPrefixOf_iff_prefix.2 (List.prefix_refl _)))

theorem fileCreate_dir (hp : PrefixFree K) (h : Named K o n) {w : FileW} (hr : Roomy K w.fs) (hd : FileSt.dirOK w.fs (key o.path) = true) :
    ∃ w1, FileSt.fileCreate (join o.path n) w = (.ok w.fs.nextFd, w1) ∧ Creates K (key o.path ++ [n.toList]) w w1 := by
  unfold FileSt.fileCreate
  rw [syscall_none hr.fault]
  dsimp only
  have hk := key_join_plain o.path h.1
  rw [if_pos (by
    have h1 : FileSt.dirOK w.fs (key o.path ++ [n.toList]) = false := by
      simp [FileSt.dirOK, hr.noDir _ h.2]
    have h2 : FileSt.dirOK { w.fs with tick := w.fs.tick + 1 } (key o.path) = true := hd
    have h3 : FileSt.dirOK { w.fs with tick := w.fs.tick + 1 } (key o.path ++ [n.toList]) = false := h1
    unfold FileSt.canCreate
    rw [hk, h3, List.dropLast_concat, h2]
    simp)]
  refine ⟨_, rfl, ⟨by rw [hk], rfl, rfl, rfl, fun x _ => by dsimp only [FileSt.truncated]; rw [hk], ⟨fun k x hk' hx hn => ?_, hr.noDir, hr.fault⟩⟩⟩
  dsimp only [FileSt.truncated]
  rw [hk, upd_other _ _ (fun he => ?_), hr.above k x hk' hx hn]
  rw [he] at hx hn
  exact hn (hp _ _ h.2 hk' hx)

theorem create_file (hp : PrefixFree K) (h : Named K o n) {w : FileW} (hr : Roomy K w.fs) :
    ∃ w1, FileSt.createOutputStream o n w = (.ok w.fs.nextFd, w1) ∧ Creates K (key o.path ++ [n.toList]) w w1 := by
  obtain ⟨b, w1, h1, h2, _, h3⟩ := pathExists_dir h hr
  have e1 : (FileSt.pathExists o.path).mapErr Empty.elim w = (.ok b, w1) := Act.mapErr_ok (E' := IoErr) h1
  unfold FileSt.createOutputStream
  cases b with
  | true =>
    obtain ⟨w2, h4, h5⟩ := fileCreate_dir hp h h2.room (h3 rfl)
    refine ⟨w2, ?_, h2.creates h5⟩
    rw [h2.nextFd] at h4
    rw [Act.bind_def, e1]
    exact h4
  | false =>
    obtain ⟨w2, h4, h5, h6⟩ := createDirAll_dir hp h h2.room
    obtain ⟨w3, h7, h8⟩ := fileCreate_dir hp h h5.room h6
    refine ⟨w3, ?_, (h2.trans h5).creates h8⟩
    rw [h5.nextFd, h2.nextFd] at h7
    rw [Act.bind_def, e1]
    change Act.bind _ _ w1 = _
    unfold Act.bind
    rw [h4]
    exact h7

theorem dirOK_on {fs : FS} {d : Disk} {k : Key} (hf : Foreign K fs.disk d) (h : FileSt.dirOK fs k = true) : FileSt.dirOK (fs.on d) k = true := by
  unfold FileSt.dirOK at h ⊢
  rw [Bool.or_eq_true] at h ⊢
  exact h.imp id (hf.dirs k)

theorem create_amid {env : Others} (he : ∀ n d, Foreign K d (env n d)) (hp : PrefixFree K) (h : Named K o n) {v : Proc} (hr : Roomy K v.w.fs) :
    ∃ v1, env.createOutputStream o n v = (.ok v.w.fs.nextFd, v1) ∧ Creates K (key o.path ++ [n.toList]) v.w v1.w := by
  have i0 : Idle K v.w (env.meet v) := .on hr (he _ _)
  obtain ⟨b, w1, h1, h2, _, h3⟩ := pathExists_dir h i0.room
  have e1 : env.call (FileSt.pathExists o.path) v = (.ok b, ⟨w1, v.steps ++ [((env.meet v).fs.disk, w1.fs.disk)]⟩) := by
    unfold Others.call; rw [h1]
  generalize hv1 : Proc.mk w1 (v.steps ++ [((env.meet v).fs.disk, w1.fs.disk)]) = v1 at e1
  have hw1 : v1.w = w1 := by rw [← hv1]
  have e1 : (env.call (FileSt.pathExists o.path)).mapErr Empty.elim v = (.ok b, v1) := Act.mapErr_ok (E' := IoErr) e1
  have i1 : Idle K v.w (env.meet v1) := (i0.trans h2).trans (by rw [← hw1]; exact .on (by rw [hw1]; exact h2.room) (he _ _))
  unfold Others.createOutputStream
  cases b with
  | true =>
    obtain ⟨w2, h4, h5⟩ := fileCreate_dir hp h i1.room (dirOK_on (he _ _) (by rw [hw1]; exact h3 rfl))
    refine ⟨⟨w2, v1.steps ++ [((env.meet v1).fs.disk, w2.fs.disk)]⟩, ?_, i1.creates h5⟩
    rw [i1.nextFd] at h4
    rw [Act.bind_def, e1]
    change env.call _ v1 = _
    unfold Others.call
    rw [h4]
  | false =>
    obtain ⟨w2, h4, h5, h6⟩ := createDirAll_dir hp h i1.room
    have e2 : env.call (FileSt.createDirAll o.path) v1 = (.ok (), ⟨w2, v1.steps ++ [((env.meet v1).fs.disk, w2.fs.disk)]⟩) := by
      unfold Others.call; rw [h4]
    generalize hv2 : Proc.mk w2 (v1.steps ++ [((env.meet v1).fs.disk, w2.fs.disk)]) = v2 at e2
    have hw2 : v2.w = w2 := by rw [← hv2]
    have i2 : Idle K v.w (env.meet v2) := (i1.trans h5).trans (by rw [← hw2]; exact .on (by rw [hw2]; exact h5.room) (he _ _))
    obtain ⟨w3, h7, h8⟩ := fileCreate_dir hp h i2.room (dirOK_on (he _ _) (by rw [hw2]; exact h6))
    refine ⟨⟨w3, v2.steps ++ [((env.meet v2).fs.disk, w3.fs.disk)]⟩, ?_, i2.creates h8⟩
    rw [i2.nextFd] at h7
    rw [Act.bind_def, e1]
    change Act.bind _ _ v1 = _
    unfold Act.bind
    rw [e2]
    change env.call _ v2 = _
    unfold Others.call
    rw [h7]

/-! ## The storages behave alike -/

theorem mapRead_alike {env : Others} (he : ∀ n d, Foreign K d (env n d)) {p : Path} (hk : K (key p)) (hne : key p ≠ []) :
    Simul (fun w v => Twins K w v.w) (fun a b => (a.base = b.base ∧ K a.base) ∧ a.off = b.off ∧ a.len = b.len) (FileSt.mapRead o p) (env.mapRead o p) := by
  intro w v hr
  unfold FileSt.mapRead Others.mapRead
  rw [hr.maps]
  rcases hm : w.maps o.id p with _ | ⟨k, m⟩
  · refine Simul.bind (call_alike he (fileOpen_alike hk hne)) (V := fun a b => a = b ∧ a = key p) (fun a b hv => ?_) w v hr
    obtain ⟨rfl, rfl⟩ := hv
    refine Simul.bind (call_alike he (mmapLen_alike hk)) (fun a b hv => ?_)
    cases hv
    intro w v hr
    obtain ⟨h1, h2⟩ := insertMap_alike (o := o) (p := p) a rfl w v.w hr
    exact ⟨⟨⟨rfl, hk⟩, rfl, rfl⟩, h2⟩
  · refine ⟨⟨⟨rfl, ?_⟩, rfl, rfl⟩, hr⟩
    rw [hr.cached _ _ _ _ hm]; exact hk

/-- A process among others that leave the files `K` alone behaves like one that is alone. -/
def amidAlike (env : Others) (he : ∀ n d, Foreign K d (env n d)) (hp : PrefixFree K) : Alike file (amid env) where
  R w v := Twins K w v.w
  obj a b := a = b
  strm a b := a = b
  base a b := a = b ∧ K a
  ok := Named K
  isSub o n a := a.path = join o.path n
  subdir o o' n ho _ := by
    cases ho
    intro w v hr
    refine ⟨⟨?_, rfl⟩, ⟨hr.fds, hr.nextFd, ?_, ?_, hr.files, hr.room, hr.room', fun i p k m h => ?_⟩⟩
    · change Obj.mk w.next _ = Obj.mk v.w.next _
      rw [hr.next]
    · change v.w.next + 1 = w.next + 1
      rw [hr.next]
    · change upd v.w.maps v.w.next _ = upd w.maps w.next _
      rw [hr.next, hr.maps]
    · change upd w.maps w.next _ i p = _ at h
      unfold upd at h
      by_cases hi : i = w.next
      · rw [if_pos hi] at h; cases h
      · rw [if_neg hi] at h; exact hr.cached _ _ _ _ h
  existsRes o o' n ho hn := by
    cases ho
    exact call_alike he (pathExists_alike hn)
  readResource o o' n ho hn := by
    cases ho
    refine Simul.bind (Simul.mapErr _ (call_alike he (pathExists_alike hn))) fun a b hv => ?_
    cases hv
    exact Simul.ite (fun _ => Simul.fail _) fun _ => mapRead_alike he hn.key (by rw [key_join_plain _ hn.1]; simp)
  createOutputStream o o' n ho hn := by
    cases ho
    intro w v hr
    obtain ⟨w1, h1, h2⟩ := create_file hp hn hr.room
    obtain ⟨v1, h3, h4⟩ := create_amid he hp hn hr.room'
    change (FileSt.createOutputStream o n w).1.Rel _ (env.createOutputStream o n v).1 ∧ Twins K (FileSt.createOutputStream o n w).2
      (env.createOutputStream o n v).2.w
    rw [h1, h3]
    refine ⟨hr.nextFd.symm, ⟨by rw [h4.fds, h2.fds, hr.fds, hr.nextFd], by rw [h4.nextFd, h2.nextFd, hr.nextFd], h4.next.trans (hr.next.trans h2.next.symm),
      h4.maps.trans (hr.maps.trans h2.maps.symm), fun k hk => ?_, h2.room, h4.room, by rw [h2.maps]; exact hr.cached⟩⟩
    rw [h4.files k hk, h2.files k hk]
    unfold upd
    rw [hr.files k hk]
  writeAll s s' b hs := by cases hs; exact call_alike he (writeAll_alike s b)
  seekStart s s' hs := by cases hs; exact call_alike he (seekStart_alike s)
  content w v b b' hr hb := by
    obtain ⟨rfl, hk⟩ := hb
    change (w.fs.files b).getD [] = ((env v.steps.length v.disk).files b).getD []
    rw [(he _ _).files b hk]
    change _ = (v.w.fs.files b).getD []
    rw [hr.files b hk]

/-! ## What a building process does to the disk -/

/-- A change of the files `K` only (and of the directories that lead to them). -/
structure Own (K : Key → Prop) (d d' : Disk) : Prop where
  files : ∀ x, ¬ K x → x ≠ [] → d'.files x = d.files x
  root : d.files [] = none → d'.files [] = none
  isDir : ∀ x, d'.isDir x = d.isDir x ∨ (d'.isDir x = true ∧ ∃ k, K k ∧ x <+: k ∧ x ≠ k)

theorem Own.refl (K : Key → Prop) (d : Disk) : Own K d d := ⟨fun _ _ _ => rfl, id, fun _ => .inl rfl⟩

/-- For others, it does not concern them. -/
theorem Own.foreign {K K' : Key → Prop} (hb : ∀ x y, K x → K' y → ¬ x <+: y ∧ ¬ y <+: x) (hne : ∀ k, K k → k ≠ []) {d d' : Disk} (h : Own K' d d') :
    Foreign K d d' where
  files k hk := h.files k (fun hk' => (hb k k hk hk').1 (List.prefix_refl _)) (hne k hk)
  noDir k hk hd := by
    rcases h.isDir k with h1 | ⟨_, y, hy, hp, _⟩
    · rw [h1, hd]
    · exact absurd hp (hb k y hk hy).1
  above k x hk hx _ hf := by
    by_cases hx0 : x = []
    · subst hx0; exact h.root hf
    · rw [h.files x (fun hk' => (hb k x hk hk').2 hx) hx0, hf]
  dirs x hx := by
    rcases h.isDir x with h1 | h1
    · rw [h1, hx]
    · exact h1.1

/-- The descriptors are for the files `K`. -/
def FdsOf (K : Key → Prop) (fs : FS) : Prop := ∀ s, K (fs.fds s).1 ∨ (fs.fds s).1 = []

/-- A system call that changes only the files `K`. -/
def Owns {E α : Type} (K : Key → Prop) (x : Act FileW E α) : Prop :=
  ∀ w, FdsOf K w.fs → Own K w.fs.disk (x w).2.fs.disk ∧ FdsOf K (x w).2.fs

theorem syscall_owns {α : Type} {normal : FS → Res IoErr α × FS} {faulty : Nat → FS → FS}
    (hn : ∀ fs, FdsOf K fs → Own K fs.disk (normal fs).2.disk ∧ FdsOf K (normal fs).2)
    (hf : ∀ k fs, FdsOf K fs → Own K fs.disk (faulty k fs).disk ∧ FdsOf K (faulty k fs)) : Owns K (FileSt.syscall normal faulty) := by
  intro w hw
  unfold FileSt.syscall
  cases w.fs.fault w.fs.tick with
  | none => exact hn { w.fs with tick := w.fs.tick + 1 } hw
  | some k => exact hf k { w.fs with tick := w.fs.tick + 1 } hw

theorem pathExists_owns (p : Path) : Owns K (FileSt.pathExists p) := by
  intro w hw
  have := syscall_owns (K := K) (normal := fun fs => (.ok ((fs.files (key p)).isSome || (p ≠ [] && FileSt.dirOK fs (key p))), fs)) (faulty := fun _ fs => fs)
    (fun fs h => ⟨.refl _ _, h⟩) (fun _ fs h => ⟨.refl _ _, h⟩) w hw
  unfold FileSt.pathExists
  revert this
  generalize FileSt.syscall _ _ w = r
  intro this
  obtain ⟨r, w1⟩ := r
  cases r <;> exact this

theorem fileOpen_owns (p : Path) : Owns K (FileSt.fileOpen p) :=
  syscall_owns (fun fs h => by
    by_cases hc : ((fs.files (key p)).isSome || FileSt.dirOK fs (key p)) = true
    · rw [if_pos hc]; exact ⟨.refl _ _, h⟩
    · rw [if_neg hc]; exact ⟨.refl _ _, h⟩) fun _ fs h => ⟨.refl _ _, h⟩

theorem mmapLen_owns (k : Key) : Owns K (FileSt.mmapLen k) :=
  syscall_owns (fun fs h => by
    cases fs.files k with
    | none => exact ⟨.refl _ _, h⟩
    | some d =>
      dsimp only
      by_cases hc : d.length = 0
      · rw [if_pos hc]; exact ⟨.refl _ _, h⟩
      · rw [if_neg hc]; exact ⟨.refl _ _, h⟩) fun _ fs h => ⟨.refl _ _, h⟩

theorem put_owns (s : Nat) (b : Bytes) {fs : FS} (h : FdsOf K fs) :
    Own K fs.disk ⟨upd fs.files (fs.fds s).1 ((fs.files (fs.fds s).1).map (putAt · (fs.fds s).2 b)), fs.isDir⟩ where
  files x hx hx0 := upd_other _ _ fun he => by
    rcases h s with h | h
    · exact hx (he ▸ h)
    · exact hx0 (he.trans h)
  root hr := put_above hr
  isDir _ := .inl rfl

theorem fds_owns {fds : Nat → Key × Nat} {s : Nat} {k : Key} {m : Nat} (h : ∀ s, K (fds s).1 ∨ (fds s).1 = []) (hk : K k ∨ k = []) :
    ∀ t, K (upd fds s (k, m) t).1 ∨ (upd fds s (k, m) t).1 = [] := by
  intro t
  unfold upd
  by_cases ht : t = s
  · rw [if_pos ht]; exact hk
  · rw [if_neg ht]; exact h t

theorem writeAll_owns (s : Nat) (b : Bytes) : Owns K (FileSt.writeAll s b) :=
  syscall_owns (fun _ h => ⟨put_owns s b h, fds_owns h (h s)⟩) fun _ _ h => ⟨put_owns s _ h, fds_owns h (h s)⟩

theorem seekStart_owns (s : Nat) : Owns K (FileSt.seekStart s) :=
  syscall_owns (fun _ h => ⟨.refl _ _, fds_owns h (h s)⟩) fun k fs h => by
    dsimp only
    by_cases hc : 0 < k
    · rw [if_pos hc]; exact ⟨.refl _ _, fds_owns h (h s)⟩
    · rw [if_neg hc]; exact ⟨.refl _ _, h⟩

theorem mkdirs_owns (h : Named K o n) {fs : FS} {x : Key} (hx : x <+: key o.path) : Own K fs.disk (FileSt.mkdirs fs x).disk where
  files _ _ _ := rfl
  root h := h
  isDir y := by
    dsimp only [FS.disk, FileSt.mkdirs]
    cases hy : y.isPrefixOf x with
    | false => left; simp
    | true =>
      right
      have hy := List.isPrefixOf_iff_prefix.1 hy
      refine ⟨by simp, _, h.2, (hy.trans hx).trans (List.prefix_append _ _), fun he => ?_⟩
      have hl := (hy.trans hx).length_le
      rw [he, List.length_append] at hl
      exact absurd hl (Nat.not_succ_le_self _)

theorem createDirAll_owns (h : Named K o n) : Owns K (FileSt.createDirAll o.path) :=
  syscall_owns (fun fs hf => by
    by_cases hc : FileSt.blocked fs (key o.path) = true
    · rw [if_pos hc]; exact ⟨.refl _ _, hf⟩
    · rw [if_neg hc]; exact ⟨mkdirs_owns h (List.prefix_refl _), hf⟩) fun k fs hf => by
    by_cases hc : FileSt.blocked fs (key o.path) = true
    · rw [if_pos hc]; exact ⟨.refl _ _, hf⟩
    · rw [if_neg hc]; exact ⟨mkdirs_owns h (List.take_prefix _ _), hf⟩

theorem truncated_owns (h : Named K o n) (fs : FS) : Own K fs.disk (FileSt.truncated fs (key (join o.path n))).disk where
  files x hx _ := upd_other _ _ fun he => hx (he ▸ h.key)
  root hr := by
    refine (upd_other _ _ fun he => ?_).trans hr
    rw [key_join_plain _ h.1] at he
    simp at he
  isDir _ := .inl rfl

theorem fileCreate_owns (h : Named K o n) : Owns K (FileSt.fileCreate (join o.path n)) :=
  syscall_owns (fun fs hf => by
    dsimp only
    by_cases hc : FileSt.canCreate fs (key (join o.path n)) = true
    · rw [if_pos hc]; exact ⟨truncated_owns h fs, fds_owns hf (.inl h.key)⟩
    · rw [if_neg hc]; exact ⟨.refl _ _, hf⟩) fun k fs hf => by
    by_cases hc : FileSt.canCreate fs (key (join o.path n)) = true ∧ 0 < k
    · rw [if_pos hc]; exact ⟨truncated_owns h fs, hf⟩
    · rw [if_neg hc]; exact ⟨.refl _ _, hf⟩

/-- The process has changed only the files `K` so far. -/
structure Tidy (K : Key → Prop) (v v' : Proc) : Prop where
  same : v = v'
  steps : ∀ st ∈ v.steps, Own K st.1 st.2
  fds : FdsOf K v.w.fs

theorem call_owns {E α : Type} {env : Others} {x : Act FileW E α} (h : Owns K x) : Simul (Tidy K) (fun a b => a = b) (env.call x) (env.call x) := by
  intro v v' hr
  obtain ⟨rfl, h1, h2⟩ := hr
  obtain ⟨h3, h4⟩ := h (env.meet v) h2
  refine ⟨?_, ⟨rfl, fun st hst => ?_, h4⟩⟩
  · cases ((env.call x) v).1 <;> first | rfl | trivial
  · rcases List.mem_append.1 hst with hst | hst
    · exact h1 st hst
    · rw [List.mem_singleton.1 hst]; exact h3

/-- Whatever the others do, and whether the calls fail or not. -/
def amidOwn (K : Key → Prop) (env : Others) : Alike (amid env) (amid env) where
  R := Tidy K
  obj a b := a = b
  strm a b := a = b
  base a b := a = b
  ok := Named K
  isSub o n a := a.path = join o.path n
  subdir o o' n ho _ := by
    cases ho
    rintro v v' ⟨rfl, h1, h2⟩
    exact ⟨⟨rfl, rfl⟩, ⟨rfl, h1, h2⟩⟩
  existsRes o o' n ho _ := by cases ho; exact call_owns (pathExists_owns _)
  readResource o o' n ho _ := by
    cases ho
    refine Simul.bind (Simul.mapErr _ (call_owns (pathExists_owns _))) fun a b hv => ?_
    cases hv
    refine Simul.ite (fun _ => Simul.fail _) fun _ => ?_
    intro v v' hr
    have hv := hr.same
    subst hv
    unfold Others.mapRead
    rcases hm : v.w.maps o.id (join o.path n) with _ | ⟨k, m⟩
    · refine Simul.bind (call_owns (fileOpen_owns _)) (fun a b hv => ?_) v v hr
      cases hv
      refine Simul.bind (call_owns (mmapLen_owns _)) (fun a b hv => ?_)
      cases hv
      rintro v v' ⟨rfl, h1, h2⟩
      exact ⟨⟨rfl, rfl, rfl⟩, ⟨rfl, h1, h2⟩⟩
    · exact ⟨⟨rfl, rfl, rfl⟩, hr⟩
  createOutputStream o o' n ho hn := by
    cases ho
    refine Simul.bind (Simul.mapErr _ (call_owns (pathExists_owns _))) fun a b hv => ?_
    cases hv
    exact Simul.ite (fun _ => Simul.bind (call_owns (createDirAll_owns hn)) fun _ _ _ => call_owns (fileCreate_owns hn)) fun _ => call_owns (fileCreate_owns hn)
  writeAll s s' b hs := by cases hs; exact (call_owns (writeAll_owns s b)).mono fun _ _ _ => trivial
  seekStart s s' hs := by cases hs; exact (call_owns (seekStart_owns s)).mono fun _ _ _ => trivial
  content v v' b b' hr hb := by cases hb; rw [hr.same]

/-! ## The files of an archive -/

mutual
theorem hasFile_ne_nil : ∀ {D : ArchiveDef} {x : Key}, HasFile D x → x ≠ []
  | .mk _ _ _ _, _, h => by
    rcases h with ⟨n, _, rfl⟩ | h
    · simp
    · exact subsHave_ne_nil h

theorem subsHave_ne_nil : ∀ {ss : SubDefs} {x : Key}, SubsHaveFile ss x → x ≠ []
  | .nil, _, h => h.elim
  | .cons _ _ _ _, _, h => by
    rcases h with ⟨t, rfl, _⟩ | h
    · simp
    · exact subsHave_ne_nil h
end

theorem FileOf.ne_nil {D : ArchiveDef} {q : Path} {x : Key} (h : FileOf D q x) : x ≠ [] := by
  obtain ⟨t, rfl, ht⟩ := h
  intro he
  exact hasFile_ne_nil ht (List.append_eq_nil_iff.1 he).2

theorem subsHave_of_entry : ∀ {ss : SubDefs} {y : String × ArchiveDef}, y ∈ SubDefs.entries ss → ∀ {t}, HasFile y.2 t →
    SubsHaveFile ss (y.1.toList :: t)
  | .nil, _, h, _, _ => by cases h
  | .cons name opt D rest, y, h, t, ht => by
    rcases List.mem_cons.1 h with rfl | h
    · exact .inl ⟨t, rfl, ht⟩
    · exact .inr (subsHave_of_entry h ht)

theorem subsHave_entry : ∀ {ss : SubDefs} {x : Key}, SubsHaveFile ss x → ∃ y ∈ SubDefs.entries ss, ∃ t, x = y.1.toList :: t ∧ HasFile y.2 t
  | .nil, _, h => h.elim
  | .cons name opt D rest, x, h => by
    rcases h with ⟨t, h1, h2⟩ | h
    · exact ⟨_, List.mem_cons_self, t, h1, h2⟩
    · obtain ⟨y, h1, h2⟩ := subsHave_entry h
      exact ⟨y, List.mem_cons_of_mem _ h1, h2⟩

theorem hasFile_cases {D : ArchiveDef} {x : Key} (h : HasFile D x) : (∃ n ∈ files D, x = [n.toList]) ∨
    ∃ y ∈ SubDefs.entries D.subs, ∃ t, x = y.1.toList :: t ∧ HasFile y.2 t := by
  cases D
  exact h.imp id subsHave_entry

theorem subsSeparate_entry : ∀ {ss : SubDefs} {y : String × ArchiveDef}, SubsSeparate ss → y ∈ SubDefs.entries ss → Separate y.2
  | .nil, _, _, h => by cases h
  | .cons _ _ _ _, _, hs, h => by
    rcases List.mem_cons.1 h with rfl | h
    · exact hs.1
    · exact subsSeparate_entry hs.2 h

/-- Different names are different as lists of characters. -/
theorem entries_eq {ss : SubDefs} (hn : ((SubDefs.entries ss).map Prod.fst).Nodup) {y z : String × ArchiveDef} (hy : y ∈ SubDefs.entries ss)
    (hz : z ∈ SubDefs.entries ss) (h : y.1 = z.1) : y = z := by
  generalize SubDefs.entries ss = l at hn hy hz
  induction l with
  | nil => cases hy
  | cons a l ih =>
    rw [List.map_cons, List.nodup_cons] at hn
    rcases List.mem_cons.1 hy with rfl | hy'
    · rcases List.mem_cons.1 hz with rfl | hz
      · rfl
      · exact absurd (List.mem_map.2 ⟨z, hz, h.symm⟩) hn.1
    · rcases List.mem_cons.1 hz with rfl | hz
      · exact absurd (List.mem_map.2 ⟨y, ‹y ∈ l›, h⟩) hn.1
      · exact ih hn.2 hy' hz

theorem hasFile_prefixFree : ∀ (m : Nat) {D : ArchiveDef} {a b : Key}, a.length ≤ m → Separate D → HasFile D a → HasFile D b → a <+: b → a = b := by
  intro m
  induction m with
  | zero =>
    intro D a b hl _ ha _ _
    exact absurd (List.length_eq_zero_iff.1 (Nat.le_zero.1 hl)) (hasFile_ne_nil ha)
  | succ m ih =>
    intro D a b hl hs ha hb hp
    have hs' := hs
    obtain ⟨name, schema, rs, subs⟩ := D
    unfold Separate at hs'
    obtain ⟨_, hnd, hsub⟩ := hs'
    have hdis := (List.nodup_append.1 hnd).2.2
    rcases hasFile_cases ha with ⟨n, hn, rfl⟩ | ⟨y, hy, t, rfl, ht⟩
    · rcases hasFile_cases hb with ⟨n', _, rfl⟩ | ⟨y', hy', t', rfl, ht'⟩
      · rw [(List.cons_prefix_cons.1 hp).1]
      · exact absurd (String.toList_inj.1 (List.cons_prefix_cons.1 hp).1) (hdis n hn y'.1 (List.mem_map.2 ⟨y', hy', rfl⟩))
    · rcases hasFile_cases hb with ⟨n', hn', rfl⟩ | ⟨y', hy', t', rfl, ht'⟩
      · exact absurd (String.toList_inj.1 (List.cons_prefix_cons.1 hp).1).symm (hdis n' hn' y.1 (List.mem_map.2 ⟨y, hy, rfl⟩))
      · obtain ⟨h1, h2⟩ := List.cons_prefix_cons.1 hp
        have he := entries_eq (List.nodup_append.1 hnd).2.1 hy hy' (String.toList_inj.1 h1)
        subst he
        rw [ih (Nat.le_of_succ_le_succ hl) (subsSeparate_entry hsub hy) ht ht' h2]

theorem fileOf_prefixFree {D : ArchiveDef} {q : Path} (hs : Separate D) : PrefixFree (FileOf D q) := by
  rintro a b ⟨s, rfl, h1⟩ ⟨t, rfl, h2⟩ hp
  rw [hasFile_prefixFree _ (Nat.le_refl _) hs h1 h2 ((List.prefix_append_right_inj _).1 hp)]

/-- The files of the archive in the directory of `o` are among `K`. -/
def Has (K : Key → Prop) (D : ArchiveDef) (o : Obj) : Prop := ∀ t, HasFile D t → K (key o.path ++ t)

theorem Has.named {D : ArchiveDef} (h : Has K D o) (hs : Separate D) (hn : n ∈ files D) : Named K o n := by
  have hs' := hs
  obtain ⟨name, schema, rs, subs⟩ := D
  unfold Separate at hs'
  exact ⟨hs'.1 n (List.mem_append_left _ hn), h _ (.inl ⟨n, hn, rfl⟩)⟩

theorem Has.sub {D : ArchiveDef} (h : Has K D o) (hs : Separate D) {y : String × ArchiveDef} (hy : y ∈ SubDefs.entries D.subs) {a : Obj}
    (ha : a.path = join o.path y.1) : Has K y.2 a ∧ Separate y.2 := by
  have hs' := hs
  obtain ⟨name, schema, rs, subs⟩ := D
  unfold Separate at hs'
  refine ⟨fun t ht => ?_, subsSeparate_entry hs'.2.2 hy⟩
  rw [ha, key_join_plain _ (hs'.1 y.1 (List.mem_append_right _ (List.mem_map.2 ⟨y, hy, rfl⟩))), List.append_assoc]
  exact h _ (.inr (subsHave_of_entry hy ht))

theorem sub_isPlain {D : ArchiveDef} (hs : Separate D) {y : String × ArchiveDef} (hy : y ∈ SubDefs.entries D.subs) : PlainName y.1 := by
  obtain ⟨name, schema, rs, subs⟩ := D
  unfold Separate at hs
  exact hs.1 y.1 (List.mem_append_right _ (List.mem_map.2 ⟨y, hy, rfl⟩))

/-! ## Archives use the names of their files only -/

theorem prepares_members {p : Profile} {e : Endian} {D : ArchiveDef} {prog : Prog} {c : Content} (hc : Prepares p e D prog c) :
    (∀ x ∈ prog.writes, ∀ n ∈ resFiles x.1, n ∈ files D) ∧ ∀ x ∈ prog.builds, (x.1, x.2.1) ∈ SubDefs.entries D.subs := by
  obtain ⟨name, schema, rs, subs⟩ := D
  obtain ⟨cs, ts⟩ := c
  unfold Prepares at hc
  obtain ⟨_, _, h3, h4, _⟩ := hc
  exact ⟨fun x hx n hn => List.mem_cons_of_mem _ (List.mem_cons_of_mem _ (List.mem_flatMap.2 ⟨x.1, h3 x hx, hn⟩)), h4⟩

section
variable {B B' : Backend} (S : Alike B B') (f : B.Obj → Obj) (hok : ∀ o n, Named K (f o) n → S.ok o n)
  (hsub : ∀ o n a, S.isSub o n a → (f a).path = join (f o).path n)
set_option linter.unusedSectionVars false
set_option linter.unusedVariables false
include hok hsub

theorem both_of_has {D : ArchiveDef} {o : B.Obj} (hs : Separate D) (h : Has K D (f o)) : S.both o D.signature := by
  cases D
  exact ⟨hok _ _ (h.named hs List.mem_cons_self), hok _ _ (h.named hs (List.mem_cons_of_mem _ List.mem_cons_self))⟩

theorem within_of_names {p : Profile} {e : Endian} : ∀ {prog : Prog} {o : B.Obj}, Level p e prog →
    (∀ x ∈ prog.writes, ∀ n ∈ resFiles x.1, Named K (f o) n) →
    (∀ x ∈ prog.builds, PlainName x.1 ∧ ∀ a : Obj, a.path = join (f o).path x.1 → Has K x.2.1 a) → S.Within prog o
  | .done, _, _, _, _ => trivial
  | .res r s rest, o, lv, h1, h2 =>
    ⟨lv.multi _ List.mem_cons_self, fun n hn => hok _ _ (h1 _ List.mem_cons_self n hn),
      within_of_names lv.res (fun x hx => h1 x (List.mem_cons_of_mem _ hx)) h2⟩
  | .sub name D inner rest, o, lv, h1, h2 => by
    refine ⟨(h2 (name, D, inner) List.mem_cons_self).1, fun a ha => ?_, within_of_names lv.sub h1 fun x hx => h2 x (List.mem_cons_of_mem _ hx)⟩
    have hx : (name, D, inner) ∈ (Prog.sub name D inner rest).builds := List.mem_cons_self
    obtain ⟨hs, c, hc⟩ := lv.inner _ hx
    have hh : Has K D (f a) := (h2 _ hx).2 _ (hsub _ _ _ ha)
    obtain ⟨m1, m2⟩ := prepares_members hc
    exact ⟨both_of_has S f hok hsub hs hh, within_of_names (hc.level hs).1 (fun x hx n hn => hh.named hs (m1 x hx n hn))
      fun x hx => ⟨sub_isPlain hs (m2 x hx), fun b hb => (hh.sub hs (m2 x hx) hb).1⟩⟩

theorem build_alike [DiffLib] {p : Profile} {e : Endian} {D : ArchiveDef} {prog : Prog} {c : Content} {o : B.Obj} {o' : B'.Obj} (hs : Separate D)
    (hc : Prepares p e D prog c) (ho : S.obj o o') (h : Has K D (f o)) :
    Simul S.R (fun _ _ => True) (buildArchive B p e o D prog) (buildArchive B' p e o' D prog) := by
  obtain ⟨m1, m2⟩ := prepares_members hc
  exact Alike.buildArchive ho (both_of_has S f hok hsub hs h) (within_of_names S f hok hsub (hc.level hs).1 (fun x hx n hn => h.named hs (m1 x hx n hn))
      fun x hx => ⟨sub_isPlain hs (m2 x hx), fun b hb => (h.sub hs (m2 x hx) hb).1⟩)

end

section
variable {B B' : Backend} (S : ReadAlike B B') (f : B.Obj → Obj) (hok : ∀ o n, Named K (f o) n → S.ok o n)
  (hsub : ∀ o n a, S.isSub o n a → (f a).path = join (f o).path n)
set_option linter.unusedSectionVars false
set_option linter.unusedVariables false
include hok hsub

mutual
theorem inside_of_names : ∀ {D : ArchiveDef} {o : B.Obj}, Separate D → Has K D (f o) → S.Inside D o
  | .mk name schema rs subs, o, hs, h =>
    ⟨fun n hn => hok _ _ (h.named hs hn), subsInside_of_names (by unfold Separate at hs; exact hs.2.2) fun y hy => ⟨sub_isPlain hs hy, fun a ha => (h.sub hs hy ha).1⟩⟩

theorem subsInside_of_names : ∀ {ss : SubDefs} {o : B.Obj}, SubsSeparate ss → (∀ y ∈ SubDefs.entries ss, PlainName y.1 ∧
    ∀ a : Obj, a.path = join (f o).path y.1 → Has K y.2 a) → S.SubsInside ss o
  | .nil, _, _, _ => trivial
  | .cons name opt D rest, o, hs, h =>
    ⟨(h _ List.mem_cons_self).1, fun a ha => inside_of_names hs.1 ((h _ List.mem_cons_self).2 _ (hsub _ _ _ ha)),
      subsInside_of_names hs.2 fun y hy => h y (List.mem_cons_of_mem _ hy)⟩
end

theorem open_alike [DiffLib] {p : Profile} {e : Endian} {D : ArchiveDef} {o : B.Obj} {o' : B'.Obj} (hs : Separate D) (ho : S.obj o o')
    (h : Has K D (f o)) : Simul S.R S.archive (openArchive B p e o D) (openArchive B' p e o' D) :=
  ReadAlike.openArchive ho (inside_of_names S f hok hsub hs h)
end

theorem has_fileOf {D : ArchiveDef} {path : Path} : Has (FileOf D path) D (directory path) := fun t ht => ⟨t, rfl, ht⟩

/-! ## Accessors -/

namespace ReadAlike
variable {B B' : Backend} {S : ReadAlike B B'} {w : B.W} {w' : B'.W}

theorem bytes (hr : S.R w w') {x : Opened B.Base} {y : Opened B'.Base} (h : S.opened x y) : x.bytes B w = y.bytes B' w' := by
  cases x <;> cases y <;> first | exact False.elim h | skip
  · rename_i d d'
    cases d <;> cases d' <;> first | exact False.elim h | rfl | skip
    change (B.deref w _).bind _ = (B'.deref w' _).bind _
    rw [S.deref hr h]
  · rfl

theorem multis (hr : S.R w w') {x : Opened B.Base} {y : Opened B'.Base} (h : S.opened x y) : x.multi B w = y.multi B' w' := by
  cases x <;> cases y <;> first | exact False.elim h | skip
  · rfl
  · rename_i i d i' d'
    obtain ⟨h1, h2⟩ := h
    cases i <;> cases i' <;> first | exact False.elim h1 | skip
    · cases d <;> cases d' <;> first | exact False.elim h2 | rfl
    · cases d <;> cases d' <;> first | exact False.elim h2 | rfl | skip
      change (B.deref w _).bind _ = (B'.deref w' _).bind _
      rw [S.deref hr h1]
      congr 1
      funext z
      rw [S.deref hr h2]

theorem yields (hr : S.R w w') {r : ResDecl} {x : Opened B.Base} {y : Opened B'.Base} (h : S.opened x y) :
    ∀ {c : Option Payload}, Yields B w r x c → Yields B' w' r y c
  | none, hy => by
    unfold Yields at hy ⊢
    rw [← S.bytes hr h, ← S.multis hr h]
    exact hy
  | some (.bytes b), hy => by
    change y.bytes B' w' = _
    rw [← S.bytes hr h]
    exact hy
  | some (.items xss), hy => by
    obtain ⟨V, i, v, h1, h2, h3⟩ := hy
    exact ⟨V, i, v, h1, by rw [← S.multis hr h]; exact h2, h3⟩

theorem allYield (hr : S.R w w') : ∀ {rs : List ResDecl} {xs : List (Opened B.Base)} {ys : List (Opened B'.Base)} {cs : List (Option Payload)},
    S.openeds xs ys → AllYield B w rs xs cs → AllYield B' w' rs ys cs
  | [], [], [], [], _, _ => trivial
  | _ :: _, _ :: _, _ :: _, _ :: _, h, hy => ⟨yields hr h.1 hy.1, allYield hr h.2 hy.2⟩
  | [], [], [], _ :: _, _, hy => hy.elim
  | [], _ :: _, _, _, _, hy => by cases ‹List (Option Payload)› <;> exact False.elim hy
  | _ :: _, [], _, _, _, hy => by cases ‹List (Option Payload)› <;> exact False.elim hy
  | _ :: _, _ :: _, _, [], _, hy => False.elim hy
  | _, [], _ :: _, _, h, _ => False.elim h
  | _, _ :: _, [], _, h, _ => False.elim h

mutual
theorem archiveYields (hr : S.R w w') : ∀ {D : ArchiveDef} {a : Archive B.Base} {b : Archive B'.Base} {c : Content},
    S.archive a b → ArchiveYields B w D a c → ArchiveYields B' w' D b c
  | .mk _ _ _ _, .mk _ _, .mk _ _, .mk _ _, h, hy => by
    unfold ReadAlike.archive at h
    unfold ArchiveYields at hy ⊢
    exact ⟨allYield hr h.1 hy.1, subsYield hr h.2 hy.2⟩

theorem subsYield (hr : S.R w w') : ∀ {ss : SubDefs} {a : SubArchives B.Base} {b : SubArchives B'.Base} {c : SubContents},
    S.subs a b → SubsYield B w ss a c → SubsYield B' w' ss b c
  | .nil, .nil, .nil, .nil, _, _ => by unfold SubsYield; trivial
  | .cons _ _ _ _, .cons a _, .cons b _, .cons c _, h, hy => by
    unfold SubsYield at hy ⊢
    cases a <;> cases b <;> (unfold ReadAlike.subs at h) <;> first | exact False.elim h | skip
    · cases c
      · exact ⟨trivial, subsYield hr h hy.2⟩
      · exact False.elim hy.1
    · cases c
      · exact False.elim hy.1
      · exact ⟨archiveYields hr h.1 hy.1, subsYield hr h.2 hy.2⟩
  | .nil, .nil, .nil, .cons _ _, _, hy => by unfold SubsYield at hy; exact hy.elim
  | .nil, .cons _ _, _, c, _, hy => by cases c <;> (unfold SubsYield at hy; exact hy.elim)
  | .cons _ _ _ _, .nil, _, c, _, hy => by cases c <;> (unfold SubsYield at hy; exact hy.elim)
  | .cons _ _ _ _, .cons _ _, _, .nil, _, hy => by unfold SubsYield at hy; exact hy.elim
  | _, .nil, .cons _ _, _, h, _ => by unfold ReadAlike.subs at h; exact h.elim
  | _, .cons a _, .nil, _, h, _ => by cases a <;> (unfold ReadAlike.subs at h; exact h.elim)
end

end ReadAlike

/-! ## Other processes -/

/-- What building an archive does to the disk, whatever the others do and whatever fails. -/
theorem build_owns [DiffLib] {p : Profile} {e : Endian} {D : ArchiveDef} {path : Path} {prog : Prog} {c : Content} (env : Others) (d0 : Disk)
    (fault : Nat → Option Nat) (hs : Separate D) (hc : Prepares p e D prog c) :
    ∀ st ∈ (buildArchive (amid env) p e (directory path) D prog (.started d0 fault)).2.steps, Own (FileOf D path) st.1 st.2 :=
  (build_alike (K := FileOf D path) (amidOwn (FileOf D path) env) id (fun _ _ h => h) (fun _ _ _ h => h) hs hc (o := directory path) (o' := directory path) rfl
    has_fileOf _ _ ⟨rfl, (fun _ h => by cases h), fun _ => .inr rfl⟩).2.steps

theorem Spec.Elsewhere.foreign [DiffLib] {D : ArchiveDef} {path : Path} {d d' : Disk} (h : Elsewhere D path d d') : Foreign (FileOf D path) d d' := by
  obtain ⟨env, d0, fault, hs, hc, hb, h⟩ := h
  exact (build_owns env d0 fault hs hc _ h).foreign hb fun _ hk => FileOf.ne_nil hk

theorem Spec.Meanwhile.foreign [DiffLib] {D : ArchiveDef} {path : Path} {d d' : Disk} (h : Meanwhile D path d d') : Foreign (FileOf D path) d d' := by
  induction h with
  | refl => exact .refl _ _
  | step _ h' ih => exact ih.trans h'.foreign

/-! ## A process that is alone -/

/-- Nobody else does anything. -/
def Spec.Others.nobody : Others := fun _ d => d

/-- The steps lead from one disk to another. -/
def Linked : Disk → List (Disk × Disk) → Disk → Prop
  | a, [], b => a = b
  | a, st :: l, b => a = st.1 ∧ Linked st.2 l b

theorem Linked.snoc : ∀ {a b : Disk} {l : List (Disk × Disk)} (c : Disk), Linked a l b → Linked a (l ++ [(b, c)]) c
  | _, _, [], _, h => ⟨h, rfl⟩
  | _, _, _ :: _, c, h => ⟨h.1, Linked.snoc c h.2⟩

theorem call_nobody {E α : Type} (d : Disk) (x : Act FileW E α) :
    Simul (fun w v => v.w = w ∧ Linked d v.steps w.fs.disk) (fun a b => a = b) x (Others.nobody.call x) := by
  rintro w v ⟨rfl, h⟩
  refine ⟨?_, rfl, h.snoc _⟩
  change (x v.w).1.Rel _ (x v.w).1
  cases (x v.w).1 <;> first | rfl | trivial

/-- Among no others, a process is alone. -/
def nobodyAlike (d : Disk) : Alike file (amid Others.nobody) where
  R w v := v.w = w ∧ Linked d v.steps w.fs.disk
  obj a b := a = b
  strm a b := a = b
  base a b := a = b
  ok _ _ := True
  isSub o n a := a.path = join o.path n
  subdir o o' n ho _ := by
    cases ho
    rintro w v ⟨rfl, h⟩
    exact ⟨⟨rfl, rfl⟩, rfl, h⟩
  existsRes o o' n ho _ := by cases ho; exact call_nobody d _
  readResource o o' n ho _ := by
    cases ho
    refine Simul.bind (Simul.mapErr _ (call_nobody d _)) fun a b hv => ?_
    cases hv
    refine Simul.ite (fun _ => Simul.fail _) fun _ => ?_
    intro w v hr
    have hv := hr.1
    subst hv
    unfold FileSt.mapRead Others.mapRead
    rcases hm : v.w.maps o.id (join o.path n) with _ | ⟨k, m⟩
    · refine Simul.bind (call_nobody d _) (fun a b hv => ?_) v.w v hr
      cases hv
      refine Simul.bind (call_nobody d _) (fun a b hv => ?_)
      cases hv
      rintro w v ⟨rfl, h⟩
      exact ⟨⟨rfl, rfl, rfl⟩, rfl, h⟩
    · exact ⟨⟨rfl, rfl, rfl⟩, hr⟩
  createOutputStream o o' n ho _ := by
    cases ho
    refine Simul.bind (Simul.mapErr _ (call_nobody d _)) fun a b hv => ?_
    cases hv
    exact Simul.ite (fun _ => Simul.bind (call_nobody d _) fun _ _ _ => call_nobody d _) fun _ => call_nobody d _
  writeAll s s' b hs := by cases hs; exact (call_nobody d _).mono fun _ _ _ => trivial
  seekStart s s' hs := by cases hs; exact (call_nobody d _).mono fun _ _ _ => trivial
  content w v b b' hr hb := by
    cases hb
    change (w.fs.files b).getD [] = (v.w.fs.files b).getD []
    rw [hr.1]

theorem build_nobody [DiffLib] {p : Profile} {e : Endian} {D : ArchiveDef} {prog : Prog} {c : Content} (path : Path) (d : Disk)
    (fault : Nat → Option Nat) (hs : Separate D) (hc : Prepares p e D prog c) :
    (buildArchive file p e (directory path) D prog (started d fault)).1.Rel (fun _ _ => True)
      (buildArchive (amid Others.nobody) p e (directory path) D prog (.started d fault)).1 ∧
    (buildArchive (amid Others.nobody) p e (directory path) D prog (.started d fault)).2.w =
      (buildArchive file p e (directory path) D prog (started d fault)).2 ∧
    Linked d (buildArchive (amid Others.nobody) p e (directory path) D prog (.started d fault)).2.steps
      (buildArchive file p e (directory path) D prog (started d fault)).2.fs.disk :=
  build_alike (K := FileOf D path) (nobodyAlike d) id (fun _ _ _ => trivial) (fun _ _ _ h => h) hs hc (o := directory path)
    (o' := directory path) rfl has_fileOf _ _ ⟨rfl, rfl⟩

theorem Linked.meanwhile [DiffLib] {D : ArchiveDef} {path : Path} : ∀ {l : List (Disk × Disk)} {a b c : Disk}, Linked b l c →
    (∀ st ∈ l, Elsewhere D path st.1 st.2) → Meanwhile D path a b → Meanwhile D path a c
  | [], _, _, _, h, _, hm => by cases h; exact hm
  | st :: l, _, _, _, h, hl, hm => by
    obtain ⟨rfl, h⟩ := h
    exact h.meanwhile (fun x hx => hl x (List.mem_cons_of_mem _ hx)) (.step hm (hl st List.mem_cons_self))

theorem Spec.Meanwhile.trans [DiffLib] {D : ArchiveDef} {path : Path} {a b c : Disk} (h : Meanwhile D path a b) (h' : Meanwhile D path b c) :
    Meanwhile D path a c := by
  induction h' with
  | refl => exact h
  | step _ hs ih => exact .step ih hs

end Flatdata
