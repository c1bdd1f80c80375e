import Verif.Proofs.SharedRun
import Verif.Proofs.InterruptRun
/-!
# Reading files that another process is writing
-/
namespace Flatdata
open Spec

/-! ## bytes on their way to a resource -/

theorem drop8_image (b : Bytes) : (image b).drop 8 = b ++ zeros 8 := by
  unfold image
  rw [List.append_assoc]
  exact (congrArg (fun n => List.drop n _) (length_le64 b.length).symm).trans (List.drop_left ..)

theorem take8_image (b : Bytes) : (image b).take 8 = le64 b.length := by
  unfold image
  rw [List.append_assoc, take8_le64]

theorem length_image (b : Bytes) : (image b).length = b.length + 16 := by
  simp [image, length_le64, zeros]; omega

theorem leNat_take (l : Bytes) : ∀ j, leNat (l.take j) = leNat l % 256 ^ j := by
  induction l with
  | nil => intro j; simp [leNat]
  | cons x l ih =>
    intro j
    cases j with
    | zero => simp [leNat, Nat.mod_one]
    | succ j =>
      rw [List.take_succ_cons, leNat, leNat, ih, Nat.pow_succ, Nat.mul_comm (256 ^ j) 256, Nat.mod_mul,
        show (x.toNat + 256 * leNat l) % 256 = x.toNat by have := x.isLt; omega,
        show (x.toNat + 256 * leNat l) / 256 = leNat l by have := x.isLt; omega]

/-- What a part of a file with at least the size field looks like. -/
theorem toward_image {soft : Prop} {d b : Bytes} (hb : b.length < 2 ^ 63) (h : Toward soft d (image b)) (h8 : 8 ≤ d.length) :
    (leNat (d.take 8) = b.length ∨ (soft ∧ ∃ j < 8, leNat (d.take 8) = b.length % 256 ^ j)) ∧ d.drop 8 <+: b ++ zeros 8 := by
  rcases h with ⟨t, ht⟩ | ⟨hs, hl, j, hj, t, ht⟩
  · refine ⟨.inl ?_, t, ?_⟩
    · rw [← List.take_append_of_le_length h8 (l₂ := t), ht, take8_image, leNat_le64 (by omega)]
    · rw [← List.drop_append_of_le_length h8, ht, drop8_image]
  · have hz : (List.take j (image b) ++ zeros (8 - j)).length = 8 := by
      rw [List.length_append, List.length_take, Nat.min_eq_left (by omega)]; simp [zeros]; omega
    have e1 : (torn j (image b)).take 8 = List.take j (image b) ++ zeros (8 - j) := by
      unfold torn
      rw [← List.append_assoc]
      exact (congrArg (fun n => List.take n _) hz.symm).trans (List.take_left ..)
    have e2 : (torn j (image b)).drop 8 = (image b).drop 8 := by
      unfold torn
      rw [← List.append_assoc]
      exact (congrArg (fun n => List.drop n _) hz.symm).trans (List.drop_left ..)
    refine ⟨.inr ⟨hs, j, hj, ?_⟩, t, ?_⟩
    · rw [← List.take_append_of_le_length h8 (l₂ := t), ht, e1, leNat_append, leNat_zeros, Nat.mul_zero, Nat.add_zero]
      have : (image b).take j = (le64 b.length).take j := by
        rw [← take8_image, List.take_take, Nat.min_eq_left (by omega)]
      rw [this, leNat_take, leNat_le64 (by omega)]
    · rw [← List.drop_append_of_le_length h8, ht, e2, drop8_image]

/-- The part of it that a size field announces. -/
theorem payload_of_prefix {x b : Bytes} {v : Nat} (h : x <+: b ++ zeros 8) (hv : v ≤ b.length) (hl : v ≤ x.length) : x.take v = b.take v := by
  obtain ⟨t, ht⟩ := h
  rw [← List.take_append_of_le_length hl (l₂ := t), ht, List.take_append_of_le_length hv]

/-! ## the reading process -/

variable {soft : Key → Prop} {s : View} {F : Key → Option Bytes}

/-- The files go forward, towards `F`. -/
structure Tends (soft : Key → Prop) (s : View) (F : Key → Option Bytes) : Prop where
  steps : ∀ t t', t ≤ t' → Forward soft (s t).files (s t').files
  ends : ∀ t, Forward soft (s t).files F

/-- The mappings are of files that are at least that long. -/
def Seen (s : View) (w : FileW) : Prop :=
  ∀ i p k n, w.maps i p = some (k, n) → k = key p ∧ ∃ d, (s w.fs.tick).files k = some d ∧ n ≤ d.length

theorem Tends.longer (ht : Tends soft s F) {t t' : Nat} (h : t ≤ t') {k : Key} {n : Nat} (hd : ∃ d, (s t).files k = some d ∧ n ≤ d.length) :
    ∃ d, (s t').files k = some d ∧ n ≤ d.length := by
  obtain ⟨d, h1, h2⟩ := hd
  obtain ⟨d', h3, h4⟩ := ht.steps t t' h k d h1
  exact ⟨d', h3, by have := h4.length; omega⟩

theorem Seen.mono (ht : Tends soft s F) {w w' : FileW} (h : Seen s w) (hm : w'.maps = w.maps) (htk : w.fs.tick ≤ w'.fs.tick) : Seen s w' := by
  intro i p k n h1
  rw [hm] at h1
  obtain ⟨h2, h3⟩ := h i p k n h1
  exact ⟨h2, ht.longer htk h3⟩

section
variable {E E' α β : Type}

/-- Code of the reading process: it does not panic, and `Q` holds when it succeeds. -/
def Sees (s : View) (x : Act FileW E α) (w : FileW) (Q : α → FileW → Prop) : Prop :=
  Seen s (x w).2 ∧ w.fs.tick ≤ (x w).2.fs.tick ∧ ((∃ a, (x w).1 = .ok a ∧ Q a (x w).2) ∨ ∃ y, (x w).1 = .err y)

variable {w : FileW} {Q : α → FileW → Prop}

theorem Sees.pure {a : α} (hs : Seen s w) (hq : Q a w) : Sees s (pure a : Act FileW E α) w Q := ⟨hs, Nat.le_refl _, .inl ⟨a, rfl, hq⟩⟩
theorem Sees.fail {x : E} (hs : Seen s w) : Sees s (Act.fail x : Act FileW E α) w Q := ⟨hs, Nat.le_refl _, .inr ⟨x, rfl⟩⟩

theorem Sees.bind {x : Act FileW E α} {f : α → Act FileW E β} {R : β → FileW → Prop} (hx : Sees s x w Q)
    (hf : ∀ a w', Seen s w' → w.fs.tick ≤ w'.fs.tick → Q a w' → Sees s (f a) w' R) : Sees s (x >>= f) w R := by
  obtain ⟨h1, h2, h3⟩ := hx
  rcases hw : x w with ⟨r, w'⟩
  rw [hw] at h1 h2 h3
  rcases h3 with ⟨a, ha, hq⟩ | ⟨y, hy⟩
  · simp only at ha
    subst ha
    have := hf a w' h1 h2 hq
    unfold Sees
    rw [Act.bind_ok hw]
    exact ⟨this.1, Nat.le_trans h2 this.2.1, this.2.2⟩
  · simp only at hy
    subst hy
    unfold Sees
    rw [Act.bind_err hw]
    exact ⟨h1, h2, .inr ⟨y, rfl⟩⟩

theorem Sees.mono {x : Act FileW E α} {R : α → FileW → Prop} (hx : Sees s x w Q) (h : ∀ a w', Seen s w' → w.fs.tick ≤ w'.fs.tick → Q a w' → R a w') :
    Sees s x w R :=
  ⟨hx.1, hx.2.1, hx.2.2.imp (fun ⟨a, h1, h2⟩ => ⟨a, h1, h a _ hx.1 hx.2.1 h2⟩) id⟩

theorem Sees.mapErr {x : Act FileW E α} {g : E → E'} (hx : Sees s x w Q) : Sees s (x.mapErr g) w Q := by
  obtain ⟨h1, h2, h3⟩ := hx
  unfold Sees Act.mapErr
  rcases hw : x w with ⟨r, w'⟩
  rw [hw] at h1 h2 h3
  rcases h3 with ⟨a, rfl, hq⟩ | ⟨y, rfl⟩
  · exact ⟨h1, h2, .inl ⟨a, rfl, hq⟩⟩
  · exact ⟨h1, h2, .inr ⟨_, rfl⟩⟩

theorem Sees.checkRes {x : Act FileW RErr α} {optional : Bool} (hx : Sees s x w Q) :
    Sees s (checkRes (watching s) optional x) w fun a w' => (a = none ∧ optional = true) ∨ ∃ b, a = some b ∧ Q b w' := by
  obtain ⟨h1, h2, h3⟩ := hx
  rcases hw : x w with ⟨r, w'⟩
  rw [hw] at h1 h2 h3
  have : Sees s (Act.attempt x : Act FileW RErr (Except RErr α)) w fun a w' => ∀ b, a = .ok b → Q b w' := by
    unfold Sees Act.attempt
    rw [hw]
    rcases h3 with ⟨a, rfl, hq⟩ | ⟨y, rfl⟩
    · exact ⟨h1, h2, .inl ⟨_, rfl, fun b hb => (by cases hb; exact hq)⟩⟩
    · exact ⟨h1, h2, .inl ⟨_, rfl, fun b hb => (by cases hb)⟩⟩
  unfold Flatdata.checkRes
  refine this.bind fun a w' s1 t1 hq => ?_
  cases a with
  | ok a => exact .pure s1 (.inr ⟨a, rfl, hq a rfl⟩)
  | error y =>
    cases optional with
    | true => exact .pure s1 (.inl ⟨rfl, rfl⟩)
    | false => exact .fail s1
end

/-! ## system calls -/

theorem sees_exists (ht : Tends soft s F) {w : FileW} (hs : Seen s w) (q : Path) :
    Sees s (s.call (FileSt.pathExists q)) w fun _ _ => True := by
  have h1 : (s.call (FileSt.pathExists q) w).2.maps = w.maps ∧ (s.call (FileSt.pathExists q) w).2.fs.tick = w.fs.tick + 1 ∧
      ∃ b, (s.call (FileSt.pathExists q) w).1 = .ok b := by
    unfold View.call FileSt.pathExists FileSt.syscall View.now
    cases w.fs.fault w.fs.tick <;> exact ⟨rfl, rfl, _, rfl⟩
  obtain ⟨hm, htk, b, hb⟩ := h1
  exact ⟨hs.mono ht hm (by omega), by omega, .inl ⟨b, hb, trivial⟩⟩

theorem sees_open (ht : Tends soft s F) {w : FileW} (hs : Seen s w) (q : Path) :
    Sees s (s.call (FileSt.fileOpen q)) w fun k w' => k = key q ∧ w'.maps = w.maps := by
  have h1 : (s.call (FileSt.fileOpen q) w).2.maps = w.maps ∧ (s.call (FileSt.fileOpen q) w).2.fs.tick = w.fs.tick + 1 ∧
      ((s.call (FileSt.fileOpen q) w).1 = .ok (key q) ∨ ∃ y, (s.call (FileSt.fileOpen q) w).1 = .err y) := by
    unfold View.call FileSt.fileOpen FileSt.syscall View.now
    cases w.fs.fault w.fs.tick with
    | none =>
      dsimp only
      split
      · exact ⟨rfl, rfl, .inl rfl⟩
      · exact ⟨rfl, rfl, .inr ⟨_, rfl⟩⟩
    | some k => exact ⟨rfl, rfl, .inr ⟨_, rfl⟩⟩
  obtain ⟨hm, htk, hb⟩ := h1
  exact ⟨hs.mono ht hm (by omega), by omega, hb.imp (fun h => ⟨_, h, rfl, hm⟩) id⟩

theorem sees_mmap (ht : Tends soft s F) {w : FileW} (hs : Seen s w) (k : Key) :
    Sees s (s.call (FileSt.mmapLen k)) w fun n w' => (∃ d, (s w'.fs.tick).files k = some d ∧ n ≤ d.length) ∧ w'.maps = w.maps := by
  have h1 : (s.call (FileSt.mmapLen k) w).2.maps = w.maps ∧ (s.call (FileSt.mmapLen k) w).2.fs.tick = w.fs.tick + 1 ∧
      ((∃ d, (s w.fs.tick).files k = some d ∧ (s.call (FileSt.mmapLen k) w).1 = .ok d.length) ∨ ∃ y, (s.call (FileSt.mmapLen k) w).1 = .err y) := by
    unfold View.call FileSt.mmapLen FileSt.syscall View.now
    cases w.fs.fault w.fs.tick with
    | none =>
      dsimp only
      cases hf : (s w.fs.tick).files k with
      | none => exact ⟨rfl, rfl, .inr ⟨_, rfl⟩⟩
      | some d =>
        dsimp only
        split
        · exact ⟨rfl, rfl, .inr ⟨_, rfl⟩⟩
        · exact ⟨rfl, rfl, .inl ⟨d, rfl, rfl⟩⟩
    | some k => exact ⟨rfl, rfl, .inr ⟨_, rfl⟩⟩
  obtain ⟨hm, htk, hb⟩ := h1
  refine ⟨hs.mono ht hm (by omega), by omega, hb.imp (fun ⟨d, h1, h2⟩ => ⟨_, h2, ?_, hm⟩) id⟩
  exact ht.longer (by omega) ⟨d, h1, Nat.le_refl _⟩

/-- The slice is the beginning of a file. -/
def Begins (s : View) (k : Key) (sl : Slice Key) (w : FileW) : Prop :=
  sl.base = k ∧ sl.off = 0 ∧ ∃ d, (s w.fs.tick).files k = some d ∧ sl.len ≤ d.length

theorem sees_mapRead (ht : Tends soft s F) {w : FileW} (hs : Seen s w) (o : Obj) (q : Path) :
    Sees s (s.mapRead o q) w (Begins s (key q)) := by
  cases hm : w.maps o.id q with
  | some kn =>
    obtain ⟨k, n⟩ := kn
    have e : s.mapRead o q w = (.ok ⟨k, 0, n⟩, w) := by unfold View.mapRead; rw [hm]
    obtain ⟨rfl, h⟩ := hs _ _ _ _ hm
    unfold Sees
    rw [e]
    exact ⟨hs, Nat.le_refl _, .inl ⟨_, rfl, rfl, rfl, h⟩⟩
  | none =>
    have e : s.mapRead o q w = (do
      let k ← s.call (FileSt.fileOpen q)
      let n ← s.call (FileSt.mmapLen k)
      FileSt.insertMap o q k n : Act FileW IoErr (Slice Key)) w := by unfold View.mapRead; rw [hm]
    have main : Sees s (do
      let k ← s.call (FileSt.fileOpen q)
      let n ← s.call (FileSt.mmapLen k)
      FileSt.insertMap o q k n : Act FileW IoErr (Slice Key)) w (Begins s (key q)) := by
      refine (sees_open ht hs q).bind fun k w1 s1 t1 h1 => (sees_mmap ht s1 k).bind fun n w2 s2 t2 h2 => ?_
      obtain ⟨rfl, _⟩ := h1
      refine ⟨?_, Nat.le_refl _, .inl ⟨_, rfl, rfl, rfl, h2.1⟩⟩
      intro i p' k' n' h
      change upd w2.maps o.id (upd (w2.maps o.id) q (some (key q, n))) i p' = some (k', n') at h
      by_cases hi : i = o.id
      · subst hi
        rw [upd_same] at h
        by_cases hp : p' = q
        · subst hp
          rw [upd_same] at h
          cases h
          exact ⟨rfl, h2.1⟩
        · rw [upd_other _ _ hp] at h
          exact s2 _ _ _ _ h
      · rw [upd_other _ _ hi] at h
        exact s2 _ _ _ _ h
    unfold Sees at main ⊢
    rw [e]
    exact main

theorem sees_readResource (ht : Tends soft s F) {w : FileW} (hs : Seen s w) (o : Obj) (n : String) :
    Sees s (s.readResource o n) w (Begins s (key (join o.path n))) := by
  unfold View.readResource
  refine (sees_exists ht hs _).mapErr.bind fun b w1 s1 _ _ => ?_
  cases b with
  | false => exact .fail s1
  | true => exact sees_mapRead ht s1 o _

/-! ## reading a resource -/

/-- The bytes behind the slice, from now on. -/
def Stays (s : View) (sl : Slice Key) (y : Bytes) (w : FileW) : Prop :=
  ∀ w' : FileW, w.fs.tick ≤ w'.fs.tick → (watching s).deref w' sl = .ok y

theorem Stays.mono {sl : Slice Key} {y : Bytes} {w w' : FileW} (h : Stays s sl y w) (ht : w.fs.tick ≤ w'.fs.tick) : Stays s sl y w' :=
  fun _ h1 => h _ (Nat.le_trans ht h1)

theorem watching_content {w : FileW} {k : Key} {d : Bytes} (h : (s w.fs.tick).files k = some d) : (watching s).content w k = d := by
  change ((s w.fs.tick).files k).getD [] = d
  rw [h]; rfl

theorem deref_begins {w : FileW} {k : Key} {sl : Slice Key} {d : Bytes} (hb : sl.base = k ∧ sl.off = 0) (hd : (s w.fs.tick).files k = some d)
    (hl : sl.len ≤ d.length) : (watching s).deref w sl = .ok (d.take sl.len) := by
  unfold Backend.deref
  rw [hb.1, watching_content hd, hb.2, if_pos (by omega), List.drop_zero]

variable [DiffLib] {p : Profile} {e : Endian}

/-- What is there in the end: nothing, or a resource with the content `b`. -/
def EndsAs (F : Key → Option Bytes) (k : Key) (c : Option Bytes) : Prop := F k = c.map image ∧ ∀ b, c = some b → b.length < 2 ^ 63

theorem sees_read (ht : Tends soft s F) {w : FileW} (hs : Seen s w) {o : Obj} {name schema : String} {c : Option Bytes}
    (hF : EndsAs F (key (join o.path name)) c) :
    Sees s (Storage.read (watching s) p e o name schema) w fun sl w' =>
      ∃ b y, c = some b ∧ Glimpse (soft (key (join o.path name))) b y ∧ Stays s sl y w' := by
  unfold Storage.read
  refine (sees_readResource ht hs o name).mapErr.bind fun sd w1 s1 t1 b1 => (sees_readResource ht s1 o _).mapErr.bind fun ss w2 s2 t2 b2 => ?_
  obtain ⟨hb, ho, hd⟩ := b1
  obtain ⟨d, hd, hl⟩ := ht.longer t2 hd
  obtain ⟨hb', ho', d', hd', hl'⟩ := b2
  have e1 := deref_begins ⟨hb, ho⟩ hd hl
  have e2 := deref_begins ⟨hb', ho'⟩ hd' hl'
  unfold Sees
  rw [checkResource_spec (B := watching s) p e name schema e1 e2]
  refine ⟨s2, Nat.le_refl _, ?_⟩
  obtain ⟨D, hD, tw⟩ := ht.ends w2.fs.tick _ d hd
  obtain ⟨hF1, hF2⟩ := hF
  rw [hD] at hF1
  cases c with
  | none => cases hF1
  | some b =>
    cases hF1
    have hb63 := hF2 b rfl
    have hlen : (d.take sd.len).length = sd.len := by simp; omega
    unfold verdict
    by_cases h16 : (d.take sd.len).length < 16
    · rw [if_pos h16]; exact .inr ⟨_, rfl⟩
    · rw [if_neg h16]
      have h8 : 8 ≤ d.length := by omega
      obtain ⟨hv, hpre⟩ := toward_image hb63 tw h8
      have e8 : (d.take sd.len).take 8 = d.take 8 := by rw [List.take_take, Nat.min_eq_left (by omega)]
      rw [e8]
      generalize hvv : leNat (d.take 8) = v at hv ⊢
      have hvb : v ≤ b.length := by
        rcases hv with hv | ⟨_, j, _, hv⟩
        · omega
        · rw [hv]; exact Nat.mod_le _ _
      rw [if_neg (by omega)]
      by_cases hne : v + 16 ≠ (d.take sd.len).length
      · rw [if_pos hne]; exact .inr ⟨_, rfl⟩
      · rw [if_neg hne]
        have hvl : v + 16 = sd.len := by omega
        cases fromUtf8 (d'.take ss.len) with
        | none => exact .inr ⟨_, rfl⟩
        | some st =>
          dsimp only
          split
          · exact .inr ⟨_, rfl⟩
          · have hpl : (((d.take sd.len).drop 8).take v).length = v := by simp; omega
            refine .inl ⟨_, rfl, b, b.take v, rfl, ?_, ?_⟩
            · rcases hv with hv | ⟨hsf, j, hj, hv⟩
              · left; rw [hv, List.take_length]
              · exact .inr ⟨hsf, j, hj, by rw [hv]⟩
            · intro w3 h3
              obtain ⟨d3, hd3, tw3⟩ := ht.steps _ _ h3 _ d hd
              obtain ⟨D3, hD3, te3⟩ := ht.ends w3.fs.tick _ d3 hd3
              rw [hD] at hD3
              cases hD3
              have l3 := tw3.length
              obtain ⟨_, hpre3⟩ := toward_image hb63 te3 (by omega)
              unfold Backend.deref
              rw [hb, watching_content hd3, ho, hpl, if_pos (by simp only; omega), payload_of_prefix hpre3 hvb (by simp; omega)]

/-! ## opening an archive -/

section
omit [DiffLib]
variable {w w' : FileW} {r : ResDecl} {x : Opened Key} {Soft : ResDecl → Prop}

theorem bytes_later (t : Nat) (h : w.fs.tick ≤ w'.fs.tick) :
    x.bytes (watching s) (later t w') = x.bytes (watching s) (later (t + (w'.fs.tick - w.fs.tick)) w) := by
  have : (later t w').fs.tick = (later (t + (w'.fs.tick - w.fs.tick)) w).fs.tick := by simp only [later]; omega
  cases x with
  | one d => cases d <;> simp only [Opened.bytes, Backend.deref, this]
  | two i d => rfl

theorem multi_later (t : Nat) (h : w.fs.tick ≤ w'.fs.tick) :
    x.multi (watching s) (later t w') = x.multi (watching s) (later (t + (w'.fs.tick - w.fs.tick)) w) := by
  have : (later t w').fs.tick = (later (t + (w'.fs.tick - w.fs.tick)) w).fs.tick := by simp only [later]; omega
  cases x with
  | one d => rfl
  | two i d => cases i <;> cases d <;> simp only [Opened.multi, Backend.deref, this]

theorem Glimpsed.mono {c : Option Payload} (h : Glimpsed s w Soft r x c) (ht : w.fs.tick ≤ w'.fs.tick) : Glimpsed s w' Soft r x c := by
  match c, h with
  | none, h =>
    intro t
    have := h (t + (w'.fs.tick - w.fs.tick))
    unfold Yields at this ⊢
    cases hr : r.type <;> simp only [hr] at this ⊢
    case multi => rw [multi_later t ht]; exact this
    all_goals rw [bytes_later t ht]; exact this
  | some (.bytes b), h =>
    rcases h with ⟨h1, h2⟩ | ⟨y, h1, h2⟩
    · exact .inl ⟨h1, fun t => by rw [bytes_later t ht]; exact h2 _⟩
    · exact .inr ⟨y, h1, fun t => by rw [bytes_later t ht]; exact h2 _⟩
  | some (.items xss), h =>
    rcases h with ⟨h1, h2⟩ | ⟨V, i, v, h1, h2, h3⟩
    · exact .inl ⟨h1, fun t => by rw [multi_later t ht]; exact h2 _⟩
    · exact .inr ⟨V, i, v, h1, fun t => by rw [multi_later t ht]; exact h2 _, h3⟩

theorem AllGlimpsed.mono : ∀ {rs : List ResDecl} {xs : List (Opened Key)} {cs : List (Option Payload)}, AllGlimpsed s w Soft rs xs cs →
    w.fs.tick ≤ w'.fs.tick → AllGlimpsed s w' Soft rs xs cs
  | [], [], [], _, _ => trivial
  | _ :: _, _ :: _, _ :: _, h, ht => ⟨Flatdata.Glimpsed.mono h.1 ht, AllGlimpsed.mono h.2 ht⟩
  | [], _ :: _, _, h, _ => h.elim
  | [], [], _ :: _, h, _ => h.elim
  | _ :: _, [], _, h, _ => h.elim
  | _ :: _, _ :: _, [], h, _ => h.elim

mutual
theorem ArchiveGlimpsed.mono : ∀ {D : ArchiveDef} {a : Archive Key} {c : Content}, ArchiveGlimpsed s w Soft D a c →
    w.fs.tick ≤ w'.fs.tick → ArchiveGlimpsed s w' Soft D a c
  | .mk _ _ _ _, .mk _ _, .mk _ _, h, ht => by
    unfold ArchiveGlimpsed at h ⊢
    exact ⟨AllGlimpsed.mono h.1 ht, SubsGlimpsed.mono h.2 ht⟩

theorem SubsGlimpsed.mono : ∀ {D : SubDefs} {a : SubArchives Key} {c : SubContents}, SubsGlimpsed s w Soft D a c →
    w.fs.tick ≤ w'.fs.tick → SubsGlimpsed s w' Soft D a c
  | .nil, .nil, .nil, _, _ => by unfold SubsGlimpsed; trivial
  | .cons _ _ _ _, .cons a _, .cons c _, h, ht => by
    unfold SubsGlimpsed at h ⊢
    refine ⟨?_, SubsGlimpsed.mono h.2 ht⟩
    match a, c, h.1 with
    | some a, some c, h1 => exact ArchiveGlimpsed.mono h1 ht
    | none, some c, h1 => exact h1
    | none, none, _ => trivial
    | some _, none, h1 => exact h1.elim
  | .nil, .cons _ _, _, h, _ => by unfold SubsGlimpsed at h; exact h.elim
  | .nil, .nil, .cons _ _, h, _ => by unfold SubsGlimpsed at h; exact h.elim
  | .cons _ _ _ _, .nil, _, h, _ => by unfold SubsGlimpsed at h; exact h.elim
  | .cons _ _ _ _, .cons _ _, .nil, h, _ => by unfold SubsGlimpsed at h; exact h.elim
end
end

/-- What the files of a resource are in the end. -/
def ResEnds (F : Key → Option Bytes) (P : Path) (r : ResDecl) : Option Payload → Prop
  | none => ∀ q ∈ parts r, F (key (join P q.1)) = none
  | some (.bytes b) => (∀ V i, r.type ≠ .multi V i) ∧ EndsAs F (key (join P r.name)) (some b)
  | some (.items xss) => ∃ V, r.type = .multi V (r.name ++ "_index") ∧ Shows V ⟨indexBytes V.indexSize xss, encodeItems xss⟩ xss ∧
      EndsAs F (key (join P (r.name ++ "_index"))) (some (indexBytes V.indexSize xss)) ∧ EndsAs F (key (join P r.name)) (some (encodeItems xss))

/-- ... of all resources. -/
def AllEnd (F : Key → Option Bytes) (P : Path) : List ResDecl → List (Option Payload) → Prop
  | [], [] => True
  | r :: rs, c :: cs => ResEnds F P r c ∧ AllEnd F P rs cs
  | _, _ => False

mutual
/-- ... of an archive. -/
def Ends (F : Key → Option Bytes) : ArchiveDef → Path → Content → Prop
  | .mk name _ rs subs, P, .mk cs ts => EndsAs F (key (join P (name ++ ".archive"))) (some []) ∧ AllEnd F P rs cs ∧ SubsEnd F subs P ts

/-- ... of the subarchives. -/
def SubsEnd (F : Key → Option Bytes) : SubDefs → Path → SubContents → Prop
  | .nil, _, .nil => True
  | .cons name _ D rest, P, .cons c ts =>
    (match c with
      | some c => Ends F D (join P name) c
      | none => F (key (join (join P name) (D.name ++ ".archive"))) = none) ∧ SubsEnd F rest P ts
  | _, _, _ => False
end

/-- The resource belongs to the archive or, in a subdirectory, to a subarchive. -/
inductive ResAt : ArchiveDef → List String → ResDecl → Prop
  | res {D r} (h : r ∈ D.resources) : ResAt D [] r
  | sub {D x ds r} (h : x ∈ SubDefs.entries D.subs) (hr : ResAt x.2 ds r) : ResAt D (x.1 :: ds) r

variable {Soft : ResDecl → Prop}

theorem sees_openResource (ht : Tends soft s F) {w : FileW} (hs : Seen s w) {o : Obj} {r : ResDecl} {c : Option Payload} (hE : ResEnds F o.path r c)
    (hS : ∀ q ∈ parts r, soft (key (join o.path q.1)) → Soft r) :
    Sees s (openResource (watching s) p e o r) w fun x w' => Glimpsed s w' Soft r x c := by
  have stay : ∀ {sl : Slice Key} {y : Bytes} {w' : FileW} (t : Nat), Stays s sl y w' → (watching s).deref (later t w') sl = .ok y :=
    fun {_ _ w'} t h => h (later t w') (by simp only [later]; omega)
  have one : (∀ V i, r.type ≠ .multi V i) → ∀ cb : Option Bytes, c = cb.map Payload.bytes → EndsAs F (key (join o.path r.name)) cb →
      Sees s (openResource (watching s) p e o r) w fun x w' => Glimpsed s w' Soft r x c := by
    intro hno cb hc hE
    have e0 : openResource (watching s) p e o r = (do
        let d ← checkRes (watching s) r.optional (Storage.read (watching s) p e o r.name r.schema)
        pure (.one d)) := by
      unfold openResource
      cases hr : r.type <;> first | rfl | exact absurd hr (hno _ _)
    rw [e0]
    refine (sees_read ht hs hE).checkRes.bind fun d w1 s1 _ hq => .pure s1 ?_
    rcases hq with ⟨rfl, hopt⟩ | ⟨sl, rfl, b, y, hcb, hg, st⟩
    · cases cb with
      | none =>
        rw [hc]
        intro t
        unfold Yields
        cases r.type <;> rfl
      | some b => rw [hc]; exact .inl ⟨hopt, fun _ => rfl⟩
    · rw [hc, hcb]
      refine .inr ⟨y, ?_, fun t => ?_⟩
      · exact hg.imp id fun h => ⟨hS (r.name, r.schema) (by rw [parts_of_one hno]; exact List.mem_cons_self) h.1, h.2⟩
      · change ((watching s).deref (later t w1) sl).bind _ = _
        rw [stay t st]; rfl
  have two : ∀ V i, r.type = .multi V i → ∀ ci cd : Option Bytes, EndsAs F (key (join o.path i)) ci → EndsAs F (key (join o.path r.name)) cd →
      (∀ x w', (((x = .two none none ∨ (∃ sl, x = .two none (some sl)) ∨ (∃ sl, x = .two (some sl) none)) ∧ r.optional = true) ∨
        ∃ sl sl' b b' y y', x = .two (some sl) (some sl') ∧ ci = some b ∧ cd = some b' ∧ Glimpse (soft (key (join o.path i))) b y ∧
          Glimpse (soft (key (join o.path r.name))) b' y' ∧ Stays s sl y w' ∧ Stays s sl' y' w') → Glimpsed s w' Soft r x c) →
      Sees s (openResource (watching s) p e o r) w fun x w' => Glimpsed s w' Soft r x c := by
    intro V i hr ci cd hi hd hfin
    have e0 : openResource (watching s) p e o r = (do
        let a ← checkRes (watching s) r.optional (Storage.read (watching s) p e o i (Storage.indexSchema r.schema))
        let d ← checkRes (watching s) r.optional (Storage.read (watching s) p e o r.name r.schema)
        pure (.two a d)) := by
      unfold openResource; rw [hr]
    rw [e0]
    refine (sees_read ht hs hi).checkRes.bind fun a w1 s1 _ hq => (sees_read ht s1 hd).checkRes.bind fun d w2 s2 t2 hq' => .pure s2 (hfin _ _ ?_)
    rcases hq with ⟨rfl, hopt⟩ | ⟨sl, rfl, b, y, hcb, hg, st⟩
    · rcases hq' with ⟨rfl, _⟩ | ⟨sl, rfl, _⟩
      · exact .inl ⟨.inl rfl, hopt⟩
      · exact .inl ⟨.inr (.inl ⟨sl, rfl⟩), hopt⟩
    · rcases hq' with ⟨rfl, hopt⟩ | ⟨sl', rfl, b', y', hcb', hg', st'⟩
      · exact .inl ⟨.inr (.inr ⟨sl, rfl⟩), hopt⟩
      · exact .inr ⟨sl, sl', b, b', y, y', rfl, hcb, hcb', hg, hg', st.mono t2, st'⟩
  rcases c with _ | (b | xss)
  · unfold ResEnds at hE
    by_cases hm : ∃ V i, r.type = .multi V i
    · obtain ⟨V, i, hm⟩ := hm
      rw [parts_of_multi hm] at hE
      refine two V i hm none none ⟨hE (i, "index(" ++ r.schema ++ ")") List.mem_cons_self, fun b h => (by cases h)⟩
        ⟨hE (r.name, r.schema) (List.mem_cons_of_mem _ List.mem_cons_self), fun b h => (by cases h)⟩ fun x w' h => ?_
      intro t
      unfold Yields
      rw [hm]
      rcases h with ⟨rfl | ⟨sl, rfl⟩ | ⟨sl, rfl⟩, _⟩ | ⟨_, _, _, _, _, _, _, h, _⟩
      · rfl
      · rfl
      · rfl
      · cases h
    · have hno : ∀ V i, r.type ≠ .multi V i := fun V i h => hm ⟨V, i, h⟩
      rw [parts_of_one hno] at hE
      exact one hno none rfl ⟨hE (r.name, r.schema) List.mem_cons_self, fun b h => (by cases h)⟩
  · exact one hE.1 (some b) rfl hE.2
  · obtain ⟨V, hm, hsh, hI, hD⟩ := hE
    refine two V (r.name ++ "_index") hm (some (indexBytes V.indexSize xss)) (some (encodeItems xss)) hI hD fun x w' h => ?_
    rcases h with ⟨rfl | ⟨sl, rfl⟩ | ⟨sl, rfl⟩, ho⟩ | ⟨sl, sl', b, b', y, y', rfl, hb, hb', hg, hg', st, st'⟩
    · exact .inl ⟨ho, fun _ => rfl⟩
    · exact .inl ⟨ho, fun _ => rfl⟩
    · exact .inl ⟨ho, fun _ => rfl⟩
    · cases hb; cases hb'
      refine .inr ⟨V, _, ⟨y, y'⟩, hm, fun t => ?_, ?_⟩
      · change ((watching s).deref (later t w') sl).bind _ = _
        rw [stay t st]
        change ((watching s).deref (later t w') sl').bind _ = _
        rw [stay t st']
        rfl
      · have s1 : soft (key (join o.path (r.name ++ "_index"))) → Soft r :=
          hS (r.name ++ "_index", "index(" ++ r.schema ++ ")") (by rw [parts_of_multi hm]; exact List.mem_cons_self)
        have s2 : soft (key (join o.path r.name)) → Soft r :=
          hS (r.name, r.schema) (by rw [parts_of_multi hm]; exact List.mem_cons_of_mem _ List.mem_cons_self)
        have up : ∀ {P : Prop} {b y : Bytes}, Glimpse P b y → Glimpse True b y := fun h => h.imp id fun h => ⟨trivial, h.2⟩
        rcases hg with rfl | hg
        · rcases hg' with rfl | hg'
          · exact .inl hsh
          · exact .inr ⟨s2 hg'.1, .inl rfl, up (.inr hg')⟩
        · exact .inr ⟨s1 hg.1, up (.inr hg), up hg'⟩

theorem sees_openResources (ht : Tends soft s F) {o : Obj} : ∀ {rs : List ResDecl} {cs : List (Option Payload)} {w : FileW}, Seen s w →
    AllEnd F o.path rs cs → (∀ r ∈ rs, ∀ q ∈ parts r, soft (key (join o.path q.1)) → Soft r) →
    Sees s (openResources (watching s) p e o rs) w fun xs w' => AllGlimpsed s w' Soft rs xs cs
  | [], [], _, hs, _, _ => .pure hs trivial
  | r :: rs, c :: cs, w, hs, h, hS => by
    unfold openResources
    refine (sees_openResource ht hs h.1 (hS r List.mem_cons_self)).bind fun x w1 s1 t1 g1 =>
      (sees_openResources ht s1 h.2 fun r hr => hS r (List.mem_cons_of_mem _ hr)).bind fun xs w2 s2 t2 g2 => .pure s2 ⟨Flatdata.Glimpsed.mono g1 t2, g2⟩
  | [], _ :: _, _, _, h, _ => h.elim
  | _ :: _, [], _, _, h, _ => h.elim

omit [DiffLib] in
theorem sees_subdir {w : FileW} (hs : Seen s w) (o : Obj) (d : String) :
    Sees s (FileSt.subdir o d) w fun o' _ => o'.path = join o.path d := by
  refine ⟨fun i p k n h => ?_, Nat.le_refl _, .inl ⟨_, rfl, rfl⟩⟩
  change upd w.maps w.next (fun _ => none) i p = some (k, n) at h
  by_cases hi : i = w.next
  · rw [hi, upd_same] at h; cases h
  · rw [upd_other _ _ hi] at h; exact hs _ _ _ _ h

mutual
theorem sees_openArchive (ht : Tends soft s F) : ∀ (D : ArchiveDef) {c : Content} {o : Obj} {w : FileW}, Seen s w → Ends F D o.path c →
    (∀ ds r q, ResAt D ds r → q ∈ parts r → soft (key (join (ds.foldl join o.path) q.1)) → Soft r) →
    Sees s (openArchive (watching s) p e o D) w fun a w' => ArchiveGlimpsed s w' Soft D a c
  | .mk name schema rs subs, .mk cs ts, o, w, hs, h, hS => by
    unfold Ends at h
    unfold openArchive
    refine (sees_read ht hs h.1).bind fun _ w1 s1 _ _ => (sees_openResources ht s1 h.2.1 fun r hr q hq => hS [] r q (.res hr) hq).bind
      fun xs w2 s2 t2 g2 => (sees_openSubs ht subs s2 h.2.2 fun x hx ds r q hr hq => hS (x.1 :: ds) r q (.sub (D := .mk name schema rs subs) hx hr) hq).bind
      fun ss w3 s3 t3 g3 => .pure s3 ?_
    unfold ArchiveGlimpsed
    exact ⟨AllGlimpsed.mono g2 t3, g3⟩

theorem sees_openSubs (ht : Tends soft s F) : ∀ (subs : SubDefs) {ts : SubContents} {o : Obj} {w : FileW}, Seen s w → SubsEnd F subs o.path ts →
    (∀ x ∈ SubDefs.entries subs, ∀ ds r q, ResAt x.2 ds r → q ∈ parts r → soft (key (join ((x.1 :: ds).foldl join o.path) q.1)) → Soft r) →
    Sees s (openSubs (watching s) p e o subs) w fun ss w' => SubsGlimpsed s w' Soft subs ss ts
  | .nil, .nil, _, _, hs, _, _ => by
    unfold openSubs
    exact .pure hs (by unfold SubsGlimpsed; trivial)
  | .cons name optional D rest, .cons c ts, o, w, hs, h, hS => by
    unfold SubsEnd at h
    unfold openSubs
    have inner : ∀ o' w1, Seen s w1 → o'.path = join o.path name → Sees s (openArchive (watching s) p e o' D) w1 fun a w' =>
        match c with
        | some c => ArchiveGlimpsed s w' Soft D a c
        | none => False := by
      intro o' w1 s1 hp
      have h1 := h.1
      cases c with
      | some c =>
        refine sees_openArchive ht D s1 (by rw [hp]; exact h1) fun ds r q hr hq => ?_
        rw [hp]
        exact hS (name, D) List.mem_cons_self ds r q hr hq
      | none =>
        cases D with
        | mk n sch rs subs =>
          unfold openArchive
          have hF : EndsAs F (key (join o'.path (n ++ ".archive"))) none := ⟨by rw [hp]; exact h1, fun b hb => (by cases hb)⟩
          refine (sees_read ht s1 hF).bind fun _ w2 s2 _ hq => ?_
          obtain ⟨b, y, hb, _⟩ := hq
          cases hb
    refine Sees.bind (Sees.mapErr (sees_subdir hs o name)) fun o' w1 s1 t1 hp => (inner o' w1 s1 hp).checkRes.bind fun a w2 s2 t2 g2 =>
      (sees_openSubs ht rest s2 h.2 fun x hx => hS x (List.mem_cons_of_mem _ hx)).bind fun ss w3 s3 t3 g3 => .pure s3 ?_
    unfold SubsGlimpsed
    refine ⟨?_, g3⟩
    rcases g2 with ⟨rfl, hopt⟩ | ⟨a, rfl, g2⟩
    · cases c with
      | none => trivial
      | some c => exact hopt
    · cases c with
      | none => exact g2
      | some c => exact ArchiveGlimpsed.mono g2 t3
  | .nil, .cons _ _, _, _, _, h, _ => by unfold SubsEnd at h; exact h.elim
  | .cons _ _ _ _, .nil, _, _, _, h, _ => by unfold SubsEnd at h; exact h.elim
end

/-! ## what there is in the end -/

omit [DiffLib] in
theorem FixedAs.ends {o : (Kind.backend .disk).Obj} {r : ResDecl} {w : (Kind.backend .disk).W} {x : Payload} (h : FixedAs .disk o r w x) :
    ResEnds (w : FileW).fs.files (o : Obj).path r (some x) := by
  have ends : ∀ {n sch : String} {b : Bytes}, Fixed .disk o n sch b w → EndsAs (w : FileW).fs.files (key (join (o : Obj).path n)) (some b) :=
    fun h => ⟨h.files.data, fun b hb => (by cases hb; exact h.small)⟩
  cases x with
  | bytes b => exact ⟨h.1, ends h.2⟩
  | items xss =>
    obtain ⟨V, h1, h2, h3, h4⟩ := h
    exact ⟨V, h1, h4, ends h2, ends h3⟩

section
variable {w : (Kind.backend .disk).W}

theorem Spec.AllBuilt.ends {o : (Kind.backend .disk).Obj} : ∀ {rs : List ResDecl} {cs : List (Option Payload)}, AllBuilt .disk p e o w rs cs →
    AllEnd (w : FileW).fs.files (o : Obj).path rs cs
  | [], [], _ => trivial
  | _ :: _, some _ :: _, h => ⟨(fixed_written h.1).ends, AllBuilt.ends h.2⟩
  | _ :: _, none :: _, h => ⟨fun q hq => (h.1.2 q hq).1, AllBuilt.ends h.2⟩
  | [], _ :: _, h => h.elim
  | _ :: _, [], h => h.elim

mutual
theorem Spec.Built.ends : ∀ {D : ArchiveDef} {o : (Kind.backend .disk).Obj} {c : Content}, Built .disk p e w D o c →
    Ends (w : FileW).fs.files D (o : Obj).path c
  | .mk name schema rs subs, o, .mk cs ts, h => by
    unfold Built at h
    unfold Ends
    have hx := fixed_signed h.1
    exact ⟨⟨hx.files.data, fun b hb => (by cases hb; decide)⟩, AllBuilt.ends h.2.1, SubsBuilt.ends h.2.2⟩

theorem Spec.SubsBuilt.ends : ∀ {D : SubDefs} {o : (Kind.backend .disk).Obj} {c : SubContents}, SubsBuilt .disk p e w D o c →
    SubsEnd (w : FileW).fs.files D (o : Obj).path c
  | .nil, _, .nil, _ => by unfold SubsEnd; trivial
  | .cons name optional D rest, o, .cons none ts, h => by
    unfold SubsBuilt at h
    unfold SubsEnd
    refine ⟨?_, SubsBuilt.ends h.2⟩
    have h1 := h.1.2
    cases D
    unfold NotStored at h1
    exact h1.1
  | .cons name optional D rest, o, .cons (some c) ts, h => by
    unfold SubsBuilt at h
    unfold SubsEnd
    obtain ⟨⟨o', w1, w2, hsd, hst, hb⟩, h2⟩ := h
    refine ⟨?_, SubsBuilt.ends h2⟩
    have hp : (o' : Obj).path = join (o : Obj).path name := by cases hsd; rfl
    change Ends _ D (join (o : Obj).path name) c
    rw [← hp]
    exact Built.ends hb
  | .nil, _, .cons _ _, h => by unfold SubsBuilt at h; exact h.elim
  | .cons _ _ _ _, _, .nil, h => by unfold SubsBuilt at h; exact h.elim
end
end

/-! ## files that are written step by step -/

section
omit [DiffLib]

theorem softAt_res {prog : Prog} {ds : List String} {n : String} (h : SoftAt prog ds n) : ∀ {D : ArchiveDef} {c : Content}, Separate D →
    Prepares p e D prog c → ∃ r q, ResAt D ds r ∧ q ∈ parts r ∧ q.1 = n ∧ Staged prog r := by
  induction h with
  | @res prog x q hx hs hq =>
    intro D c hD hc
    refine ⟨x.1, q, .res (hc.mem.1 x hx), hq, rfl, ?_⟩
    obtain ⟨r, s⟩ := x
    cases s with
    | elements es => exact .elements hx
    | items its => exact .items hx
    | struct _ => exact hs.elim
    | data _ => exact hs.elim
  | @sub prog x ds n hx h ih =>
    intro D c hD hc
    obtain ⟨hi, c', hc'⟩ := (hc.level hD).1.inner x hx
    obtain ⟨r, q, h1, h2, h3, h4⟩ := ih hi hc'
    exact ⟨r, q, .sub (x := (x.1, x.2.1)) (hc.mem.2 x hx) h1, h2, h3, .sub hx h4⟩

theorem Spec.Separate.sub {D : ArchiveDef} (h : Separate D) : ∀ x ∈ SubDefs.entries D.subs, Separate x.2 := by
  cases D
  unfold Separate at h
  exact separate_entry h.2.2

theorem Spec.Separate.plain {D : ArchiveDef} (h : Separate D) :
    (∀ n ∈ files D, PlainName n) ∧ ∀ x ∈ SubDefs.entries D.subs, PlainName x.1 := by
  cases D
  unfold Separate at h
  exact ⟨fun n hn => h.1 n (List.mem_append_left _ hn), fun x hx => h.1 _ (List.mem_append_right _ (List.mem_map.mpr ⟨x, hx, rfl⟩))⟩

theorem resAt_plain {D : ArchiveDef} {ds : List String} {r : ResDecl} (h : ResAt D ds r) :
    Separate D → ∀ q ∈ parts r, (∀ d ∈ ds, PlainName d) ∧ PlainName q.1 := by
  induction h with
  | res h => exact fun hs q hq => ⟨fun _ h => (by cases h), hs.plain.1 _ (res_mem_files h (part_mem_resFiles hq).1)⟩
  | @sub D x ds r h hr ih =>
    intro hs q hq
    obtain ⟨h1, h2⟩ := ih (hs.sub x h) q hq
    refine ⟨fun d hd => ?_, h2⟩
    rcases List.mem_cons.mp hd with rfl | hd
    · exact hs.plain.2 x h
    · exact h1 d hd

theorem flatMap_unique {α β : Type} {f : α → List β} : ∀ {l : List α}, (l.flatMap f).Nodup → ∀ {a b : α} {n : β}, a ∈ l → b ∈ l →
    n ∈ f a → n ∈ f b → a = b
  | x :: l, hn, a, b, n, ha, hb, h1, h2 => by
    rw [List.flatMap_cons] at hn
    obtain ⟨_, n2, n3⟩ := List.nodup_append.mp hn
    rcases List.mem_cons.mp ha with ha | ha <;> rcases List.mem_cons.mp hb with hb | hb
    · rw [ha, hb]
    · rw [ha] at h1
      exact absurd rfl (n3 n h1 n (List.mem_flatMap.mpr ⟨b, hb, h2⟩))
    · rw [hb] at h2
      exact absurd rfl (n3 n h2 n (List.mem_flatMap.mpr ⟨a, ha, h1⟩))
    · exact flatMap_unique n2 ha hb h1 h2

theorem map_unique {α β : Type} {f : α → β} : ∀ {l : List α}, (l.map f).Nodup → ∀ {a b : α}, a ∈ l → b ∈ l → f a = f b → a = b
  | x :: l, hn, a, b, ha, hb, h => by
    rw [List.map_cons, List.nodup_cons] at hn
    rcases List.mem_cons.mp ha with ha | ha <;> rcases List.mem_cons.mp hb with hb | hb
    · rw [ha, hb]
    · rw [ha] at h
      exact absurd (List.mem_map.mpr ⟨b, hb, h.symm⟩) hn.1
    · rw [hb] at h
      exact absurd (List.mem_map.mpr ⟨a, ha, h⟩) hn.1
    · exact map_unique hn.2 ha hb h

theorem resAt_unique {D : ArchiveDef} {ds : List String} {r r' : ResDecl} (h : ResAt D ds r) : Separate D → ResAt D ds r' →
    ∀ q ∈ parts r, ∀ q' ∈ parts r', q.1 = q'.1 → r = r' := by
  induction h with
  | @res D r h =>
    intro hs h' q hq q' hq' he
    cases h' with
    | res h' =>
      cases D
      unfold Separate at hs
      have nd := (List.nodup_append.mp hs.2.1).1
      rw [files_eq, List.nodup_cons, List.nodup_cons] at nd
      exact flatMap_unique nd.2.2 h h' (part_mem_resFiles hq).1 (he ▸ (part_mem_resFiles hq').1)
  | @sub D x ds r h hr ih =>
    intro hs h' q hq q' hq' he
    generalize hd : x.1 :: ds = ds' at h'
    cases h' with
    | res h' => cases hd
    | @sub _ y ds2 _ hy hr' =>
      simp only [List.cons.injEq] at hd
      obtain ⟨hd1, rfl⟩ := hd
      have hxy : x = y := by
        cases D
        unfold Separate at hs
        exact map_unique (List.nodup_append.mp hs.2.1).2.1 h hy hd1
      subst hxy
      exact ih (hs.sub x h) hr' q hq q' hq' he
end

/-- The files that a program writes step by step, seen from a directory. -/
def softKeys (prog : Prog) (P : Path) (k : Key) : Prop := ∃ ds n, SoftAt prog ds n ∧ k = key (join (ds.foldl join P) n)

omit [DiffLib] in
theorem softKeys_staged {D : ArchiveDef} {prog : Prog} {c : Content} {P : Path} (hs : Separate D) (hc : Prepares p e D prog c) {ds : List String}
    {r : ResDecl} {q : String × String} (hr : ResAt D ds r) (hq : q ∈ parts r) (h : softKeys prog P (key (join (ds.foldl join P) q.1))) :
    Staged prog r := by
  obtain ⟨ds', n, h1, h2⟩ := h
  obtain ⟨r', q', h3, h4, rfl, h5⟩ := softAt_res h1 hs hc
  obtain ⟨p1, p2⟩ := resAt_plain hr hs q hq
  obtain ⟨p3, p4⟩ := resAt_plain h3 hs q' h4
  obtain ⟨rfl, he⟩ := key_spot_inj p1 p2 p3 p4 h2
  rw [resAt_unique hr hs h3 q hq q' h4 he]
  exact h5

/-- Opening an archive that another process is building: an error, or an archive that shows at least what has been announced. -/
theorem open_shared {p' : Profile} {e' : Endian} {D : ArchiveDef} {prog : Prog} {c : Content} {o : (Kind.backend .disk).Obj}
    {w w' : (Kind.backend .disk).W} (hs : Separate D) (hc : Prepares p e D prog c) (hr : Kind.Reachable .disk w) (ho : Kind.alive .disk w o)
    (hv : Kind.Vacant .disk D w o) (hcl : Clean w) (hb : buildArchive (Kind.backend .disk) p e o D prog w = (.ok (), w'))
    (hw : Watches s (buildArchive file p e o D prog) w) {o1 : Obj} {w1 : FileW} (hm : ∀ i q, w1.maps i q = none) (hp : o1.path = (o : Obj).path)
    (hS : ∀ r, Staged prog r → Soft r) :
    Sees s (openArchive (watching s) p' e' o1 D) w1 fun a w' => ArchiveGlimpsed s w' Soft D a c := by
  have adv := buildArchive_advances (soft := softKeys prog (o : Obj).path) (fun ds n h => ⟨ds, n, h, rfl⟩) hs hc hr ho hv hcl
  obtain ⟨f1, f2⟩ := adv.watched (tame_build o D prog) hcl hw
  have hb' : buildArchive file p e o D prog w = (.ok (), w') := hb
  have ends := (buildArchive_built hs hc hr ho hv hb).ends
  refine sees_openArchive ⟨f1, fun t => ?_⟩ D (F := (w' : FileW).fs.files) (fun i q k n h => ?_) (by rw [hp]; exact ends) fun ds r q h1 h2 h3 => hS r ?_
  · have := f2 t
    rw [hb'] at this
    exact this
  · rw [hm] at h; cases h
  · rw [hp] at h3
    exact softKeys_staged hs hc h1 h2 h3

end Flatdata
