import Verif.Proofs.LawsFile
import Verif.Spec.World
import Verif.Proofs.Header
import Verif.Proofs.Paths
/-!
# Generic proofs about the default methods of `ResourceStorage`
-/
namespace Flatdata
open Spec

/-- Everything observable at location `l` is the same in `w'` as in `w`. -/
structure Keeps {B : Backend} (L : Laws B) (w w' : B.W) (l : L.Loc) : Prop where
  medium : L.medium w' l = L.medium w l
  streams : ∀ s, L.live w s → L.sloc w s = l → L.live w' s ∧ L.sloc w' s = l ∧ L.pos w' s = L.pos w s
  cache : ∀ o n, L.loc o n = l → L.cache w' o n = L.cache w o n
  content : ∀ b, L.bloc b = l → B.content w' b = B.content w b

namespace Keeps
variable {B : Backend} {L : Laws B}

theorem refl (w : B.W) (l : L.Loc) : Keeps L w w l :=
  ⟨rfl, fun _ h1 h2 => ⟨h1, h2, rfl⟩, fun _ _ _ => rfl, fun _ _ => rfl⟩

theorem trans {a b c : B.W} {l : L.Loc} (h : Keeps L a b l) (k : Keeps L b c l) : Keeps L a c l :=
  ⟨k.medium.trans h.medium,
   fun s h1 h2 => by
     obtain ⟨x, y, z⟩ := h.streams s h1 h2
     obtain ⟨x', y', z'⟩ := k.streams s x y
     exact ⟨x', y', z'.trans z⟩,
   fun o n hl => (k.cache o n hl).trans (h.cache o n hl),
   fun b hb => (k.content b hb).trans (h.content b hb)⟩

theorem read {o : B.Obj} {n : String} {w w' : B.W} {r} {l : L.Loc} (h : B.readResource o n w = (r, w'))
    (hl : l ≠ L.loc o n) : Keeps L w w' l := by
  obtain ⟨a, b, c, d, _⟩ := L.read_keeps h
  exact ⟨a l, fun s h1 h2 => by obtain ⟨x, y, z⟩ := b s h1; exact ⟨x, y.trans h2, z⟩,
    fun o' n' hl' => c o' n' (by rw [hl']; exact hl), fun b hb => d b (.inl (by rw [hb]; exact hl))⟩

theorem create {o : B.Obj} {n : String} {w w' : B.W} {r} {l : L.Loc} (h : B.createOutputStream o n w = (r, w'))
    (hl : l ≠ L.loc o n) : Keeps L w w' l := by
  obtain ⟨a, b, c, d, _⟩ := L.create_keeps h
  exact ⟨a l hl, fun s h1 h2 => by obtain ⟨x, y, z⟩ := b s h1; exact ⟨x, y.trans h2, z⟩,
    fun o' n' hl' => c o' n', fun b hb => d b (by rw [hb]; exact hl)⟩

theorem write {s : B.Strm} {b : Bytes} {w w' : B.W} {r} {l : L.Loc} (hs : L.live w s) (h : B.writeAll s b w = (r, w'))
    (hl : l ≠ L.sloc w s) : Keeps L w w' l := by
  obtain ⟨a, b, c, d, _⟩ := L.write_keeps hs h
  exact ⟨a l hl, fun s h1 h2 => by obtain ⟨x, y, z⟩ := b s h1; exact ⟨x, y.trans h2, z (by rw [h2]; exact hl)⟩,
    fun o' n' hl' => c o' n', fun b hb => d b (by rw [hb]; exact hl)⟩

theorem seek {s : B.Strm} {w w' : B.W} {r} {l : L.Loc} (hs : L.live w s) (h : B.seekStart s w = (r, w'))
    (hl : l ≠ L.sloc w s) : Keeps L w w' l := by
  obtain ⟨a, b, c, d, _⟩ := L.seek_keeps hs h
  exact ⟨a l, fun s h1 h2 => by obtain ⟨x, y, z⟩ := b s h1; exact ⟨x, y.trans h2, z (by rw [h2]; exact hl)⟩,
    fun o' n' hl' => c o' n', fun b hb => d b⟩

end Keeps

/-- `w'` differs from `w` only at the locations in `P`; in particular no cache entry changed. -/
structure Only {B : Backend} (L : Laws B) (w w' : B.W) (P : L.Loc → Prop) : Prop where
  keeps : ∀ l, ¬ P l → Keeps L w w' l
  cache : ∀ o n, L.cache w' o n = L.cache w o n
  noFault : L.noFault w → L.noFault w'

namespace Only
variable {B : Backend} {L : Laws B}

theorem refl (w : B.W) (P : L.Loc → Prop) : Only L w w P := ⟨fun _ _ => .refl w _, fun _ _ => rfl, id⟩

theorem trans {a b c : B.W} {P : L.Loc → Prop} (h : Only L a b P) (k : Only L b c P) : Only L a c P :=
  ⟨fun l hl => (h.keeps l hl).trans (k.keeps l hl), fun o n => (k.cache o n).trans (h.cache o n),
    fun x => k.noFault (h.noFault x)⟩

theorem mono {a b : B.W} {P Q : L.Loc → Prop} (h : Only L a b P) (hPQ : ∀ l, P l → Q l) : Only L a b Q :=
  ⟨fun l hl => h.keeps l (fun hp => hl (hPQ l hp)), h.cache, h.noFault⟩

end Only

/-! ## Appending to a stream -/

/-- `s` is a stream at the end of location `l`, whose content is `c`. -/
structure Appending {B : Backend} (L : Laws B) (w : B.W) (s : B.Strm) (l : L.Loc) (c : Bytes) : Prop where
  live : L.live w s
  sloc : L.sloc w s = l
  medium : L.medium w l = some c
  pos : L.pos w s = c.length

theorem putAt_end (c b : Bytes) : putAt c c.length b = c ++ b := by
  unfold putAt
  by_cases h : b = []
  · simp [h]
  · simp [h, List.drop_of_length_le (show c.length ≤ c.length + b.length by omega)]

theorem putAt_inside (c b : Bytes) : putAt c 0 b = b ++ c.drop b.length := by
  unfold putAt
  by_cases h : b = [] <;> simp [h]

section
variable {B : Backend} {L : Laws B}

theorem Appending.keeps {w w' : B.W} {s l c} (h : Appending L w s l c) (k : Keeps L w w' l) : Appending L w' s l c := by
  obtain ⟨a, b, d⟩ := k.streams s h.live h.sloc
  exact ⟨a, b, k.medium.trans h.medium, d.trans h.pos⟩

theorem append_step {w : B.W} {s l c} (h : Appending L w s l c) (b : Bytes) :
    (∃ w', B.writeAll s b w = (.ok (), w') ∧ Appending L w' s l (c ++ b) ∧ Only L w w' (· = l)) ∨
    (∃ e b' w', B.writeAll s b w = (.err e, w') ∧ b' <+: b ∧ Appending L w' s l (c ++ b') ∧ Only L w w' (· = l) ∧
      ¬ L.noFault w) := by
  have hm : L.medium w (L.sloc w s) = some c := by rw [h.sloc]; exact h.medium
  have only : ∀ {r w'}, B.writeAll s b w = (r, w') → Only L w w' (· = l) := by
    intro r w' hw
    refine ⟨fun l' hl' => .write h.live hw (by rw [h.sloc]; exact hl'), ?_, ?_⟩
    · exact (L.write_keeps h.live hw).2.2.1
    · exact (L.write_keeps h.live hw).2.2.2.2
  have stay : ∀ {r w'}, B.writeAll s b w = (r, w') → L.live w' s ∧ L.sloc w' s = l := by
    intro r w' hw
    obtain ⟨x, y, _⟩ := (L.write_keeps h.live hw).2.1 s h.live
    exact ⟨x, y.trans h.sloc⟩
  rcases L.write_total b h.live (by rw [hm]; simp) with ⟨w', hw⟩ | ⟨e, w', hw⟩
  · refine .inl ⟨w', hw, ?_, only hw⟩
    obtain ⟨m, q⟩ := L.write_ok h.live hm hw
    rw [h.pos, putAt_end, h.sloc] at m
    exact ⟨(stay hw).1, (stay hw).2, m, by rw [q, h.pos]; simp⟩
  · obtain ⟨b', hp, m, q⟩ := L.write_err h.live hm hw
    rw [h.pos, putAt_end, h.sloc] at m
    refine .inr ⟨e, b', w', hw, hp, ⟨(stay hw).1, (stay hw).2, m, by rw [q, h.pos]; simp⟩, only hw, ?_⟩
    intro hn
    obtain ⟨w'', hw'⟩ := L.write_noFault (b := b) h.live (by rw [hm]; simp) hn
    rw [hw] at hw'; cases hw'

theorem create_step (o : B.Obj) (n : String) (w : B.W) (hf : L.fresh (L.medium w (L.loc o n))) :
    (∃ s w', B.createOutputStream o n w = (.ok s, w') ∧ Appending L w' s (L.loc o n) [] ∧ Only L w w' (· = L.loc o n)) ∨
    (∃ e w', B.createOutputStream o n w = (.err e, w') ∧ Only L w w' (· = L.loc o n) ∧
      (L.medium w' (L.loc o n) = L.medium w (L.loc o n) ∨ L.medium w' (L.loc o n) = some [])) := by
  have only : ∀ {r w'}, B.createOutputStream o n w = (r, w') → Only L w w' (· = L.loc o n) := by
    intro r w' hw
    exact ⟨fun l' hl' => .create hw hl', (L.create_keeps hw).2.2.1, (L.create_keeps hw).2.2.2.2⟩
  rcases L.create_total o n w with ⟨s, w', h⟩ | ⟨e, w', h⟩
  · obtain ⟨a, b, c⟩ := L.create_ok h
    obtain ⟨d, q⟩ := c hf
    exact .inl ⟨s, w', h, ⟨a, b, d, by simpa using q⟩, only h⟩
  · exact .inr ⟨e, w', h, only h, L.create_err h⟩

/-- `write_size` as an append. -/
theorem writeSize_eq (p : Profile) (e : Endian) (s : B.Strm) {n : Nat} (h : n < 2 ^ 64) (w : B.W) :
    Storage.writeSize B p e n s w = B.writeAll s (le64 n) w := by
  unfold Storage.writeSize
  have : (Act.lift (writeBytes p e false (n : Int) (List.replicate 8 0#8) 0 64) : Act B.W IoErr Bytes) w = (.ok (le64 n), w) := by
    rw [writeBytes_header p e h]; rfl
  rw [Act.bind_ok this]

/-- Outcome of writing a whole resource at a place that is replaced on creation. -/
inductive WriteOutcome (L : Laws B) (o : B.Obj) (name schema : String) (data : Bytes) (w w' : B.W) : Res IoErr Unit → Prop
  | ok (hd : L.medium w' (L.loc o name) = some (image data))
      (hs : L.medium w' (L.loc o (Storage.schemaName name)) = some (strBytes schema)) :
      WriteOutcome L o name schema data w w' (.ok ())
  | untouched (e : IoErr) (hd : L.medium w' (L.loc o name) = L.medium w (L.loc o name))
      (hs : L.medium w' (L.loc o (Storage.schemaName name)) = L.medium w (L.loc o (Storage.schemaName name))) :
      WriteOutcome L o name schema data w w' (.err e)
  | part (e : IoErr) (c : Bytes) (hc : c <+: image data) (hd : L.medium w' (L.loc o name) = some c)
      (hs : c ≠ image data → L.medium w' (L.loc o (Storage.schemaName name)) = L.medium w (L.loc o (Storage.schemaName name)))
      (hs' : L.medium w' (L.loc o (Storage.schemaName name)) = L.medium w (L.loc o (Storage.schemaName name)) ∨
        ∃ t, t <+: strBytes schema ∧ L.medium w' (L.loc o (Storage.schemaName name)) = some t) :
      WriteOutcome L o name schema data w w' (.err e)

theorem writeToStream_spec (p : Profile) (e : Endian) {w : B.W} {s l} (h : Appending L w s l []) {data : Bytes}
    (hd : data.length < 2 ^ 64) :
    (∃ w', Storage.writeToStream B p e data s w = (.ok (), w') ∧ Appending L w' s l (image data) ∧ Only L w w' (· = l)) ∨
    (∃ x c w', Storage.writeToStream B p e data s w = (.err x, w') ∧ c <+: image data ∧ L.medium w' l = some c ∧
      Only L w w' (· = l) ∧ ¬ L.noFault w) := by
  have himg : image data = le64 data.length ++ (data ++ zeros 8) := by simp [image]
  unfold Storage.writeToStream
  rcases append_step h (le64 data.length) with ⟨w1, h1, a1, o1⟩ | ⟨x, b', w1, h1, hp, a1, o1, nf⟩
  · rw [Act.bind_ok ((writeSize_eq p e s hd w).trans h1)]
    rcases append_step a1 data with ⟨w2, h2, a2, o2⟩ | ⟨x, b', w2, h2, hp, a2, o2, nf⟩
    · rw [Act.bind_ok h2]
      unfold Storage.writePadding
      rcases append_step a2 (List.replicate paddingSize 0#8) with ⟨w3, h3, a3, o3⟩ | ⟨x, b', w3, h3, hp, a3, o3, nf⟩
      · exact .inl ⟨w3, h3, a3, (o1.trans o2).trans o3⟩
      · refine .inr ⟨x, _, w3, h3, ?_, a3.medium, (o1.trans o2).trans o3, fun hn => nf (o2.noFault (o1.noFault hn))⟩
        rw [himg, List.nil_append, List.append_assoc]
        exact (List.prefix_append_right_inj _).mpr ((List.prefix_append_right_inj _).mpr hp)
    · refine .inr ⟨x, _, w2, Act.bind_err h2, ?_, a2.medium, o1.trans o2, fun hn => nf (o1.noFault hn)⟩
      rw [himg, List.nil_append]
      exact (List.prefix_append_right_inj _).mpr (hp.trans (List.prefix_append _ _))
  · refine .inr ⟨x, _, w1, Act.bind_err ((writeSize_eq p e s hd w).trans h1), ?_, a1.medium, o1, nf⟩
    rw [himg, List.nil_append]
    exact hp.trans (List.prefix_append _ _)

theorem write_spec (p : Profile) (e : Endian) (o : B.Obj) (name schema : String) {data : Bytes} (w : B.W)
    (hd : data.length < 2 ^ 64) (hne : L.loc o (Storage.schemaName name) ≠ L.loc o name)
    (hf : L.fresh (L.medium w (L.loc o name))) (hf' : L.fresh (L.medium w (L.loc o (Storage.schemaName name)))) :
    ∃ r w', Storage.write B p e o name schema data w = (r, w') ∧ WriteOutcome L o name schema data w w' r ∧
      Only L w w' (fun l => l = L.loc o name ∨ l = L.loc o (Storage.schemaName name)) := by
  have m1 : ∀ {a b : B.W}, Only L a b (· = L.loc o name) →
      Only L a b (fun l => l = L.loc o name ∨ l = L.loc o (Storage.schemaName name)) := fun h => h.mono fun l => .inl
  have m2 : ∀ {a b : B.W}, Only L a b (· = L.loc o (Storage.schemaName name)) →
      Only L a b (fun l => l = L.loc o name ∨ l = L.loc o (Storage.schemaName name)) := fun h => h.mono fun l => .inr
  unfold Storage.write
  rcases create_step o name w hf with ⟨s, w1, h1, a1, o1⟩ | ⟨x, w1, h1, o1, c1⟩
  · rw [Act.bind_ok h1]
    have k1 := (o1.keeps _ hne).medium
    rcases writeToStream_spec p e a1 hd with ⟨w2, h2, a2, o2⟩ | ⟨x, c, w2, h2, hc, c2, o2, nf⟩
    · rw [Act.bind_ok h2]
      have k2 := (o2.keeps _ hne).medium
      rcases create_step o (Storage.schemaName name) w2 (by rw [k2, k1]; exact hf') with
        ⟨t, w3, h3, a3, o3⟩ | ⟨x, w3, h3, o3, c3⟩
      · rw [Act.bind_ok h3]
        have k3 := (o3.keeps _ hne.symm).medium
        unfold Storage.writeSchema
        rcases append_step a3 (strBytes schema) with ⟨w4, h4, a4, o4⟩ | ⟨x, b', w4, h4, hp, a4, o4, nf⟩
        · refine ⟨_, w4, h4, .ok ?_ a4.medium, ((m1 o1).trans (m1 o2)).trans ((m2 o3).trans (m2 o4))⟩
          rw [(o4.keeps _ hne.symm).medium, k3, a2.medium]
        · refine ⟨_, w4, h4, .part x _ List.prefix_rfl ?_ (fun h => absurd rfl h) (.inr ⟨_, hp, a4.medium⟩),
            ((m1 o1).trans (m1 o2)).trans ((m2 o3).trans (m2 o4))⟩
          rw [(o4.keeps _ hne.symm).medium, k3, a2.medium]
      · rw [Act.bind_err h3]
        refine ⟨_, w3, rfl, .part x _ List.prefix_rfl ?_ (fun h => absurd rfl h) ?_, ((m1 o1).trans (m1 o2)).trans (m2 o3)⟩
        · rw [(o3.keeps _ hne.symm).medium, a2.medium]
        · rcases c3 with c3 | c3
          · left; rw [c3, k2, k1]
          · exact .inr ⟨[], List.nil_prefix, c3⟩
    · rw [Act.bind_err h2]
      refine ⟨_, w2, rfl, .part x c hc c2 ?_ ?_, (m1 o1).trans (m1 o2)⟩
      · intro _; rw [(o2.keeps _ hne).medium, k1]
      · left; rw [(o2.keeps _ hne).medium, k1]
  · rw [Act.bind_err h1]
    have k1 := (o1.keeps _ hne).medium
    rcases c1 with c1 | c1
    · exact ⟨_, w1, rfl, .untouched x c1 k1, m1 o1⟩
    · exact ⟨_, w1, rfl, .part x [] List.nil_prefix c1 (fun _ => k1) (.inl k1), m1 o1⟩

/-! ## Reading -/

/-- What `read_and_check_schema` makes of the bytes of data and schema. -/
def verdict [DiffLib] (p : Profile) (name expected : String) (d c : Bytes) : Res RErr Bytes :=
  if d.length < 16 then .err .unexpectedDataSize
  else if 2 ^ 64 ≤ leNat (d.take 8) + 16 then (if p = .debug then .panic else .err .unexpectedDataSize)
  else if leNat (d.take 8) + 16 ≠ d.length then .err .unexpectedDataSize
  else match fromUtf8 c with
    | none => .err .utf8
    | some s =>
      if s ≠ expected then .err (.wrongSignature name (computeDiff s expected))
      else .ok ((d.drop 8).take (leNat (d.take 8)))

/-- A verdict on bytes, as a slice of the slice they came from. -/
def toSlice {Base : Type} (sd : Slice Base) : Res RErr Bytes → Res RErr (Slice Base)
  | .ok x => .ok ⟨sd.base, sd.off + 8, x.length⟩
  | .err e => .err e
  | .panic => .panic
  | .ub => .ub

theorem deref_length {w : B.W} {s : Slice B.Base} {d : Bytes} (h : B.deref w s = .ok d) : d.length = s.len := by
  unfold Backend.deref at h
  split at h
  · rename_i hl; cases h; simp; omega
  · cases h

theorem deref_sub {w : B.W} {s : Slice B.Base} {d : Bytes} (h : B.deref w s = .ok d) {a n : Nat} (hn : a + n ≤ s.len) :
    B.deref w ⟨s.base, s.off + a, n⟩ = .ok ((d.drop a).take n) := by
  unfold Backend.deref at h ⊢
  split at h
  · rename_i hl
    cases h
    rw [if_pos (by simp only; omega)]
    congr 1
    apply List.ext_getElem?
    intro i
    simp only [List.getElem?_take, List.getElem?_drop]
    by_cases hi : i < n
    · simp [hi, show a + i < s.len by omega, Nat.add_assoc]
    · simp [hi]
  · cases h

theorem load_ok {E : Type} {w : B.W} {s : Slice B.Base} {d : Bytes} (h : B.deref w s = .ok d) :
    (B.load s : Act B.W E Bytes) w = (.ok d, w) := by
  unfold Backend.load; rw [h]; rfl

theorem checkResource_spec [DiffLib] (p : Profile) (e : Endian) (name expected : String) {w : B.W} {sd ss : Slice B.Base}
    {d c : Bytes} (hd : B.deref w sd = .ok d) (hc : B.deref w ss = .ok c) :
    Storage.checkResource B p e name expected sd ss w = (toSlice sd (verdict p name expected d c), w) := by
  have hl := deref_length hd
  unfold Storage.checkResource verdict
  have hps : paddingSize = 8 := rfl
  by_cases h16 : d.length < 16
  · rw [if_pos (by rw [hps]; omega), if_pos h16]; rfl
  · rw [if_neg (by rw [hps]; omega), if_neg h16]
    have hh := deref_sub hd (a := 0) (n := 8) (by omega)
    rw [Nat.add_zero, List.drop_zero] at hh
    rw [Act.bind_ok (load_ok hh)]
    have h8 : (d.take 8).length = 8 := by simp; omega
    have e1 : (Act.lift (readBytes p e .u64 (d.take 8) 0 64) : Act B.W RErr Int) w = (.ok (leNat (d.take 8) : Int), w) := by
      rw [readBytes_header p e h8]; rfl
    rw [Act.bind_ok e1]
    simp only [Int.toNat_natCast]
    generalize hn : leNat (d.take 8) = n
    have hn64 : n < 2 ^ 64 := by
      have := leNat_lt (d.take 8)
      rw [h8, hn] at this
      exact this
    have final : ∀ {t : Nat}, (t ≠ sd.len ↔ n + 16 ≠ d.length) →
        ((if t ≠ sd.len then Act.fail .unexpectedDataSize
          else do
            let stored ← B.load ss
            Storage.checkSchema B name expected sd n stored : Act B.W RErr (Slice B.Base)) w) =
        (toSlice sd (if n + 16 ≠ d.length then .err .unexpectedDataSize
          else match fromUtf8 c with
          | none => .err .utf8
          | some s =>
            if s ≠ expected then .err (.wrongSignature name (computeDiff s expected))
            else .ok ((d.drop 8).take n)), w) := by
      intro t ht
      by_cases hne : n + 16 ≠ d.length
      · rw [if_pos hne, if_pos (ht.mpr hne)]; rfl
      · rw [if_neg hne, if_neg (fun h => hne (ht.mp h)), Act.bind_ok (load_ok hc)]
        unfold Storage.checkSchema
        cases fromUtf8 c with
        | none => rfl
        | some s =>
          dsimp only
          split
          · rfl
          · unfold Storage.payload
            rw [if_pos (by constructor <;> omega)]
            simp only [Act.lift_ok, toSlice]
            congr 4
            simp; omega
    by_cases hbig : 2 ^ 64 ≤ n + 16
    · rw [if_pos hbig]
      by_cases h1 : 2 ^ 64 ≤ n + 8
      · cases p with
        | debug =>
          rw [if_pos rfl]
          have e2 : (Act.lift (uadd .debug n 8) : Act B.W RErr Nat) w = (.panic, w) := by
            unfold uadd usizeMod; rw [if_neg (by omega)]; rfl
          rw [Act.bind_panic e2]; rfl
        | release =>
          rw [if_neg (by simp)]
          have e2 : (Act.lift (uadd .release n 8) : Act B.W RErr Nat) w = (.ok (n + 8 - 2 ^ 64), w) := by
            unfold uadd usizeMod; rw [if_neg (by omega)]
            simp only [Act.lift_ok]
            rw [show (n + 8) % 2 ^ 64 = n + 8 - 2 ^ 64 by omega]
          rw [Act.bind_ok e2]
          have e3 : (Act.lift (uadd .release (n + 8 - 2 ^ 64) paddingSize) : Act B.W RErr Nat) w = (.ok (n + 16 - 2 ^ 64), w) := by
            unfold uadd usizeMod paddingSize; rw [if_pos (by omega)]
            simp only [Act.lift_ok]
            rw [show n + 8 - 2 ^ 64 + 8 = n + 16 - 2 ^ 64 by omega]
          rw [Act.bind_ok e3, if_pos (by omega)]
          rfl
      · have e2 : (Act.lift (uadd p n 8) : Act B.W RErr Nat) w = (.ok (n + 8), w) := by
          unfold uadd usizeMod; rw [if_pos (by omega)]; rfl
        rw [Act.bind_ok e2]
        cases p with
        | debug =>
          rw [if_pos rfl]
          have e3 : (Act.lift (uadd .debug (n + 8) paddingSize) : Act B.W RErr Nat) w = (.panic, w) := by
            unfold uadd usizeMod paddingSize; rw [if_neg (by omega)]; rfl
          rw [Act.bind_panic e3]; rfl
        | release =>
          rw [if_neg (by simp)]
          have e3 : (Act.lift (uadd .release (n + 8) paddingSize) : Act B.W RErr Nat) w = (.ok (n + 16 - 2 ^ 64), w) := by
            unfold uadd usizeMod paddingSize; rw [if_neg (by omega)]
            simp only [Act.lift_ok]
            rw [show (n + 8 + 8) % 2 ^ 64 = n + 16 - 2 ^ 64 by omega]
          rw [Act.bind_ok e3, if_pos (by omega)]
          rfl
    · rw [if_neg hbig]
      have e2 : (Act.lift (uadd p n 8) : Act B.W RErr Nat) w = (.ok (n + 8), w) := by
        unfold uadd usizeMod; rw [if_pos (by omega)]; rfl
      have e3 : (Act.lift (uadd p (n + 8) paddingSize) : Act B.W RErr Nat) w = (.ok (n + 16), w) := by
        unfold uadd usizeMod paddingSize; rw [if_pos (by omega)]; rfl
      rw [Act.bind_ok e2, Act.bind_ok e3]
      exact final (by rw [hl])

/-- When the verdict on bytes is positive. -/
theorem verdict_ok [DiffLib] {p : Profile} {name expected : String} {d c x : Bytes} :
    verdict p name expected d c = .ok x ↔ Holds d x ∧ x.length + 16 < 2 ^ 64 ∧ c = strBytes expected := by
  unfold verdict
  constructor
  · intro h
    split at h
    · cases h
    · split at h
      · split at h <;> cases h
      · split at h
        · cases h
        · rename_i h1 h2 h3
          split at h
          · cases h
          · rename_i s hs
            split at h
            · cases h
            · rename_i h4
              cases h
              have h3' : leNat (d.take 8) + 16 = d.length := by simpa using h3
              have hlen : ((d.drop 8).take (leNat (d.take 8))).length = leNat (d.take 8) := by simp; omega
              refine ⟨⟨hlen.symm, by rw [hlen], by rw [hlen]; omega⟩, by rw [hlen]; omega, ?_⟩
              have h5 : s = expected := by simpa using h4
              rw [← h5]; exact (strBytes_of_fromUtf8 hs).symm
  · rintro ⟨h1, h2, rfl⟩
    rw [if_neg (by have := h1.length; omega), if_neg (by rw [h1.size]; omega), if_neg (by rw [h1.size, h1.length]; omega),
      fromUtf8_strBytes]
    simp only [ne_eq, not_true, if_false]
    rw [h1.size, h1.body]

/-- Reading a resource both parts of which come from slices with known content. -/
theorem read_from [DiffLib] (p : Profile) (e : Endian) {o : B.Obj} {name expected : String} {w w1 w2 : B.W}
    {sd ss : Slice B.Base} {d c : Bytes} (h1 : B.readResource o name w = (.ok sd, w1))
    (h2 : B.readResource o (Storage.schemaName name) w1 = (.ok ss, w2))
    (hd : B.deref w2 sd = .ok d) (hc : B.deref w2 ss = .ok c) :
    Storage.read B p e o name expected w = (toSlice sd (verdict p name expected d c), w2) := by
  unfold Storage.read
  rw [Act.bind_ok (FileSt.mapErr_ok h1), Act.bind_ok (FileSt.mapErr_ok h2)]
  exact checkResource_spec p e name expected hd hc

theorem deref_keeps {w w' : B.W} {s : Slice B.Base} (h : B.content w' s.base = B.content w s.base) :
    B.deref w' s = B.deref w s := by
  unfold Backend.deref; rw [h]

/-- A fresh read of one resource. -/
theorem readResource_new {o : B.Obj} {n : String} {w : B.W} {d : Bytes} (hn : L.noFault w)
    (hm : L.medium w (L.loc o n) = some d) (hc : L.cache w o n = none) (hr : L.readable d) :
    ∃ s w', B.readResource o n w = (.ok s, w') ∧ B.deref w' s = .ok d ∧ L.bloc s.base = L.loc o n := by
  obtain ⟨s, w', h⟩ := L.read_some hn hm hr
  refine ⟨s, w', h, ?_⟩
  obtain ⟨_, h1 | ⟨_, d', h2, h3, h4, h5, h6, _⟩⟩ := L.read_ok h
  · rw [hc] at h1; cases h1
  · rw [hm] at h2; cases h2
    refine ⟨?_, h5⟩
    unfold Backend.deref
    rw [h6, h3, h4, if_pos (by omega)]
    simp

/-- Reading a resource not read before. -/
theorem read_new [DiffLib] (p : Profile) (e : Endian) {o : B.Obj} {name expected : String} {w : B.W} {d c : Bytes}
    (hne : L.loc o (Storage.schemaName name) ≠ L.loc o name) (hn : L.noFault w)
    (hd : L.medium w (L.loc o name) = some d) (hc : L.medium w (L.loc o (Storage.schemaName name)) = some c)
    (hrd : L.readable d) (hrc : L.readable c)
    (hkd : L.cache w o name = none) (hkc : L.cache w o (Storage.schemaName name) = none) :
    ∃ sd w', Storage.read B p e o name expected w = (toSlice sd (verdict p name expected d c), w') ∧
      B.deref w' sd = .ok d ∧ L.bloc sd.base = L.loc o name := by
  obtain ⟨sd, w1, h1, d1, b1⟩ := readResource_new hn hd hkd hrd
  have k := L.read_keeps h1
  obtain ⟨ss, w2, h2, d2, b2⟩ := readResource_new (w := w1) (k.2.2.2.2 hn) ((k.1 _).trans hc)
    ((k.2.2.1 _ _ hne).trans hkc) hrc
  have d1' : B.deref w2 sd = .ok d := by
    rw [deref_keeps ((L.read_keeps h2).2.2.2.1 sd.base (.inl (by rw [b1]; exact hne.symm)))]; exact d1
  exact ⟨sd, w2, read_from p e h1 h2 d1' d2, d1', b1⟩

/-- ... successfully. -/
theorem read_new_ok [DiffLib] (p : Profile) (e : Endian) {o : B.Obj} {name schema : String} {w : B.W} {d x : Bytes}
    (hne : L.loc o (Storage.schemaName name) ≠ L.loc o name) (hn : L.noFault w)
    (hd : L.medium w (L.loc o name) = some d) (hc : L.medium w (L.loc o (Storage.schemaName name)) = some (strBytes schema))
    (hx : Holds d x) (hlen : x.length + 16 < 2 ^ 64) (hrc : L.readable (strBytes schema))
    (hkd : L.cache w o name = none) (hkc : L.cache w o (Storage.schemaName name) = none) :
    ∃ s w', Storage.read B p e o name schema w = (.ok s, w') ∧ B.deref w' s = .ok x := by
  have hrd : L.readable d := L.readable_of_ne d (by intro h; have := hx.length; rw [h] at this; simp at this)
  obtain ⟨sd, w', h1, h2, _⟩ := read_new (expected := schema) p e hne hn hd hc hrd hrc hkd hkc
  rw [verdict_ok.mpr ⟨hx, hlen, rfl⟩] at h1
  refine ⟨_, w', h1, ?_⟩
  have hl := deref_length h2
  rw [deref_sub h2 (by have := hx.length; omega), hx.body]

/-- A successful read of one resource not read before, whatever else fails. -/
theorem readResource_ok_new {o : B.Obj} {n : String} {w w' : B.W} {s : Slice B.Base} (hc : L.cache w o n = none)
    (h : B.readResource o n w = (.ok s, w')) :
    ∃ d, L.medium w (L.loc o n) = some d ∧ B.deref w' s = .ok d ∧ L.bloc s.base = L.loc o n := by
  obtain ⟨_, h2⟩ := L.read_ok h
  rcases h2 with h2 | ⟨_, d, hd, h3, h4, h5, h6, _⟩
  · rw [hc] at h2; cases h2
  · refine ⟨d, hd, ?_, h5⟩
    unfold Backend.deref
    rw [h6, h3, h4]; simp

/-- A successful read of a resource not read before: what must have been stored. -/
theorem read_ok_inv [DiffLib] {p : Profile} {e : Endian} {o : B.Obj} {name expected : String} {w w' : B.W} {s : Slice B.Base}
    (hne : L.loc o (Storage.schemaName name) ≠ L.loc o name)
    (hkd : L.cache w o name = none) (hkc : L.cache w o (Storage.schemaName name) = none)
    (h : Storage.read B p e o name expected w = (.ok s, w')) :
    ∃ d x, L.medium w (L.loc o name) = some d ∧ L.medium w (L.loc o (Storage.schemaName name)) = some (strBytes expected) ∧
      Holds d x ∧ B.deref w' s = .ok x := by
  have h0 := h
  unfold Storage.read at h
  obtain ⟨sd, w1, h1, h⟩ := Act.bind_eq_ok h
  obtain ⟨ss, w2, h2, h⟩ := Act.bind_eq_ok h
  have me : ∀ {n : String} {w w' : B.W} {s : Slice B.Base},
      (B.readResource o n).mapErr (RErr.io · name) w = (.ok s, w') → B.readResource o n w = (.ok s, w') := by
    intro n w w' s h
    unfold Act.mapErr at h
    split at h <;> cases h
    assumption
  have h1 := me h1
  have h2 := me h2
  obtain ⟨d, hd, e1, b1⟩ := readResource_ok_new hkd h1
  have k1 := L.read_keeps h1
  obtain ⟨c, hc, e2, b2⟩ := readResource_ok_new ((k1.2.2.1 _ _ hne).trans hkc) h2
  have k2 := L.read_keeps h2
  rw [k1.1] at hc
  have e1' : B.deref w2 sd = .ok d := by
    rw [deref_keeps (k2.2.2.2.1 sd.base (.inl (by rw [b1]; exact fun h => hne h.symm)))]; exact e1
  have hr := read_from p e h1 h2 e1' e2 (expected := expected)
  rw [h0] at hr
  cases hv : verdict p name expected d c with
  | ok x =>
    rw [hv] at hr
    cases hr
    obtain ⟨hx, _, hcc⟩ := verdict_ok.mp hv
    refine ⟨d, x, hd, by rw [hc, hcc], hx, ?_⟩
    rw [deref_sub e1' (by have := deref_length e1'; have := hx.length; omega), hx.body]
  | err x => rw [hv] at hr; cases hr
  | panic => rw [hv] at hr; cases hr
  | ub => rw [hv] at hr; cases hr

/-- All that matters for reading location `l` is the same in both states. -/
structure Same {B : Backend} (L : Laws B) (w w' : B.W) (l : L.Loc) : Prop where
  medium : L.medium w l = L.medium w' l
  cache : ∀ o n, L.loc o n = l → L.cache w o n = L.cache w' o n
  content : ∀ b, L.bloc b = l → B.content w b = B.content w' b

theorem Same.symm {w w' : B.W} {l : L.Loc} (h : Same L w w' l) : Same L w' w l :=
  ⟨h.medium.symm, fun o n hl => (h.cache o n hl).symm, fun b hb => (h.content b hb).symm⟩

theorem Same.trans {a b c : B.W} {l : L.Loc} (h : Same L a b l) (k : Same L b c l) : Same L a c l :=
  ⟨h.medium.trans k.medium, fun o n hl => (h.cache o n hl).trans (k.cache o n hl), fun b hb => (h.content b hb).trans (k.content b hb)⟩

theorem Keeps.same {w w' : B.W} {l : L.Loc} (h : Keeps L w w' l) : Same L w w' l :=
  ⟨h.medium.symm, fun o n hl => (h.cache o n hl).symm, fun b hb => (h.content b hb).symm⟩

/-- Reading gives the same at two states in which the location is the same. -/
theorem readResource_same {o : B.Obj} {n : String} {w w' : B.W} (hi : L.inv w) (hi' : L.inv w') (hn : L.noFault w)
    (hn' : L.noFault w') (k : Same L w w' (L.loc o n)) :
    (∃ s w1 w1', B.readResource o n w = (.ok s, w1) ∧ B.readResource o n w' = (.ok s, w1') ∧
      L.bloc s.base = L.loc o n ∧ B.content w1 s.base = B.content w1' s.base) ∨
    (∃ x x' w1 w1', B.readResource o n w = (.err x, w1) ∧ B.readResource o n w' = (.err x', w1')) := by
  cases hc : L.cache w o n with
  | some s =>
    have hc' := (k.cache o n rfl).symm.trans hc
    obtain ⟨w1, h1⟩ := L.read_cached hi hn hc
    obtain ⟨w1', h1'⟩ := L.read_cached hi' hn' hc'
    have hb := L.inv_bloc hi hc
    refine .inl ⟨s, w1, w1', h1, h1', hb, ?_⟩
    rw [(L.read_keeps h1).2.2.2.1 _ (.inr (by rw [hc]; simp)), (L.read_keeps h1').2.2.2.1 _ (.inr (by rw [hc']; simp))]
    exact k.content _ hb
  | none =>
    have hc' := (k.cache o n rfl).symm.trans hc
    cases hm : L.medium w (L.loc o n) with
    | none =>
      obtain ⟨x, w1, h1⟩ := L.read_none hm hc
      obtain ⟨x', w1', h1'⟩ := L.read_none (k.medium.symm.trans hm) hc'
      exact .inr ⟨x, x', w1, w1', h1, h1'⟩
    | some d =>
      have hm' := k.medium.symm.trans hm
      by_cases hr : L.readable d
      · obtain ⟨s, w1, h1⟩ := L.read_some hn hm hr
        obtain ⟨s', w1', h1'⟩ := L.read_some hn' hm' hr
        have r1 := (L.read_ok h1).2
        have r1' := (L.read_ok h1').2
        rcases r1 with r1 | ⟨_, d1, e1, o1, l1, b1, c1, _⟩
        · rw [hc] at r1; cases r1
        rcases r1' with r1' | ⟨_, d1', e1', o1', l1', b1', c1', _⟩
        · rw [hc'] at r1'; cases r1'
        rw [hm] at e1; cases e1
        rw [hm'] at e1'; cases e1'
        have hs : s' = s := by
          have hb : s'.base = s.base := L.bloc_inj (b1'.trans b1.symm)
          obtain ⟨sb, so, sl⟩ := s; obtain ⟨sb', so', sl'⟩ := s'
          simp only at hb o1 o1' l1 l1'
          rw [hb, o1, o1', l1, l1']
        rw [hs] at h1' c1'
        exact .inl ⟨s, w1, w1', h1, h1', b1, c1.trans c1'.symm⟩
      · have err : ∀ {w}, L.medium w (L.loc o n) = some d → L.cache w o n = none →
            ∃ x w1, B.readResource o n w = (.err x, w1) := by
          intro w hm hc
          rcases L.read_total o n w with ⟨s, w1, h⟩ | h
          · rcases (L.read_ok h).2 with r | ⟨_, d1, e1, _, _, _, _, r⟩
            · rw [hc] at r; cases r
            · rw [hm] at e1; cases e1; exact absurd r hr
          · exact h
        obtain ⟨x, w1, h1⟩ := err hm hc
        obtain ⟨x', w1', h1'⟩ := err hm' hc'
        exact .inr ⟨x, x', w1, w1', h1, h1'⟩

theorem deref_same {w w' : B.W} {s : Slice B.Base} (h : B.content w s.base = B.content w' s.base) :
    B.deref w s = B.deref w' s := by
  unfold Backend.deref; rw [h]

/-- The result of the checks depends on the content of the two slices only. -/
theorem checkResource_same [DiffLib] (p : Profile) (e : Endian) (name expected : String) {w w' : B.W} {sd ss : Slice B.Base}
    (hd : B.content w sd.base = B.content w' sd.base) (hs : B.content w ss.base = B.content w' ss.base) :
    (Storage.checkResource B p e name expected sd ss w).1 = (Storage.checkResource B p e name expected sd ss w').1 ∧
    (Storage.checkResource B p e name expected sd ss w).2 = w ∧
    ∀ s, (Storage.checkResource B p e name expected sd ss w).1 = .ok s → s.base = sd.base := by
  have lift_id : ∀ {E α : Type} (x : Out α) (w : B.W), (Act.lift x : Act B.W E α) w =
      ((match x with | .ok a => .ok a | .panic => .panic | .ub => .ub), w) := by
    intro E α x w; cases x <;> rfl
  have pay : ∀ n s, Storage.payload B sd n = .ok s → s.base = sd.base := by
    intro n s h; unfold Storage.payload at h; split at h <;> cases h; rfl
  have fin : ∀ n c,
      (Storage.checkSchema B name expected sd n c w).1 = (Storage.checkSchema B name expected sd n c w').1 ∧
      (Storage.checkSchema B name expected sd n c w).2 = w ∧
      ∀ s, (Storage.checkSchema B name expected sd n c w).1 = .ok s → s.base = sd.base := by
    intro n c
    unfold Storage.checkSchema
    cases fromUtf8 c with
    | none => exact ⟨rfl, rfl, fun s h => by cases h⟩
    | some t =>
      dsimp only
      by_cases ht : t ≠ expected
      · simp only [if_pos ht]; exact ⟨rfl, rfl, fun s h => by cases h⟩
      · simp only [if_neg ht]
        rw [lift_id, lift_id]
        cases hp : Storage.payload B sd n with
        | ok t => exact ⟨rfl, rfl, fun s h => by cases h; exact pay n t hp⟩
        | panic => exact ⟨rfl, rfl, fun s h => by cases h⟩
        | ub => exact ⟨rfl, rfl, fun s h => by cases h⟩
  unfold Storage.checkResource
  split
  · exact ⟨rfl, rfl, fun s h => by cases h⟩
  · simp only [Act.bind_def, Backend.load, lift_id]
    rw [← deref_same (s := ⟨sd.base, sd.off, 8⟩) hd]
    cases B.deref w ⟨sd.base, sd.off, 8⟩ with
    | panic => exact ⟨rfl, rfl, fun s h => by cases h⟩
    | ub => exact ⟨rfl, rfl, fun s h => by cases h⟩
    | ok header =>
      dsimp only
      cases readBytes p e .u64 header 0 64 with
      | panic => exact ⟨rfl, rfl, fun s h => by cases h⟩
      | ub => exact ⟨rfl, rfl, fun s h => by cases h⟩
      | ok size =>
        dsimp only
        cases uadd p size.toNat 8 with
        | panic => exact ⟨rfl, rfl, fun s h => by cases h⟩
        | ub => exact ⟨rfl, rfl, fun s h => by cases h⟩
        | ok t =>
          dsimp only
          cases uadd p t paddingSize with
          | panic => exact ⟨rfl, rfl, fun s h => by cases h⟩
          | ub => exact ⟨rfl, rfl, fun s h => by cases h⟩
          | ok t =>
            dsimp only
            split
            · exact ⟨rfl, rfl, fun s h => by cases h⟩
            · simp only [Act.bind_def, Backend.load, lift_id]
              rw [← deref_same (s := ss) hs]
              cases B.deref w ss with
              | panic => exact ⟨rfl, rfl, fun s h => by cases h⟩
              | ub => exact ⟨rfl, rfl, fun s h => by cases h⟩
              | ok c => exact fin _ _

theorem read_same [DiffLib] (p : Profile) (e : Endian) {o : B.Obj} {name expected : String} {w w' : B.W}
    (hne : L.loc o (Storage.schemaName name) ≠ L.loc o name) (hi : L.inv w) (hi' : L.inv w') (hn : L.noFault w)
    (hn' : L.noFault w') (k : Same L w w' (L.loc o name)) (ks : Same L w w' (L.loc o (Storage.schemaName name))) :
    SameRead B name (Storage.read B p e o name expected w) (Storage.read B p e o name expected w') := by
  have mok : ∀ {n : String} {w w' : B.W} {s : Slice B.Base}, B.readResource o n w = (.ok s, w') →
      (B.readResource o n).mapErr (RErr.io · name) w = (.ok s, w') := by
    intro n w w' s h; unfold Act.mapErr; rw [h]
  have merr : ∀ {n : String} {w w' : B.W} {x}, B.readResource o n w = (.err x, w') →
      (B.readResource o n).mapErr (RErr.io · name) w = (.err (.io x name), w') := by
    intro n w w' s h; unfold Act.mapErr; rw [h]
  unfold Storage.read
  rcases readResource_same hi hi' hn hn' k with ⟨sd, w1, w1', h1, h1', b1, c1⟩ | ⟨x, x', w1, w1', h1, h1'⟩
  · rw [Act.bind_ok (mok h1), Act.bind_ok (mok h1')]
    have ks1 : Same L w1 w1' (L.loc o (Storage.schemaName name)) :=
      ((Keeps.read h1 hne).same.symm.trans ks).trans (Keeps.read h1' hne).same
    rcases readResource_same (L.read_inv hi h1) (L.read_inv hi' h1') ((L.read_keeps h1).2.2.2.2 hn)
      ((L.read_keeps h1').2.2.2.2 hn') ks1 with ⟨ss, w2, w2', h2, h2', b2, c2⟩ | ⟨x, x', w2, w2', h2, h2'⟩
    · rw [Act.bind_ok (mok h2), Act.bind_ok (mok h2')]
      have c1' : B.content w2 sd.base = B.content w2' sd.base := by
        rw [(Keeps.read h2 (Ne.symm hne)).content _ b1, (Keeps.read h2' (Ne.symm hne)).content _ b1, c1]
      obtain ⟨q1, q2, q3⟩ := checkResource_same p e name expected c1' c2
      obtain ⟨_, q2', _⟩ := checkResource_same p e name expected c1'.symm c2.symm
      generalize hr : Storage.checkResource B p e name expected sd ss w2 = r at q1 q2 q3 ⊢
      generalize hr' : Storage.checkResource B p e name expected sd ss w2' = r' at q1 q2' ⊢
      obtain ⟨r, wr⟩ := r
      obtain ⟨r', wr'⟩ := r'
      simp only at q1 q2 q3 q2'
      subst q1 q2 q2'
      cases r with
      | ok s => exact .ok s _ _ (deref_same (by rw [q3 s rfl]; exact c1'))
      | err x => exact .err ..
      | panic => exact .panic ..
      | ub => exact .ub ..
    · rw [Act.bind_err (merr h2), Act.bind_err (merr h2')]; exact .io ..
  · rw [Act.bind_err (merr h1), Act.bind_err (merr h1')]; exact .io ..

end
end Flatdata
