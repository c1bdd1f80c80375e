import Std.Data.String.ToInt
import Verif.Props.StructsExact
import Verif.Proofs.Debug
/-!
# C15: exactly which structs are shown right
-/
namespace Flatdata
open Spec StructExact

namespace DebugExact

/-- The text before the last entry of a list, ... -/
def pre : List String → String
  | [] => ""
  | x :: l => x ++ ", " ++ pre l

/-- ... and behind its first. -/
def post : List String → String
  | [] => ""
  | x :: l => ", " ++ x ++ post l

theorem commaSep_cons (x : String) : ∀ l : List String, commaSep (x :: l) = x ++ post l
  | [] => by simp [commaSep, post]
  | y :: l => by
    change x ++ ", " ++ commaSep (y :: l) = x ++ (", " ++ y ++ post l)
    rw [commaSep_cons y l]
    simp only [String.append_assoc]

theorem commaSep_mid (x : String) (B : List String) : ∀ A : List String, commaSep (A ++ x :: B) = pre A ++ x ++ post B
  | [] => by rw [List.nil_append, commaSep_cons]; simp [pre]
  | a :: A => by
    have h : ∃ b l, A ++ x :: B = b :: l := by
      cases A with
      | nil => exact ⟨x, B, rfl⟩
      | cons b A => exact ⟨b, A ++ x :: B, rfl⟩
    obtain ⟨b, l, h⟩ := h
    have ih := commaSep_mid x B A
    rw [List.cons_append, h]
    change a ++ ", " ++ commaSep (b :: l) = a ++ ", " ++ pre A ++ x ++ post B
    rw [← h, ih]
    simp only [String.append_assoc]

/-- Lists that differ in one entry only have different texts. -/
theorem commaSep_inj {A B : List String} {x y : String} (h : commaSep (A ++ x :: B) = commaSep (A ++ y :: B)) : x = y := by
  rw [commaSep_mid, commaSep_mid, String.append_left_inj, String.append_right_inj] at h
  exact h

theorem getAll_congr {p : Profile} {e : Endian} {a b : Bytes} : ∀ fs : List Field, (∀ f ∈ fs, f.get p e a = f.get p e b) →
    getAll p e fs a = getAll p e fs b
  | [], _ => rfl
  | f :: fs, h => by
    simp only [getAll, h f (by simp), getAll_congr fs fun g hg => h g (by simp [hg])]

theorem getAll_reads {p : Profile} {e : Endian} {mem : Bytes} : ∀ {fs : List Field} {l : List Int}, getAll p e fs mem = .ok l → Readable p e fs mem
  | [], _, _ => fun _ h => by cases h
  | f :: fs, l, h => by
    unfold getAll at h
    rw [Out.bind_eq_ok] at h
    obtain ⟨x, hx, h⟩ := h
    rw [Out.bind_eq_ok] at h
    obtain ⟨xs, hxs, _⟩ := h
    intro g hg
    rcases List.mem_cons.mp hg with rfl | hg
    · exact ⟨x, hx⟩
    · exact getAll_reads hxs g hg

/-- The text in terms of what the getters return. -/
theorem debug_of {p : Profile} {e : Endian} {S : StructDef} {mem : Bytes} (val : Field → Int) (h : ∀ f ∈ S.fields, f.get p e mem = .ok (val f)) :
    S.debug p e mem = .ok (S.name ++ " { " ++ commaSep (S.fields.map fun f => f.name ++ ": " ++ shown f (val f)) ++ " }") := by
  have hall : ∀ fs : List Field, (∀ f ∈ fs, f.get p e mem = .ok (val f)) → getAll p e fs mem = .ok (fs.map val) := by
    intro fs
    induction fs with
    | nil => intro _; rfl
    | cons f fs ih =>
      intro h
      simp only [getAll, h f (by simp), ih fun g hg => h g (by simp [hg]), Out.ok_bind, List.map_cons]
  unfold StructDef.debug
  rw [hall S.fields h, Out.ok_bind, commaSep_eq]
  congr 4
  rw [List.zip_map_right, List.map_map]
  have : ∀ l : List Field, l.zip l = l.map fun x => (x, x) := by
    intro l; induction l with
    | nil => rfl
    | cons x l ih => simp [ih]
  rw [this, List.map_map]
  apply List.map_congr_left
  intro f _
  simp [showValue_eq]

/-- Texts of a struct that differ at most in the value of one field. -/
theorem text_inj {S : StructDef} (wf : WF S) {f : Field} (hf : f ∈ S.fields) {v w : Field → Int} (hv : ∀ g ∈ S.fields, g ≠ f → v g = w g)
    (h : S.name ++ " { " ++ commaSep (S.fields.map fun f => f.name ++ ": " ++ shown f (v f)) ++ " }" =
      S.name ++ " { " ++ commaSep (S.fields.map fun f => f.name ++ ": " ++ shown f (w f)) ++ " }") : shown f (v f) = shown f (w f) := by
  rw [String.append_left_inj, String.append_right_inj] at h
  obtain ⟨A, B, hAB⟩ := List.append_of_mem hf
  have hdis := wf.disjoint
  rw [hAB] at hdis
  have hne : ∀ g, g ∈ A ∨ g ∈ B → g ≠ f := by
    intro g hg hgf
    subst hgf
    have hpos := (wf.field g hf).pos
    have hself : ¬ Disjoint g g := by unfold Disjoint; omega
    rcases hg with hg | hg
    · exact hself ((List.pairwise_append.mp hdis).2.2 g hg g (by simp))
    · exact hself ((List.pairwise_cons.mp (List.pairwise_append.mp hdis).2.1).1 g hg)
  rw [hAB, List.map_append, List.map_cons, List.map_append, List.map_cons] at h
  have hA : ∀ g ∈ A, g.name ++ ": " ++ shown g (v g) = g.name ++ ": " ++ shown g (w g) := fun g hg => by
    rw [hv g (by rw [hAB]; simp [hg]) (hne g (.inl hg))]
  have hB : ∀ g ∈ B, g.name ++ ": " ++ shown g (v g) = g.name ++ ": " ++ shown g (w g) := fun g hg => by
    rw [hv g (by rw [hAB]; simp [hg]) (hne g (.inr hg))]
  rw [List.map_congr_left hA, List.map_congr_left hB] at h
  have := commaSep_inj h
  rwa [String.append_right_inj] at this

theorem toString_inj {a b : Int} (h : toString a = toString b) : a = b := Int.repr_injective h

theorem lookup_inj {l : List (Int × String)} (hn : (l.map Prod.snd).Nodup) (he : "" ∉ l.map Prod.snd) {a b : Int} (ha : a ∈ l.map Prod.fst)
    (h : (l.lookup a).getD "" = (l.lookup b).getD "") : a = b := by
  have hmem : ∀ {l : List (Int × String)} {a : Int} {s : String}, l.lookup a = some s → (a, s) ∈ l := by
    intro l a s
    induction l with
    | nil => intro h; cases h
    | cons x l ih =>
      obtain ⟨x, t⟩ := x
      rw [List.lookup_cons]
      by_cases hx : a = x
      · subst hx; simp; rintro rfl; exact .inl rfl
      · rw [show (a == x) = false by simpa using hx]
        intro h; simp [ih h]
  have hsome : ∀ {l : List (Int × String)} {a : Int}, a ∈ l.map Prod.fst → ∃ s, l.lookup a = some s := by
    intro l a
    induction l with
    | nil => intro h; cases h
    | cons x l ih =>
      obtain ⟨x, t⟩ := x
      intro h
      rw [List.lookup_cons]
      by_cases hx : a = x
      · subst hx; simp
      · rw [show (a == x) = false by simpa using hx]
        simp only [List.map_cons, List.mem_cons] at h
        exact ih (h.resolve_left hx)
  obtain ⟨s, hs⟩ := hsome ha
  rw [hs, Option.getD_some] at h
  have h1 := hmem hs
  cases hb : l.lookup b with
  | none =>
    rw [hb, Option.getD_none] at h
    subst h
    exact absurd (List.mem_map.mpr ⟨_, h1, rfl⟩) he
  | some t =>
    rw [hb, Option.getD_some] at h
    subst h
    have h2 := hmem hb
    have : ∀ {l : List (Int × String)}, (l.map Prod.snd).Nodup → (a, s) ∈ l → (b, s) ∈ l → a = b := by
      intro l
      induction l with
      | nil => intro _ h; cases h
      | cons x l ih =>
        intro hn h1 h2
        rw [List.map_cons, List.nodup_cons] at hn
        rcases List.mem_cons.mp h1 with h3 | h3 <;> rcases List.mem_cons.mp h2 with h4 | h4
        · exact congrArg Prod.fst (h3.trans h4.symm)
        · subst h3; exact absurd (List.mem_map.mpr ⟨(b, s), h4, rfl⟩) hn.1
        · subst h4; exact absurd (List.mem_map.mpr ⟨(a, s), h3, rfl⟩) hn.1
        · exact ih hn.2 h3 h4
    exact this hn h1 h2

/-- Zeros are read as zero, even by a field that straddles (if all of what is read is there). -/
theorem readInt_zeros {p : Profile} {e : Endian} {T : IntTy} {size o n : Nat} (hn : n ≤ T.bits) (hd : o + n ≤ 8 * size) (hs : ¬ NoStraddle o n) :
    readInt p e T (List.replicate size 0#8) o n = .ok 0 ∨ readInt p e T (List.replicate size 0#8) o n = .ub := by
  have hb := T.bits_cases
  have hw := straddle_iff.mp hs
  have hnb8 : numBytes o n = 8 := numBytes_wide hw.1 (by omega)
  have hmem : ((List.replicate size 0#8).drop (o / 8)).take 8 = List.replicate 8 0#8 := by
    rw [List.drop_replicate, List.take_replicate, Nat.min_eq_left (by omega)]
  have hzero : fromLe e (copyIntoZeroU64 e (List.replicate 8 0#8)) = 0#64 := by cases e <;> decide
  unfold readInt
  rw [if_neg (show n ≠ 1 by omega)]
  simp only [hnb8]
  rw [if_neg (by simp; omega), if_pos (by omega), hmem, hzero]
  by_cases h : o / 8 + (o / 8 + 8) < size
  · left
    rw [List.getElem?_replicate, if_pos h]
    have hm : masked (0#64 >>> (o % 8) ||| (0#8).setWidth 64 <<< ((8 * 8 - o % 8) % (8 * 8))) n = 0#64 := by
      apply BitVec.eq_of_getLsbD_eq
      intro i _
      rw [getLsbD_masked]
      simp
    simp only [hm]
    exact extendSign_small (v := 0#64) (by omega) hn (Nat.pow_pos (by omega))
  · right
    rw [List.getElem?_eq_none (by simp; omega)]

end DebugExact
open DebugExact

/-- Enum variants have names, different ones (as in Rust). -/
def VariantNames (S : StructDef) : Prop := ∀ f ∈ S.fields, ∀ l, f.variants = some l → (l.map Prod.snd).Nodup ∧ "" ∉ l.map Prod.snd

/-- Exactly which structs are shown right whatever their content is: those without straddling fields and one-bit signed fields, and
whose enums have a variant for every bit pattern. -/
theorem C15_struct_exact (p : Profile) (e : Endian) (S : StructDef) (wf : WF S) (hn : VariantNames S) :
    (∀ mem : Bytes, S.size ≤ mem.length → S.debug p e mem = .ok (structText S (mem.take S.size))) ↔
    ∀ f ∈ S.fields, Supported f ∧ EveryPattern f := by
  constructor
  · intro h
    have hread : ∀ mem : Bytes, S.size ≤ mem.length → Readable p e S.fields mem := by
      intro mem hm
      have := h mem hm
      unfold StructDef.debug at this
      rw [Out.bind_eq_ok] at this
      obtain ⟨l, hl, _⟩ := this
      exact getAll_reads hl
    have hlen : ∀ k, S.size ≤ (oneBit S.size k).length := fun k => by rw [length_oneBit]; exact Nat.le_refl _
    have hz : S.size ≤ (List.replicate S.size 0#8).length := by simp
    have hraw : ∀ g ∈ S.fields, ∀ f ∈ S.fields, g ≠ f → ∀ k, f.off ≤ k → k < f.off + f.bits →
        fieldRaw (oneBit S.size k) g.off g.bits = fieldRaw (List.replicate S.size 0#8) g.off g.bits := by
      intro g hg f hf hgf k h1 h2
      have hin := (wf.field f hf).inside
      have hd := disjoint_of_ne wf.disjoint hg hf hgf
      unfold Disjoint at hd
      apply fieldRaw_congr
      intro i hi
      rw [bitAt_oneBit (by omega), bitAt_zeros, decide_eq_false (by omega)]
    have hns : ∀ f ∈ S.fields, NoStraddle f.off f.bits := by
      intro f hf
      refine Classical.byContradiction fun hs => ?_
      obtain ⟨f, hf, hs, hmin⟩ := exists_first (Q := fun f => ¬ NoStraddle f.off f.bits) ⟨f, hf, hs⟩
      have hw := straddle_iff.mp hs
      have ok := wf.field f hf
      have hin := ok.inside
      have hb := f.ty.bits_cases
      have hle := ok.le
      have h1 := h _ (hlen (8 * (f.off / 8 + 8)))
      have h2 := h _ hz
      have hsame : S.debug p e (oneBit S.size (8 * (f.off / 8 + 8))) = S.debug p e (List.replicate S.size 0#8) := by
        unfold StructDef.debug
        rw [getAll_congr S.fields fun g hg => get_unread wf hf hs hmin hg]
      rw [hsame, h2, structText_take wf, structText_take wf] at h1
      have h1 := Out.ok.inj h1
      have hshown := text_inj wf hf (v := fun g => valueOf g (List.replicate S.size 0#8))
        (w := fun g => valueOf g (oneBit S.size (8 * (f.off / 8 + 8)))) (fun g hg hgf => by
          change decode _ _ _ = decode _ _ _
          rw [hraw g hg f hf hgf _ (by omega) (by omega)]) h1
      change shown f (decode _ _ _) = shown f (decode _ _ _) at hshown
      rw [fieldRaw_zeros, fieldRaw_oneBit (by omega) (by omega) (by omega)] at hshown
      have hx : 2 ^ (8 * (f.off / 8 + 8) - f.off) < 2 ^ f.bits := Nat.pow_lt_pow_right (by omega) (by omega)
      have hx0 : 0 < 2 ^ (8 * (f.off / 8 + 8) - f.off) := Nat.pow_pos (by omega)
      generalize 2 ^ (8 * (f.off / 8 + 8) - f.off) = x at hshown hx hx0
      have hcast : ((2 ^ f.bits : Nat) : Int) = 2 ^ f.bits := by push_cast; rfl
      have hd0 : decode f.ty f.bits 0 = 0 := by
        rcases straddle_ty hle hs with hT | hT <;> rw [hT] <;> simp [decode, twos]
      have hdx : decode f.ty f.bits x ≠ 0 := by
        rcases straddle_ty hle hs with hT | hT <;> rw [hT] <;> simp only [decode, twos]
        · split <;> omega
        · omega
      have hnb : f.ty ≠ .bool := by rcases straddle_ty hle hs with hT | hT <;> rw [hT] <;> simp
      rw [hd0] at hshown
      unfold shown at hshown
      cases hl : f.variants with
      | none =>
        rw [hl] at hshown
        simp only [hnb, if_false] at hshown
        exact hdx (toString_inj hshown).symm
      | some l =>
        rw [hl] at hshown
        refine hdx (lookup_inj (hn f hf l hl).1 (hn f hf l hl).2 ?_ hshown).symm
        obtain ⟨v, hv⟩ := hread _ hz f hf
        have hr : readBytes p e f.ty (List.replicate S.size 0#8) f.off f.bits = readInt p e f.ty (List.replicate S.size 0#8) f.off f.bits := by
          rcases straddle_ty hle hs with hT | hT <;> rw [hT] <;> rfl
        unfold Field.get at hv
        rw [hr] at hv
        rcases readInt_zeros (p := p) (e := e) hle hin hs with h0 | h0 <;> rw [h0] at hv
        · rw [Out.ok_bind] at hv
          unfold Field.transmute at hv
          rw [hl] at hv
          simp only at hv
          split at hv
          · assumption
          · cases hv
        · cases hv
    have hev := (readable_iff (p := p) (e := e) wf hns).mp hread
    refine fun f hf => ⟨⟨hns f hf, ?_⟩, hev f hf⟩
    intro hsg h1
    have ok := wf.field f hf
    have hin := ok.inside
    have hpos := ok.pos
    have hnv : f.variants = none := by
      cases hl : f.variants with
      | none => rfl
      | some l => exact absurd h1 ((hev f hf l hl).1 hsg)
    have h2 := h _ (hlen f.off)
    rw [structText_take wf] at h2
    have hget : ∀ g ∈ S.fields, g.get p e (oneBit S.size f.off) = .ok (codeDecode g.ty g.bits (fieldRaw (oneBit S.size f.off) g.off g.bits)) := by
      intro g hg
      have okg := wf.field g hg
      have hing := okg.inside
      obtain ⟨v, hv⟩ := hread _ (hlen f.off) g hg
      rw [hv, get_ok okg.pos okg.le (by rw [length_oneBit]; omega) (hns g hg) hv]
    rw [debug_of (fun g => codeDecode g.ty g.bits (fieldRaw (oneBit S.size f.off) g.off g.bits)) hget] at h2
    have hshown := text_inj wf hf (v := fun g => codeDecode g.ty g.bits (fieldRaw (oneBit S.size f.off) g.off g.bits))
      (w := fun g => valueOf g (oneBit S.size f.off)) (fun g hg hgf => by
        change codeDecode _ _ _ = decode _ _ _
        rw [hraw g hg f hf hgf _ (Nat.le_refl _) (by omega), fieldRaw_zeros]
        unfold codeDecode
        split
        · rename_i h1
          rw [h1]
          cases g.ty <;> simp [decode, twos]
        · rfl) (Out.ok.inj h2)
    change shown f (codeDecode _ _ _) = shown f (decode _ _ _) at hshown
    rw [fieldRaw_oneBit (by omega) (Nat.le_refl _) (by omega), h1] at hshown
    have hnb : f.ty ≠ .bool := by rintro hT; rw [hT] at hsg; cases hsg
    unfold shown at hshown
    rw [hnv] at hshown
    simp only [hnb, if_false, codeDecode, Nat.sub_self, Nat.pow_zero, if_true] at hshown
    have := toString_inj hshown
    cases hT : f.ty <;> rw [hT] at this hsg <;> first | (cases hsg; done) | simp [decode, twos] at this
  · intro h mem hm
    have hns : ∀ f ∈ S.fields, NoStraddle f.off f.bits := fun f hf => (h f hf).1.1
    have hread := (readable_iff (p := p) (e := e) wf hns).mpr (fun f hf => (h f hf).2) mem hm
    rw [structText_take wf]
    refine debug_eq ⟨wf, hns, fun f hf => (h f hf).1.2⟩ hm fun f hf l hl => ?_
    have ok := wf.field f hf
    have hin := ok.inside
    obtain ⟨v, hv⟩ := hread f hf
    have := (C09_enum_read_partial p e S.size f l ok hl mem hm).1 v hv
    rw [get_ok ok.pos ok.le (by omega) (hns f hf) hv, codeDecode_eq_decode (h f hf).1.2 (fieldRaw_lt _ _ _)] at this
    exact this

namespace DebugExample
def level : StructDef :=
  ⟨"Level", 1, [.plain "on" .bool 0 1, { Field.plain "mode" .u8 1 1 with variants := some [(0, "Off"), (1, "Low")] }, .plain "step" .i8 2 6]⟩
def levelSigned : StructDef := ⟨"Level", 1, [.plain "step" .i8 0 1]⟩
theorem level_wf : WF level := by
  refine ⟨fun f hf => ?_, by decide⟩
  simp only [level, List.mem_cons, List.not_mem_nil, or_false] at hf
  rcases hf with rfl | rfl | rfl
  · exact fieldOK_of_plainOK (by decide)
  · refine ⟨by decide, by decide, by decide, by decide, fun l hl v hv => ?_⟩
    simp only [Option.some.injEq] at hl
    subst hl
    simp at hv
    rcases hv with rfl | rfl <;> decide
  · exact fieldOK_of_plainOK (by decide)
end DebugExample
open DebugExample in
/-- The condition is met by a struct with a flag, an enum and a signed field, which is shown right, ... -/
example : WF level ∧ VariantNames level ∧
    ∀ (p : Profile) (e : Endian) (mem : Bytes), 1 ≤ mem.length → level.debug p e mem = .ok (structText level (mem.take 1)) := by
  have hn : VariantNames level := by
    intro f hf l hl
    simp only [level, List.mem_cons, List.not_mem_nil, or_false] at hf
    rcases hf with rfl | rfl | rfl
    · cases hl
    · cases hl; decide
    · cases hl
  refine ⟨level_wf, hn, fun p e => (C15_struct_exact p e level level_wf hn).mpr ?_⟩
  intro f hf
  simp only [level, List.mem_cons, List.not_mem_nil, or_false] at hf
  rcases hf with rfl | rfl | rfl
  · exact ⟨⟨by decide, by decide⟩, fun l hl => by cases hl⟩
  · refine ⟨⟨by decide, by decide⟩, fun l hl => ?_⟩
    cases hl
    refine ⟨by decide, fun v hv => ?_⟩
    simp only [Field.plain, Fits] at hv
    have : v = 0 ∨ v = 1 := by omega
    rcases this with rfl | rfl <;> decide
  · exact ⟨⟨by decide, by decide⟩, fun l hl => by cases hl⟩
open DebugExample in
/-- ... and a one-bit signed field is not. -/
example (p : Profile) (e : Endian) : ¬ ∀ mem : Bytes, 1 ≤ mem.length → levelSigned.debug p e mem = .ok (structText levelSigned (mem.take 1)) := by
  intro h
  have hn : VariantNames levelSigned := by
    intro f hf l hl
    simp only [levelSigned, List.mem_cons, List.not_mem_nil, or_false] at hf
    subst hf; cases hl
  have := (C15_struct_exact p e levelSigned (wf_of_plain (by decide) (by decide)) hn).mp h _ (List.mem_cons_self ..)
  exact this.1.2 rfl rfl

end Flatdata
