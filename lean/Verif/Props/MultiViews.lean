import Verif.Props.Structs
import Verif.Proofs.MultiView
import Verif.Props.Views
import Verif.Model.CoappearancesArchive
/-!
# C15 (multi array views), C28, C29
-/
namespace Flatdata
open Spec

namespace MultiExample

theorem ok : VariadicOK Coappearances.VerticesData :=
  ⟨⟨by decide, by decide, by decide⟩, by decide⟩

/-- Three items: a nickname and a unary relation; none; a description. -/
def contents : List (List (BitVec 8 × Bytes)) :=
  [[(0#8, [7#8, 0#8, 0#8, 0#8]), (2#8, [1#8, 0#8, 0#8, 0#8, 2#8, 0#8])], [], [(1#8, [9#8, 0#8, 0#8, 0#8])]]

/-- Their index (offsets 0, 12, 12, 17) and data. -/
def view : MultiView :=
  ⟨[0#8, 0#8, 0#8, 0#8, 12#8, 0#8, 0#8, 0#8, 12#8, 0#8, 0#8, 0#8, 17#8, 0#8, 0#8, 0#8],
    [0#8, 7#8, 0#8, 0#8, 0#8, 2#8, 1#8, 0#8, 0#8, 0#8, 2#8, 0#8, 1#8, 9#8, 0#8, 0#8, 0#8]⟩

theorem view_ok : MultiOK Coappearances.VerticesData view :=
  ⟨ok.index, by decide, by decide, by decide, by decide⟩

theorem view_items : items Coappearances.VerticesData view = contents.map encodeItem := by decide

theorem contents_ok : ∀ xs ∈ contents, ItemOK Coappearances.VerticesData xs := by
  decide

end MultiExample

/-! ## C28: access and iteration -/

/-- C28 in full. False, see the two refutations. -/
def C28_claim : Prop :=
  ∀ (p : Profile) (e : Endian) (V : Variadic) (v : MultiView), MultiOK V v →
    MultiView.len p V v = .ok (items V v).length ∧
    (∀ i, MultiView.at' p e V v i = (match (items V v)[i]? with | some x => .ok x | none => .panic)) ∧
    (∀ lo hi, if lower lo ≤ upper (items V v).length hi ∧ upper (items V v).length hi ≤ (items V v).length then
        ∃ v', MultiView.slice p V v lo hi = .ok v' ∧ MultiOK V v' ∧
          items V v' = ((items V v).take (upper (items V v).length hi)).drop (lower lo)
      else MultiView.slice p V v lo hi = .panic) ∧
    (∀ ops, ∃ v', multiRun p e V ops v = .ok ((deque ops (items V v)).1, v') ∧ MultiOK V v' ∧
      items V v' = (deque ops (items V v)).2)

/-- `len` is the number of items. -/
theorem C28_len (p : Profile) (V : Variadic) (v : MultiView) (ok : MultiOK V v) :
    MultiView.len p V v = .ok (items V v).length ∧ MultiView.isEmpty p V v = .ok ((items V v).length == 0) :=
  ⟨multi_len ok, multi_isEmpty ok⟩

/-- Non-vacuity: three items, and none. -/
example : MultiView.len .debug Coappearances.VerticesData MultiExample.view = .ok 3 ∧
    MultiView.isEmpty .debug Coappearances.VerticesData ⟨[0#8, 0#8, 0#8, 0#8], []⟩ = .ok true :=
  ⟨(C28_len .debug _ _ MultiExample.view_ok).1,
    (C28_len .debug Coappearances.VerticesData ⟨[0#8, 0#8, 0#8, 0#8], []⟩ ⟨MultiExample.ok.index, by decide, by decide, by decide, by decide⟩).2⟩

/-- `at` in range, in every build. -/
theorem C28_at (p : Profile) (e : Endian) (V : Variadic) (v : MultiView) (ok : MultiOK V v) (i : Nat)
    (hi : i < (items V v).length) : MultiView.at' p e V v i = .ok (items V v)[i] := multi_at ok hi

/-- `at` out of range panics, with overflow checks for every index and without them as long as nothing wraps around. -/
theorem C28_at_out_partial (p : Profile) (e : Endian) (V : Variadic) (v : MultiView) (ok : MultiOK V v) (i : Nat)
    (hi : (items V v).length ≤ i) (hp : p = .debug ∨ (i + 2) * V.indexSize < 2 ^ 64) :
    MultiView.at' p e V v i = .panic := by
  have hs := ok.def_ok.size_pos
  have hsz := ok.size
  have hd : v.index.length < usizeMod := by unfold usizeMod; omega
  have hne := List.length_pos_iff.mpr ok.sentinel
  have hlen := length_items V v
  have hoff := length_offsets V v.index
  have hp1 : p = .debug ∨ (i + 1) * V.indexSize < usizeMod := by
    rcases hp with h | h
    · exact .inl h
    · right
      unfold usizeMod
      have : (i + 1) * V.indexSize ≤ (i + 2) * V.indexSize := Nat.mul_le_mul_right _ (by omega)
      omega
  rw [at_eq]
  by_cases h : i < (offsets V v.index).length
  · rw [entry ok.def_ok hd h, Out.ok_bind]
    have hle : (offsets V v.index).length ≤ v.index.length := by
      rw [hoff]; exact Nat.div_le_self _ _
    rw [uadd_ok (by omega), Out.ok_bind, at_out_of_range hs (by omega)]
    · rfl
    · rcases hp with h | h
      · exact .inl h
      · exact .inr (by unfold usizeMod; simpa [Nat.add_assoc] using h)
  · rw [at_out_of_range hs (by omega) hp1]
    rfl

/-- `slice` in range is list slicing, in every build, and the result is again well-formed. -/
theorem C28_slice (p : Profile) (V : Variadic) (v : MultiView) (ok : MultiOK V v) (lo hi : Bound)
    (h1 : lower lo ≤ upper (items V v).length hi) (h2 : upper (items V v).length hi ≤ (items V v).length) :
    ∃ v', MultiView.slice p V v lo hi = .ok v' ∧ MultiOK V v' ∧
      items V v' = ((items V v).take (upper (items V v).length hi)).drop (lower lo) := multi_slice ok h1 h2

/-- `slice` out of range panics, with overflow checks, except if the start is exactly one more than the end. -/
theorem C28_slice_out_partial (V : Variadic) (v : MultiView) (ok : MultiOK V v) (lo hi : Bound)
    (h : ¬ (lower lo ≤ upper (items V v).length hi + 1 ∧ upper (items V v).length hi ≤ (items V v).length)) :
    MultiView.slice .debug V v lo hi = .panic := by
  have hs := ok.def_ok.size_pos
  have hne := List.length_pos_iff.mpr ok.sentinel
  have hlen := length_items V v
  have hoff := length_offsets V v.index
  unfold MultiView.slice
  generalize hN : (items V v).length = N at *
  have key : ∀ a b, (lower lo = a) → (upper N hi + 1 = b) →
      View.slice .debug V.indexSize v.index (.included a) (.excluded b) = .panic := by
    intro a b ha hb
    apply slice_out_of_range hs (.inl rfl)
    change ¬ (a ≤ b ∧ b ≤ _)
    omega
  have hstart : MultiView.startIndex .debug lo = .panic ∨ MultiView.startIndex .debug lo = .ok (lower lo) := by
    cases lo with
    | excluded i =>
      simp only [MultiView.startIndex, lower]
      by_cases h : i + 1 < usizeMod
      · right; exact uadd_ok h
      · left; simp [uadd, h]
    | _ => right; rfl
  have hend : MultiView.endIndex .debug V v hi = .panic ∨ MultiView.endIndex .debug V v hi = .ok (upper N hi + 1) := by
    cases hi with
    | included i =>
      simp only [MultiView.endIndex, upper]
      by_cases h : i + 2 < usizeMod
      · right; exact uadd_ok h
      · left; simp [uadd, h]
    | excluded i =>
      simp only [MultiView.endIndex, upper]
      by_cases h : i + 1 < usizeMod
      · right; exact uadd_ok h
      · left; simp [uadd, h]
    | unbounded =>
      right
      simp only [MultiView.endIndex, upper, len_eq hs]
      congr 1
      omega
  rcases hstart with hst | hst <;> rw [hst]
  · rfl
  rw [Out.ok_bind]
  rcases hend with hen | hen <;> rw [hen]
  · rfl
  rw [Out.ok_bind, key _ _ rfl rfl]
  rfl

/-- The exception is real: `slice(i+1..i)` does not panic but returns a view without a sentinel, whose `len` panics with
overflow checks and is 2^64 - 1 without. -/
theorem C28_slice_broken (p : Profile) (V : Variadic) (v : MultiView) (ok : MultiOK V v) (i : Nat)
    (hi : i ≤ (items V v).length) :
    ∃ v', MultiView.slice p V v (.included (i + 1)) (.excluded i) = .ok v' ∧ offsets V v'.index = [] ∧
      MultiView.len p V v' = (match p with | .debug => .panic | .release => .ok (2 ^ 64 - 1)) := by
  have hs := ok.def_ok.size_pos
  have hsz := ok.size
  have hd : v.index.length < usizeMod := by unfold usizeMod; omega
  have hne := List.length_pos_iff.mpr ok.sentinel
  have hlen := length_items V v
  have hoff := length_offsets V v.index
  have hle : v.index.length / V.indexSize ≤ v.index.length := Nat.div_le_self _ _
  obtain ⟨d, g1, g2, g3⟩ := slice_in_range (p := p) (lo := .included (i + 1)) (hi := .excluded (i + 1)) hs hd
    (by simp only [lower, upper]; omega) (by simp only [upper]; omega)
  have hnil : elems V.indexSize d = [] := by
    rw [g3]
    apply List.eq_nil_of_length_eq_zero
    simp [lower, upper]
  refine ⟨⟨d, v.data⟩, ?_, by simp [offsets, hnil], ?_⟩
  · simp only [MultiView.slice, MultiView.startIndex, MultiView.endIndex, Out.ok_bind, uadd_ok (show i + 1 < usizeMod by omega),
      g1]
  · have : d.length / V.indexSize = 0 := by rw [← length_elems, hnil]; rfl
    simp only [MultiView.len, len_eq hs, this, Out.ok_bind]
    cases p <;> rfl

/-- Non-vacuity: the range `3..2` of three items. -/
example : ∃ v', MultiView.slice .release Coappearances.VerticesData MultiExample.view (.included 3) (.excluded 2) = .ok v' ∧
    offsets Coappearances.VerticesData v'.index = [] ∧ MultiView.len .release Coappearances.VerticesData v' = .ok (2 ^ 64 - 1) :=
  C28_slice_broken .release _ _ MultiExample.view_ok 2 (by decide)

/-- Iterating from both ends is a deque over the items; the remaining iterator is again well-formed, hence has an exact
`len` (`C28_len`). -/
theorem C28_iteration (p : Profile) (e : Endian) (V : Variadic) (v : MultiView) (ok : MultiOK V v) (ops : List End) :
    ∃ v', multiRun p e V ops v = .ok ((deque ops (items V v)).1, v') ∧ MultiOK V v' ∧
      items V v' = (deque ops (items V v)).2 ∧ MultiView.iterLen p V v' = .ok (deque ops (items V v)).2.length := by
  obtain ⟨v', h1, h2, h3⟩ := multiRun_spec (p := p) (e := e) ops v ok
  exact ⟨v', h1, h2, h3, h3 ▸ multi_len h2⟩

/-- False: `slice(1..0)` should panic. -/
theorem C28_refuted : ¬ C28_claim := by
  intro h
  have h1 := (h .debug .little _ _ MultiExample.view_ok).2.2.1 (.included 1) (.excluded 0)
  obtain ⟨v', h2, _⟩ := C28_slice_broken .debug _ _ MultiExample.view_ok 0 (by decide)
  rw [if_neg (by decide)] at h1
  rw [h1] at h2
  cases h2

/-- Also false without overflow checks: `at(2^62)` is `at(0)` for an index with entries of four bytes. -/
theorem C28_refuted_release :
    ∃ (v : MultiView) (i : Nat), MultiOK Coappearances.VerticesData v ∧ (items Coappearances.VerticesData v).length < i ∧
      i < 2 ^ 64 ∧ MultiView.at' .release .little Coappearances.VerticesData v i =
        MultiView.at' .release .little Coappearances.VerticesData v 0 ∧
      MultiView.at' .release .little Coappearances.VerticesData v 0 = .ok [0#8, 7#8, 0#8, 0#8, 0#8, 2#8, 1#8, 0#8, 0#8, 0#8,
        2#8, 0#8] :=
  ⟨MultiExample.view, 2 ^ 62, MultiExample.view_ok, by decide, by decide, by decide, by decide⟩

/-- Non-vacuity: the second item of the example is empty, the third has one element. -/
example : MultiView.at' .release .big Coappearances.VerticesData MultiExample.view 1 = .ok [] ∧
    MultiView.at' .release .big Coappearances.VerticesData MultiExample.view 2 = .ok [1#8, 9#8, 0#8, 0#8, 0#8] :=
  ⟨C28_at _ _ _ _ MultiExample.view_ok 1 (by decide), C28_at _ _ _ _ MultiExample.view_ok 2 (by decide)⟩

example : MultiView.at' .release .little Coappearances.VerticesData MultiExample.view 3 = .panic :=
  C28_at_out_partial _ _ _ _ MultiExample.view_ok 3 (by decide) (.inr (by decide))

example : MultiView.slice .debug Coappearances.VerticesData MultiExample.view (.excluded 1) (.excluded 0) = .panic :=
  C28_slice_out_partial _ _ MultiExample.view_ok _ _ (by decide)

example : ∃ v', MultiView.slice .release Coappearances.VerticesData MultiExample.view (.included 1) (.included 1) = .ok v' ∧
    MultiOK Coappearances.VerticesData v' ∧ items Coappearances.VerticesData v' = [[]] :=
  C28_slice .release _ _ MultiExample.view_ok (.included 1) (.included 1) (by decide) (by decide)

example : ∃ v', multiRun .debug .little Coappearances.VerticesData [.back, .front, .front, .back] MultiExample.view =
      .ok ([some [1#8, 9#8, 0#8, 0#8, 0#8], some [0#8, 7#8, 0#8, 0#8, 0#8, 2#8, 1#8, 0#8, 0#8, 0#8, 2#8, 0#8], some [], none],
        v') ∧ MultiOK Coappearances.VerticesData v' ∧ items Coappearances.VerticesData v' = [] ∧
      MultiView.iterLen .debug Coappearances.VerticesData v' = .ok 0 :=
  C28_iteration .debug .little _ _ MultiExample.view_ok [.back, .front, .front, .back]

/-! ## C29: untrusted bytes -/

/-- C29, one call of `next` on arbitrary bytes: it never leads to undefined behaviour; if it returns an element, the element
is a variant of the type, its struct lies completely inside the remaining bytes, directly behind the byte with the
variant, and what remains is strictly shorter. -/
theorem C29_next (V : Variadic) (data : Bytes) :
    MultiView.itemNext V data ≠ .ub ∧
    (∀ x rest, MultiView.itemNext V data = .ok (some x, rest) →
      data = x.type :: (x.mem.take x.struct.size ++ rest) ∧ (x.mem.take x.struct.size).length = x.struct.size ∧
      (x.type, x.struct) ∈ V.types ∧ data = x.type :: x.mem ∧ rest.length < data.length) ∧
    (∀ rest, MultiView.itemNext V data = .ok (none, rest) ↔ data = [] ∧ rest = []) := by
  refine ⟨itemNext_ne_ub, ?_, ?_⟩
  · intro x rest h
    obtain ⟨h1, h2, h3, h4⟩ := itemNext_ok h
    refine ⟨by rw [h3, List.take_append_drop, ← h1], by simp [h2], List.mem_of_find?_eq_some h4, h1, ?_⟩
    rw [h1, h3]; simp; omega
  · intro rest
    constructor
    · exact itemNext_none
    · rintro ⟨rfl, rfl⟩; rfl

/-- Non-vacuity: an element of a nickname, with two bytes behind it. -/
example : ∃ x rest, MultiView.itemNext Coappearances.VerticesData [0#8, 1#8, 2#8, 3#8, 4#8, 9#8, 9#8] = .ok (some x, rest) ∧
    [0#8, 1#8, 2#8, 3#8, 4#8, 9#8, 9#8] = x.type :: (x.mem.take x.struct.size ++ rest) :=
  ⟨⟨0#8, Coappearances.Nickname, [1#8, 2#8, 3#8, 4#8, 9#8, 9#8]⟩, [9#8, 9#8], by decide,
    ((C29_next Coappearances.VerticesData [0#8, 1#8, 2#8, 3#8, 4#8, 9#8, 9#8]).2.1 _ _ (by decide)).1⟩

/-- C29, whole iteration over arbitrary bytes: no undefined behaviour; at most as many elements as bytes (any larger bound
on the number of calls gives the same result, so it terminates); if it does not panic, the elements are exactly a
decomposition of the bytes of the item, and every element handed out lies inside the item. -/
theorem C29_iteration (V : Variadic) (data : Bytes) :
    MultiView.itemCollect V data ≠ .ub ∧
    (∀ n, data.length ≤ n → MultiView.itemCollectN V n data = MultiView.itemCollect V data) ∧
    (∀ l, MultiView.itemCollect V data = .ok l → encodeItem (l.map Elem.content) = data ∧
      ∀ x ∈ l, (x.type, x.struct) ∈ V.types ∧ x.struct.size ≤ x.mem.length ∧ x.mem <:+ data) :=
  ⟨itemCollect_ne_ub _ _, fun n hn => itemCollectN_fuel n data.length data hn (Nat.le_refl _),
    fun l hl => itemCollect_ok data.length data (Nat.le_refl _) l hl⟩

/-- Non-vacuity: the elements of an item. -/
example : ∃ l, MultiView.itemCollect Coappearances.VerticesData [0#8, 1#8, 2#8, 3#8, 4#8, 1#8, 5#8, 6#8, 7#8, 8#8] = .ok l ∧
    l.map Elem.content = [(0#8, [1#8, 2#8, 3#8, 4#8]), (1#8, [5#8, 6#8, 7#8, 8#8])] ∧
    encodeItem (l.map Elem.content) = [0#8, 1#8, 2#8, 3#8, 4#8, 1#8, 5#8, 6#8, 7#8, 8#8] :=
  ⟨[⟨0#8, Coappearances.Nickname, [1#8, 2#8, 3#8, 4#8, 1#8, 5#8, 6#8, 7#8, 8#8]⟩, ⟨1#8, Coappearances.Description, [5#8, 6#8, 7#8, 8#8]⟩],
    by decide, by decide, ((C29_iteration Coappearances.VerticesData _).2.2 _ (by decide)).1⟩

/-- C29, access to an item with an arbitrary index and arbitrary data: it panics or returns a part of the data. -/
theorem C29_at (p : Profile) (e : Endian) (V : Variadic) (ok : IndexOK V) (v : MultiView) (hs : V.indexSize < 2 ^ 63)
    (hd : v.index.length < 2 ^ 63) (i : Nat) :
    MultiView.at' p e V v i ≠ .ub ∧ ∀ d, MultiView.at' p e V v i = .ok d → d <:+: v.data := by
  have hent : ∀ j, (do let x ← View.at' p V.indexSize v.index j; getIndex p e V.indexBits x) ≠ .ub := by
    intro j
    refine Out.bind_ne_ub viewAt_ne_ub fun x h => ?_
    obtain ⟨off, h1, rfl⟩ := C12_memory_safe p V.indexSize v.index j x hs hd h
    have := ok.inside
    rw [getIndex_eq ok.pos ok.le (by simp; omega)]
    exact nofun
  rw [at_eq]
  constructor
  · exact Out.bind_ne_ub (hent i) fun _ _ => Out.bind_ne_ub uadd_ne_ub fun _ _ => Out.bind_ne_ub (hent _) fun _ _ =>
      sliceRange_ne_ub
  · intro d h
    simp only [Out.bind_eq_ok] at h
    obtain ⟨a, _, n, _, b, _, h⟩ := h
    unfold sliceRange at h
    split at h
    · cases h
      exact (List.drop_suffix _ _).isInfix.trans (List.take_prefix _ _).isInfix
    · cases h

/-- Non-vacuity: a truncated item panics, an unknown variant panics, a complete one is decomposed. -/
example : MultiView.itemCollect Coappearances.VerticesData [0#8, 1#8, 2#8] = .panic ∧
    MultiView.itemCollect Coappearances.VerticesData [9#8, 1#8, 2#8, 3#8, 4#8] = .panic ∧
    MultiView.itemCollect Coappearances.VerticesData [0#8, 1#8, 2#8, 3#8, 4#8] =
      .ok [⟨0#8, Coappearances.Nickname, [1#8, 2#8, 3#8, 4#8]⟩] := by decide

example : MultiView.at' .release .little Coappearances.VerticesData ⟨[9#8, 0#8, 0#8, 0#8, 3#8, 0#8, 0#8, 0#8], [1#8]⟩ 0 ≠ .ub :=
  (C29_at _ _ _ MultiExample.ok.index _ (by decide) (by decide) _).1

/-! ## C15 for multi array views -/

namespace Spec

/-- `Debug` of an element with given variant and struct bytes. -/
def showContent (p : Profile) (e : Endian) (V : Variadic) (x : BitVec 8 × Bytes) : Out String :=
  match V.types.find? (fun y => y.1 = x.1) with
  | some S => S.2.debug p e x.2
  | none => .panic

/-- `Debug` of the elements of an item. -/
def showContents (p : Profile) (e : Endian) (V : Variadic) : List (BitVec 8 × Bytes) → Out (List String)
  | [] => .ok []
  | x :: xs => do
    let s ← showContent p e V x
    let ss ← showContents p e V xs
    .ok (s :: ss)

/-- `Debug` of items numbered from `i`. -/
def showNumbered (p : Profile) (e : Endian) (V : Variadic) : Nat → List (List (BitVec 8 × Bytes)) → Out (List String)
  | _, [] => .ok []
  | i, xs :: rest => do
    let s ← showContents p e V xs
    let ss ← showNumbered p e V (i + 1) rest
    .ok (("(" ++ toString i ++ ", [" ++ ", ".intercalate s ++ "])") :: ss)

end Spec

theorem showElems_eq {p : Profile} {e : Endian} {V : Variadic} (hV : (V.types.map Prod.fst).Nodup)
    (wf : ∀ x ∈ V.types, WF x.2 ∧ ∀ f ∈ x.2.fields, NoStraddle f.off f.bits) : ∀ l : List Elem,
    (∀ x ∈ l, (x.type, x.struct) ∈ V.types ∧ x.struct.size ≤ x.mem.length) →
    MultiView.showElems p e l = showContents p e V (l.map Elem.content) := by
  intro l
  induction l with
  | nil => intro _; rfl
  | cons x xs ih =>
    intro h
    obtain ⟨h1, h2⟩ := h x (by simp)
    have : x.debug p e = showContent p e V (Elem.content x) := by
      have hf := find_of_mem hV h1
      unfold showContent Elem.content
      rw [hf]
      exact debug_take (wf _ h1).1 (wf _ h1).2 _ h2
    simp only [MultiView.showElems, List.map_cons, showContents, this, ih fun y hy => h y (by simp [hy])]

theorem takeCollect_items {p : Profile} {e : Endian} {V : Variadic} (hV : (V.types.map Prod.fst).Nodup) :
    ∀ (n i : Nat) (v : MultiView) (contents : List (List (BitVec 8 × Bytes))), MultiOK V v →
    items V v = contents.map encodeItem → (∀ xs ∈ contents, ItemOK V xs) →
    ∃ l, MultiView.takeCollect p e V i n v = .ok l ∧ l.map (fun x => x.2.map Elem.content) = contents.take n ∧
      l.map Prod.fst = List.range' i (min n contents.length) ∧
      ∀ y ∈ l, ∀ x ∈ y.2, (x.type, x.struct) ∈ V.types ∧ x.struct.size ≤ x.mem.length := by
  intro n
  induction n with
  | zero => intro i v contents _ _ _; exact ⟨[], rfl, rfl, by simp, by simp⟩
  | succ n ih =>
    intro i v contents ok hit hok
    obtain ⟨v1, h1, h2, h3⟩ := multiStep_spec (p := p) (e := e) .front ok
    simp only [multiStep] at h1
    cases contents with
    | nil =>
      rw [hit] at h1
      exact ⟨[], by simp only [MultiView.takeCollect, h1]; rfl, rfl, by simp, by simp⟩
    | cons xs rest =>
      rw [hit] at h1 h3
      obtain ⟨l, g1, g2, g3, g4⟩ := ih (i + 1) v1 rest h2 (by rw [h3]; rfl) fun y hy => hok y (by simp [hy])
      obtain ⟨m, k1, k2, k3⟩ := itemCollect_encode hV xs (hok xs (by simp))
      refine ⟨(i, m) :: l, ?_, ?_, ?_, ?_⟩
      · simp only [MultiView.takeCollect, h1, List.map_cons, List.head?_cons, Out.ok_bind, k1, g1]
      · simp [k2, g2]
      · simp only [List.map_cons, g3, List.length_cons, Nat.succ_min_succ, List.range'_succ]
      · intro y hy
        rcases List.mem_cons.mp hy with rfl | hy
        · exact k3
        · exact g4 y hy

theorem showItems_eq {p : Profile} {e : Endian} {V : Variadic} (hV : (V.types.map Prod.fst).Nodup)
    (wf : ∀ x ∈ V.types, WF x.2 ∧ ∀ f ∈ x.2.fields, NoStraddle f.off f.bits) : ∀ (l : List (Nat × List Elem)) (i n : Nat),
    (∀ y ∈ l, ∀ x ∈ y.2, (x.type, x.struct) ∈ V.types ∧ x.struct.size ≤ x.mem.length) →
    l.map Prod.fst = List.range' i n →
    MultiView.showItems p e l = showNumbered p e V i (l.map (fun x => x.2.map Elem.content)) := by
  intro l
  induction l with
  | nil => intro i n _ _; rfl
  | cons x xs ih =>
    intro i n h hn
    cases n with
    | zero => cases hn
    | succ n =>
      rw [List.map_cons, List.range'_succ, List.cons.injEq] at hn
      simp only [MultiView.showItems, List.map_cons, showNumbered, showElems_eq hV wf x.2 (h x (by simp)), hn.1,
        ih (i + 1) n (fun y hy => h y (by simp [hy])) hn.2]

/-- C15 for multi array views and their iterators: exact length, the first `min(len,10)` items with their numbers and
elements in order, and an ellipsis exactly if there are more than ten. -/
theorem C15_debug_multi_partial (p : Profile) (e : Endian) (V : Variadic) (ok : VariadicOK V)
    (wf : ∀ x ∈ V.types, WF x.2 ∧ ∀ f ∈ x.2.fields, NoStraddle f.off f.bits) (name : String) (v : MultiView)
    (hv : MultiOK V v) (contents : List (List (BitVec 8 × Bytes))) (hit : items V v = contents.map encodeItem)
    (hok : ∀ xs ∈ contents, ItemOK V xs) :
    MultiView.debugFormat p e V name v = (do
      let strs ← showNumbered p e V 0 (contents.take 10)
      .ok (name ++ " { len: " ++ toString contents.length ++ ", data: [" ++ ", ".intercalate strs ++ "]" ++
        (if 10 < contents.length then "..." else "") ++ " }")) := by
  obtain ⟨l, h1, h2, h3, h4⟩ := takeCollect_items (p := p) (e := e) ok.distinct 10 0 v contents hv hit hok
  have hlen : (items V v).length = contents.length := by rw [hit, List.length_map]
  unfold MultiView.debugFormat
  have h1' : MultiView.takeCollect p e V 0 View.debugPreviewLen v = .ok l := h1
  simp only [MultiView.iterLen, multi_len hv, Out.ok_bind, h1', hlen]
  rw [showItems_eq ok.distinct wf l 0 _ h4 h3, h2]
  have hif : (if contents.length ≤ View.debugPreviewLen then "" else "...") = (if 10 < contents.length then "..." else "") := by
    unfold View.debugPreviewLen
    by_cases h : contents.length ≤ 10
    · rw [if_pos h, if_neg (by omega)]
    · rw [if_neg h, if_pos (by omega)]
  rw [hif]

/-- C15 for the iterator over the elements of one item: all of them are shown. -/
theorem C15_debug_item_partial (p : Profile) (e : Endian) (V : Variadic) (ok : VariadicOK V)
    (wf : ∀ x ∈ V.types, WF x.2 ∧ ∀ f ∈ x.2.fields, NoStraddle f.off f.bits) (xs : List (BitVec 8 × Bytes)) (hok : ItemOK V xs) :
    MultiView.itemDebug p e V (encodeItem xs) = (do
      let strs ← showContents p e V xs
      .ok ("MultiArrayViewItemIter { data: [" ++ ", ".intercalate strs ++ "] }")) := by
  obtain ⟨l, h1, h2, h3⟩ := itemCollect_encode ok.distinct xs hok
  unfold MultiView.itemDebug
  rw [h1, Out.ok_bind, showElems_eq ok.distinct wf l h3, h2]

theorem MultiExample.wf : ∀ x ∈ Coappearances.VerticesData.types,
    WF x.2 ∧ ∀ f ∈ x.2.fields, NoStraddle f.off f.bits := by
  intro x hx
  simp only [Coappearances.VerticesData, List.mem_cons, List.not_mem_nil, or_false] at hx
  rcases hx with rfl | rfl | rfl | rfl <;> exact ⟨wf_of_plain (by decide) (by decide), by decide⟩

/-- Non-vacuity: the example view. -/
example : MultiView.debugFormat .debug .little Coappearances.VerticesData "MultiArrayView" MultiExample.view =
    .ok ("MultiArrayView { len: 3, data: [(0, [Nickname { ref_: 7 }, UnaryRelation { kind_ref: 1, to_ref: 2 }]), (1, []), " ++
      "(2, [Description { ref_: 9 }])] }") := by
  rw [C15_debug_multi_partial .debug .little _ MultiExample.ok MultiExample.wf _ _ MultiExample.view_ok _
    MultiExample.view_items MultiExample.contents_ok]
  set_option maxRecDepth 4000 in decide

example : MultiView.itemDebug .debug .little Coappearances.VerticesData (encodeItem [(1#8, [9#8, 0#8, 0#8, 0#8])]) =
    .ok "MultiArrayViewItemIter { data: [Description { ref_: 9 }] }" := by
  rw [C15_debug_item_partial .debug .little _ MultiExample.ok MultiExample.wf _ (MultiExample.contents_ok _ (by decide))]
  decide

/-! ## C08 for variadic references -/

/-- Two variadic references are equal exactly if they are of the same variant and the bits of all declared fields agree. -/
theorem C08_variadic_partial (p : Profile) (e : Endian) (V : Variadic) (hV : (V.types.map Prod.fst).Nodup)
    (wf : ∀ x ∈ V.types, WF x.2 ∧ ∀ f ∈ x.2.fields, NoStraddle f.off f.bits ∧ BoolOne f) (t u : BitVec 8) (S S' : StructDef)
    (a b : Bytes) (hS : (t, S) ∈ V.types) (hS' : (u, S') ∈ V.types) (ha : S.size ≤ a.length) (hb : S'.size ≤ b.length)
    (hra : Readable p e S.fields a) (hrb : Readable p e S'.fields b) :
    ∃ x y r, V.create t a = .ok x ∧ V.create u b = .ok y ∧ Elem.eq p e x y = .ok r ∧
      (r = true ↔ t = u ∧ ∀ f ∈ S.fields, ∀ k, f.off ≤ k → k < f.off + f.bits → bitAt a k = bitAt b k) := by
  have h1 : V.create t a = .ok ⟨t, S, a⟩ := by unfold Variadic.create; rw [find_of_mem hV hS]
  have h2 : V.create u b = .ok ⟨u, S', b⟩ := by unfold Variadic.create; rw [find_of_mem hV hS']
  by_cases h : t = u
  · subst h
    have hSS : S = S' := by
      rw [h2] at h2
      have e1 := find_of_mem hV hS
      rw [find_of_mem hV hS'] at e1
      cases e1; rfl
    subst hSS
    obtain ⟨w1, w2⟩ := wf _ hS
    obtain ⟨r, hr, hi⟩ := C08_equality_partial p e S w1 (fun f hf => (w2 f hf).1) (fun f hf => (w2 f hf).2) a b ha hb hra hrb
    refine ⟨_, _, r, h1, h2, ?_, by rw [hi]; simp⟩
    unfold Elem.eq
    rw [if_pos rfl, hr]
  · refine ⟨_, _, false, h1, h2, ?_, by simp [h]⟩
    unfold Elem.eq
    rw [if_neg h]

/-- Same bytes, different variants. -/
example : ∃ x y r, Coappearances.VerticesData.create 0#8 [7#8, 0#8, 0#8, 0#8] = .ok x ∧
    Coappearances.VerticesData.create 1#8 [7#8, 0#8, 0#8, 0#8] = .ok y ∧ Elem.eq .debug .little x y = .ok r ∧ r = false := by
  obtain ⟨x, y, r, h1, h2, h3, h4⟩ := C08_variadic_partial .debug .little Coappearances.VerticesData MultiExample.ok.distinct (by
      intro x hx
      refine ⟨(MultiExample.wf x hx).1, ?_⟩
      simp only [Coappearances.VerticesData, List.mem_cons, List.not_mem_nil, or_false] at hx
      rcases hx with rfl | rfl | rfl | rfl <;> decide)
    0#8 1#8 Coappearances.Nickname Coappearances.Description [7#8, 0#8, 0#8, 0#8] [7#8, 0#8, 0#8, 0#8] (by decide) (by decide) (by decide) (by decide)
    (by intro f hf; simp only [Coappearances.Nickname, List.mem_cons, List.not_mem_nil, or_false] at hf; subst hf; exact ⟨7, by decide⟩)
    (by intro f hf; simp only [Coappearances.Description, List.mem_cons, List.not_mem_nil, or_false] at hf; subst hf; exact ⟨7, by decide⟩)
  refine ⟨x, y, r, h1, h2, h3, ?_⟩
  cases r with
  | false => rfl
  | true => exact absurd (h4.mp rfl).1 (by decide)

end Flatdata
