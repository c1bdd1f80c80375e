import Verif.Proofs.View
import Verif.Proofs.Struct
import Verif.Spec.MultiView
namespace Flatdata
open Spec

/-! ## no undefined behaviour -/

theorem Out.bind_ne_ub {α β : Type} {x : Out α} {f : α → Out β} (hx : x ≠ .ub) (hf : ∀ a, x = .ok a → f a ≠ .ub) :
    (x >>= f) ≠ .ub := by
  cases x with
  | ok a => exact hf a rfl
  | panic => exact nofun
  | ub => exact absurd rfl hx

theorem umul_ne_ub {p : Profile} {a b : Nat} : umul p a b ≠ .ub := by
  unfold umul; split <;> (try cases p) <;> exact fun h => by cases h

theorem uadd_ne_ub {p : Profile} {a b : Nat} : uadd p a b ≠ .ub := by
  unfold uadd; split <;> (try cases p) <;> exact fun h => by cases h

theorem assert_ne_ub {c : Prop} [Decidable c] : assert c ≠ .ub := by
  unfold assert; split <;> exact fun h => by cases h

theorem sliceFrom_ne_ub {d : Bytes} {i : Nat} : sliceFrom d i ≠ .ub := by
  unfold sliceFrom; split <;> exact fun h => by cases h

theorem sliceRange_ne_ub {d : Bytes} {i j : Nat} : sliceRange d i j ≠ .ub := by
  unfold sliceRange; split <;> exact fun h => by cases h

theorem viewAt_ne_ub {p : Profile} {size : Nat} {data : Bytes} {i : Nat} : View.at' p size data i ≠ .ub :=
  Out.bind_ne_ub umul_ne_ub fun _ _ => Out.bind_ne_ub uadd_ne_ub fun _ _ => Out.bind_ne_ub assert_ne_ub fun _ _ =>
    sliceFrom_ne_ub

/-! ## index entries -/

theorem Spec.IndexOK.size_pos {V : Variadic} (ok : IndexOK V) : 0 < V.indexSize := by
  have := ok.pos
  have := ok.inside
  omega

theorem getIndex_eq {p : Profile} {e : Endian} {n : Nat} {mem : Bytes} (h1 : 1 ≤ n) (h2 : n ≤ 64)
    (h3 : n ≤ 8 * mem.length) : getIndex p e n mem = .ok (fieldRaw mem 0 n) := by
  unfold getIndex
  rw [get_eq (f := indexField n) h1 h2 (by simpa [indexField, Field.plain] using h3) (.inr (by simp [indexField, Field.plain]))]
  have : codeDecode (indexField n).ty (indexField n).bits (fieldRaw mem (indexField n).off (indexField n).bits) =
      (fieldRaw mem 0 n : Int) := by
    unfold codeDecode decode
    split <;> rfl
  rw [this]
  simp only [Field.transmute, indexField, Field.plain, Out.ok_bind, Int.toNat_natCast]

theorem fieldRaw_take {mem : Bytes} {n size : Nat} (h : n ≤ 8 * size) : fieldRaw (mem.take size) 0 n = fieldRaw mem 0 n := by
  apply fieldRaw_congr
  intro i hi
  unfold bitAt
  rw [List.getElem?_take_of_lt (by omega)]

theorem length_offsets (V : Variadic) (index : Bytes) : (offsets V index).length = index.length / V.indexSize := by
  simp [offsets, length_elems]

/-- Reading entry `i` of the index. -/
theorem entry {p : Profile} {e : Endian} {V : Variadic} (ok : IndexOK V) {index : Bytes} (hd : index.length < usizeMod)
    {i : Nat} (hi : i < (offsets V index).length) :
    (do let x ← View.at' p V.indexSize index i; getIndex p e V.indexBits x) = .ok (offsets V index)[i] := by
  have hs := ok.size_pos
  have hin := ok.inside
  have hi' : i < index.length / V.indexSize := by rwa [length_offsets] at hi
  rw [at_in_range hs hd hi', Out.ok_bind]
  have hle := (div_lt_iff hs).mp hi'
  rw [Nat.add_mul, Nat.one_mul] at hle
  rw [getIndex_eq ok.pos ok.le (by simp; omega)]
  congr 1
  simp only [offsets, elems, List.getElem_map, List.getElem_range]
  rw [fieldRaw_take ok.inside]

/-! ## pieces -/

theorem length_pieces : ∀ (offs : List Nat) (data : Bytes), (pieces offs data).length = offs.length - 1
  | [], _ => rfl
  | [_], _ => rfl
  | _ :: b :: offs, data => by
    simp only [pieces, List.length_cons, length_pieces (b :: offs) data]
    omega

theorem getElem?_pieces : ∀ (offs : List Nat) (data : Bytes) (i : Nat) (h : i + 1 < offs.length),
    (pieces offs data)[i]? = some ((data.take offs[i + 1]).drop offs[i])
  | [], _, _, h => by simp at h
  | [_], _, _, h => by simp at h
  | _ :: _ :: _, _, 0, _ => rfl
  | _ :: b :: offs, data, i + 1, h => by
    simp only [pieces, List.getElem?_cons_succ]
    exact getElem?_pieces (b :: offs) data i (by simpa using h)

theorem pieces_slice (offs : List Nat) (data : Bytes) (a b : Nat) (hb : b + 1 ≤ offs.length) :
    pieces ((offs.take (b + 1)).drop a) data = ((pieces offs data).take b).drop a := by
  apply List.ext_getElem?
  intro i
  rw [List.getElem?_drop]
  by_cases h : i + 1 < ((offs.take (b + 1)).drop a).length
  · rw [getElem?_pieces _ _ _ h]
    have h' : a + i + 1 < b + 1 := by simp at h; omega
    rw [List.getElem?_take_of_lt (by omega), getElem?_pieces _ _ _ (by omega)]
    simp [Nat.add_assoc]
  · rw [List.getElem?_eq_none (by rw [length_pieces]; omega),
      List.getElem?_eq_none (by rw [List.length_take, length_pieces]; simp at h; omega)]

theorem length_items (V : Variadic) (v : MultiView) : (items V v).length = (offsets V v.index).length - 1 := length_pieces _ _

/-! ## `MultiArrayView` -/

theorem multi_len {p : Profile} {V : Variadic} {v : MultiView} (ok : MultiOK V v) :
    MultiView.len p V v = .ok (items V v).length := by
  have hs := ok.def_ok.size_pos
  have hpos : 0 < (offsets V v.index).length := List.length_pos_iff.mpr ok.sentinel
  rw [length_offsets] at hpos
  unfold MultiView.len
  rw [len_eq hs, Out.ok_bind, usub_ok (by omega), length_items, length_offsets]

theorem multi_isEmpty {p : Profile} {V : Variadic} {v : MultiView} (ok : MultiOK V v) :
    MultiView.isEmpty p V v = .ok ((items V v).length == 0) := by
  unfold MultiView.isEmpty
  rw [multi_len ok]; rfl

theorem at_eq {p : Profile} {e : Endian} {V : Variadic} {v : MultiView} {i : Nat} :
    MultiView.at' p e V v i = (do
      let start ← (do let x ← View.at' p V.indexSize v.index i; getIndex p e V.indexBits x)
      let next ← uadd p i 1
      let stop ← (do let x ← View.at' p V.indexSize v.index next; getIndex p e V.indexBits x)
      sliceRange v.data start stop) := by
  unfold MultiView.at'
  cases View.at' p V.indexSize v.index i with
  | ok x =>
    simp only [Out.ok_bind]
    cases getIndex p e V.indexBits x with
    | ok a =>
      simp only [Out.ok_bind]
      cases uadd p i 1 with
      | ok n =>
        simp only [Out.ok_bind]
        cases View.at' p V.indexSize v.index n <;> rfl
      | _ => rfl
    | _ => rfl
  | _ => rfl

/-- `at` in range. -/
theorem multi_at {p : Profile} {e : Endian} {V : Variadic} {v : MultiView} (ok : MultiOK V v) {i : Nat}
    (hi : i < (items V v).length) : MultiView.at' p e V v i = .ok (items V v)[i] := by
  have hsz := ok.size
  have hd : v.index.length < usizeMod := by unfold usizeMod; omega
  have hi1 : i + 1 < (offsets V v.index).length := by rw [length_items] at hi; omega
  have hb : (offsets V v.index).length ≤ v.index.length := by
    rw [length_offsets]; exact Nat.div_le_self _ _
  rw [at_eq, entry ok.def_ok hd (show i < _ by omega), Out.ok_bind, uadd_ok (by omega), Out.ok_bind,
    entry ok.def_ok hd hi1, Out.ok_bind]
  unfold sliceRange
  rw [if_pos ⟨List.pairwise_iff_getElem.mp ok.sorted _ _ (by omega) hi1 (by omega), ok.inside _ (List.getElem_mem _)⟩]
  have := getElem?_pieces (offsets V v.index) v.data i hi1
  change (items V v)[i]? = _ at this
  rw [List.getElem?_eq_getElem hi] at this
  exact congrArg Out.ok (Option.some.inj this).symm

theorem Spec.MultiOK.of_offsets {V : Variadic} {v v' : MultiView} (ok : MultiOK V v) (hd : v'.data = v.data)
    (hs : v'.index.length ≤ v.index.length) (hsub : (offsets V v'.index).Sublist (offsets V v.index))
    (hne : offsets V v'.index ≠ []) : MultiOK V v' :=
  ⟨ok.def_ok, hne, ok.sorted.sublist hsub, fun o ho => hd ▸ ok.inside o (hsub.subset ho), by have := ok.size; omega⟩

/-- `slice` in range. -/
theorem multi_slice {p : Profile} {V : Variadic} {v : MultiView} (ok : MultiOK V v) {lo hi : Bound}
    (h1 : lower lo ≤ upper (items V v).length hi) (h2 : upper (items V v).length hi ≤ (items V v).length) :
    ∃ v', MultiView.slice p V v lo hi = .ok v' ∧ MultiOK V v' ∧
      items V v' = ((items V v).take (upper (items V v).length hi)).drop (lower lo) := by
  have hs := ok.def_ok.size_pos
  have hsz := ok.size
  have hd : v.index.length < usizeMod := by unfold usizeMod; omega
  have hne := List.length_pos_iff.mpr ok.sentinel
  have hlen := length_items V v
  have hoff := length_offsets V v.index
  have hle : v.index.length / V.indexSize ≤ v.index.length := Nat.div_le_self _ _
  generalize hN : (items V v).length = N at *
  have hstart : MultiView.startIndex p lo = .ok (lower lo) := by
    cases lo <;> simp only [MultiView.startIndex, lower] at *
    exact uadd_ok (by omega)
  have hend : MultiView.endIndex p V v hi = .ok (upper N hi + 1) := by
    cases hi with
    | included i =>
      simp only [MultiView.endIndex, upper] at *
      exact uadd_ok (by omega)
    | excluded i =>
      simp only [MultiView.endIndex, upper] at *
      exact uadd_ok (by omega)
    | unbounded =>
      simp only [MultiView.endIndex, upper, len_eq hs] at *
      congr 1
      omega
  obtain ⟨d, g1, g2, g3⟩ := slice_in_range (p := p) (lo := .included (lower lo)) (hi := .excluded (upper N hi + 1)) hs hd
    (by change lower lo ≤ upper N hi + 1; omega) (by change upper N hi + 1 ≤ _; omega)
  change elems V.indexSize d = ((elems V.indexSize v.index).take (upper N hi + 1)).drop (lower lo) at g3
  have hoffs : offsets V d = ((offsets V v.index).take (upper N hi + 1)).drop (lower lo) := by
    unfold offsets
    rw [g3, List.map_drop, List.map_take]
  refine ⟨⟨d, v.data⟩, ?_, ?_, ?_⟩
  · unfold MultiView.slice
    rw [hstart, Out.ok_bind, hend, Out.ok_bind, g1]; rfl
  · apply ok.of_offsets (v' := ⟨d, v.data⟩) rfl g2
    · rw [hoffs]
      exact (List.drop_sublist _ _).trans (List.take_sublist _ _)
    · rw [hoffs]
      intro h
      have := congrArg List.length h
      simp at this
      omega
  · simp only [items, hoffs]
    rw [pieces_slice _ _ _ _ (by omega)]

/-- One step of the iterator at either end. -/
def multiStep (p : Profile) (e : Endian) (V : Variadic) : End → MultiView → Out (Option Bytes × MultiView)
  | .front => MultiView.next p e V
  | .back => MultiView.nextBack p e V

theorem multiStep_spec {p : Profile} {e : Endian} {V : Variadic} (dir : End) {v : MultiView} (ok : MultiOK V v) :
    ∃ v', multiStep p e V dir v =
        .ok (match dir with | .front => (items V v).head? | .back => (items V v).getLast?, v') ∧ MultiOK V v' ∧
      items V v' = (match dir with | .front => (items V v).tail | .back => (items V v).dropLast) := by
  by_cases h0 : (items V v).length = 0
  · have hnil := List.eq_nil_of_length_eq_zero h0
    refine ⟨v, ?_, ok, ?_⟩
    · cases dir <;> simp only [multiStep, MultiView.next, MultiView.nextBack, multi_isEmpty ok, Out.ok_bind, h0, hnil] <;> rfl
    · cases dir <;> simp [hnil]
  · have hne : ((items V v).length == 0) = false := by simpa using h0
    cases dir with
    | front =>
      obtain ⟨v', g1, g2, g3⟩ := multi_slice (p := p) ok (lo := .included 1) (hi := .unbounded)
        (by simp only [lower, upper]; omega) (by simp only [upper]; omega)
      refine ⟨v', ?_, g2, ?_⟩
      · simp only [multiStep, MultiView.next, multi_isEmpty ok, Out.ok_bind, hne,
          multi_at (p := p) (e := e) ok (show 0 < (items V v).length by omega), g1]
        rw [List.head?_eq_getElem?, List.getElem?_eq_getElem (by omega)]
        rfl
      · rw [g3]; simp [upper, lower]
    | back =>
      obtain ⟨v', g1, g2, g3⟩ := multi_slice (p := p) ok (lo := .unbounded) (hi := .excluded ((items V v).length - 1))
        (by simp only [lower, upper]; omega) (by simp only [upper]; omega)
      refine ⟨v', ?_, g2, ?_⟩
      · simp only [multiStep, MultiView.nextBack, multi_isEmpty ok, Out.ok_bind, hne, multi_len ok,
          usub_ok (show 1 ≤ (items V v).length by omega),
          multi_at (p := p) (e := e) ok (show (items V v).length - 1 < (items V v).length by omega), g1]
        rw [List.getLast?_eq_getElem?, List.getElem?_eq_getElem (by omega)]
        rfl
      · rw [g3]; simp [upper, lower, List.dropLast_eq_take]

/-- Running the iterator with a sequence of `next`/`next_back` calls. -/
def multiRun (p : Profile) (e : Endian) (V : Variadic) : List End → MultiView → Out (List (Option Bytes) × MultiView)
  | [], v => .ok ([], v)
  | dir :: ops, v => do
    let (r, v) ← multiStep p e V dir v
    let (rs, v) ← multiRun p e V ops v
    .ok (r :: rs, v)

theorem multiRun_spec {p : Profile} {e : Endian} {V : Variadic} : ∀ (ops : List End) (v : MultiView), MultiOK V v →
    ∃ v', multiRun p e V ops v = .ok ((deque ops (items V v)).1, v') ∧ MultiOK V v' ∧
      items V v' = (deque ops (items V v)).2 := by
  intro ops
  induction ops with
  | nil => intro v ok; exact ⟨v, rfl, ok, rfl⟩
  | cons dir ops ih =>
    intro v ok
    obtain ⟨v1, h1, h2, h3⟩ := multiStep_spec (p := p) (e := e) dir ok
    obtain ⟨v2, g1, g2, g3⟩ := ih v1 h2
    refine ⟨v2, ?_, g2, ?_⟩
    · simp only [multiRun, h1, Out.ok_bind, g1]
      cases dir <;> simp only [deque, h3]
    · cases dir <;> simp only [deque, g3, h3]

/-! ## items -/

theorem itemNext_ok {V : Variadic} {data rest : Bytes} {x : Elem} (h : MultiView.itemNext V data = .ok (some x, rest)) :
    data = x.type :: x.mem ∧ x.struct.size ≤ x.mem.length ∧ rest = x.mem.drop x.struct.size ∧
      V.types.find? (fun y => y.1 = x.type) = some (x.type, x.struct) := by
  cases data with
  | nil => cases h
  | cons t data =>
    simp only [MultiView.itemNext, Out.bind_eq_ok] at h
    obtain ⟨r, h1, d, h2, h3⟩ := h
    unfold Variadic.create at h1
    split at h1
    · rename_i y hy
      cases h1
      cases h3
      unfold sliceFrom at h2
      split at h2
      · rename_i hle
        cases h2
        have hy1 : y.1 = t := by simpa using List.find?_some hy
        refine ⟨rfl, hle, rfl, ?_⟩
        rw [hy, ← hy1]
      · cases h2
    · cases h1

theorem itemNext_none {V : Variadic} {data rest : Bytes} (h : MultiView.itemNext V data = .ok (none, rest)) :
    data = [] ∧ rest = [] := by
  cases data with
  | nil => cases h; exact ⟨rfl, rfl⟩
  | cons t data =>
    simp only [MultiView.itemNext, Out.bind_eq_ok] at h
    obtain ⟨r, _, d, _, h3⟩ := h
    cases h3

theorem itemNext_ne_ub {V : Variadic} {data : Bytes} : MultiView.itemNext V data ≠ .ub := by
  cases data with
  | nil => exact nofun
  | cons t data =>
    simp only [MultiView.itemNext, Variadic.create, sliceFrom]
    intro h
    cases hf : V.types.find? (fun x => x.1 = t) with
    | none => rw [hf] at h; cases h
    | some y =>
      rw [hf] at h
      by_cases hl : y.2.size ≤ data.length
      · simp only [Out.ok_bind, Elem.sizeInBytes, hl] at h; cases h
      · simp only [Out.ok_bind, Elem.sizeInBytes, hl] at h; cases h

/-- Enough fuel is enough. -/
theorem itemCollectN_fuel {V : Variadic} : ∀ (n m : Nat) (data : Bytes), data.length ≤ n → data.length ≤ m →
    MultiView.itemCollectN V n data = MultiView.itemCollectN V m data := by
  have base : ∀ n, MultiView.itemCollectN V n [] = .ok [] := by
    intro n; cases n <;> rfl
  intro n
  induction n with
  | zero =>
    intro m data h1 h2
    obtain rfl : data = [] := List.eq_nil_of_length_eq_zero (by omega)
    rw [base, base]
  | succ n ih =>
    intro m data h1 h2
    cases m with
    | zero =>
      obtain rfl : data = [] := List.eq_nil_of_length_eq_zero (by omega)
      rw [base, base]
    | succ m =>
      simp only [MultiView.itemCollectN]
      cases h : MultiView.itemNext V data with
      | ok r =>
        obtain ⟨x, rest⟩ := r
        cases x with
        | none => rfl
        | some x =>
          obtain ⟨g1, g2, g3, _⟩ := itemNext_ok h
          simp only [Out.ok_bind]
          have : rest.length < data.length := by rw [g1, g3]; simp; omega
          rw [ih m rest (by omega) (by omega)]
      | _ => rfl

theorem itemCollect_nil {V : Variadic} : MultiView.itemCollect V [] = .ok [] := rfl

theorem itemCollect_step {V : Variadic} {data rest : Bytes} {x : Elem} (h : MultiView.itemNext V data = .ok (some x, rest)) :
    MultiView.itemCollect V data = (do let xs ← MultiView.itemCollect V rest; .ok (x :: xs)) := by
  obtain ⟨g1, g2, g3, _⟩ := itemNext_ok h
  have hlt : rest.length < data.length := by rw [g1, g3]; simp; omega
  unfold MultiView.itemCollect
  obtain ⟨n, hn⟩ : ∃ n, data.length = n + 1 := ⟨data.length - 1, by omega⟩
  rw [hn]
  simp only [MultiView.itemCollectN, h, Out.ok_bind]
  rw [itemCollectN_fuel n rest.length rest (by omega) (Nat.le_refl _)]

theorem find_of_mem {V : Variadic} (hV : (V.types.map Prod.fst).Nodup) {t : BitVec 8} {S : StructDef} (h : (t, S) ∈ V.types) :
    V.types.find? (fun y => y.1 = t) = some (t, S) := by
  revert hV h
  generalize V.types = l
  induction l with
  | nil => intro _ h; cases h
  | cons a l ih =>
    intro hn h
    rw [List.map_cons, List.nodup_cons] at hn
    rcases List.mem_cons.mp h with rfl | h
    · simp
    · have : a.1 ≠ t := by
        rintro rfl
        exact hn.1 (List.mem_map.mpr ⟨_, h, rfl⟩)
      rw [List.find?_cons_of_neg (by simpa using this)]
      exact ih hn.2 h

/-- Reading back an item that was written. -/
theorem itemCollect_encode {V : Variadic} (hV : (V.types.map Prod.fst).Nodup) : ∀ (xs : List (BitVec 8 × Bytes)), ItemOK V xs →
    ∃ l, MultiView.itemCollect V (encodeItem xs) = .ok l ∧ l.map Elem.content = xs ∧
      ∀ x ∈ l, (x.type, x.struct) ∈ V.types ∧ x.struct.size ≤ x.mem.length := by
  intro xs
  induction xs with
  | nil => intro _; exact ⟨[], rfl, rfl, by simp⟩
  | cons x xs ih =>
    intro h
    obtain ⟨⟨t, S⟩, hm, ht, hl⟩ := h x (by simp)
    have hS := find_of_mem hV hm
    simp only at ht hl
    rw [ht] at hS
    obtain ⟨l, h1, h2, h3⟩ := ih fun y hy => h y (by simp [hy])
    have hn : MultiView.itemNext V (encodeItem (x :: xs)) = .ok (some ⟨x.1, S, x.2 ++ encodeItem xs⟩, encodeItem xs) := by
      have hsl : sliceFrom (x.2 ++ encodeItem xs) S.size = .ok (encodeItem xs) := by
        unfold sliceFrom
        rw [if_pos (by simp; omega), ← hl, List.drop_left]
      simp only [encodeItem, List.cons_append, MultiView.itemNext, Variadic.create, hS, Out.ok_bind, Elem.sizeInBytes, hsl]
    refine ⟨⟨x.1, S, x.2 ++ encodeItem xs⟩ :: l, ?_, ?_, ?_⟩
    · rw [itemCollect_step hn, h1]; rfl
    · rw [List.map_cons, h2]
      simp [Elem.content, ← hl]
    · intro y hy
      rcases List.mem_cons.mp hy with rfl | hy
      · exact ⟨List.mem_of_find?_eq_some hS, by simp; omega⟩
      · exact h3 y hy

/-- What collecting the elements of arbitrary bytes returns, if it returns. -/
theorem itemCollect_ok {V : Variadic} : ∀ (n : Nat) (data : Bytes), data.length ≤ n → ∀ l,
    MultiView.itemCollect V data = .ok l → encodeItem (l.map Elem.content) = data ∧
      ∀ x ∈ l, (x.type, x.struct) ∈ V.types ∧ x.struct.size ≤ x.mem.length ∧ x.mem <:+ data := by
  intro n
  induction n with
  | zero =>
    intro data hn l h
    obtain rfl : data = [] := List.eq_nil_of_length_eq_zero (by omega)
    cases h; exact ⟨rfl, by simp⟩
  | succ n ih =>
    intro data hn l h
    cases hx : MultiView.itemNext V data with
    | ok r =>
      obtain ⟨x, rest⟩ := r
      cases x with
      | none =>
        obtain ⟨rfl, _⟩ := itemNext_none hx
        cases h; exact ⟨rfl, by simp⟩
      | some x =>
        rw [itemCollect_step hx] at h
        obtain ⟨g1, g2, g3, g4⟩ := itemNext_ok hx
        simp only [Out.bind_eq_ok] at h
        obtain ⟨xs, h1, h2⟩ := h
        cases h2
        have hlt : rest.length < data.length := by rw [g1, g3]; simp; omega
        obtain ⟨k1, k2⟩ := ih rest (by omega) xs h1
        constructor
        · rw [List.map_cons, encodeItem, k1, g3, g1]
          simp [Elem.content]
        · intro y hy
          rcases List.mem_cons.mp hy with rfl | hy
          · exact ⟨List.mem_of_find?_eq_some g4, g2, g1 ▸ List.suffix_cons _ _⟩
          · obtain ⟨a, b, c⟩ := k2 y hy
            exact ⟨a, b, c.trans ((g3 ▸ List.drop_suffix _ _).trans (g1 ▸ List.suffix_cons _ _))⟩
    | _ =>
      cases data with
      | nil => cases hx
      | cons t d =>
        unfold MultiView.itemCollect MultiView.itemCollectN at h
        simp only [List.length_cons, hx] at h
        cases h

theorem itemCollect_ne_ub {V : Variadic} : ∀ (n : Nat) (data : Bytes), MultiView.itemCollectN V n data ≠ .ub := by
  intro n
  induction n with
  | zero => intro _; exact nofun
  | succ n ih =>
    intro data
    simp only [MultiView.itemCollectN]
    cases hx : MultiView.itemNext V data with
    | ub => exact absurd hx itemNext_ne_ub
    | ok r =>
      obtain ⟨x, rest⟩ := r
      cases x with
      | none => exact nofun
      | some x =>
        simp only [Out.ok_bind]
        cases hr : MultiView.itemCollectN V n rest with
        | ub => exact absurd hr (ih rest)
        | _ => exact nofun
    | panic => exact nofun

end Flatdata
