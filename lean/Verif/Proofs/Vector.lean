import Verif.Spec.Vector
import Verif.Proofs.View
import Verif.Proofs.Fill
namespace Flatdata
open Spec

/-! ## Handles are local -/

theorem set_local {p : Profile} {e : Endian} {size : Nat} {f : Field} {x rest : Bytes} {v : Int} (hx : x.length = size) :
    f.set p e size (x ++ rest) v = (do let y ← f.set p e size x v; .ok (y ++ rest)) := by
  unfold Field.set
  rw [if_neg (by simp; omega), if_neg (by omega)]
  have h1 : (x ++ rest).take size = x := by rw [List.take_append_of_le_length (by omega), List.take_of_length_le (by omega)]
  have h2 : (x ++ rest).drop size = rest := by rw [← hx]; simp
  have h3 : x.take size = x := List.take_of_length_le (by omega)
  have h4 : x.drop size = [] := List.drop_eq_nil_of_le (by omega)
  rw [h1, h2, h3, h4]
  cases writeBytes p e f.encSigned v x f.off f.bits <;> simp

theorem set_length_ok {p : Profile} {e : Endian} {size : Nat} {f : Field} {x y : Bytes} {v : Int}
    (h : f.set p e size x v = .ok y) : y.length = x.length := (set_length h).1

theorem fillFields_local {p : Profile} {e : Endian} {size : Nat} {rest src : Bytes} :
    ∀ (fs : List Field) (x : Bytes), x.length = size →
    fillFields p e size fs (x ++ rest) src = (do let y ← fillFields p e size fs x src; .ok (y ++ rest)) := by
  intro fs
  induction fs with
  | nil => intro x _; rfl
  | cons f fs ih =>
    intro x hx
    simp only [fillFields]
    cases hg : f.get p e src with
    | panic => rfl
    | ub => rfl
    | ok v =>
      simp only [Out.ok_bind]
      rw [set_local hx]
      cases hset : f.set p e size x v with
      | panic => rfl
      | ub => rfl
      | ok y =>
        simp only [Out.ok_bind]
        exact ih y (by rw [set_length_ok hset, hx])

theorem fillFields_length {p : Profile} {e : Endian} {size : Nat} {src : Bytes} :
    ∀ (fs : List Field) (x y : Bytes), fillFields p e size fs x src = .ok y → y.length = x.length := by
  intro fs
  induction fs with
  | nil => intro x y h; cases h; rfl
  | cons f fs ih =>
    intro x y h
    simp only [fillFields, Out.bind_eq_ok] at h
    obtain ⟨v, _, z, hz, h⟩ := h
    rw [ih z y h, set_length_ok hz]

theorem HandleOp.run_local {p : Profile} {e : Endian} {S : StructDef} {x rest : Bytes} (op : HandleOp)
    (hx : x.length = S.size) :
    op.run p e S (x ++ rest) = (do let y ← op.run p e S x; .ok (y ++ rest)) := by
  cases op with
  | set f v => exact set_local hx
  | fill src => exact fillFields_local _ _ hx

theorem HandleOp.run_length {p : Profile} {e : Endian} {S : StructDef} {x y : Bytes} {op : HandleOp}
    (h : op.run p e S x = .ok y) : y.length = x.length := by
  cases op with
  | set f v => exact set_length_ok h
  | fill src => exact fillFields_length _ _ _ h

theorem runHandle_local {p : Profile} {e : Endian} {S : StructDef} {rest : Bytes} :
    ∀ (ops : List HandleOp) (x : Bytes), x.length = S.size →
    runHandle p e S ops (x ++ rest) = (do let y ← runHandle p e S ops x; .ok (y ++ rest)) := by
  intro ops
  induction ops with
  | nil => intro x _; rfl
  | cons op ops ih =>
    intro x hx
    simp only [runHandle]
    rw [HandleOp.run_local op hx]
    cases h : op.run p e S x with
    | panic => rfl
    | ub => rfl
    | ok y => simp only [Out.ok_bind]; exact ih y (by rw [HandleOp.run_length h, hx])

theorem runHandle_length {p : Profile} {e : Endian} {S : StructDef} :
    ∀ (ops : List HandleOp) (x y : Bytes), runHandle p e S ops x = .ok y → y.length = x.length := by
  intro ops
  induction ops with
  | nil => intro x y h; cases h; rfl
  | cons op ops ih =>
    intro x y h
    simp only [runHandle, Out.bind_eq_ok] at h
    obtain ⟨z, hz, h⟩ := h
    rw [ih z y h, HandleOp.run_length hz]

/-! ## Lists of elements of equal size -/

def AllSize (size : Nat) (l : List Bytes) : Prop := ∀ x ∈ l, x.length = size

theorem AllSize.nil (size : Nat) : AllSize size [] := by intro x hx; cases hx

theorem AllSize.append {size : Nat} {l m : List Bytes} (h : AllSize size l) (h' : AllSize size m) :
    AllSize size (l ++ m) := by
  intro x hx
  rcases List.mem_append.mp hx with hx | hx
  · exact h x hx
  · exact h' x hx

theorem AllSize.single {size : Nat} {x : Bytes} (h : x.length = size) : AllSize size [x] := by
  intro y hy; simp at hy; rw [hy, h]

theorem AllSize.length_flatten {size : Nat} {l : List Bytes} (h : AllSize size l) :
    l.flatten.length = l.length * size := by
  induction l with
  | nil => simp
  | cons x l ih =>
    have hx := h x (by simp)
    have := ih (fun y hy => h y (by simp [hy]))
    simp only [List.flatten_cons, List.length_append, List.length_cons, this, hx, Nat.add_mul, Nat.one_mul]
    omega

theorem AllSize.drop_flatten {size : Nat} {l : List Bytes} (h : AllSize size l) (i : Nat) :
    l.flatten.drop (i * size) = (l.drop i).flatten := by
  induction l generalizing i with
  | nil => simp
  | cons x l ih =>
    have hx := h x (by simp)
    cases i with
    | zero => simp
    | succ i =>
      simp only [List.flatten_cons, List.drop_succ_cons]
      rw [← ih (fun y hy => h y (by simp [hy])), Nat.add_mul, Nat.one_mul, List.drop_append, hx]
      rw [List.drop_eq_nil_of_le (by omega)]
      simp

theorem AllSize.take_flatten {size : Nat} {l : List Bytes} (h : AllSize size l) (i : Nat) :
    l.flatten.take (i * size) = (l.take i).flatten := by
  induction l generalizing i with
  | nil => simp
  | cons x l ih =>
    have hx := h x (by simp)
    cases i with
    | zero => simp
    | succ i =>
      simp only [List.flatten_cons, List.take_succ_cons]
      rw [← ih (fun y hy => h y (by simp [hy])), Nat.add_mul, Nat.one_mul, List.take_append, hx]
      rw [List.take_of_length_le (by omega)]
      simp

theorem elems_flatten {size : Nat} (hs : 0 < size) {l : List Bytes} (h : AllSize size l) : elems size l.flatten = l := by
  apply List.ext_getElem?
  intro i
  rw [getElem?_elems, h.length_flatten, Nat.mul_div_cancel _ hs, h.drop_flatten]
  split
  · rename_i hi
    rw [List.drop_eq_getElem_cons hi, List.flatten_cons, List.take_append_of_le_length, List.take_of_length_le,
      List.getElem?_eq_getElem hi]
    · exact Nat.le_of_eq (h _ (List.getElem_mem hi))
    · exact Nat.le_of_eq (h _ (List.getElem_mem hi)).symm
  · rename_i hi
    rw [List.getElem?_eq_none (by omega)]

theorem flatten_split {l : List Bytes} {i : Nat} {x : Bytes} (hi : l[i]? = some x) :
    l.flatten = (l.take i).flatten ++ (x ++ (l.drop (i + 1)).flatten) := by
  obtain ⟨h, rfl⟩ := List.getElem?_eq_some_iff.mp hi
  rw [← List.flatten_cons, ← List.drop_eq_getElem_cons h, ← List.flatten_append, List.take_append_drop]

/-! ## Vectors -/

/-- Invariant: the bytes are the elements followed by eight zero bytes. -/
structure Rep (size : Nat) (data : Bytes) (l : List Bytes) : Prop where
  all : AllSize size l
  eq : data = l.flatten ++ zeros 8

theorem Rep.length {size : Nat} {data : Bytes} {l : List Bytes} (h : Rep size data l) :
    data.length = l.length * size + 8 := by
  rw [h.eq]; simp [h.all.length_flatten, zeros]

theorem Rep.sizeInBytes {size : Nat} {data : Bytes} {l : List Bytes} (h : Rep size data l) (p : Profile) :
    Vector.sizeInBytes p data = .ok (l.length * size) := by
  unfold Vector.sizeInBytes paddingSize
  rw [usub_ok (by have := h.length; omega), h.length]; simp

theorem Rep.len {size : Nat} {data : Bytes} {l : List Bytes} (h : Rep size data l) (hs : 0 < size) (p : Profile) :
    Vector.len p size data = .ok l.length := by
  unfold Vector.len
  rw [h.sizeInBytes, Out.ok_bind, if_neg (by omega), Nat.mul_div_cancel _ hs]

theorem Rep.asBytes {size : Nat} {data : Bytes} {l : List Bytes} (h : Rep size data l) (p : Profile) :
    Vector.asBytes p data = .ok l.flatten := by
  unfold Vector.asBytes
  rw [h.sizeInBytes, Out.ok_bind]
  unfold sliceRange
  rw [if_pos (by have := h.length; omega)]
  have := h.all.length_flatten
  rw [h.eq, ← this]; simp

theorem Rep.at' {size : Nat} {data : Bytes} {l : List Bytes} (h : Rep size data l) (p : Profile)
    (hd : data.length < 2 ^ 63) {i : Nat} {x : Bytes} (hi : l[i]? = some x) :
    Vector.at' p size data i = .ok (x ++ (l.drop (i + 1)).flatten ++ zeros 8) := by
  have hlen := h.length
  obtain ⟨hlt, _⟩ := List.getElem?_eq_some_iff.mp hi
  have hmul : i * size ≤ l.length * size := Nat.mul_le_mul_right _ (by omega)
  unfold Vector.at'
  rw [umul_ok (by unfold usizeMod; omega), Out.ok_bind]
  unfold sliceFrom
  rw [if_pos (by omega), h.eq, List.drop_append_of_le_length (by rw [h.all.length_flatten]; exact hmul),
    h.all.drop_flatten, List.drop_eq_getElem_cons hlt]
  obtain ⟨_, rfl⟩ := List.getElem?_eq_some_iff.mp hi
  rw [List.flatten_cons]

theorem Rep.writeAt {p : Profile} {e : Endian} {S : StructDef} {data : Bytes} {l : List Bytes} (h : Rep S.size data l)
    {i : Nat} {x y : Bytes} (hi : l[i]? = some x) {ops : List HandleOp} (hw : runHandle p e S ops x = .ok y) :
    ∃ data', Vector.writeAt p e S data (i * S.size) ops = .ok data' ∧ Rep S.size data' (l.set i y) := by
  obtain ⟨hlt, hx'⟩ := List.getElem?_eq_some_iff.mp hi
  have hx : x.length = S.size := h.all x (by rw [← hx']; exact List.getElem_mem hlt)
  have hy : y.length = S.size := by rw [runHandle_length _ _ _ hw, hx]
  have hmul : i * S.size ≤ l.length * S.size := Nat.mul_le_mul_right _ (by omega)
  have hdrop : data.drop (i * S.size) = x ++ ((l.drop (i + 1)).flatten ++ zeros 8) := by
    rw [h.eq, List.drop_append_of_le_length (by rw [h.all.length_flatten]; exact hmul),
      h.all.drop_flatten, List.drop_eq_getElem_cons hlt, hx']
    simp
  have htake : data.take (i * S.size) = (l.take i).flatten := by
    rw [h.eq, List.take_append_of_le_length (by rw [h.all.length_flatten]; exact hmul), h.all.take_flatten]
  unfold Vector.writeAt
  rw [hdrop, htake, runHandle_local _ _ hx, hw]
  refine ⟨_, rfl, ?_, ?_⟩
  · intro z hz
    rcases List.mem_or_eq_of_mem_set hz with hz | rfl
    · exact h.all z hz
    · exact hy
  · rw [List.set_eq_take_append_cons_drop, if_pos hlt]; simp

theorem zeros_append (a b : Nat) : zeros a ++ zeros b = zeros (a + b) := by simp [zeros]

theorem Rep.grow {size : Nat} {data : Bytes} {l : List Bytes} (h : Rep size data l) (p : Profile) (hs : 0 < size)
    (hfit : (l.length + 1) * size + 8 < 2 ^ 63) :
    ∃ data', Vector.grow p size data = .ok (data', l.length * size) ∧ Rep size data' (l ++ [zeros size]) := by
  have hlen := h.length
  rw [Nat.add_mul, Nat.one_mul] at hfit
  have hrep : Rep size (resize0 data (data.length + size)) (l ++ [zeros size]) := by
    refine ⟨h.all.append (AllSize.single (by simp [zeros])), ?_⟩
    unfold resize0
    rw [List.take_of_length_le (by omega), h.eq]
    simp only [zeros, List.length_append, List.length_replicate, List.flatten_append, List.flatten_cons, List.flatten_nil,
      List.append_nil, List.append_assoc, List.replicate_append_replicate]
    congr 2
    omega
  refine ⟨resize0 data (data.length + size), ?_, hrep⟩
  unfold Vector.grow
  rw [uadd_ok (by unfold usizeMod; omega), Out.ok_bind]
  unfold alloc
  rw [if_pos (by omega), Out.ok_bind]
  simp only
  rw [hrep.len hs, Out.ok_bind]
  simp only [List.length_append, List.length_cons, List.length_nil]
  rw [usub_ok (by omega), Out.ok_bind, Nat.add_sub_cancel, umul_ok (by unfold usizeMod; omega), Out.ok_bind]
  unfold sliceFrom
  rw [if_pos (by rw [hrep.length]; simp [Nat.add_mul]; omega)]
  rfl

theorem Rep.reserve {size : Nat} {data : Bytes} {l : List Bytes} (h : Rep size data l) (p : Profile) (hs : 0 < size)
    {n : Nat} (hfit : (l.length + n) * size + 16 < 2 ^ 63) :
    Vector.reserve p size data n = .ok data := by
  have hlen := h.length
  have hle : l.length + n ≤ (l.length + n) * size := Nat.le_mul_of_pos_right _ hs
  have hle2 : l.length * size ≤ (l.length + n) * size := Nat.mul_le_mul_right _ (by omega)
  unfold Vector.reserve Vector.calcSize paddingSize
  rw [h.len hs, Out.ok_bind, uadd_ok (by unfold usizeMod; omega), Out.ok_bind, umul_ok (by unfold usizeMod; omega),
    Out.ok_bind, uadd_ok (by unfold usizeMod; omega), Out.ok_bind, h.sizeInBytes, Out.ok_bind, usub_ok (by omega),
    Out.ok_bind]
  unfold alloc
  rw [if_pos (by omega)]; rfl

theorem Spec.FitsMem.bound {size : Nat} : ∀ (ops : List VecOp) (n : Nat), FitsMem size ops n →
    n * size + 8 < 2 ^ 63 := by
  intro ops
  induction ops with
  | nil => intro n h; exact h
  | cons op ops ih =>
    intro n h
    cases op with
    | grow w => have := ih _ h; rw [Nat.add_mul] at this; omega
    | reserve k => exact ih _ h.2
    | atMut i w => exact ih _ h

theorem runVec_spec {p : Profile} {e : Endian} {S : StructDef} (hs : 0 < S.size) :
    ∀ (ops : List VecOp) (data : Bytes) (l l' : List Bytes), Rep S.size data l → FitsMem S.size ops l.length →
    runList p e S ops l = .ok l' → ∃ data', runVec p e S ops data = .ok data' ∧ Rep S.size data' l' ∧
      data'.length < 2 ^ 63 := by
  intro ops
  induction ops with
  | nil =>
    intro data l l' h hf hr
    cases hr
    exact ⟨data, rfl, h, by rw [h.length]; exact hf⟩
  | cons op ops ih =>
    intro data l l' h hf hr
    simp only [runList, Out.bind_eq_ok] at hr
    obtain ⟨l1, h1, hr⟩ := hr
    have key : ∃ data1, op.run p e S data = .ok data1 ∧ Rep S.size data1 l1 ∧ FitsMem S.size ops l1.length := by
      cases op with
      | grow w =>
        simp only [listOp, Out.bind_eq_ok] at h1
        obtain ⟨x, hx, h1⟩ := h1
        cases h1
        obtain ⟨d1, g1, g2⟩ := h.grow p hs (FitsMem.bound _ _ hf)
        obtain ⟨d2, g3, g4⟩ := g2.writeAt (p := p) (e := e) (i := l.length) (x := zeros S.size) (by simp) hx
        refine ⟨d2, ?_, ?_, by simpa [FitsMem] using hf⟩
        · simp only [VecOp.run, g1, Out.ok_bind, g3]
        · simpa using g4
      | reserve k =>
        cases h1
        exact ⟨data, h.reserve p hs hf.1, h, hf.2⟩
      | atMut i w =>
        simp only [listOp] at h1
        cases hi : l[i]? with
        | none => rw [hi] at h1; cases h1
        | some x =>
          rw [hi] at h1
          simp only [Out.bind_eq_ok] at h1
          obtain ⟨y, hy, h1⟩ := h1
          cases h1
          obtain ⟨d2, g3, g4⟩ := h.writeAt (p := p) (e := e) hi hy
          refine ⟨d2, ?_, g4, by simpa [FitsMem] using hf⟩
          have hb := FitsMem.bound _ _ hf
          have hlen := h.length
          obtain ⟨hlt, _⟩ := List.getElem?_eq_some_iff.mp hi
          have hmul : i * S.size ≤ l.length * S.size := Nat.mul_le_mul_right _ (by omega)
          simp only [VecOp.run, Vector.atMut]
          rw [umul_ok (by unfold usizeMod; omega), Out.ok_bind]
          unfold sliceFrom
          rw [if_pos (by omega)]
          simp only [Out.ok_bind, g3]
    obtain ⟨d1, k1, k2, k3⟩ := key
    obtain ⟨d2, k4, k5⟩ := ih d1 l1 l' k2 k3 hr
    exact ⟨d2, by simp only [runVec, k1, Out.ok_bind, k4], k5⟩

theorem withLen_rep {p : Profile} {size n : Nat} (hfit : n * size + 8 < 2 ^ 63) :
    ∃ data, Vector.withLen p size n = .ok data ∧ Rep size data (List.replicate n (zeros size)) := by
  unfold Vector.withLen Vector.calcSize paddingSize
  rw [umul_ok (by unfold usizeMod; omega), Out.ok_bind, uadd_ok (by unfold usizeMod; omega), Out.ok_bind]
  unfold alloc
  rw [if_pos hfit]
  refine ⟨_, rfl, ?_, ?_⟩
  · intro x hx
    rw [List.mem_replicate] at hx
    rw [hx.2]; simp [zeros]
  · rw [← zeros, ← zeros_append, zeros, zeros, zeros, List.flatten_replicate_replicate]

/-- Whatever the memory limit: an operation that completes on the vector and on the list keeps them in agreement. -/
theorem runVec_safe {p : Profile} {e : Endian} {S : StructDef} (hs : 0 < S.size) (hs' : S.size < 2 ^ 63) :
    ∀ (ops : List VecOp) (data data' : Bytes) (l l' : List Bytes), Rep S.size data l → data.length < 2 ^ 63 →
    runList p e S ops l = .ok l' → runVec p e S ops data = .ok data' → Rep S.size data' l' ∧ data'.length < 2 ^ 63 := by
  intro ops
  induction ops with
  | nil =>
    intro data data' l l' h hd hr hv
    cases hr; cases hv
    exact ⟨h, hd⟩
  | cons op ops ih =>
    intro data data' l l' h hd hr hv
    simp only [runList, Out.bind_eq_ok] at hr
    simp only [runVec, Out.bind_eq_ok] at hv
    obtain ⟨l1, h1, hr⟩ := hr
    obtain ⟨d1, h2, hv⟩ := hv
    have hlen := h.length
    have key : Rep S.size d1 l1 ∧ d1.length < 2 ^ 63 := by
      cases op with
      | grow w =>
        simp only [listOp, Out.bind_eq_ok] at h1
        obtain ⟨x, hx, h1⟩ := h1
        cases h1
        simp only [VecOp.run, Out.bind_eq_ok] at h2
        obtain ⟨r, hg, h2⟩ := h2
        have hfit : (l.length + 1) * S.size + 8 < 2 ^ 63 := by
          unfold Vector.grow at hg
          rw [uadd_ok (by unfold usizeMod; omega), Out.ok_bind] at hg
          unfold alloc at hg
          rw [Nat.add_mul, Nat.one_mul]
          by_cases hlt : data.length + S.size < 2 ^ 63
          · omega
          · rw [if_neg hlt] at hg; cases hg
        obtain ⟨d2, g1, g2⟩ := h.grow p hs hfit
        rw [g1] at hg
        cases hg
        obtain ⟨d3, g3, g4⟩ := g2.writeAt (p := p) (e := e) (i := l.length) (x := zeros S.size) (by simp) hx
        simp only at h2
        rw [g3] at h2
        cases h2
        have g5 : Rep S.size d1 (l ++ [x]) := by simpa using g4
        refine ⟨g5, ?_⟩
        rw [g5.length]; simpa using hfit
      | reserve k =>
        cases h1
        simp only [VecOp.run, Vector.reserve, Out.bind_eq_ok] at h2
        obtain ⟨_, _, _, _, _, _, _, _, _, _, _, _, h2⟩ := h2
        cases h2
        exact ⟨h, hd⟩
      | atMut i w =>
        simp only [listOp] at h1
        cases hi : l[i]? with
        | none => rw [hi] at h1; cases h1
        | some x =>
          rw [hi] at h1
          simp only [Out.bind_eq_ok] at h1
          obtain ⟨y, hy, h1⟩ := h1
          cases h1
          obtain ⟨d2, g3, g4⟩ := h.writeAt (p := p) (e := e) hi hy
          obtain ⟨hlt, _⟩ := List.getElem?_eq_some_iff.mp hi
          have hmul : i * S.size ≤ l.length * S.size := Nat.mul_le_mul_right _ (by omega)
          simp only [VecOp.run, Vector.atMut] at h2
          rw [umul_ok (by unfold usizeMod; omega), Out.ok_bind] at h2
          unfold sliceFrom at h2
          rw [if_pos (by omega)] at h2
          simp only [Out.ok_bind, g3] at h2
          cases h2
          refine ⟨g4, ?_⟩
          rw [g4.length]; simp; omega
    exact ih d1 data' l1 l' key.1 key.2 hr hv

end Flatdata
