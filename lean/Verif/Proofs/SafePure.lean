import Verif.Spec.Safe
import Verif.Proofs.Debug
import Verif.Props.MultiViews
import Verif.Model.MultiVector
/-!
# Code without effects that performs no undefined access
-/
namespace Flatdata
open Spec

theorem usub_ne_ub {p : Profile} {a b : Nat} : usub p a b ≠ .ub := by
  unfold usub; split
  · simp
  · cases p <;> simp

theorem alloc_ne_ub {n : Nat} : alloc n ≠ .ub := by unfold alloc; split <;> simp

theorem ok_ne_ub {α : Type} {a : α} : (Out.ok a) ≠ .ub := by simp

theorem panic_ne_ub {α : Type} : (Out.panic : Out α) ≠ .ub := by simp

/-! ## Fields -/

theorem codeDecode_of {f : Field} {mem : Bytes} (h : f.ty.signed = true → f.bits ≠ 1) :
    codeDecode f.ty f.bits (fieldRaw mem f.off f.bits) = valueOf f mem := by
  rw [codeDecode_eq_decode h (fieldRaw_lt _ _ _)]; rfl

theorem get_readable {p : Profile} {e : Endian} {S : StructDef} {mem : Bytes} (r : GoodMem S mem) {f : Field} (hf : f ∈ S.fields) :
    ∃ v, f.get p e mem = .ok v := by
  have ok := r.legible.wf.field f hf
  have h1 := ok.inside
  have h2 := r.size
  rw [get_eq ok.pos ok.le (by omega) (r.legible.straight f hf)]
  unfold Field.transmute
  split
  · exact ⟨_, rfl⟩
  · next l hl =>
    have hn := r.legible.narrow f hf (by rw [hl]; simp)
    rw [codeDecode_of hn]
    exact ⟨_, if_pos (r.enums f hf l hl)⟩

theorem get_ne_ub {p : Profile} {e : Endian} {S : StructDef} {mem : Bytes} (r : GoodMem S mem) {f : Field} (hf : f ∈ S.fields) :
    f.get p e mem ≠ .ub := by
  obtain ⟨v, h⟩ := get_readable (p := p) (e := e) r hf
  rw [h]; simp

theorem numBytes_fits {o n s : Nat} (hn : n ≤ 64) (h : o + n ≤ 8 * s) : numBytes o n ≤ 8 ∧ o / 8 + numBytes o n ≤ s := by
  unfold numBytes
  split <;> omega

theorem writeBytes_ne_ub {p : Profile} {e : Endian} {sg : Bool} {v : Int} {data : Bytes} {o n : Nat} (hn : n ≤ 64)
    (h : o + n ≤ 8 * data.length) : writeBytes p e sg v data o n ≠ .ub := by
  obtain ⟨h1, h2⟩ := numBytes_fits hn h
  unfold writeBytes
  split
  · simp
  · split
    · simp
    · dsimp only
      rw [if_neg (by omega)]
      split
      · split <;> simp
      · simp

theorem set_ne_ub {p : Profile} {e : Endian} {size : Nat} {f : Field} {mem : Bytes} {v : Int} (ok : FieldOK size f)
    (hm : size ≤ mem.length) : f.set p e size mem v ≠ .ub := by
  unfold Field.set
  rw [if_neg (by omega)]
  have hb := f.ty.bits_cases
  have hle := ok.le
  have hin := ok.inside
  exact Out.bind_ne_ub (writeBytes_ne_ub (by omega) (by rw [List.length_take]; omega)) fun _ _ => ok_ne_ub

theorem overwrite_length {data src : Bytes} {pos : Nat} (h : pos + src.length ≤ data.length) :
    (overwrite data pos src).length = data.length := by
  unfold overwrite
  simp; omega

theorem writeBytes_length {p : Profile} {e : Endian} {sg : Bool} {v : Int} {data d : Bytes} {o n : Nat}
    (h : writeBytes p e sg v data o n = .ok d) : d.length = data.length := by
  unfold writeBytes at h
  split at h
  · cases h
  · split at h
    · cases h
    · dsimp only at h
      split at h
      · cases h
      · next hc =>
        have hl : ∀ x : BitVec 64, (overwrite data (o / 8) ((u64ToMem e x).take (numBytes o n))).length = data.length := by
          intro x
          apply overwrite_length
          rw [List.length_take]; omega
        split at h
        · split at h
          · cases h
          · cases h; rw [List.length_set]; exact hl _
        · cases h; exact hl _

theorem set_len {p : Profile} {e : Endian} {size : Nat} {f : Field} {mem d : Bytes} {v : Int}
    (h : f.set p e size mem v = .ok d) : d.length = mem.length := by
  unfold Field.set at h
  split at h
  · cases h
  · obtain ⟨b, hb, h⟩ := Out.bind_eq_ok.mp h
    cases h
    have := writeBytes_length hb
    rw [List.length_take] at this
    rw [List.length_append, List.length_drop, this]; omega

theorem fillFields_safe {p : Profile} {e : Endian} {S : StructDef} {src : Bytes} (wf : WF S) (r : GoodMem S src) :
    ∀ (fs : List Field) (dst : Bytes), (∀ f ∈ fs, f ∈ S.fields) → S.size ≤ dst.length →
      fillFields p e S.size fs dst src ≠ .ub ∧ ∀ d, fillFields p e S.size fs dst src = .ok d → d.length = dst.length
  | [], dst, _, _ => ⟨ok_ne_ub, fun d h => by cases h; rfl⟩
  | f :: fs, dst, hf, hd => by
    have h1 : f ∈ S.fields := hf f (by simp)
    have hr : ∀ g ∈ fs, g ∈ S.fields := fun g hg => hf g (by simp [hg])
    refine ⟨Out.bind_ne_ub (get_ne_ub r h1) fun v _ => Out.bind_ne_ub (set_ne_ub (wf.field f h1) hd) fun b hb => ?_, fun d h => ?_⟩
    · exact (fillFields_safe wf r fs b hr (by rw [set_len hb]; exact hd)).1
    · obtain ⟨v, _, h⟩ := Out.bind_eq_ok.mp h
      obtain ⟨b, hb, h⟩ := Out.bind_eq_ok.mp h
      rw [(fillFields_safe wf r fs b hr (by rw [set_len hb]; exact hd)).2 d h, set_len hb]

theorem op_safe {p : Profile} {e : Endian} {S : StructDef} {mem : Bytes} (wf : WF S) (hm : S.size ≤ mem.length) {op : HandleOp}
    (h : OpFine S op) : op.run p e S mem ≠ .ub ∧ ∀ d, op.run p e S mem = .ok d → d.length = mem.length := by
  cases op with
  | set f v => exact ⟨set_ne_ub (wf.field f h) hm, fun d hd => set_len hd⟩
  | fill src => exact fillFields_safe wf h S.fields mem (fun _ => id) hm

theorem runHandle_safe {p : Profile} {e : Endian} {S : StructDef} (wf : WF S) :
    ∀ (ops : List HandleOp) (mem : Bytes), S.size ≤ mem.length → (∀ op ∈ ops, OpFine S op) →
      runHandle p e S ops mem ≠ .ub ∧ ∀ d, runHandle p e S ops mem = .ok d → d.length = mem.length
  | [], mem, _, _ => ⟨ok_ne_ub, fun d h => by cases h; rfl⟩
  | op :: ops, mem, hm, ho => by
    obtain ⟨h1, h2⟩ := op_safe (p := p) (e := e) wf hm (ho op (by simp))
    have hr : ∀ x ∈ ops, OpFine S x := fun x hx => ho x (by simp [hx])
    refine ⟨Out.bind_ne_ub h1 fun m h => ?_, fun d h => ?_⟩
    · exact (runHandle_safe wf ops m (by rw [h2 m h]; exact hm) hr).1
    · obtain ⟨m, h3, h⟩ := Out.bind_eq_ok.mp h
      rw [(runHandle_safe wf ops m (by rw [h2 m h3]; exact hm) hr).2 d h, h2 m h3]

theorem writeAt_safe {p : Profile} {e : Endian} {S : StructDef} {data : Bytes} {pos : Nat} {ops : List HandleOp} (wf : WF S)
    (h : pos + S.size ≤ data.length) (ho : ∀ op ∈ ops, OpFine S op) : Vector.writeAt p e S data pos ops ≠ .ub ∧
      ∀ d, Vector.writeAt p e S data pos ops = .ok d → d.length = data.length := by
  obtain ⟨h1, h2⟩ := runHandle_safe (p := p) (e := e) wf ops (data.drop pos) (by rw [List.length_drop]; omega) ho
  refine ⟨Out.bind_ne_ub h1 fun _ _ => ok_ne_ub, fun d hd => ?_⟩
  obtain ⟨m, h3, hd⟩ := Out.bind_eq_ok.mp hd
  cases hd
  have := h2 m h3
  rw [List.length_drop] at this
  rw [List.length_append, List.length_take, this]; omega

theorem eqFields_ne_ub {p : Profile} {e : Endian} {S : StructDef} {a b : Bytes} (ha : GoodMem S a) (hb : GoodMem S b) :
    ∀ fs : List Field, (∀ f ∈ fs, f ∈ S.fields) → eqFields p e fs a b ≠ .ub
  | [], _ => ok_ne_ub
  | f :: fs, h => by
    refine Out.bind_ne_ub (get_ne_ub ha (h f (by simp))) fun x _ => Out.bind_ne_ub (get_ne_ub hb (h f (by simp))) fun y _ => ?_
    split
    · exact eqFields_ne_ub ha hb fs fun g hg => h g (by simp [hg])
    · exact ok_ne_ub

theorem getAll_ne_ub {p : Profile} {e : Endian} {S : StructDef} {mem : Bytes} (r : GoodMem S mem) :
    ∀ fs : List Field, (∀ f ∈ fs, f ∈ S.fields) → getAll p e fs mem ≠ .ub
  | [], _ => ok_ne_ub
  | f :: fs, h => Out.bind_ne_ub (get_ne_ub r (h f (by simp))) fun _ _ =>
    Out.bind_ne_ub (getAll_ne_ub r fs fun g hg => h g (by simp [hg])) fun _ _ => ok_ne_ub

theorem structDebug_ne_ub {p : Profile} {e : Endian} {S : StructDef} {mem : Bytes} (r : GoodMem S mem) : S.debug p e mem ≠ .ub :=
  Out.bind_ne_ub (getAll_ne_ub r S.fields fun _ => id) fun _ _ => ok_ne_ub

/-! ## Vectors and views -/

theorem sizeInBytes_ne_ub {p : Profile} {data : Bytes} : Vector.sizeInBytes p data ≠ .ub := usub_ne_ub

theorem vecLen_ne_ub {p : Profile} {size : Nat} {data : Bytes} : Vector.len p size data ≠ .ub :=
  Out.bind_ne_ub usub_ne_ub fun _ _ => by split <;> simp

theorem calcSize_ne_ub {p : Profile} {size n : Nat} : Vector.calcSize p size n ≠ .ub :=
  Out.bind_ne_ub umul_ne_ub fun _ _ => uadd_ne_ub

theorem withLen_ne_ub {p : Profile} {size n : Nat} : Vector.withLen p size n ≠ .ub :=
  Out.bind_ne_ub calcSize_ne_ub fun _ _ => Out.bind_ne_ub alloc_ne_ub fun _ _ => ok_ne_ub

theorem reserve_ne_ub {p : Profile} {size n : Nat} {data : Bytes} : Vector.reserve p size data n ≠ .ub :=
  Out.bind_ne_ub vecLen_ne_ub fun _ _ => Out.bind_ne_ub uadd_ne_ub fun _ _ => Out.bind_ne_ub calcSize_ne_ub fun _ _ =>
    Out.bind_ne_ub usub_ne_ub fun _ _ => Out.bind_ne_ub usub_ne_ub fun _ _ => Out.bind_ne_ub alloc_ne_ub fun _ _ => ok_ne_ub

theorem vecIsEmpty_ne_ub {p : Profile} {size : Nat} {data : Bytes} : Vector.isEmpty p size data ≠ .ub :=
  Out.bind_ne_ub vecLen_ne_ub fun _ _ => ok_ne_ub

theorem asBytes_ne_ub {p : Profile} {data : Bytes} : Vector.asBytes p data ≠ .ub :=
  Out.bind_ne_ub usub_ne_ub fun _ _ => sliceRange_ne_ub

theorem vecGrow_ne_ub {p : Profile} {size : Nat} {data : Bytes} : Vector.grow p size data ≠ .ub :=
  Out.bind_ne_ub uadd_ne_ub fun _ _ => Out.bind_ne_ub alloc_ne_ub fun _ _ => Out.bind_ne_ub vecLen_ne_ub fun _ _ =>
    Out.bind_ne_ub usub_ne_ub fun _ _ => Out.bind_ne_ub umul_ne_ub fun _ _ => Out.bind_ne_ub sliceFrom_ne_ub fun _ _ => ok_ne_ub

theorem vecAt_ne_ub {p : Profile} {size i : Nat} {data : Bytes} : Vector.at' p size data i ≠ .ub :=
  Out.bind_ne_ub umul_ne_ub fun _ _ => sliceFrom_ne_ub

theorem vecAtMut_ne_ub {p : Profile} {size i : Nat} {data : Bytes} : Vector.atMut p size data i ≠ .ub :=
  Out.bind_ne_ub umul_ne_ub fun _ _ => Out.bind_ne_ub sliceFrom_ne_ub fun _ _ => ok_ne_ub

theorem viewLen_ne_ub {size : Nat} {data : Bytes} : View.len size data ≠ .ub := by unfold View.len; split <;> simp

theorem startIndex_ne_ub {p : Profile} {size : Nat} {b : Bound} : View.startIndex p size b ≠ .ub := by
  cases b
  · exact umul_ne_ub
  · exact Out.bind_ne_ub uadd_ne_ub fun _ _ => umul_ne_ub
  · exact ok_ne_ub

theorem endIndex_ne_ub {p : Profile} {size : Nat} {data : Bytes} {b : Bound} : View.endIndex p size data b ≠ .ub := by
  cases b
  · exact Out.bind_ne_ub uadd_ne_ub fun _ _ => umul_ne_ub
  · exact umul_ne_ub
  · exact ok_ne_ub

theorem viewSlice_ne_ub {p : Profile} {size : Nat} {data : Bytes} {a b : Bound} : View.slice p size data a b ≠ .ub :=
  Out.bind_ne_ub startIndex_ne_ub fun _ _ => Out.bind_ne_ub endIndex_ne_ub fun _ _ => sliceRange_ne_ub

theorem viewIsEmpty_ne_ub {size : Nat} {data : Bytes} : View.isEmpty size data ≠ .ub :=
  Out.bind_ne_ub viewLen_ne_ub fun _ _ => ok_ne_ub

theorem viewNext_ne_ub {p : Profile} {size : Nat} {view : Bytes} : View.next p size view ≠ .ub := by
  refine Out.bind_ne_ub viewIsEmpty_ne_ub fun _ _ => ?_
  split
  · exact Out.bind_ne_ub viewAt_ne_ub fun _ _ => Out.bind_ne_ub viewSlice_ne_ub fun _ _ => ok_ne_ub
  · exact ok_ne_ub

theorem viewNextBack_ne_ub {p : Profile} {size : Nat} {view : Bytes} : View.nextBack p size view ≠ .ub := by
  refine Out.bind_ne_ub viewIsEmpty_ne_ub fun _ _ => ?_
  split
  · exact Out.bind_ne_ub viewLen_ne_ub fun _ _ => Out.bind_ne_ub usub_ne_ub fun _ _ => Out.bind_ne_ub viewAt_ne_ub fun _ _ =>
      Out.bind_ne_ub viewSlice_ne_ub fun _ _ => ok_ne_ub
  · exact ok_ne_ub

theorem showAll_ne_ub {f : Bytes → Out String} : ∀ l : List Bytes, (∀ x ∈ l, f x ≠ .ub) → View.showAll f l ≠ .ub
  | [], _ => ok_ne_ub
  | x :: l, h => Out.bind_ne_ub (h x (by simp)) fun _ _ =>
    Out.bind_ne_ub (showAll_ne_ub l fun y hy => h y (by simp [hy])) fun _ _ => ok_ne_ub

theorem elems_length_mem {size : Nat} (hs : 0 < size) {data x : Bytes} (hx : x ∈ elems size data) : size ≤ x.length := by
  unfold elems at hx
  simp only [List.mem_map, List.mem_range] at hx
  obtain ⟨i, hi, rfl⟩ := hx
  have := (div_lt_iff (n := data.length) (i := i) hs).mp hi
  rw [Nat.add_mul, Nat.one_mul] at this
  simp; omega

theorem viewDebug_ne_ub {p : Profile} {e : Endian} {S : StructDef} {name : String} {view : Bytes} (r : GoodView S view) :
    View.debugFormat p e S name view ≠ .ub := by
  by_cases hs : S.size = 0
  · unfold View.debugFormat View.iterLen View.len
    rw [if_pos hs]
    exact panic_ne_ub
  · have hs : 0 < S.size := by omega
    rw [C15_debug_view_partial p e S r.legible.wf r.legible.straight name view hs r.size]
    refine Out.bind_ne_ub (showAll_ne_ub _ fun x hx => ?_) fun _ _ => ok_ne_ub
    have hx := List.mem_of_mem_take hx
    exact structDebug_ne_ub ⟨r.legible, elems_length_mem hs hx, r.enums x hx⟩

theorem vecDebug_ne_ub {p : Profile} {e : Endian} {S : StructDef} {data : Bytes} (r : GoodView S (data.take (data.length - 8))) :
    Vector.debug p e S data ≠ .ub := by
  refine Out.bind_ne_ub asBytes_ne_ub fun v h => ?_
  unfold Vector.asBytes Vector.sizeInBytes usub at h
  by_cases hc : paddingSize ≤ data.length
  · rw [if_pos hc, Out.ok_bind] at h
    unfold sliceRange at h
    split at h
    · cases h; exact viewDebug_ne_ub r
    · cases h
  · rw [if_neg hc] at h
    cases p
    · cases h
    · dsimp only at h
      rw [Out.ok_bind] at h
      unfold sliceRange at h
      rw [if_neg] at h
      · cases h
      · have : paddingSize = 8 := rfl
        unfold usizeMod; omega

/-! ## Multi array views -/

theorem indexStruct_wf {V : Variadic} (ok : IndexOK V) : WF V.indexStruct := by
  refine ⟨fun f hf => ?_, List.pairwise_singleton _ _⟩
  cases List.mem_singleton.mp hf
  refine ⟨ok.pos, ok.le, ?_, rfl, fun l hl => by cases hl⟩
  have := ok.inside
  change 0 + V.indexBits ≤ 8 * V.indexSize
  omega

theorem multiLen_ne_ub {p : Profile} {V : Variadic} {v : MultiView} : MultiView.len p V v ≠ .ub :=
  Out.bind_ne_ub viewLen_ne_ub fun _ _ => usub_ne_ub

theorem multiIsEmpty_ne_ub {p : Profile} {V : Variadic} {v : MultiView} : MultiView.isEmpty p V v ≠ .ub :=
  Out.bind_ne_ub multiLen_ne_ub fun _ _ => ok_ne_ub

theorem multiSlice_ne_ub {p : Profile} {V : Variadic} {v : MultiView} {a b : Bound} : MultiView.slice p V v a b ≠ .ub := by
  refine Out.bind_ne_ub ?_ fun _ _ => Out.bind_ne_ub ?_ fun _ _ => Out.bind_ne_ub viewSlice_ne_ub fun _ _ => ok_ne_ub
  · cases a
    · exact ok_ne_ub
    · exact uadd_ne_ub
    · exact ok_ne_ub
  · cases b
    · exact uadd_ne_ub
    · exact uadd_ne_ub
    · exact viewLen_ne_ub

theorem multiAt_ne_ub {p : Profile} {e : Endian} {V : Variadic} {v : MultiView} (g : GoodIndex V v.index) {i : Nat} :
    MultiView.at' p e V v i ≠ .ub := (C29_at p e V g.ok v g.type g.size i).1

theorem slice_length {p : Profile} {size : Nat} {data d : Bytes} {a b : Bound} (h : View.slice p size data a b = .ok d) :
    d.length ≤ data.length := by
  obtain ⟨x, _, h⟩ := Out.bind_eq_ok.mp h
  obtain ⟨y, _, h⟩ := Out.bind_eq_ok.mp h
  unfold sliceRange at h
  split at h
  · cases h; simp; omega
  · cases h

theorem multiSlice_good {p : Profile} {V : Variadic} {v v' : MultiView} {a b : Bound} (h : MultiView.slice p V v a b = .ok v')
    (g : GoodIndex V v.index) : GoodIndex V v'.index := by
  obtain ⟨x, _, h⟩ := Out.bind_eq_ok.mp h
  obtain ⟨y, _, h⟩ := Out.bind_eq_ok.mp h
  obtain ⟨d, hd, h⟩ := Out.bind_eq_ok.mp h
  cases h
  exact ⟨g.ok, g.type, Nat.lt_of_le_of_lt (slice_length hd) g.size⟩

theorem multiNext_safe {p : Profile} {e : Endian} {V : Variadic} {v : MultiView} (g : GoodIndex V v.index) :
    MultiView.next p e V v ≠ .ub ∧ ∀ r, MultiView.next p e V v = .ok r → GoodIndex V r.2.index := by
  constructor
  · refine Out.bind_ne_ub multiIsEmpty_ne_ub fun _ _ => ?_
    split
    · exact Out.bind_ne_ub (multiAt_ne_ub g) fun _ _ => Out.bind_ne_ub multiSlice_ne_ub fun _ _ => ok_ne_ub
    · exact ok_ne_ub
  · intro r h
    obtain ⟨b, _, h⟩ := Out.bind_eq_ok.mp h
    split at h
    · obtain ⟨x, _, h⟩ := Out.bind_eq_ok.mp h
      obtain ⟨y, hy, h⟩ := Out.bind_eq_ok.mp h
      cases h; exact multiSlice_good hy g
    · cases h; exact g

theorem multiNextBack_ne_ub {p : Profile} {e : Endian} {V : Variadic} {v : MultiView} (g : GoodIndex V v.index) :
    MultiView.nextBack p e V v ≠ .ub := by
  refine Out.bind_ne_ub multiIsEmpty_ne_ub fun _ _ => ?_
  split
  · exact Out.bind_ne_ub multiLen_ne_ub fun _ _ => Out.bind_ne_ub usub_ne_ub fun _ _ => Out.bind_ne_ub (multiAt_ne_ub g) fun _ _ =>
      Out.bind_ne_ub multiSlice_ne_ub fun _ _ => ok_ne_ub
  · exact ok_ne_ub

theorem itemNext_elem {V : Variadic} {data : Bytes} {x : Elem} {d : Bytes} (h : MultiView.itemNext V data = .ok (some x, d)) :
    (∃ y ∈ V.types, y.2 = x.struct) ∧ x.struct.size ≤ x.mem.length := by
  unfold MultiView.itemNext at h
  split at h
  · cases h
  · obtain ⟨z, hz, h⟩ := Out.bind_eq_ok.mp h
    obtain ⟨y, hy, h⟩ := Out.bind_eq_ok.mp h
    cases h
    unfold Variadic.create at hz
    split at hz
    · next t data y hf =>
      cases hz
      refine ⟨⟨y, List.mem_of_find?_eq_some hf, rfl⟩, ?_⟩
      unfold sliceFrom at hy
      split at hy
      · assumption
      · cases hy
    · cases hz

theorem itemCollect_elem {V : Variadic} : ∀ (n : Nat) (data : Bytes) (l : List Elem), MultiView.itemCollectN V n data = .ok l →
    ∀ x ∈ l, (∃ y ∈ V.types, y.2 = x.struct) ∧ x.struct.size ≤ x.mem.length
  | 0, _, l, h => by cases h; intro x hx; cases hx
  | n + 1, data, l, h => by
    unfold MultiView.itemCollectN at h
    obtain ⟨⟨a, d⟩, ha, h⟩ := Out.bind_eq_ok.mp h
    cases a with
    | none => cases h; intro x hx; cases hx
    | some a =>
      obtain ⟨as, has, h⟩ := Out.bind_eq_ok.mp h
      cases h
      intro x hx
      rcases List.mem_cons.mp hx with rfl | hx
      · exact itemNext_elem ha
      · exact itemCollect_elem n d as has x hx

theorem showElems_ne_ub {p : Profile} {e : Endian} {V : Variadic} (g : GoodVariadic V) : ∀ l : List Elem,
    (∀ x ∈ l, (∃ y ∈ V.types, y.2 = x.struct) ∧ x.struct.size ≤ x.mem.length) → MultiView.showElems p e l ≠ .ub
  | [], _ => ok_ne_ub
  | x :: l, h => by
    refine Out.bind_ne_ub ?_ fun _ _ => Out.bind_ne_ub (showElems_ne_ub g l fun y hy => h y (by simp [hy])) fun _ _ => ok_ne_ub
    obtain ⟨⟨y, hy, he⟩, hl⟩ := h x (by simp)
    exact structDebug_ne_ub (he ▸ g.types y hy x.mem (by rw [he]; exact hl))

theorem itemDebug_ne_ub {p : Profile} {e : Endian} {V : Variadic} (g : GoodVariadic V) {data : Bytes} :
    MultiView.itemDebug p e V data ≠ .ub :=
  Out.bind_ne_ub (itemCollect_ne_ub _ _) fun _ h => Out.bind_ne_ub (showElems_ne_ub g _ (itemCollect_elem _ _ _ h)) fun _ _ => ok_ne_ub

theorem multiTake_safe {p : Profile} {e : Endian} {V : Variadic} : ∀ (n i : Nat) (v : MultiView), GoodIndex V v.index →
    MultiView.takeCollect p e V i n v ≠ .ub ∧ ∀ l, MultiView.takeCollect p e V i n v = .ok l →
      ∀ y ∈ l, ∀ x ∈ y.2, (∃ y ∈ V.types, y.2 = x.struct) ∧ x.struct.size ≤ x.mem.length
  | 0, i, v, _ => ⟨ok_ne_ub, fun l h => by cases h; intro y hy; cases hy⟩
  | n + 1, i, v, g => by
    obtain ⟨h1, h2⟩ := multiNext_safe (p := p) (e := e) g
    constructor
    · refine Out.bind_ne_ub h1 fun r hr => ?_
      obtain ⟨a, v'⟩ := r
      cases a with
      | none => exact ok_ne_ub
      | some a =>
        exact Out.bind_ne_ub (itemCollect_ne_ub _ _) fun _ _ =>
          Out.bind_ne_ub (multiTake_safe n (i + 1) v' (h2 _ hr)).1 fun _ _ => ok_ne_ub
    · intro l h
      unfold MultiView.takeCollect at h
      obtain ⟨⟨a, v'⟩, hr, h⟩ := Out.bind_eq_ok.mp h
      cases a with
      | none => cases h; intro y hy; cases hy
      | some a =>
        obtain ⟨c, hc, h⟩ := Out.bind_eq_ok.mp h
        obtain ⟨cs, hcs, h⟩ := Out.bind_eq_ok.mp h
        cases h
        intro y hy
        rcases List.mem_cons.mp hy with rfl | hy
        · exact itemCollect_elem _ _ _ hc
        · exact (multiTake_safe n (i + 1) v' (h2 _ hr)).2 cs hcs y hy

theorem showItems_ne_ub {p : Profile} {e : Endian} {V : Variadic} (g : GoodVariadic V) : ∀ l : List (Nat × List Elem),
    (∀ y ∈ l, ∀ x ∈ y.2, (∃ y ∈ V.types, y.2 = x.struct) ∧ x.struct.size ≤ x.mem.length) → MultiView.showItems p e l ≠ .ub
  | [], _ => ok_ne_ub
  | y :: l, h => Out.bind_ne_ub (showElems_ne_ub g _ (h y (by simp))) fun _ _ =>
    Out.bind_ne_ub (showItems_ne_ub g l fun z hz => h z (by simp [hz])) fun _ _ => ok_ne_ub

theorem multiDebug_ne_ub {p : Profile} {e : Endian} {V : Variadic} {name : String} {v : MultiView} (g : GoodIndex V v.index)
    (h : GoodVariadic V) : MultiView.debugFormat p e V name v ≠ .ub := by
  obtain ⟨h1, h2⟩ := multiTake_safe (p := p) (e := e) View.debugPreviewLen 0 v g
  exact Out.bind_ne_ub multiLen_ne_ub fun _ _ => Out.bind_ne_ub h1 fun _ hl => Out.bind_ne_ub (showItems_ne_ub h _ (h2 _ hl)) fun _ _ => ok_ne_ub

theorem builderAdd_ne_ub {p : Profile} {t : BitVec 8} {size : Nat} {data : Bytes} : MultiVec.builderAdd p t size data ≠ .ub :=
  Out.bind_ne_ub uadd_ne_ub fun _ _ => Out.bind_ne_ub uadd_ne_ub fun _ _ => Out.bind_ne_ub alloc_ne_ub fun _ _ =>
    Out.bind_ne_ub usub_ne_ub fun _ _ => Out.bind_ne_ub (by split <;> simp) fun _ _ => Out.bind_ne_ub uadd_ne_ub fun _ _ =>
      Out.bind_ne_ub usub_ne_ub fun _ _ => Out.bind_ne_ub sliceFrom_ne_ub fun _ _ => ok_ne_ub

/-! ## What the results of such code are -/

theorem uadd_inv {p : Profile} {a b n : Nat} (h : uadd p a b = .ok n) (hb : a + b < 2 ^ 64) : n = a + b := by
  unfold uadd at h
  rw [if_pos (by unfold usizeMod; exact hb)] at h
  cases h; rfl

theorem usub_inv {p : Profile} {a b n : Nat} (h : usub p a b = .ok n) : (b ≤ a ∧ n = a - b) ∨ (a < b ∧ n = (2 ^ 64 + a - b) % 2 ^ 64) := by
  unfold usub at h
  split at h
  · cases h; exact .inl ⟨by assumption, rfl⟩
  · cases p
    · cases h
    · cases h; exact .inr ⟨by omega, rfl⟩

theorem umul_inv {p : Profile} {a b n : Nat} (h : umul p a b = .ok n) (hb : a * b < 2 ^ 64) : n = a * b := by
  unfold umul at h
  rw [if_pos (by unfold usizeMod; exact hb)] at h
  cases h; rfl

theorem sliceFrom_ok {d r : Bytes} {i : Nat} (h : sliceFrom d i = .ok r) : i ≤ d.length ∧ r = d.drop i := by
  unfold sliceFrom at h
  split at h
  · cases h; exact ⟨by assumption, rfl⟩
  · cases h

theorem alloc_ok {n : Nat} {u : Unit} (h : alloc n = .ok u) : n < 2 ^ 63 := by
  unfold alloc at h
  split at h
  · assumption
  · cases h

theorem resize0_length {d : Bytes} {n : Nat} : (resize0 d n).length = n := by
  unfold resize0; simp; omega

theorem builderAdd_gives {p : Profile} {t : BitVec 8} {size : Nat} {data : Bytes} {r : Bytes × Nat}
    (h : MultiVec.builderAdd p t size data = .ok r) (hd : data.length < 2 ^ 63) (hs : size < 2 ^ 63) : r.2 + size ≤ r.1.length := by
  obtain ⟨inc, h1, h⟩ := Out.bind_eq_ok.mp h
  obtain ⟨n, h2, h⟩ := Out.bind_eq_ok.mp h
  obtain ⟨u, h3, h⟩ := Out.bind_eq_ok.mp h
  obtain ⟨pos, h4, h⟩ := Out.bind_eq_ok.mp h
  obtain ⟨d, h5, h⟩ := Out.bind_eq_ok.mp h
  obtain ⟨a, h6, h⟩ := Out.bind_eq_ok.mp h
  obtain ⟨b, h7, h⟩ := Out.bind_eq_ok.mp h
  obtain ⟨x, h8, h⟩ := Out.bind_eq_ok.mp h
  cases h
  have e1 := uadd_inv h1 (by omega)
  by_cases hb : data.length + inc < 2 ^ 64
  · have e2 := uadd_inv h2 hb
    split at h5
    · next hp =>
      cases h5
      have e4 := usub_inv h4
      have e6 := uadd_inv h6 (by omega)
      have e7 := usub_inv h7
      have e8 := (sliceFrom_ok h8).1
      rw [List.length_set] at *
      rw [resize0_length] at *
      have : paddingSize = 8 := rfl
      have := alloc_ok h3
      simp only
      omega
    · cases h5
  · -- the length would wrap around: then the new length is small and the position lies beyond it
    have : inc = 2 ^ 63 := by omega
    omega

theorem vecGrow_gives {p : Profile} {size : Nat} {data : Bytes} {r : Bytes × Nat} (h : Vector.grow p size data = .ok r)
    (h8 : 8 ≤ data.length) (hd : data.length < 2 ^ 63) (hs : size < 2 ^ 63) (hm : (data.length - 8) % size = 0) :
    r.1.length = data.length + size ∧ r.2 + size + 8 = r.1.length := by
  obtain ⟨n, h1, h⟩ := Out.bind_eq_ok.mp h
  obtain ⟨u, h3, h⟩ := Out.bind_eq_ok.mp h
  dsimp only at h
  obtain ⟨l, h4, h⟩ := Out.bind_eq_ok.mp h
  obtain ⟨li, h5, h⟩ := Out.bind_eq_ok.mp h
  obtain ⟨pos, h6, h⟩ := Out.bind_eq_ok.mp h
  obtain ⟨x, h7, h⟩ := Out.bind_eq_ok.mp h
  cases h
  have e1 := uadd_inv h1 (by omega)
  subst e1
  rw [resize0_length]
  refine ⟨rfl, ?_⟩
  obtain ⟨m, hm1, h4⟩ := Out.bind_eq_ok.mp h4
  split at h4
  · cases h4
  · next h0 =>
    cases h4
    have e2 := usub_inv hm1
    rw [resize0_length] at e2
    have hp : paddingSize = 8 := rfl
    have hm' : m = data.length - 8 + size := by omega
    subst hm'
    have hpos : 0 < size := by omega
    rw [Nat.add_div_right _ hpos] at h5
    have e5 : li = (data.length - 8) / size := by
      rcases usub_inv h5 with ⟨_, h⟩ | ⟨h, _⟩
      · rw [h]; rfl
      · exact absurd (Nat.succ_lt_succ_iff.mp h) (Nat.not_lt_zero _)
    have hmul : li * size = data.length - 8 := by
      rw [e5]; exact Nat.div_mul_cancel (Nat.dvd_of_mod_eq_zero hm)
    have e6 := umul_inv h6 (by omega)
    simp only
    omega

theorem vecAt_gives {p : Profile} {size i : Nat} {data r : Bytes} (h : Vector.at' p size data i = .ok r)
    (hi : (i + 1) * size + 8 ≤ data.length) (hd : data.length < 2 ^ 63) : size ≤ r.length := by
  obtain ⟨pos, h1, h⟩ := Out.bind_eq_ok.mp h
  rw [Nat.add_mul, Nat.one_mul] at hi
  have e1 := umul_inv h1 (by omega)
  obtain ⟨_, rfl⟩ := sliceFrom_ok h
  rw [List.length_drop]; omega

theorem vecAtMut_gives {p : Profile} {size i pos : Nat} {data : Bytes} (h : Vector.atMut p size data i = .ok pos)
    (hi : (i + 1) * size + 8 ≤ data.length) (hd : data.length < 2 ^ 63) : pos + size ≤ data.length := by
  obtain ⟨q, h1, h⟩ := Out.bind_eq_ok.mp h
  obtain ⟨x, _, h⟩ := Out.bind_eq_ok.mp h
  cases h
  rw [Nat.add_mul, Nat.one_mul] at hi
  have e1 := umul_inv h1 (by omega)
  omega

theorem viewAt_gives {p : Profile} {size i : Nat} {data r : Bytes} (h : View.at' p size data i = .ok r) (hs : size < 2 ^ 63)
    (hd : data.length < 2 ^ 63) : size ≤ r.length := by
  obtain ⟨off, h1, rfl⟩ := C12_memory_safe p size data i r hs hd h
  rw [List.length_drop]; omega

theorem viewLen_pos {size : Nat} {view : Bytes} (h : View.isEmpty size view = .ok false) : size ≤ view.length := by
  obtain ⟨l, hl, h⟩ := Out.bind_eq_ok.mp h
  unfold View.len at hl
  split at hl
  · cases hl
  · cases hl
    refine Decidable.byContradiction fun hc => ?_
    rw [Nat.div_eq_of_lt (by omega)] at h
    cases h

theorem viewNext_gives {p : Profile} {size : Nat} {view : Bytes} {r : Option Bytes × Bytes} (h : View.next p size view = .ok r)
    (hd : view.length < 2 ^ 63) (x : Bytes) (hx : r.1 = some x) : size ≤ x.length := by
  obtain ⟨b, hb, h⟩ := Out.bind_eq_ok.mp h
  cases b
  · have := viewLen_pos hb
    obtain ⟨y, hy, h⟩ := Out.bind_eq_ok.mp h
    obtain ⟨z, hz, h⟩ := Out.bind_eq_ok.mp h
    cases h; cases hx
    exact viewAt_gives hy (by omega) hd
  · cases h; cases hx

theorem viewNextBack_gives {p : Profile} {size : Nat} {view : Bytes} {r : Option Bytes × Bytes} (h : View.nextBack p size view = .ok r)
    (hd : view.length < 2 ^ 63) (x : Bytes) (hx : r.1 = some x) : size ≤ x.length := by
  obtain ⟨b, hb, h⟩ := Out.bind_eq_ok.mp h
  cases b
  · have := viewLen_pos hb
    obtain ⟨l, hl, h⟩ := Out.bind_eq_ok.mp h
    obtain ⟨m, hm, h⟩ := Out.bind_eq_ok.mp h
    obtain ⟨y, hy, h⟩ := Out.bind_eq_ok.mp h
    obtain ⟨z, hz, h⟩ := Out.bind_eq_ok.mp h
    cases h; cases hx
    exact viewAt_gives hy (by omega) hd
  · cases h; cases hx

theorem elemEq_ne_ub {p : Profile} {e : Endian} {x y : Elem}
    (g : x.type = y.type → GoodMem x.struct x.mem ∧ GoodMem x.struct y.mem) : x.eq p e y ≠ .ub := by
  unfold Elem.eq
  split
  · next h => exact eqFields_ne_ub (g h).1 (g h).2 _ fun _ => id
  · exact ok_ne_ub

theorem bufDebug_ne_ub {p : Profile} {e : Endian} {S : StructDef} {mem : Bytes} (r : GoodMem S mem) : StructBuf.debug p e S mem ≠ .ub :=
  Out.bind_ne_ub (structDebug_ne_ub r) fun _ _ => ok_ne_ub

end Flatdata
