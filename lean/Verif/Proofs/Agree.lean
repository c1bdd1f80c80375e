import Verif.Spec.Client
import Verif.Spec.Copy
import Verif.Props.Fields
/-!
# The same code under two build profiles and byte orders

`Agree p p' x y`: `x` (profile `p`) and `y` (profile `p'`) do the same, except that `x` may panic if it is the debug build and `y` the
release build.
-/
namespace Flatdata
open Spec

/-- The two profiles are the same, or the first is debug. -/
def Profile.Le (p p' : Profile) : Prop := p = p' ∨ (p = .debug ∧ p' = .release)

def Out.Agree (p p' : Profile) {α : Type} (x y : Out α) : Prop := x = y ∨ (p = .debug ∧ p' = .release ∧ x = .panic)

def Act.Agree (p p' : Profile) {W E α : Type} (x y : Act W E α) : Prop :=
  ∀ w, x w = y w ∨ (p = .debug ∧ p' = .release ∧ (x w).1 = .panic)

variable {p p' : Profile} {e e' : Endian}

namespace Out.Agree
variable {α β : Type}

theorem rfl {x : Out α} : Out.Agree p p' x x := .inl (Eq.refl _)

theorem of_eq {x y : Out α} (h : x = y) : Out.Agree p p' x y := .inl h

theorem bind {x x' : Out α} {f f' : α → Out β} (h : Out.Agree p p' x x') (hf : ∀ a, Out.Agree p p' (f a) (f' a)) :
    Out.Agree p p' (x >>= f) (x' >>= f') := by
  rcases h with rfl | ⟨h1, h2, rfl⟩
  · cases x with
    | ok a => exact hf a
    | panic => exact rfl
    | ub => exact rfl
  · exact .inr ⟨h1, h2, Eq.refl _⟩

theorem ite {c : Prop} [Decidable c] {x x' y y' : Out α} (h1 : c → Out.Agree p p' x x') (h2 : ¬ c → Out.Agree p p' y y') :
    Out.Agree p p' (if c then x else y) (if c then x' else y') := by
  by_cases h : c
  · rw [if_pos h, if_pos h]; exact h1 h
  · rw [if_neg h, if_neg h]; exact h2 h

end Out.Agree

namespace Act.Agree
variable {W E E' α β : Type}

theorem rfl {x : Act W E α} : Act.Agree p p' x x := fun _ => .inl (Eq.refl _)

theorem bind {x x' : Act W E α} {f f' : α → Act W E β} (h : Act.Agree p p' x x') (hf : ∀ a, Act.Agree p p' (f a) (f' a)) :
    Act.Agree p p' (x >>= f) (x' >>= f') := by
  intro w
  rcases h w with hw | ⟨h1, h2, hw⟩
  · change Act.bind x f w = Act.bind x' f' w ∨ _ ∧ _ ∧ (Act.bind x f w).1 = .panic
    unfold Act.bind
    rw [← hw]
    rcases x w with ⟨r, w1⟩
    cases r with
    | ok a => exact hf a w1
    | err _ => exact .inl (Eq.refl _)
    | panic => exact .inl (Eq.refl _)
    | ub => exact .inl (Eq.refl _)
  · refine .inr ⟨h1, h2, ?_⟩
    change (Act.bind x f w).1 = .panic
    unfold Act.bind
    rcases hx : x w with ⟨r, w1⟩
    rw [hx] at hw
    cases hw
    exact Eq.refl _

theorem ite {c : Prop} [Decidable c] {x x' y y' : Act W E α} (h1 : c → Act.Agree p p' x x') (h2 : ¬ c → Act.Agree p p' y y') :
    Act.Agree p p' (if c then x else y) (if c then x' else y') := by
  by_cases h : c
  · rw [if_pos h, if_pos h]; exact h1 h
  · rw [if_neg h, if_neg h]; exact h2 h

theorem lift {x x' : Out α} (h : Out.Agree p p' x x') : Act.Agree p p' (Act.lift x : Act W E α) (Act.lift x') := by
  intro w
  rcases h with rfl | ⟨h1, h2, rfl⟩
  · exact .inl (Eq.refl _)
  · exact .inr ⟨h1, h2, Eq.refl _⟩

theorem mapErr {f : E → E'} {x x' : Act W E α} (h : Act.Agree p p' x x') : Act.Agree p p' (x.mapErr f) (x'.mapErr f) := by
  intro w
  rcases h w with hw | ⟨h1, h2, hw⟩
  · left; unfold Act.mapErr; rw [hw]
  · refine .inr ⟨h1, h2, ?_⟩
    unfold Act.mapErr
    rcases hx : x w with ⟨r, w1⟩
    rw [hx] at hw
    cases hw
    exact Eq.refl _

theorem attempt {x x' : Act W E α} (h : Act.Agree p p' x x') : Act.Agree p p' (Act.attempt (E' := E') x) (Act.attempt x') := by
  intro w
  rcases h w with hw | ⟨h1, h2, hw⟩
  · left; unfold Act.attempt; rw [hw]
  · refine .inr ⟨h1, h2, ?_⟩
    unfold Act.attempt
    rcases hx : x w with ⟨r, w1⟩
    rw [hx] at hw
    cases hw
    exact Eq.refl _

theorem foldlM {γ : Type} {f f' : β → γ → Act W E β} (h : ∀ b c, Act.Agree p p' (f b c) (f' b c)) :
    ∀ (l : List γ) (b : β), Act.Agree p p' (l.foldlM f b) (l.foldlM f' b)
  | [], _ => rfl
  | c :: l, b => by
    rw [List.foldlM_cons, List.foldlM_cons]
    exact bind (h b c) fun b' => foldlM h l b'

end Act.Agree

/-! ## Arithmetic -/

theorem uadd_agree (hp : p.Le p') (a b : Nat) : Out.Agree p p' (uadd p a b) (uadd p' a b) := by
  rcases hp with rfl | ⟨rfl, rfl⟩
  · exact .rfl
  · unfold uadd; exact .ite (fun _ => .rfl) fun _ => .inr ⟨rfl, rfl, rfl⟩

theorem umul_agree (hp : p.Le p') (a b : Nat) : Out.Agree p p' (umul p a b) (umul p' a b) := by
  rcases hp with rfl | ⟨rfl, rfl⟩
  · exact .rfl
  · unfold umul; exact .ite (fun _ => .rfl) fun _ => .inr ⟨rfl, rfl, rfl⟩

theorem usub_agree (hp : p.Le p') (a b : Nat) : Out.Agree p p' (usub p a b) (usub p' a b) := by
  rcases hp with rfl | ⟨rfl, rfl⟩
  · exact .rfl
  · unfold usub; exact .ite (fun _ => .rfl) fun _ => .inr ⟨rfl, rfl, rfl⟩

/-- Goes through the code: sequences, branches, arithmetic, and what is already known. -/
macro "agree" hp:term : tactic => `(tactic| repeat' (first
  | exact Out.Agree.rfl | exact Act.Agree.rfl | exact uadd_agree $hp _ _ | exact umul_agree $hp _ _ | exact usub_agree $hp _ _
  | apply Out.Agree.bind | apply Act.Agree.bind | apply Act.Agree.lift | apply Act.Agree.mapErr | apply Act.Agree.attempt
  | apply Out.Agree.ite | apply Act.Agree.ite | intro _))

/-! ## Bits -/

theorem extendSign_agree (hp : p.Le p') (T : IntTy) (v : BitVec 64) (n : Nat) :
    Out.Agree p p' (extendSign p T v n) (extendSign p' T v n) := by
  unfold extendSign
  agree hp

theorem readInt_agree (hp : p.Le p') (T : IntTy) (mem : Bytes) (off bits : Nat) :
    Out.Agree p p' (readInt p e T mem off bits) (readInt p' e' T mem off bits) := by
  rw [readInt_endian p e e']
  unfold readInt
  refine .ite (fun _ => .rfl) fun _ => .ite (fun _ => .rfl) fun _ => .ite (fun _ => ?_) fun _ => extendSign_agree hp _ _ _
  cases mem[off / 8 + (off / 8 + numBytes off bits)]? with
  | none => exact .rfl
  | some b => exact extendSign_agree hp _ _ _

theorem readBytes_agree (hp : p.Le p') (T : IntTy) (mem : Bytes) (off bits : Nat) :
    Out.Agree p p' (readBytes p e T mem off bits) (readBytes p' e' T mem off bits) := by
  cases T <;> first
    | exact readInt_agree hp _ _ _ _
    | exact .bind (readInt_agree hp _ _ _ _) fun _ => .rfl

theorem writeBytes_agree (hp : p.Le p') (signed : Bool) (v : Int) (data : Bytes) (off bits : Nat) :
    Out.Agree p p' (writeBytes p e signed v data off bits) (writeBytes p' e' signed v data off bits) := by
  rw [writeBytes_endian p e e']
  rcases hp with rfl | ⟨rfl, rfl⟩
  · exact .rfl
  · unfold writeBytes
    by_cases h : 64 < bits
    · rw [if_pos ⟨rfl, h⟩]; exact .inr ⟨rfl, rfl, rfl⟩
    · rw [if_neg (show ¬ (Profile.debug = .debug ∧ 64 < bits) from fun g => h g.2),
        if_neg (show ¬ (Profile.release = .debug ∧ 64 < bits) from fun g => h g.2)]
      exact .rfl

/-! ## Structs -/

theorem get_agree (hp : p.Le p') (f : Field) (mem : Bytes) : Out.Agree p p' (f.get p e mem) (f.get p' e' mem) :=
  .bind (readBytes_agree hp _ _ _ _) fun _ => .rfl

theorem set_agree (hp : p.Le p') (size : Nat) (f : Field) (mem : Bytes) (v : Int) :
    Out.Agree p p' (f.set p e size mem v) (f.set p' e' size mem v) :=
  .ite (fun _ => .rfl) fun _ => .bind (writeBytes_agree hp _ _ _ _ _) fun _ => .rfl

theorem fillFields_agree (hp : p.Le p') (size : Nat) : ∀ (fs : List Field) (dst src : Bytes),
    Out.Agree p p' (fillFields p e size fs dst src) (fillFields p' e' size fs dst src)
  | [], _, _ => .rfl
  | f :: fs, _, src => .bind (get_agree hp f src) fun _ => .bind (set_agree hp _ _ _ _) fun _ => fillFields_agree hp size fs _ src

theorem fillFrom_agree (hp : p.Le p') (S : StructDef) (dst src : Bytes) :
    Out.Agree p p' (S.fillFrom p e dst src) (S.fillFrom p' e' dst src) := fillFields_agree hp _ _ _ _

theorem eqFields_agree (hp : p.Le p') : ∀ (fs : List Field) (a b : Bytes),
    Out.Agree p p' (eqFields p e fs a b) (eqFields p' e' fs a b)
  | [], _, _ => .rfl
  | f :: fs, a, b => .bind (get_agree hp f a) fun _ => .bind (get_agree hp f b) fun _ =>
      .ite (fun _ => eqFields_agree hp fs a b) fun _ => .rfl

theorem structEq_agree (hp : p.Le p') (S : StructDef) (a b : Bytes) : Out.Agree p p' (S.eq p e a b) (S.eq p' e' a b) :=
  eqFields_agree hp _ _ _

theorem getAll_agree (hp : p.Le p') : ∀ (fs : List Field) (a : Bytes), Out.Agree p p' (getAll p e fs a) (getAll p' e' fs a)
  | [], _ => .rfl
  | f :: fs, a => .bind (get_agree hp f a) fun _ => .bind (getAll_agree hp fs a) fun _ => .rfl

theorem structDebug_agree (hp : p.Le p') (S : StructDef) (mem : Bytes) : Out.Agree p p' (S.debug p e mem) (S.debug p' e' mem) :=
  .bind (getAll_agree hp _ _) fun _ => .rfl

theorem getIndex_agree (hp : p.Le p') (bits : Nat) (mem : Bytes) : Out.Agree p p' (getIndex p e bits mem) (getIndex p' e' bits mem) :=
  .bind (get_agree hp _ _) fun _ => .rfl

theorem handleOp_agree (hp : p.Le p') (S : StructDef) (mem : Bytes) (op : HandleOp) :
    Out.Agree p p' (op.run p e S mem) (op.run p' e' S mem) := by
  cases op with
  | set f v => exact set_agree hp _ _ _ _
  | fill src => exact fillFrom_agree hp _ _ _

theorem runHandle_agree (hp : p.Le p') (S : StructDef) : ∀ (ops : List HandleOp) (mem : Bytes),
    Out.Agree p p' (runHandle p e S ops mem) (runHandle p' e' S ops mem)
  | [], _ => .rfl
  | op :: ops, mem => .bind (handleOp_agree hp S mem op) fun _ => runHandle_agree hp S ops _

theorem writeAt_agree (hp : p.Le p') (S : StructDef) (data : Bytes) (pos : Nat) (ops : List HandleOp) :
    Out.Agree p p' (Vector.writeAt p e S data pos ops) (Vector.writeAt p' e' S data pos ops) :=
  .bind (runHandle_agree hp S ops _) fun _ => .rfl

theorem bufDebug_agree (hp : p.Le p') (S : StructDef) (data : Bytes) :
    Out.Agree p p' (StructBuf.debug p e S data) (StructBuf.debug p' e' S data) := .bind (structDebug_agree hp _ _) fun _ => .rfl

/-! ## Views -/

theorem viewAt_agree (hp : p.Le p') (size : Nat) (data : Bytes) (i : Nat) :
    Out.Agree p p' (View.at' p size data i) (View.at' p' size data i) := by
  unfold View.at' View.dataIndex
  agree hp

theorem viewSlice_agree (hp : p.Le p') (size : Nat) (data : Bytes) (a b : Bound) :
    Out.Agree p p' (View.slice p size data a b) (View.slice p' size data a b) := by
  unfold View.slice
  refine .bind ?_ fun _ => .bind ?_ fun _ => .rfl
  · cases a <;> unfold View.startIndex View.dataIndex <;> agree hp
  · cases b <;> unfold View.endIndex View.dataIndex <;> agree hp

theorem viewNext_agree (hp : p.Le p') (size : Nat) (v : Bytes) : Out.Agree p p' (View.next p size v) (View.next p' size v) := by
  unfold View.next
  refine .bind .rfl fun _ => .ite (fun _ => ?_) fun _ => .rfl
  exact .bind (viewAt_agree hp _ _ _) fun _ => .bind (viewSlice_agree hp _ _ _ _) fun _ => .rfl

theorem viewNextBack_agree (hp : p.Le p') (size : Nat) (v : Bytes) :
    Out.Agree p p' (View.nextBack p size v) (View.nextBack p' size v) := by
  unfold View.nextBack
  refine .bind .rfl fun _ => .ite (fun _ => ?_) fun _ => .rfl
  exact .bind .rfl fun _ => .bind (usub_agree hp _ _) fun _ => .bind (viewAt_agree hp _ _ _) fun _ =>
    .bind (viewSlice_agree hp _ _ _ _) fun _ => .rfl

theorem viewTake_agree (hp : p.Le p') (size : Nat) : ∀ (n : Nat) (v : Bytes),
    Out.Agree p p' (View.takeCollect p size n v) (View.takeCollect p' size n v)
  | 0, _ => .rfl
  | n + 1, v => by
    unfold View.takeCollect
    refine .bind (viewNext_agree hp _ _) fun r => ?_
    rcases r with ⟨x, v'⟩
    cases x with
    | none => exact .rfl
    | some x => exact .bind (viewTake_agree hp size n v') fun _ => .rfl

theorem showAll_agree {f f' : Bytes → Out String} (h : ∀ x, Out.Agree p p' (f x) (f' x)) : ∀ l : List Bytes,
    Out.Agree p p' (View.showAll f l) (View.showAll f' l)
  | [] => .rfl
  | x :: l => .bind (h x) fun _ => .bind (showAll_agree h l) fun _ => .rfl

theorem viewDebug_agree (hp : p.Le p') (S : StructDef) (name : String) (v : Bytes) :
    Out.Agree p p' (View.debugFormat p e S name v) (View.debugFormat p' e' S name v) :=
  .bind .rfl fun _ => .bind (viewTake_agree hp _ _ _) fun _ => .bind (showAll_agree (fun x => structDebug_agree hp S x) _) fun _ => .rfl

/-! ## Vectors -/

theorem calcSize_agree (hp : p.Le p') (size n : Nat) : Out.Agree p p' (Vector.calcSize p size n) (Vector.calcSize p' size n) := by
  unfold Vector.calcSize; agree hp

theorem vecWithLen_agree (hp : p.Le p') (size n : Nat) : Out.Agree p p' (Vector.withLen p size n) (Vector.withLen p' size n) := by
  unfold Vector.withLen
  exact .bind (calcSize_agree hp _ _) fun _ => .rfl

theorem vecLen_agree (hp : p.Le p') (size : Nat) (data : Bytes) : Out.Agree p p' (Vector.len p size data) (Vector.len p' size data) := by
  unfold Vector.len Vector.sizeInBytes; agree hp

theorem vecReserve_agree (hp : p.Le p') (size : Nat) (data : Bytes) (n : Nat) :
    Out.Agree p p' (Vector.reserve p size data n) (Vector.reserve p' size data n) := by
  unfold Vector.reserve
  refine .bind (vecLen_agree hp _ _) fun _ => .bind (uadd_agree hp _ _) fun _ => .bind (calcSize_agree hp _ _) fun _ => ?_
  unfold Vector.sizeInBytes
  agree hp

theorem vecIsEmpty_agree (hp : p.Le p') (size : Nat) (data : Bytes) :
    Out.Agree p p' (Vector.isEmpty p size data) (Vector.isEmpty p' size data) := .bind (vecLen_agree hp _ _) fun _ => .rfl

theorem vecAsBytes_agree (hp : p.Le p') (data : Bytes) : Out.Agree p p' (Vector.asBytes p data) (Vector.asBytes p' data) := by
  unfold Vector.asBytes Vector.sizeInBytes; agree hp

theorem vecGrow_agree (hp : p.Le p') (size : Nat) (data : Bytes) : Out.Agree p p' (Vector.grow p size data) (Vector.grow p' size data) := by
  unfold Vector.grow
  refine .bind (uadd_agree hp _ _) fun _ => .bind .rfl fun _ => .bind (vecLen_agree hp _ _) fun _ => ?_
  agree hp

theorem vecAt_agree (hp : p.Le p') (size : Nat) (data : Bytes) (i : Nat) :
    Out.Agree p p' (Vector.at' p size data i) (Vector.at' p' size data i) := by
  unfold Vector.at'; agree hp

theorem vecAtMut_agree (hp : p.Le p') (size : Nat) (data : Bytes) (i : Nat) :
    Out.Agree p p' (Vector.atMut p size data i) (Vector.atMut p' size data i) := by
  unfold Vector.atMut; agree hp

theorem vecDebug_agree (hp : p.Le p') (S : StructDef) (data : Bytes) :
    Out.Agree p p' (Vector.debug p e S data) (Vector.debug p' e' S data) :=
  .bind (vecAsBytes_agree hp _) fun _ => viewDebug_agree hp _ _ _

/-! ## Multi array views -/

theorem elemEq_agree (hp : p.Le p') (x y : Elem) : Out.Agree p p' (x.eq p e y) (x.eq p' e' y) :=
  .ite (fun _ => structEq_agree hp _ _ _) fun _ => .rfl

theorem elemDebug_agree (hp : p.Le p') (x : Elem) : Out.Agree p p' (x.debug p e) (x.debug p' e') := structDebug_agree hp _ _

theorem showElems_agree (hp : p.Le p') : ∀ l : List Elem, Out.Agree p p' (MultiView.showElems p e l) (MultiView.showElems p' e' l)
  | [] => .rfl
  | x :: l => .bind (elemDebug_agree hp x) fun _ => .bind (showElems_agree hp l) fun _ => .rfl

theorem itemDebug_agree (hp : p.Le p') (V : Variadic) (data : Bytes) :
    Out.Agree p p' (MultiView.itemDebug p e V data) (MultiView.itemDebug p' e' V data) :=
  .bind .rfl fun _ => .bind (showElems_agree hp _) fun _ => .rfl

theorem multiLen_agree (hp : p.Le p') (V : Variadic) (v : MultiView) : Out.Agree p p' (MultiView.len p V v) (MultiView.len p' V v) :=
  .bind .rfl fun _ => usub_agree hp _ _

theorem multiIsEmpty_agree (hp : p.Le p') (V : Variadic) (v : MultiView) :
    Out.Agree p p' (MultiView.isEmpty p V v) (MultiView.isEmpty p' V v) := .bind (multiLen_agree hp _ _) fun _ => .rfl

theorem multiAt_agree (hp : p.Le p') (V : Variadic) (v : MultiView) (i : Nat) :
    Out.Agree p p' (MultiView.at' p e V v i) (MultiView.at' p' e' V v i) :=
  .bind (viewAt_agree hp _ _ _) fun _ => .bind (getIndex_agree hp _ _) fun _ => .bind (uadd_agree hp _ _) fun _ =>
    .bind (viewAt_agree hp _ _ _) fun _ => .bind (getIndex_agree hp _ _) fun _ => .rfl

theorem multiSlice_agree (hp : p.Le p') (V : Variadic) (v : MultiView) (a b : Bound) :
    Out.Agree p p' (MultiView.slice p V v a b) (MultiView.slice p' V v a b) := by
  unfold MultiView.slice
  refine .bind ?_ fun _ => .bind ?_ fun _ => .bind (viewSlice_agree hp _ _ _ _) fun _ => .rfl
  · cases a <;> unfold MultiView.startIndex <;> agree hp
  · cases b <;> unfold MultiView.endIndex <;> agree hp

theorem multiNext_agree (hp : p.Le p') (V : Variadic) (v : MultiView) :
    Out.Agree p p' (MultiView.next p e V v) (MultiView.next p' e' V v) := by
  unfold MultiView.next
  refine .bind (multiIsEmpty_agree hp _ _) fun _ => .ite (fun _ => ?_) fun _ => .rfl
  exact .bind (multiAt_agree hp _ _ _) fun _ => .bind (multiSlice_agree hp _ _ _ _) fun _ => .rfl

theorem multiNextBack_agree (hp : p.Le p') (V : Variadic) (v : MultiView) :
    Out.Agree p p' (MultiView.nextBack p e V v) (MultiView.nextBack p' e' V v) := by
  unfold MultiView.nextBack
  refine .bind (multiIsEmpty_agree hp _ _) fun _ => .ite (fun _ => ?_) fun _ => .rfl
  exact .bind (multiLen_agree hp _ _) fun _ => .bind (usub_agree hp _ _) fun _ => .bind (multiAt_agree hp _ _ _) fun _ =>
    .bind (multiSlice_agree hp _ _ _ _) fun _ => .rfl

theorem multiTake_agree (hp : p.Le p') (V : Variadic) : ∀ (n i : Nat) (v : MultiView),
    Out.Agree p p' (MultiView.takeCollect p e V i n v) (MultiView.takeCollect p' e' V i n v)
  | 0, _, _ => by unfold MultiView.takeCollect; exact .rfl
  | n + 1, i, v => by
    unfold MultiView.takeCollect
    refine .bind (multiNext_agree hp _ _) fun r => ?_
    rcases r with ⟨x, v'⟩
    cases x with
    | none => exact .rfl
    | some x => exact .bind .rfl fun _ => .bind (multiTake_agree hp V n (i + 1) v') fun _ => .rfl

theorem showItems_agree (hp : p.Le p') : ∀ l : List (Nat × List Elem),
    Out.Agree p p' (MultiView.showItems p e l) (MultiView.showItems p' e' l)
  | [] => .rfl
  | x :: l => .bind (showElems_agree hp x.2) fun _ => .bind (showItems_agree hp l) fun _ => .rfl

theorem multiDebug_agree (hp : p.Le p') (V : Variadic) (name : String) (v : MultiView) :
    Out.Agree p p' (MultiView.debugFormat p e V name v) (MultiView.debugFormat p' e' V name v) :=
  .bind (multiLen_agree hp _ _) fun _ => .bind (multiTake_agree hp _ _ _ _) fun _ => .bind (showItems_agree hp _) fun _ => .rfl

/-! ## Storage -/

section
variable {B : Backend}

theorem writeSize_agree (hp : p.Le p') (n : Nat) (s : B.Strm) :
    Act.Agree p p' (Storage.writeSize B p e n s) (Storage.writeSize B p' e' n s) :=
  .bind (.lift (writeBytes_agree hp _ _ _ _ _)) fun _ => .rfl

theorem write_agree (hp : p.Le p') (o : B.Obj) (name schema : String) (data : Bytes) :
    Act.Agree p p' (Storage.write B p e o name schema data) (Storage.write B p' e' o name schema data) :=
  .bind .rfl fun _ => .bind (.bind (writeSize_agree hp _ _) fun _ => .rfl) fun _ => .rfl

theorem read_agree [DiffLib] (hp : p.Le p') (o : B.Obj) (name schema : String) :
    Act.Agree p p' (Storage.read B p e o name schema) (Storage.read B p' e' o name schema) := by
  refine .bind .rfl fun _ => .bind .rfl fun _ => ?_
  unfold Storage.checkResource
  refine .ite (fun _ => .rfl) fun _ => .bind .rfl fun _ => .bind (.lift (readBytes_agree hp _ _ _ _)) fun _ =>
    .bind (.lift (uadd_agree hp _ _)) fun _ => .bind (.lift (uadd_agree hp _ _)) fun _ => .rfl

theorem createArchive_agree (hp : p.Le p') (o : B.Obj) (sig schema : String) :
    Act.Agree p p' (Storage.createArchive B p e o sig schema) (Storage.createArchive B p' e' o sig schema) :=
  .bind .rfl fun _ => .ite (fun _ => .rfl) fun _ => .mapErr (write_agree hp _ _ _ _)

theorem handleNew_agree (hp : p.Le p') (o : B.Obj) (name schema : String) (s : B.Strm) :
    Act.Agree p p' (Handle.tryNew p e o name schema s) (Handle.tryNew p' e' o name schema s) :=
  .bind (writeSize_agree hp _ _) fun _ => .rfl

theorem handleWrite_agree (hp : p.Le p') (h : Handle B) (data : Bytes) : Act.Agree p p' (h.write p data) (h.write p' data) := by
  unfold Handle.write
  cases h.stream with
  | none => exact .rfl
  | some s => exact .bind .rfl fun _ => .bind (.lift (uadd_agree hp _ _)) fun _ => .rfl

theorem handleClose_agree [DiffLib] (hp : p.Le p') (h : Handle B) : Act.Agree p p' (h.close p e) (h.close p' e') := by
  unfold Handle.close
  cases h.stream with
  | none => exact .rfl
  | some s =>
    refine .bind (.attempt (.bind .rfl fun _ => .bind .rfl fun _ => writeSize_agree hp _ _)) fun r => ?_
    rcases r with x | ⟨⟩
    · exact .rfl
    · exact .bind (.attempt (read_agree hp _ _ _)) fun _ => .rfl

/-! ## External vectors and multivectors -/

theorem createVector_agree (hp : p.Le p') (o : B.Obj) (name schema : String) :
    Act.Agree p p' (createExternalVector p e o name schema) (createExternalVector p' e' o name schema) :=
  .bind .rfl fun _ => .bind .rfl fun _ => .bind .rfl fun _ => .bind (handleNew_agree hp _ _ _ _) fun _ => .rfl

theorem flush_agree (hp : p.Le p') (v : ExtVec B) : Act.Agree p p' (v.flush p) (v.flush p') :=
  .bind (.lift (usub_agree hp _ _)) fun _ => .bind .rfl fun _ => .bind (handleWrite_agree hp _ _) fun _ => .rfl

theorem vectorGrow_agree (hp : p.Le p') (size : Nat) (v : ExtVec B) : Act.Agree p p' (v.grow p size) (v.grow p' size) := by
  unfold ExtVec.grow ExtVec.flushIfFull
  refine .bind (.ite (fun _ => flush_agree hp _) fun _ => .rfl) fun _ => ?_
  agree hp

theorem closeHandle_agree [DiffLib] (hp : p.Le p') (v : ExtVec B) : Act.Agree p p' (v.closeHandle p e) (v.closeHandle p' e') :=
  .bind (.mapErr (handleClose_agree hp _)) fun _ => .rfl

theorem vectorClose_agree [DiffLib] (hp : p.Le p') (v : ExtVec B) : Act.Agree p p' (v.close p e) (v.close p' e') := by
  refine .bind (.attempt (flush_agree hp _)) fun r => ?_
  cases r with
  | error x => exact .rfl
  | ok v => exact closeHandle_agree hp v

theorem multiFlush_agree (hp : p.Le p') (v : MultiVec B) : Act.Agree p p' (v.flush p) (v.flush p') :=
  .bind (.lift (usub_agree hp _ _)) fun _ => .bind .rfl fun _ => .bind (handleWrite_agree hp _ _) fun _ =>
    .bind (.lift (uadd_agree hp _ _)) fun _ => .rfl

theorem addToIndex_agree (hp : p.Le p') (V : Variadic) (v : MultiVec B) : Act.Agree p p' (v.addToIndex p e V) (v.addToIndex p' e' V) :=
  .bind (vectorGrow_agree hp _ _) fun _ => .bind (.lift (uadd_agree hp _ _)) fun _ => .bind (.lift (usub_agree hp _ _)) fun _ =>
    .bind (.lift (writeAt_agree hp _ _ _ _)) fun _ => .rfl

theorem multiGrow_agree (hp : p.Le p') (V : Variadic) (v : MultiVec B) : Act.Agree p p' (v.grow p e V) (v.grow p' e' V) := by
  unfold MultiVec.grow MultiVec.flushIfFull
  refine .bind (.attempt (.ite (fun _ => multiFlush_agree hp _) fun _ => .rfl)) fun r => ?_
  cases r with
  | error x => exact .rfl
  | ok v => exact .bind (.attempt (addToIndex_agree hp _ _)) fun _ => .rfl

theorem itemAdd_agree (hp : p.Le p') (t : BitVec 8) (size : Nat) (data : Bytes) :
    Out.Agree p p' (MultiVec.builderAdd p t size data) (MultiVec.builderAdd p' t size data) := by
  unfold MultiVec.builderAdd
  agree hp

theorem multiClose_agree [DiffLib] (hp : p.Le p') (V : Variadic) (v : MultiVec B) : Act.Agree p p' (v.close p e V) (v.close p' e' V) := by
  refine .bind (.attempt (addToIndex_agree hp _ _)) fun r => ?_
  cases r with
  | error x => exact .rfl
  | ok v =>
    refine .bind (.attempt (multiFlush_agree hp _)) fun r => ?_
    cases r with
    | error x => exact .rfl
    | ok v =>
      refine .bind (.attempt (vectorClose_agree hp _)) fun r => ?_
      cases r with
      | error x => exact .rfl
      | ok i => exact .bind (.mapErr (handleClose_agree hp _)) fun _ => .rfl

theorem createMulti_agree (hp : p.Le p') (o : B.Obj) (name schema : String) :
    Act.Agree p p' (createMultiVector p e o name schema) (createMultiVector p' e' o name schema) :=
  .bind (createVector_agree hp _ _ _) fun _ =>
    .bind (.attempt (.bind .rfl fun _ => .bind .rfl fun _ => .bind .rfl fun _ => handleNew_agree hp _ _ _ _)) fun _ => .rfl

/-! ## Archives -/

theorem checkRes_agree {α : Type} {optional : Bool} {x x' : Act B.W RErr α} (h : Act.Agree p p' x x') :
    Act.Agree p p' (checkRes B optional x) (checkRes B optional x') := .bind (.attempt h) fun _ => .rfl

theorem openResource_agree [DiffLib] (hp : p.Le p') (o : B.Obj) (r : ResDecl) :
    Act.Agree p p' (openResource B p e o r) (openResource B p' e' o r) := by
  unfold openResource
  cases r.type <;> first
    | exact .bind (checkRes_agree (read_agree hp _ _ _)) fun _ => .bind (checkRes_agree (read_agree hp _ _ _)) fun _ => .rfl
    | exact .bind (checkRes_agree (read_agree hp _ _ _)) fun _ => .rfl

theorem openResources_agree [DiffLib] (hp : p.Le p') (o : B.Obj) : ∀ rs : List ResDecl,
    Act.Agree p p' (openResources B p e o rs) (openResources B p' e' o rs)
  | [] => .rfl
  | r :: rs => .bind (openResource_agree hp o r) fun _ => .bind (openResources_agree hp o rs) fun _ => .rfl

mutual
theorem openArchive_agree [DiffLib] (hp : p.Le p') : ∀ (D : ArchiveDef) (o : B.Obj),
    Act.Agree p p' (openArchive B p e o D) (openArchive B p' e' o D)
  | .mk name schema rs subs, o => by
    unfold openArchive
    exact .bind (read_agree hp _ _ _) fun _ => .bind (openResources_agree hp _ _) fun _ => .bind (openSubs_agree hp subs o) fun _ => .rfl

theorem openSubs_agree [DiffLib] (hp : p.Le p') : ∀ (D : SubDefs) (o : B.Obj),
    Act.Agree p p' (openSubs B p e o D) (openSubs B p' e' o D)
  | .nil, o => by unfold openSubs; exact .rfl
  | .cons name optional D rest, o => by
    unfold openSubs
    exact .bind .rfl fun o' => .bind (checkRes_agree (openArchive_agree hp D o')) fun _ => .bind (openSubs_agree hp rest o) fun _ => .rfl
end

theorem builderNew_agree (hp : p.Le p') (o : B.Obj) (D : ArchiveDef) : Act.Agree p p' (builderNew B p e o D) (builderNew B p' e' o D) :=
  .bind (createArchive_agree hp _ _ _) fun _ => .rfl

theorem builderSub_agree (hp : p.Le p') (o : B.Obj) (name : String) (D : ArchiveDef) :
    Act.Agree p p' (builderSub B p e o name D) (builderSub B p' e' o name D) :=
  .bind .rfl fun _ => builderNew_agree hp _ _

theorem setStruct_agree (hp : p.Le p') (o : B.Obj) (r : ResDecl) (S : StructDef) (item : Bytes) :
    Act.Agree p p' (setStruct B p e o r S item) (setStruct B p' e' o r S item) :=
  .ite (fun _ => .rfl) fun _ => write_agree hp _ _ _ _

variable {w : B.W} {addr : Slice B.Base → String}

theorem formatSome_agree {α : Type} {f f' : α → Out String} (h : ∀ x, Out.Agree p p' (f x) (f' x)) (x : Option α) :
    Out.Agree p p' (formatSome f x) (formatSome f' x) := by
  cases x with
  | none => exact .rfl
  | some x => exact .bind (h x) fun _ => .rfl

theorem resDebug_agree (hp : p.Le p') (r : ResDecl) (x : Opened B.Base) :
    Out.Agree p p' (resDebug B w p e addr r x) (resDebug B w p' e' addr r x) := by
  unfold resDebug
  cases r.type with
  | struct S => exact .bind .rfl fun _ => .bind (formatSome_agree (fun _ => structDebug_agree hp _ _) _) fun _ => .rfl
  | vector S => exact .bind .rfl fun _ => .bind (formatSome_agree (fun _ => viewDebug_agree hp _ _ _) _) fun _ => .rfl
  | multi V i => exact .bind .rfl fun _ => .bind (formatSome_agree (fun _ => multiDebug_agree hp _ _ _) _) fun _ => .rfl
  | raw => exact .rfl

theorem allDebug_agree (hp : p.Le p') : ∀ (rs : List ResDecl) (xs : List (Opened B.Base)),
    Out.Agree p p' (allDebug B w p e addr rs xs) (allDebug B w p' e' addr rs xs)
  | [], _ => by unfold allDebug; exact .rfl
  | _ :: _, [] => by unfold allDebug; exact .rfl
  | r :: rs, x :: xs => .bind (resDebug_agree hp r x) fun _ => .bind (allDebug_agree hp rs xs) fun _ => .rfl

mutual
theorem archiveDebug_agree (hp : p.Le p') : ∀ (D : ArchiveDef) (a : Archive B.Base),
    Out.Agree p p' (archiveDebug B w p e addr D a) (archiveDebug B w p' e' addr D a)
  | .mk name schema rs subs, .mk xs ss => by
    unfold archiveDebug
    exact .bind (allDebug_agree hp _ _) fun _ => .bind (subsDebug_agree hp subs ss) fun _ => .rfl

theorem subsDebug_agree (hp : p.Le p') : ∀ (D : SubDefs) (a : SubArchives B.Base),
    Out.Agree p p' (subsDebug B w p e addr D a) (subsDebug B w p' e' addr D a)
  | .nil, _ => by unfold subsDebug; exact .rfl
  | .cons .., .nil => by unfold subsDebug; exact .rfl
  | .cons name optional D rest, .cons a ss => by
    unfold subsDebug
    refine .bind ?_ fun _ => .bind .rfl fun _ => .bind (subsDebug_agree hp rest ss) fun _ => .rfl
    cases a with
    | none => exact .rfl
    | some a => exact .bind (archiveDebug_agree hp D a) fun _ => .rfl
end

/-! ## Programs -/

theorem call_agree [DiffLib] (hp : p.Le p') {β : Type} (c : Call B β) : Act.Agree p p' (c.run p e) (c.run p' e') := by
  cases c with
  | get => exact .lift (get_agree hp _ _)
  | edit => exact .lift (writeAt_agree hp _ _ _ _)
  | structEq => exact .lift (structEq_agree hp _ _ _)
  | structDebug => exact .lift (structDebug_agree hp _ _)
  | bufDebug => exact .lift (bufDebug_agree hp _ _)
  | vecWithLen => exact .lift (vecWithLen_agree hp _ _)
  | vecLen => exact .lift (vecLen_agree hp _ _)
  | vecReserve => exact .lift (vecReserve_agree hp _ _ _)
  | vecIsEmpty => exact .lift (vecIsEmpty_agree hp _ _)
  | vecAsBytes => exact .lift (vecAsBytes_agree hp _)
  | vecGrow => exact .lift (vecGrow_agree hp _ _)
  | vecAt => exact .lift (vecAt_agree hp _ _ _)
  | vecAtMut => exact .lift (vecAtMut_agree hp _ _ _)
  | vecDebug => exact .lift (vecDebug_agree hp _ _)
  | viewAt => exact .lift (viewAt_agree hp _ _ _)
  | viewSlice => exact .lift (viewSlice_agree hp _ _ _ _)
  | viewNext => exact .lift (viewNext_agree hp _ _)
  | viewNextBack => exact .lift (viewNextBack_agree hp _ _)
  | viewDebug => exact .lift (viewDebug_agree hp _ _ _)
  | elemEq => exact .lift (elemEq_agree hp _ _)
  | elemDebug => exact .lift (elemDebug_agree hp _)
  | itemDebug => exact .lift (itemDebug_agree hp _ _)
  | multiLen => exact .lift (multiLen_agree hp _ _)
  | multiIsEmpty => exact .lift (multiIsEmpty_agree hp _ _)
  | multiAt => exact .lift (multiAt_agree hp _ _ _)
  | multiSlice => exact .lift (multiSlice_agree hp _ _ _ _)
  | multiNext => exact .lift (multiNext_agree hp _ _)
  | multiNextBack => exact .lift (multiNextBack_agree hp _ _)
  | multiDebug => exact .lift (multiDebug_agree hp _ _ _)
  | write => exact .attempt (write_agree hp _ _ _ _)
  | read => exact .attempt (read_agree hp _ _ _)
  | createArchive => exact .attempt (createArchive_agree hp _ _ _)
  | handleNew => exact .attempt (handleNew_agree hp _ _ _ _)
  | handleWrite => exact .attempt (handleWrite_agree hp _ _)
  | handleClose => exact handleClose_agree hp _
  | createVector => exact .attempt (createVector_agree hp _ _ _)
  | vectorGrow => exact .attempt (vectorGrow_agree hp _ _)
  | vectorClose => exact .attempt (vectorClose_agree hp _)
  | createMulti => exact .attempt (createMulti_agree hp _ _ _)
  | multiGrow => exact multiGrow_agree hp _ _
  | itemAdd => exact .lift (itemAdd_agree hp _ _ _)
  | multiClose => exact .attempt (multiClose_agree hp _ _)
  | openArchive => exact .attempt (openArchive_agree hp _ _)
  | archiveDebug addr D a => exact fun w => (Act.Agree.lift (archiveDebug_agree hp D a)) w
  | builderNew => exact .attempt (builderNew_agree hp _ _)
  | builderSub => exact .attempt (builderSub_agree hp _ _ _)
  | setStruct => exact .attempt (setStruct_agree hp _ _ _ _)
  | setVector => exact .attempt (write_agree hp _ _ _ _)
  | setRaw => exact .attempt (write_agree hp _ _ _ _)
  | startVector => exact .attempt (createVector_agree hp _ _ _)
  | startMulti => exact .attempt (createMulti_agree hp _ _ _)
  | other => exact .rfl

theorem client_agree [DiffLib] (hp : p.Le p') {α : Type} : ∀ c : Client B α, Act.Agree p p' (c.run p e) (c.run p' e')
  | .ret _ => .rfl
  | .call c k => .bind (call_agree hp c) fun b => client_agree hp (k b)

/-! ## Building programs -/

theorem growOne_agree (hp : p.Le p') (S : StructDef) (v : ExtVec B) (ops : List HandleOp) :
    Act.Agree p p' (growOne B p e S v ops) (growOne B p' e' S v ops) :=
  .bind (vectorGrow_agree hp _ _) fun _ => .bind (.lift (writeAt_agree hp _ _ _ _)) fun _ => .rfl

theorem addOne_agree (hp : p.Le p') (v : MultiVec B) (a : Add) : Act.Agree p p' (addOne B p e v a) (addOne B p' e' v a) :=
  .bind (.lift (itemAdd_agree hp _ _ _)) fun _ => .bind (.lift (writeAt_agree hp _ _ _ _)) fun _ => .rfl

theorem growItem_agree (hp : p.Le p') (V : Variadic) (v : MultiVec B) (as : List Add) :
    Act.Agree p p' (growItem B p e V v as) (growItem B p' e' V v as) :=
  .bind (.mapErr (multiGrow_agree hp _ _)) fun _ => .bind .rfl fun _ => .foldlM (fun _ _ => addOne_agree hp _ _) _ _

theorem writeResource_agree [DiffLib] (hp : p.Le p') (o : B.Obj) (r : ResDecl) (s : Source) :
    Act.Agree p p' (writeResource B p e o r s) (writeResource B p' e' o r s) := by
  unfold writeResource
  cases r.type <;> cases s <;> first
    | exact .rfl
    | exact .mapErr (setStruct_agree hp _ _ _ _)
    | exact .mapErr (write_agree hp _ _ _ _)
    | exact .bind (.mapErr (createVector_agree hp _ _ _)) fun _ => .bind (.mapErr (.foldlM (fun _ _ => growOne_agree hp _ _ _) _ _)) fun _ =>
        .bind (vectorClose_agree hp _) fun _ => .rfl
    | exact .bind (.mapErr (createMulti_agree hp _ _ _)) fun _ => .bind (.mapErr (.foldlM (fun _ _ => growItem_agree hp _ _ _) _ _)) fun _ =>
        .bind (multiClose_agree hp _ _) fun _ => .rfl

theorem prog_agree [DiffLib] (hp : p.Le p') : ∀ (prog : Prog) (o : B.Obj), Act.Agree p p' (prog.run B p e o) (prog.run B p' e' o)
  | .done, _ => .rfl
  | .res r s rest, o => .bind (writeResource_agree hp o r s) fun _ => prog_agree hp rest o
  | .sub name D inner rest, o => .bind (builderSub_agree hp o name D) fun o' => .bind (prog_agree hp inner o') fun _ => prog_agree hp rest o

theorem buildArchive_agree [DiffLib] (hp : p.Le p') (o : B.Obj) (D : ArchiveDef) (prog : Prog) :
    Act.Agree p p' (buildArchive B p e o D prog) (buildArchive B p' e' o D prog) :=
  .bind (builderNew_agree hp _ _) fun _ => prog_agree hp _ _

theorem copyRes_agree (hp : p.Le p') (r : ResDecl) (x : Opened B.Base) :
    Out.Agree p p' (copyRes B w p e r x) (copyRes B w p' e' r x) := by
  unfold copyRes
  cases r.type with
  | struct S =>
    refine .bind .rfl fun b => ?_
    cases b with
    | none => exact .rfl
    | some b => exact .bind (fillFrom_agree hp _ _ _) fun _ => .rfl
  | vector S =>
    refine .bind .rfl fun b => ?_
    cases b with
    | none => exact .rfl
    | some b => exact .bind (.bind (viewTake_agree hp _ _ _) fun _ => .rfl) fun _ => .rfl
  | multi V i =>
    refine .bind .rfl fun b => ?_
    cases b with
    | none => exact .rfl
    | some b => exact .bind (.bind (multiTake_agree hp _ _ _ _) fun _ => .rfl) fun _ => .rfl
  | raw => exact .rfl

theorem copyAll_agree (hp : p.Le p') : ∀ (rs : List ResDecl) (xs : List (Opened B.Base)) (rest : Prog),
    Out.Agree p p' (copyAll B w p e rs xs rest) (copyAll B w p' e' rs xs rest)
  | [], _, _ => by unfold copyAll; exact .rfl
  | _ :: _, [], _ => by unfold copyAll; exact .rfl
  | r :: rs, x :: xs, rest => .bind (copyRes_agree hp r x) fun _ => .bind (copyAll_agree hp rs xs rest) fun _ => .rfl

mutual
theorem copyProg_agree (hp : p.Le p') : ∀ (D : ArchiveDef) (a : Archive B.Base),
    Out.Agree p p' (copyProg B w p e D a) (copyProg B w p' e' D a)
  | .mk name schema rs subs, .mk xs ss => by
    unfold copyProg
    exact .bind (copySubs_agree hp subs ss) fun _ => copyAll_agree hp _ _ _

theorem copySubs_agree (hp : p.Le p') : ∀ (D : SubDefs) (a : SubArchives B.Base),
    Out.Agree p p' (copySubs B w p e D a) (copySubs B w p' e' D a)
  | .nil, _ => by unfold copySubs; exact .rfl
  | .cons .., .nil => by unfold copySubs; exact .rfl
  | .cons name optional D rest, .cons a ss => by
    unfold copySubs
    refine .bind (copySubs_agree hp rest ss) fun _ => ?_
    cases a with
    | none => exact .rfl
    | some a => exact .bind (copyProg_agree hp D a) fun _ => .rfl
end

end
end Flatdata
