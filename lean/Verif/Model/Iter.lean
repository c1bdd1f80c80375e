import Verif.Model.MultiView
/-!
# The iterators as values of the traits `Iterator`, `DoubleEndedIterator`, `ExactSizeIterator`

`impl`s: src/arrayview.rs:215-257, src/multiarrayview.rs:228-278, src/multiarrayview.rs:109-130. They define `next`, `next_back` and
`len`; every other method is the one the standard library provides, in particular `size_hint`. The provided methods and adapters
of the standard library that users combine with them are transcribed here from its documentation (they are not in /repo).
Counters of adapters are numbers without bound.
-/
namespace Flatdata

/-- What an implementation of the three traits consists of. -/
structure Iter (α : Type) where
  St : Type
  next : St → Out (Option α × St)
  nextBack : St → Out (Option α × St)
  sizeHint : St → Out (Nat × Option Nat)
  len : St → Out Nat

/-- `Iterator::size_hint` as provided by the trait. -/
def Iter.defaultSizeHint {σ : Type} (_ : σ) : Out (Nat × Option Nat) := .ok (0, none)

/-- `ExactSizeIterator::len` as provided by the trait: asserts that the two parts of `size_hint` agree. -/
def Iter.defaultLen {σ : Type} (sizeHint : σ → Out (Nat × Option Nat)) (s : σ) : Out Nat := do
  let h ← sizeHint s
  if h.2 = some h.1 then .ok h.1 else .panic

/-- `ArrayViewIter`, src/arrayview.rs:207-257: `size_hint` is not defined there. -/
def arrayIter (p : Profile) (size : Nat) : Iter Bytes where
  St := Bytes
  next := View.next p size
  nextBack := View.nextBack p size
  sizeHint := Iter.defaultSizeHint
  len := View.iterLen size

/-- `MultiArrayViewIter`, src/multiarrayview.rs:209-278: `size_hint` is not defined there. -/
def multiIter (p : Profile) (e : Endian) (V : Variadic) : Iter Bytes where
  St := MultiView
  next := MultiView.next p e V
  nextBack := MultiView.nextBack p e V
  sizeHint := Iter.defaultSizeHint
  len := MultiView.iterLen p V

namespace Iter
variable {α β : Type}

/-- `Iterator::nth` as provided: skips `n` elements unless the iterator ends before. -/
def nth (I : Iter α) : Nat → I.St → Out (Option α × I.St)
  | 0, s => I.next s
  | n + 1, s => do
    let r ← I.next s
    match r.1 with
    | none => .ok (none, r.2)
    | some _ => I.nth n r.2

/-- `DoubleEndedIterator::nth_back` as provided. -/
def nthBack (I : Iter α) : Nat → I.St → Out (Option α × I.St)
  | 0, s => I.nextBack s
  | n + 1, s => do
    let r ← I.nextBack s
    match r.1 with
    | none => .ok (none, r.2)
    | some _ => I.nthBack n r.2

/-- The loop behind `for`, `collect`, `count`, `last`, `fold`: `next` until it returns `None`; the elements in order and the state
of the iterator in the end. (A relation, since a loop need not end.) -/
inductive Drains (I : Iter α) : I.St → List α → I.St → Prop
  | done {s s' : I.St} (h : I.next s = .ok (none, s')) : Drains I s [] s'
  | step {s s' s'' : I.St} {x : α} {xs : List α} (h : I.next s = .ok (some x, s')) (rest : Drains I s' xs s'') :
      Drains I s (x :: xs) s''

/-- `Rev`. -/
def rev (I : Iter α) : Iter α where
  St := I.St
  next := I.nextBack
  nextBack := I.next
  sizeHint := I.sizeHint
  len := I.len

/-- `Map`; the closure only computes a value. -/
def map (f : α → β) (I : Iter α) : Iter β where
  St := I.St
  next s := do
    let r ← I.next s
    .ok (r.1.map f, r.2)
  nextBack s := do
    let r ← I.nextBack s
    .ok (r.1.map f, r.2)
  sizeHint := I.sizeHint
  len := I.len

/-- `Enumerate`: the state and the number of elements taken from the front. -/
def enumerate (I : Iter α) : Iter (Nat × α) where
  St := I.St × Nat
  next s := do
    let r ← I.next s.1
    match r.1 with
    | none => .ok (none, (r.2, s.2))
    | some x => .ok (some (s.2, x), (r.2, s.2 + 1))
  nextBack s := do
    let r ← I.nextBack s.1
    match r.1 with
    | none => .ok (none, (r.2, s.2))
    | some x => do
      let l ← I.len r.2
      .ok (some (s.2 + l, x), (r.2, s.2))
  sizeHint s := I.sizeHint s.1
  len s := I.len s.1

/-- `size_hint` of `Take`. -/
def takeHint (I : Iter α) (s : I.St × Nat) : Out (Nat × Option Nat) :=
  if s.2 = 0 then .ok (0, some 0)
  else do
    let h ← I.sizeHint s.1
    .ok (min h.1 s.2, some ((h.2.map (min s.2)).getD s.2))

/-- `Take`: the state and the number of elements still to be taken. `len` is the provided one. -/
def take (I : Iter α) : Iter α where
  St := I.St × Nat
  next s :=
    if s.2 = 0 then .ok (none, s)
    else do
      let r ← I.next s.1
      .ok (r.1, (r.2, s.2 - 1))
  nextBack s :=
    if s.2 = 0 then .ok (none, s)
    else do
      let l ← I.len s.1
      let r ← I.nthBack (l - s.2) s.1
      .ok (r.1, (r.2, s.2 - 1))
  sizeHint := I.takeHint
  len := defaultLen I.takeHint

/-- `size_hint` of `Skip`. -/
def skipHint (I : Iter α) (s : I.St × Nat) : Out (Nat × Option Nat) := do
  let h ← I.sizeHint s.1
  .ok (h.1 - s.2, h.2.map (· - s.2))

/-- `Skip`: the state and the number of elements still to be skipped. `len` is the provided one; `next_back` asks it whether
anything is left. -/
def skip (I : Iter α) : Iter α where
  St := I.St × Nat
  next s := do
    let r ← (if s.2 = 0 then I.next s.1 else I.nth s.2 s.1)
    .ok (r.1, (r.2, 0))
  nextBack s := do
    let l ← defaultLen I.skipHint s
    if l = 0 then .ok (none, s)
    else do
      let r ← I.nextBack s.1
      .ok (r.1, (r.2, s.2))
  sizeHint := I.skipHint
  len := defaultLen I.skipHint

/-- `size_hint` of `Zip`. -/
def zipHint (I : Iter α) (J : Iter β) (s : I.St × J.St) : Out (Nat × Option Nat) := do
  let h ← I.sizeHint s.1
  let k ← J.sizeHint s.2
  .ok (min h.1 k.1, match h.2, k.2 with
    | some a, some b => some (min a b)
    | some a, none => some a
    | none, b => b)

/-- `next_back` `n` times; the results are dropped. -/
def dropBack (I : Iter α) : Nat → I.St → Out I.St
  | 0, s => .ok s
  | n + 1, s => do
    let r ← I.nextBack s
    I.dropBack n r.2

/-- The end of `next_back` of `Zip`: both sides are equally long. -/
def zipEnd {σ : Type} (s : σ) : Option α → Option β → Out (Option (α × β) × σ)
  | some x, some y => .ok (some (x, y), s)
  | none, none => .ok (none, s)
  | _, _ => .panic

/-- `Zip`: `len` is the provided one; `next_back` first makes both sides equally long. -/
def zip (I : Iter α) (J : Iter β) : Iter (α × β) where
  St := I.St × J.St
  next s := do
    let r ← I.next s.1
    match r.1 with
    | none => .ok (none, (r.2, s.2))
    | some x => do
      let q ← J.next s.2
      .ok (q.1.map fun y => (x, y), (r.2, q.2))
  nextBack s := do
    let a ← I.len s.1
    let b ← J.len s.2
    let s1 ← I.dropBack (a - b) s.1
    let s2 ← J.dropBack (b - a) s.2
    let r ← I.nextBack s1
    let q ← J.nextBack s2
    zipEnd (r.2, q.2) r.1 q.1
  sizeHint := I.zipHint J
  len := defaultLen (I.zipHint J)

end Iter
end Flatdata
