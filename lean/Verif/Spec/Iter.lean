import Verif.Model.Iter
import Verif.Spec.MultiView
/-!
# Iterators as lists

`R s l`: the elements that an iterator in state `s` still has to yield are `l`. Elements are compared through a function `f`
(what the user can see of an element).
-/
namespace Flatdata.Spec
variable {α β : Type}

/-- From the front the iterator yields the elements of the list in order. -/
def Forward (I : Iter α) (f : α → β) (R : I.St → List β → Prop) : Prop :=
  ∀ s l, R s l → ∃ x s', I.next s = .ok (x, s') ∧ x.map f = l.head? ∧ R s' l.tail

/-- From the back it yields them in reverse order. -/
def Backward (I : Iter α) (f : α → β) (R : I.St → List β → Prop) : Prop :=
  ∀ s l, R s l → ∃ x s', I.nextBack s = .ok (x, s') ∧ x.map f = l.getLast? ∧ R s' l.dropLast

/-- `len` is the number of elements that remain. -/
def ExactLen (I : Iter α) (R : I.St → List β → Prop) : Prop := ∀ s l, R s l → I.len s = .ok l.length

/-- A double-ended iterator that knows its length. -/
structure Deque (I : Iter α) (f : α → β) (R : I.St → List β → Prop) : Prop where
  front : Forward I f R
  back : Backward I f R
  len : ExactLen I R

/-- The contract of `ExactSizeIterator` about `size_hint`: "must return the exact size of the iterator". -/
def ExactHint (I : Iter α) (R : I.St → List β → Prop) : Prop := ∀ s l, R s l → I.sizeHint s = .ok (l.length, some l.length)

/-- The contract of `Iterator` about `size_hint`: bounds of the remaining length. -/
def HintBounds (I : Iter α) (R : I.St → List β → Prop) : Prop :=
  ∀ s l, R s l → ∃ lo hi, I.sizeHint s = .ok (lo, hi) ∧ lo ≤ l.length ∧ ∀ n, hi = some n → l.length ≤ n

/-- The iterators over an array view: the elements of the view. -/
def ArrayIs (size : Nat) (view : Bytes) (l : List Bytes) : Prop := view.length < 2 ^ 63 ∧ elems size view = l

/-- The iterators over a multi array view: its items. -/
def MultiIs (V : Variadic) (v : MultiView) (l : List Bytes) : Prop := MultiOK V v ∧ items V v = l

end Flatdata.Spec
