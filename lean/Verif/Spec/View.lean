import Verif.Model.View
/-!
# Specification of views: a list of elements
-/
namespace Flatdata.Spec

/-- The elements of a byte string, cut into pieces of `size` bytes; a rest shorter than `size` is dropped. -/
def elems (size : Nat) (data : Bytes) : List Bytes :=
  (List.range (data.length / size)).map fun i => (data.drop (i * size)).take size

/-- First index of a range, as a mathematical number. -/
def lower : Bound → Nat
  | .included i => i
  | .excluded i => i + 1
  | .unbounded => 0

/-- End (exclusive) of a range over a list of `n` elements. -/
def upper (n : Nat) : Bound → Nat
  | .included i => i + 1
  | .excluded i => i
  | .unbounded => n

/-- Ends of a double-ended queue. -/
inductive End where
  | front
  | back
  deriving DecidableEq, Repr

/-- Popping a list from both ends: results of each pop and the remaining list. -/
def deque {α : Type} : List End → List α → List (Option α) × List α
  | [], l => ([], l)
  | .front :: ops, l => let (r, rest) := deque ops l.tail; (l.head? :: r, rest)
  | .back :: ops, l => let (r, rest) := deque ops l.dropLast; (l.getLast? :: r, rest)

end Flatdata.Spec
