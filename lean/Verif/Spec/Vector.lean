import Verif.Model.Vector
/-!
# Specification of vectors: a list of independent elements

Every element is a separate byte string of exactly `S.size` bytes; nothing is shared, there is no padding.
-/
namespace Flatdata.Spec

/-- `n` zero bytes. -/
def zeros (n : Nat) : Bytes := List.replicate n 0#8

/-- One operation on a list of elements; an index outside the list is a panic. -/
def listOp (p : Profile) (e : Endian) (S : StructDef) (l : List Bytes) : VecOp → Out (List Bytes)
  | .grow ops => do
    let x ← runHandle p e S ops (zeros S.size)
    .ok (l ++ [x])
  | .reserve _ => .ok l
  | .atMut i ops =>
    match l[i]? with
    | none => .panic
    | some x => do
      let x ← runHandle p e S ops x
      .ok (l.set i x)

/-- A history of operations on a list of elements. -/
def runList (p : Profile) (e : Endian) (S : StructDef) : List VecOp → List Bytes → Out (List Bytes)
  | [], l => .ok l
  | op :: ops, l => do
    let l ← listOp p e S l op
    runList p e S ops l

/-- Memory needed by a history: all elements plus padding, and all reservations, stay below `isize::MAX`. -/
def FitsMem (size : Nat) : List VecOp → Nat → Prop
  | [], n => n * size + 8 < 2 ^ 63
  | .grow _ :: ops, n => FitsMem size ops (n + 1)
  | .reserve k :: ops, n => (n + k) * size + 16 < 2 ^ 63 ∧ FitsMem size ops n
  | .atMut _ _ :: ops, n => FitsMem size ops n

instance decFitsMem (size : Nat) : (ops : List VecOp) → (n : Nat) → Decidable (FitsMem size ops n)
  | [], n => inferInstanceAs (Decidable (n * size + 8 < 2 ^ 63))
  | .grow _ :: ops, n => decFitsMem size ops (n + 1)
  | .reserve k :: ops, n =>
    have := decFitsMem size ops n
    inferInstanceAs (Decidable ((n + k) * size + 16 < 2 ^ 63 ∧ FitsMem size ops n))
  | .atMut _ _ :: ops, n => decFitsMem size ops n

end Flatdata.Spec
