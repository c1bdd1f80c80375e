import Verif.Model.Prim
/-!
# Specification of the flatdata bit layout

Bit `k` of a byte string is bit `k % 8` of byte `k / 8`.  A field at bit offset `off` of `n` bits holds the
number whose binary digits are bits `off, off+1, ..., off+n-1`.  This file does not mention any
function of the model.
-/
namespace Flatdata.Spec

/-- Bit `k` of a byte string (false beyond its end). -/
def bitAt (data : Bytes) (k : Nat) : Bool :=
  match data[k / 8]? with
  | some b => b.getLsbD (k % 8)
  | none => false

/-- The number stored in the `n` bits starting at bit `off`. -/
def fieldRaw (data : Bytes) (off : Nat) : Nat → Nat
  | 0 => 0
  | n + 1 => fieldRaw data off n + (if bitAt data (off + n) then 2 ^ n else 0)

/-- Two's complement reading of an `n`-bit number. -/
def twos (n : Nat) (x : Nat) : Int :=
  if 2 ^ (n - 1) ≤ x then (x : Int) - 2 ^ n else x

/-- `data'` is `data` with the `n` bits at `off` replaced by (the low `n` bits of) `v`, and nothing else changed. -/
structure Stored (data data' : Bytes) (off n : Nat) (v : Int) : Prop where
  length : data'.length = data.length
  field : (fieldRaw data' off n : Int) = v % 2 ^ n
  frame : ∀ k, k < off ∨ off + n ≤ k → bitAt data' k = bitAt data k

end Flatdata.Spec
