import Verif.Model.Bits
import Verif.Spec.Bits
/-!
# Specification of the values a field can hold

Only the enumeration `IntTy` of Rust types is taken from the model.
-/
namespace Flatdata.Spec

/-- Meaning of the raw number `x` stored in an `n`-bit field of type `T`. -/
def decode (T : IntTy) (n x : Nat) : Int :=
  match T with
  | .bool => if x = 0 then 0 else 1
  | .i8 | .i16 | .i32 | .i64 => twos n x
  | .u8 | .u16 | .u32 | .u64 => x

/-- Values representable in an `n`-bit field of type `T`: what a user may expect to store and get back. -/
def Fits (T : IntTy) (n : Nat) (v : Int) : Prop :=
  match T with
  | .bool => v = 0 ∨ v = 1
  | .i8 | .i16 | .i32 | .i64 => -(2 ^ (n - 1) : Int) ≤ v ∧ v < 2 ^ (n - 1)
  | .u8 | .u16 | .u32 | .u64 => 0 ≤ v ∧ v < 2 ^ n

/-- All values of the Rust type `T` (what a setter can be called with at all). -/
def OfType (T : IntTy) (v : Int) : Prop := Fits T T.bits v

instance (T : IntTy) (n : Nat) (v : Int) : Decidable (Fits T n v) := by
  cases T <;> simp only [Fits] <;> infer_instance

instance (T : IntTy) (v : Int) : Decidable (OfType T v) := by unfold OfType; infer_instance

/-- The types of the Rust language that fields can have: width in bits, smallest and largest value. -/
def rustTypes : List (IntTy × Nat × Int × Int) :=
  [(.bool, 1, 0, 1), (.i8, 8, -128, 127), (.u8, 8, 0, 255), (.i16, 16, -32768, 32767), (.u16, 16, 0, 65535),
    (.i32, 32, -2147483648, 2147483647), (.u32, 32, 0, 4294967295), (.i64, 64, -9223372036854775808, 9223372036854775807),
    (.u64, 64, 0, 18446744073709551615)]

end Flatdata.Spec
