/-!
# Primitive notions used to transcribe the Rust code

Nothing in this file models a particular function of `/repo`; it fixes how Rust's outcomes,
build profiles, host byte orders and `usize` arithmetic are represented.
-/
namespace Flatdata

/-- A byte (`u8`). -/
abbrev Byte := BitVec 8

/-- A byte slice (`&[u8]`, `Vec<u8>`). -/
abbrev Bytes := List Byte

/-- Outcome of running a piece of Rust code.
* `ok a`  : normal completion with value `a`
* `panic` : the thread panicked (index out of bounds, failed `assert!`, overflow with checks on, ...)
* `ub`    : memory was accessed outside of the slice a pointer was derived from, an invalid
            enum discriminant was transmuted, or (for memory maps) the access faults (SIGBUS). -/
inductive Out (α : Type) where
  | ok (a : α)
  | panic
  | ub
  deriving DecidableEq, Repr

namespace Out

/-- Sequencing: a panic or undefined behaviour ends the computation. -/
def bind {α β : Type} (x : Out α) (f : α → Out β) : Out β :=
  match x with
  | .ok a => f a
  | .panic => .panic
  | .ub => .ub

instance : Monad Out where
  pure := Out.ok
  bind := Out.bind

@[simp] theorem pure_eq {α} (a : α) : (pure a : Out α) = .ok a := rfl
@[simp] theorem ok_bind {α β} (a : α) (f : α → Out β) : (Out.ok a >>= f) = f a := rfl
@[simp] theorem panic_bind {α β} (f : α → Out β) : ((Out.panic : Out α) >>= f) = .panic := rfl
@[simp] theorem ub_bind {α β} (f : α → Out β) : ((Out.ub : Out α) >>= f) = .ub := rfl

theorem bind_eq_ok {α β} {x : Out α} {f : α → Out β} {b : β} :
    (x >>= f) = .ok b ↔ ∃ a, x = .ok a ∧ f a = .ok b := by
  cases x <;> simp

end Out

/-- Cargo build profile: `debug` checks integer overflow (panics) and runs `debug_assert!`,
`release` wraps around and skips `debug_assert!`. -/
inductive Profile where
  | debug
  | release
  deriving DecidableEq, Repr

/-- Byte order of the host. -/
inductive Endian where
  | little
  | big
  deriving DecidableEq, Repr

/-- `usize::max_value() + 1`; the model fixes a 64-bit target. -/
def usizeMod : Nat := 2 ^ 64

/-- `a + b` on `usize`. -/
def uadd (p : Profile) (a b : Nat) : Out Nat :=
  if a + b < usizeMod then .ok (a + b)
  else match p with
    | .debug => .panic
    | .release => .ok ((a + b) % usizeMod)

/-- `a * b` on `usize`. -/
def umul (p : Profile) (a b : Nat) : Out Nat :=
  if a * b < usizeMod then .ok (a * b)
  else match p with
    | .debug => .panic
    | .release => .ok ((a * b) % usizeMod)

/-- `a - b` on `usize`. -/
def usub (p : Profile) (a b : Nat) : Out Nat :=
  if b ≤ a then .ok (a - b)
  else match p with
    | .debug => .panic
    | .release => .ok ((usizeMod + a - b) % usizeMod)

/-- `&data[start..end]`: panics if `start > end` or `end > data.len()`. -/
def sliceRange (data : Bytes) (start stop : Nat) : Out Bytes :=
  if start ≤ stop ∧ stop ≤ data.length then .ok ((data.take stop).drop start) else .panic

/-- `&data[start..]`: panics if `start > data.len()`. -/
def sliceFrom (data : Bytes) (start : Nat) : Out Bytes :=
  if start ≤ data.length then .ok (data.drop start) else .panic

/-- `assert!(c)`. -/
def assert (c : Prop) [Decidable c] : Out Unit := if c then .ok () else .panic

/-- `Vec::resize(n, 0)`. -/
def resize0 (data : Bytes) (n : Nat) : Bytes :=
  data.take n ++ List.replicate (n - data.length) 0#8

end Flatdata
