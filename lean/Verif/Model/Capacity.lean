import Verif.Model.Narrow
/-!
# The memory of `Vector<T>`: capacity and allocations, on hosts with any width of `usize`

The functions of `Model/Vector` once more, with two things added: the capacity of the `Vec<u8>` together with the number of times it was
(re)allocated, and the number `m` of values of `usize` as a parameter, as in `Model/Narrow`. Forgetting both gives the functions of
`Model/Vector` (proved in `Proofs/Capacity`).
-/
namespace Flatdata

/-- How `Vec<u8>` (std) chooses capacities on a host with `m` values of `usize`: `fresh n` for `vec![0; n]`, `next cap need` when a vector
of capacity `cap` has to hold `need` bytes; `none` is the panic "capacity overflow". All that std promises: the memory is large enough,
and never larger than `isize::MAX`. (It may ask for more than is needed, and then panic though what is needed would fit.) -/
structure Allocator (m : Nat) where
  fresh : Nat → Option Nat
  next : Nat → Nat → Option Nat
  fresh_enough : ∀ n c, fresh n = some c → n ≤ c ∧ 2 * c < m
  next_enough : ∀ cap need c, next cap need = some c → need ≤ c ∧ 2 * c < m

/-- The `Vec<u8>` of a `Vector<T>`, src/vector.rs:64-67: its bytes, its capacity, and how often memory was allocated for it. -/
structure CapVec where
  data : Bytes
  cap : Nat
  allocs : Nat
  deriving DecidableEq, Repr

namespace CapVec
variable {m : Nat} (A : Allocator m) (p : Profile) (e : Endian)

/-- `vec![0; n]` (std). -/
def zeroed (n : Nat) : Out CapVec :=
  match A.fresh n with
  | none => .panic
  | some c => .ok ⟨List.replicate n 0#8, c, 1⟩

/-- `Vec::reserve(extra)` (std): nothing happens if there is room for `extra` more bytes. -/
def vecReserve (v : CapVec) (extra : Nat) : Out CapVec :=
  if extra ≤ v.cap - v.data.length then .ok v
  else match A.next v.cap (v.data.length + extra) with
    | none => .panic
    | some c => .ok ⟨v.data, c, v.allocs + 1⟩

/-- `Vec::resize(n, 0)` (std). -/
def vecResize (v : CapVec) (n : Nat) : Out CapVec :=
  if n ≤ v.data.length then .ok { v with data := v.data.take n }
  else do
    let v ← vecReserve A v (n - v.data.length)
    .ok { v with data := resize0 v.data n }

/-- `Vector::calc_size`, src/vector.rs:159-161. -/
def calcSize (m : Nat) (p : Profile) (size len : Nat) : Out Nat := do
  let n ← Narrow.umul m p len size
  Narrow.uadd m p n paddingSize

/-- `Vector::with_len`, src/vector.rs:83-89. -/
def withLen (size len : Nat) : Out CapVec := do
  let n ← calcSize m p size len
  zeroed A n

/-- `Vector::new`, src/vector.rs:75-77. -/
def new (size : Nat) : Out CapVec := withLen A p size 0

/-- `Vector::size_in_bytes`, src/vector.rs:93-95. -/
def sizeInBytes (m : Nat) (p : Profile) (v : CapVec) : Out Nat := Narrow.usub m p v.data.length paddingSize

/-- `Vector::len`, src/vector.rs:99-101. -/
def len (m : Nat) (p : Profile) (size : Nat) (v : CapVec) : Out Nat := do
  let n ← sizeInBytes m p v
  if size = 0 then .panic else .ok (n / size)

/-- `Vector::reserve`, src/vector.rs:115-118. -/
def reserve (size : Nat) (v : CapVec) (additional : Nat) : Out CapVec := do
  let l ← len m p size v
  let t ← Narrow.uadd m p l additional
  let c ← calcSize m p size t
  let n ← sizeInBytes m p v
  let extra ← Narrow.usub m p c n
  vecReserve A v extra

/-- `Vector::as_bytes` / `as_view` / `as_ref`, src/vector.rs:122-130, 181. -/
def asBytes (m : Nat) (p : Profile) (v : CapVec) : Out Bytes := do
  let n ← sizeInBytes m p v
  sliceRange v.data 0 n

/-- `Vector::grow`, src/vector.rs:135-140: the vector and the position of the returned handle. -/
def grow (size : Nat) (v : CapVec) : Out (CapVec × Nat) := do
  let n ← Narrow.uadd m p v.data.length size
  let v ← vecResize A v n
  let l ← len m p size v
  let lastIndex ← Narrow.usub m p l 1
  let pos ← Narrow.umul m p lastIndex size
  let _ ← sliceFrom v.data pos
  .ok (v, pos)

/-- `Vector::at`, src/vector.rs:145-147: the slice behind the returned reference. -/
def at' (m : Nat) (p : Profile) (size : Nat) (v : CapVec) (index : Nat) : Out Bytes := do
  let pos ← Narrow.umul m p index size
  sliceFrom v.data pos

/-- `Vector::at_mut`, src/vector.rs:152-154: position of the returned handle. -/
def atMut (m : Nat) (p : Profile) (size : Nat) (v : CapVec) (index : Nat) : Out Nat := do
  let pos ← Narrow.umul m p index size
  let _ ← sliceFrom v.data pos
  .ok pos

/-- Operations through a handle at position `pos`: they change bytes only. -/
def writeAt (S : StructDef) (v : CapVec) (pos : Nat) (ops : List HandleOp) : Out CapVec := do
  let data ← Vector.writeAt p e S v.data pos ops
  .ok { v with data := data }

/-- Runs one operation, with what is done through the handle it returns. -/
def step (S : StructDef) (v : CapVec) : VecOp → Out CapVec
  | .grow ops => do
    let r ← grow A p S.size v
    writeAt p e S r.1 r.2 ops
  | .reserve n => reserve A p S.size v n
  | .atMut i ops => do
    let pos ← atMut m p S.size v i
    writeAt p e S v pos ops

/-- Runs a history of operations. -/
def run (S : StructDef) : List VecOp → CapVec → Out CapVec
  | [], v => .ok v
  | op :: ops, v => do
    let v ← step A p e S v op
    run S ops v

end CapVec
end Flatdata
