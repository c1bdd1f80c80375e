import Verif.Model.View
/-!
# `Vector<T>`: src/vector.rs

A `Vector<T>` is its byte vector `data` (elements followed by 8 bytes of padding). A mutable handle (`RefMut`) is the
position in `data` it was created at; what a user can do with it is a list of `HandleOp`s.
-/
namespace Flatdata

/-- What can be done through a `RefMut`: call a setter or `fill_from` (src/archive.rs:278-288). The source of a
`fill_from` is another struct, given by its memory. -/
inductive HandleOp where
  | set (f : Field) (v : Int)
  | fill (src : Bytes)
  deriving DecidableEq, Repr

/-- One operation on the memory behind a handle. -/
def HandleOp.run (p : Profile) (e : Endian) (S : StructDef) (mem : Bytes) : HandleOp → Out Bytes
  | .set f v => f.set p e S.size mem v
  | .fill src => S.fillFrom p e mem src

/-- A sequence of operations on the memory behind a handle. -/
def runHandle (p : Profile) (e : Endian) (S : StructDef) : List HandleOp → Bytes → Out Bytes
  | [], mem => .ok mem
  | op :: ops, mem => do
    let mem ← op.run p e S mem
    runHandle p e S ops mem

/-- Allocation of `n` bytes by a `Vec`: panics with "capacity overflow" beyond `isize::MAX`. (That memory is actually
available is assumed: allocation failure aborts the process. A `Vec` that grows may ask for more than is needed, by doubling,
which is left out here; see Model/Capacity.) -/
def alloc (n : Nat) : Out Unit := if n < 2 ^ 63 then .ok () else .panic

namespace Vector

/-- `Vector::calc_size`, src/vector.rs:159-161. -/
def calcSize (p : Profile) (size len : Nat) : Out Nat := do
  let n ← umul p len size
  uadd p n paddingSize

/-- `Vector::with_len`, src/vector.rs:83-89. -/
def withLen (p : Profile) (size len : Nat) : Out Bytes := do
  let n ← calcSize p size len
  alloc n
  .ok (List.replicate n 0#8)

/-- `Vector::new`, src/vector.rs:75-77. -/
def new (p : Profile) (size : Nat) : Out Bytes := withLen p size 0

/-- `Vector::size_in_bytes`, src/vector.rs:93-95. -/
def sizeInBytes (p : Profile) (data : Bytes) : Out Nat := usub p data.length paddingSize

/-- `Vector::len`, src/vector.rs:99-101. -/
def len (p : Profile) (size : Nat) (data : Bytes) : Out Nat := do
  let n ← sizeInBytes p data
  if size = 0 then .panic else .ok (n / size)

/-- `Vector::reserve`, src/vector.rs:115-118. `Vec::reserve` changes only the capacity (not modelled) and panics if the
required capacity exceeds `isize::MAX`. -/
def reserve (p : Profile) (size : Nat) (data : Bytes) (additional : Nat) : Out Bytes := do
  let l ← len p size data
  let t ← uadd p l additional
  let c ← calcSize p size t
  let n ← sizeInBytes p data
  let extra ← usub p c n
  alloc (data.length + extra)
  .ok data

/-- `Vector::is_empty`, src/vector.rs:105-107. -/
def isEmpty (p : Profile) (size : Nat) (data : Bytes) : Out Bool := do
  let n ← len p size data
  .ok (n == 0)

/-- `Vector::as_bytes` / `as_view` / `as_ref`, src/vector.rs:122-130, 181. -/
def asBytes (p : Profile) (data : Bytes) : Out Bytes := do
  let n ← sizeInBytes p data
  sliceRange data 0 n

/-- `Vector::grow`, src/vector.rs:135-140: new data and the position of the returned handle. -/
def grow (p : Profile) (size : Nat) (data : Bytes) : Out (Bytes × Nat) := do
  let n ← uadd p data.length size
  alloc n
  let data := resize0 data n
  let l ← len p size data
  let lastIndex ← usub p l 1
  let pos ← umul p lastIndex size
  let _ ← sliceFrom data pos
  .ok (data, pos)

/-- `Vector::at`, src/vector.rs:145-147: the slice behind the returned reference. -/
def at' (p : Profile) (size : Nat) (data : Bytes) (index : Nat) : Out Bytes := do
  let pos ← umul p index size
  sliceFrom data pos

/-- `Vector::at_mut`, src/vector.rs:152-154: position of the returned handle. -/
def atMut (p : Profile) (size : Nat) (data : Bytes) (index : Nat) : Out Nat := do
  let pos ← umul p index size
  let _ ← sliceFrom data pos
  .ok pos

/-- Operations through a handle at position `pos`. -/
def writeAt (p : Profile) (e : Endian) (S : StructDef) (data : Bytes) (pos : Nat) (ops : List HandleOp) : Out Bytes := do
  let mem ← runHandle p e S ops (data.drop pos)
  .ok (data.take pos ++ mem)

/-- `Debug` of a vector, src/vector.rs:188-196. -/
def debug (p : Profile) (e : Endian) (S : StructDef) (data : Bytes) : Out String := do
  let v ← asBytes p data
  View.debugFormat p e S "Vector" v

end Vector

/-- An operation on a `Vector<T>`, together with what is done through the handle it returns. -/
inductive VecOp where
  | grow (ops : List HandleOp)
  | reserve (additional : Nat)
  | atMut (index : Nat) (ops : List HandleOp)
  deriving DecidableEq, Repr

/-- Runs one operation. -/
def VecOp.run (p : Profile) (e : Endian) (S : StructDef) (data : Bytes) : VecOp → Out Bytes
  | .grow ops => do
    let r ← Vector.grow p S.size data
    Vector.writeAt p e S r.1 r.2 ops
  | .reserve n => Vector.reserve p S.size data n
  | .atMut i ops => do
    let pos ← Vector.atMut p S.size data i
    Vector.writeAt p e S data pos ops

/-- Runs a history of operations. -/
def runVec (p : Profile) (e : Endian) (S : StructDef) : List VecOp → Bytes → Out Bytes
  | [], data => .ok data
  | op :: ops, data => do
    let data ← op.run p e S data
    runVec p e S ops data

end Flatdata
