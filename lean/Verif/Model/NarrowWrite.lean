import Verif.Model.Narrow
import Verif.Model.MultiVector
/-!
# Writing on hosts with any width of `usize`

The functions of `Model/ExtVector` and `Model/MultiVector` that do arithmetic with `usize` once more, with the number `m` of values of
`usize` as a parameter, as in `Model/Narrow`. Files can be longer than `m`: a resource is written in pieces, and positions in files are
`u64` on every host. What is not here does no such arithmetic (`try_new`, `create_external_vector`, `create_multi_vector`; writing
the size field casts it `as u64`, which changes nothing; accessors of fields).
Not modelled: the `Vec` of a memory storage cannot grow beyond `isize::MAX`, and mapping a file that does not fit into the address space
fails; theorems about more than `m` bytes are about files on disk and say what is stored, or that closing does not succeed.
-/
namespace Flatdata.Narrow

variable (m : Nat)

/-- Allocation of `n` bytes by a `Vec`: panics beyond `isize::MAX`. -/
def alloc (n : Nat) : Out Unit := if 2 * n < m then .ok () else .panic

variable {B : Backend} (p : Profile) (e : Endian)

namespace Handle

/-- `ResourceHandle::write`, src/storage.rs:306-317: `size_in_bytes` is a `usize`. -/
def write (h : Handle B) (data : Bytes) : Act B.W IoErr (Handle B) :=
  match h.stream with
  | none => Act.fail .unexpectedEof
  | some s => do
    B.writeAll s data
    let n ← Act.lift (uadd m p h.size data.length)
    pure { h with size := n }

/-- `ResourceHandle::close`, src/storage.rs:321-346. -/
def close [DiffLib] (h : Handle B) : Act B.W Empty (Except RErr (Slice B.Base) × Handle B) :=
  match h.stream with
  | none => pure (.error (.io .unexpectedEof h.name), h)
  | some s => do
    let r ← Act.attempt (h.finish p e s)
    match r with
    | .error x => pure (.error (.io x h.name), h)
    | .ok () => do
      let r ← Act.attempt (read m B p e h.obj h.name h.schema)
      pure (r, { h with stream := none })

end Handle

namespace ExtVec

/-- `ExternalVector::flush`, src/vector.rs:317-324. -/
def flush (v : ExtVec B) : Act B.W IoErr (ExtVec B) := do
  let n ← Act.lift (usub m p v.data.length paddingSize)
  let d ← Act.lift (sliceRange v.data 0 n)
  let h ← Handle.write m p v.handle d
  pure { v with data := List.replicate paddingSize 0#8, handle := h }

/-- First statement of `grow`, src/vector.rs:305-307. -/
def flushIfFull (v : ExtVec B) : Act B.W IoErr (ExtVec B) :=
  if v.data.length > bufferLimit then flush m p v else pure v

/-- `ExternalVector::grow`, src/vector.rs:304-314. -/
def grow (size : Nat) (v : ExtVec B) : Act B.W IoErr (ExtVec B × Nat) := do
  let v ← flushIfFull m p v
  let n ← Act.lift (uadd m p v.data.length size)
  Act.lift (alloc m n)
  let len ← Act.lift (uadd m p v.len 1)
  let pos ← Act.lift (usub m p v.data.length paddingSize)
  let _ ← Act.lift (sliceFrom (resize0 v.data n) pos)
  pure (⟨resize0 v.data n, len, v.handle⟩, pos)

/-- Second half of `close`, src/vector.rs:340-343. -/
def closeHandle [DiffLib] (v : ExtVec B) : Act B.W RErr (Slice B.Base) := do
  let r ← (Handle.close m p e v.handle).mapErr Empty.elim
  r.2.drop
  Act.ofExcept r.1

/-- `ExternalVector::close`, src/vector.rs:336-343. -/
def close [DiffLib] (v : ExtVec B) : Act B.W RErr (Slice B.Base) := do
  let r ← Act.attempt (flush m p v)
  match r with
  | .error x => do
    v.drop
    Act.fail (.io x v.handle.name)
  | .ok v => closeHandle m p e v

end ExtVec

namespace MultiVec

/-- `MultiVector::flush`, src/multivector.rs:176-184. -/
def flush (v : MultiVec B) : Act B.W IoErr (MultiVec B) := do
  let n ← Act.lift (usub m p v.data.length paddingSize)
  let d ← Act.lift (sliceRange v.data 0 n)
  let h ← Handle.write m p v.handle d
  let k ← Act.lift (uadd m p v.sizeFlushed n)
  pure { v with data := List.replicate paddingSize 0#8, handle := h, sizeFlushed := k }

/-- First statement of `grow`, src/multivector.rs:166-168. -/
def flushIfFull (v : MultiVec B) : Act B.W IoErr (MultiVec B) :=
  if v.data.length > bufferLimit then flush m p v else pure v

/-- `MultiVector::add_to_index`, src/multivector.rs:186-193. -/
def addToIndex (V : Variadic) (v : MultiVec B) : Act B.W IoErr (MultiVec B) := do
  let r ← ExtVec.grow m p V.indexSize v.index
  let n ← Act.lift (uadd m p v.sizeFlushed v.data.length)
  let n ← Act.lift (usub m p n paddingSize)
  let d ← Act.lift (Vector.writeAt p e V.indexStruct r.1.data r.2 [.set (indexField V.indexBits) n])
  pure { v with index := { r.1 with data := d } }

/-- `MultiVector::grow`, src/multivector.rs:165-171. -/
def grow (V : Variadic) (v : MultiVec B) : Act B.W Empty (Except IoErr Unit × MultiVec B) := do
  let r ← Act.attempt (flushIfFull m p v)
  match r with
  | .error x => pure (.error x, v)
  | .ok v => do
    let r ← Act.attempt (addToIndex m p e V v)
    match r with
    | .error x => pure (.error x, v)
    | .ok v => pure (.ok (), v)

/-- `add_…` of the item builder on the buffer, src/archive.rs:369-377. -/
def builderAdd (t : BitVec 8) (size : Nat) (data : Bytes) : Out (Bytes × Nat) := do
  let inc ← uadd m p 1 size
  let n ← uadd m p data.length inc
  alloc m n
  let pos ← usub m p data.length paddingSize
  let d ← (if pos < (resize0 data n).length then .ok ((resize0 data n).set pos t) else .panic)
  let a ← uadd m p 1 data.length
  let a ← usub m p a paddingSize
  let _ ← sliceFrom d a
  .ok (d, a)

/-- Last part of `close`, src/multivector.rs:205-206. -/
def closeData [DiffLib] (v : MultiVec B) (index : Slice B.Base) : Act B.W RErr (Slice B.Base × Slice B.Base) := do
  let r ← (Handle.close m p e v.handle).mapErr Empty.elim
  r.2.drop
  let d ← Act.ofExcept r.1
  pure (index, d)

/-- Third part of `close`, src/multivector.rs:204. -/
def closeIndex [DiffLib] (v : MultiVec B) : Act B.W RErr (Slice B.Base × Slice B.Base) := do
  let r ← Act.attempt (ExtVec.close m p e v.index)
  match r with
  | .error x => do
    v.handle.drop
    Act.fail x
  | .ok i => closeData m p e v i

/-- Second part of `close`, src/multivector.rs:203. -/
def closeFlush [DiffLib] (v : MultiVec B) : Act B.W RErr (Slice B.Base × Slice B.Base) := do
  let r ← Act.attempt (flush m p v)
  match r with
  | .error x => do
    v.drop
    Act.fail (.io x v.handle.name)
  | .ok v => closeIndex m p e v

/-- `MultiVector::close`, src/multivector.rs:199-207. -/
def close [DiffLib] (V : Variadic) (v : MultiVec B) : Act B.W RErr (Slice B.Base × Slice B.Base) := do
  let r ← Act.attempt (addToIndex m p e V v)
  match r with
  | .error x => do
    v.drop
    Act.fail (.io x v.handle.name)
  | .ok v => closeFlush m p e v

end MultiVec
end Flatdata.Narrow
