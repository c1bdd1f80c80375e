import Verif.Model.ExtVector
import Verif.Model.MultiView
/-!
# `MultiVector<Idx, Ts>`: src/multivector.rs:131-218, its item builder: src/archive.rs:364-402, and `create_multi_vector`:
src/storage.rs:163-187

As for `ExtVec`, methods taking `&mut self` return the vector afterwards, methods taking `self` drop it at the end.
-/
namespace Flatdata

/-- The index struct of a multivector (`Idx`), as a struct with the one field `value`, src/archive.rs:308-332. -/
def Variadic.indexStruct (V : Variadic) : StructDef := indexDef V.name V.indexSize V.indexBits

/-- `MultiVector<Idx, Ts>`, src/multivector.rs:131-137. -/
structure MultiVec (B : Backend) where
  index : ExtVec B
  data : Bytes
  handle : Handle B
  sizeFlushed : Nat

namespace MultiVec
variable {B : Backend} (p : Profile) (e : Endian)

/-- `MultiVector::new`, src/multivector.rs:145-153. -/
def new (index : ExtVec B) (h : Handle B) : MultiVec B := ⟨index, List.replicate paddingSize 0#8, h, 0⟩

/-- `MultiVector::flush`, src/multivector.rs:176-184. On error nothing in the vector has changed. -/
def flush (v : MultiVec B) : Act B.W IoErr (MultiVec B) := do
  let n ← Act.lift (usub p v.data.length paddingSize)
  let d ← Act.lift (sliceRange v.data 0 n)
  let h ← v.handle.write p d
  let m ← Act.lift (uadd p v.sizeFlushed n)
  pure { v with data := List.replicate paddingSize 0#8, handle := h, sizeFlushed := m }

/-- First statement of `grow`, src/multivector.rs:166-168. -/
def flushIfFull (v : MultiVec B) : Act B.W IoErr (MultiVec B) :=
  if v.data.length > bufferLimit then v.flush p else pure v

/-- `MultiVector::add_to_index`, src/multivector.rs:186-193. On error nothing in the vector has changed. -/
def addToIndex (V : Variadic) (v : MultiVec B) : Act B.W IoErr (MultiVec B) := do
  let r ← v.index.grow p V.indexSize
  let n ← Act.lift (uadd p v.sizeFlushed v.data.length)
  let n ← Act.lift (usub p n paddingSize)
  let d ← Act.lift (Vector.writeAt p e V.indexStruct r.1.data r.2 [.set (indexField V.indexBits) n])
  pure { v with index := { r.1 with data := d } }

/-- `MultiVector::grow`, src/multivector.rs:165-171, as its `Result` and the vector afterwards: if the flush succeeds and
`add_to_index` fails, the vector has been flushed. The returned builder is a reference to the buffer. -/
def grow (V : Variadic) (v : MultiVec B) : Act B.W Empty (Except IoErr Unit × MultiVec B) := do
  let r ← Act.attempt (v.flushIfFull p)
  match r with
  | .error x => pure (.error x, v)
  | .ok v => do
    let r ← Act.attempt (v.addToIndex p e V)
    match r with
    | .error x => pure (.error x, v)
    | .ok v => pure (.ok (), v)

/-- `add_…` of the item builder on the buffer, src/archive.rs:369-377: the buffer and the position of the returned handle
in it. -/
def builderAdd (t : BitVec 8) (size : Nat) (data : Bytes) : Out (Bytes × Nat) := do
  let inc ← uadd p 1 size
  let n ← uadd p data.length inc
  alloc n
  let pos ← usub p data.length paddingSize
  let d ← (if pos < (resize0 data n).length then .ok ((resize0 data n).set pos t) else .panic)
  let a ← uadd p 1 data.length
  let a ← usub p a paddingSize
  let _ ← sliceFrom d a
  .ok (d, a)

/-- Dropping the vector drops its fields in order, src/multivector.rs:131-137; a panic in the first drop is not followed by
one in the second (`thread::panicking()`, src/storage.rs:355). -/
def drop {E : Type} (v : MultiVec B) : Act B.W E Unit := do
  v.index.drop
  v.handle.drop

/-- Last part of `close`: the data handle is closed and dropped, src/multivector.rs:205-206. -/
def closeData [DiffLib] (v : MultiVec B) (index : Slice B.Base) : Act B.W RErr (Slice B.Base × Slice B.Base) := do
  let r ← (v.handle.close p e).mapErr Empty.elim
  r.2.drop
  let d ← Act.ofExcept r.1
  pure (index, d)

/-- Third part of `close`: closes the index, src/multivector.rs:204; on error the data handle is dropped. -/
def closeIndex [DiffLib] (v : MultiVec B) : Act B.W RErr (Slice B.Base × Slice B.Base) := do
  let r ← Act.attempt (v.index.close p e)
  match r with
  | .error x => do
    v.handle.drop
    Act.fail x
  | .ok i => v.closeData p e i

/-- Second part of `close`, src/multivector.rs:203; on error the vector is dropped. -/
def closeFlush [DiffLib] (v : MultiVec B) : Act B.W RErr (Slice B.Base × Slice B.Base) := do
  let r ← Act.attempt (v.flush p)
  match r with
  | .error x => do
    v.drop
    Act.fail (.io x v.handle.name)
  | .ok v => v.closeIndex p e

/-- `MultiVector::close`, src/multivector.rs:199-207; on error the vector is dropped. The result is the index and the data
of the returned `MultiArrayView`. -/
def close [DiffLib] (V : Variadic) (v : MultiVec B) : Act B.W RErr (Slice B.Base × Slice B.Base) := do
  let r ← Act.attempt (v.addToIndex p e V)
  match r with
  | .error x => do
    v.drop
    Act.fail (.io x v.handle.name)
  | .ok v => v.closeFlush p e

/-- `Debug`, src/multivector.rs:210-218. -/
def debug (v : MultiVec B) : String := "MultiVector { len: " ++ toString v.index.len ++ " }"

end MultiVec

/-- `index_name`, src/storage.rs:173. -/
def Storage.indexName (name : String) : String := name ++ "_index"

/-- `index_schema`, src/storage.rs:174. -/
def Storage.indexSchema (schema : String) : String := "index(" ++ schema ++ ")"

/-- Second half of `create_multi_vector`: the schema stream, the data stream and the handle, src/storage.rs:178-185. -/
def createDataHandle {B : Backend} (p : Profile) (e : Endian) (o : B.Obj) (name schema : String) :
    Act B.W IoErr (Handle B) := do
  let s ← B.createOutputStream o (Storage.schemaName name)
  B.writeAll s (strBytes schema)
  let s ← B.createOutputStream o name
  Handle.tryNew p e o name schema s

/-- `create_multi_vector`, src/storage.rs:163-187. When the second half fails, the index is dropped. -/
def createMultiVector {B : Backend} (p : Profile) (e : Endian) (o : B.Obj) (name schema : String) :
    Act B.W IoErr (MultiVec B) := do
  let index ← createExternalVector p e o (Storage.indexName name) (Storage.indexSchema schema)
  let r ← Act.attempt (createDataHandle p e o name schema)
  match r with
  | .error x => do
    index.drop
    Act.fail x
  | .ok h => pure (MultiVec.new index h)

end Flatdata
