import Verif.Model.FileStorage
/-!
# `ExternalVector<T>`: src/vector.rs:266-355, and `create_external_vector`: src/storage.rs:138-156

Methods taking `&mut self` return the vector afterwards; when they return an error the vector is unchanged (see each
definition). Methods taking `self` drop it at the end.
-/
namespace Flatdata

/-- A `Result` held in a value, returned. -/
def Act.ofExcept {W E α : Type} : Except E α → Act W E α
  | .ok a => pure a
  | .error e => Act.fail e

/-- `ExternalVector<T>`, src/vector.rs:266-271. -/
structure ExtVec (B : Backend) where
  data : Bytes
  len : Nat
  handle : Handle B

/-- The flush threshold of src/vector.rs:305 and src/multivector.rs:166. -/
def bufferLimit : Nat := 1024 * 1024 * 32

namespace ExtVec
variable {B : Backend} (p : Profile) (e : Endian)

/-- `ExternalVector::new`, src/vector.rs:278-285. -/
def new (h : Handle B) : ExtVec B := ⟨List.replicate paddingSize 0#8, 0, h⟩

/-- `ExternalVector::flush`, src/vector.rs:317-324. On error nothing in the vector has changed. -/
def flush (v : ExtVec B) : Act B.W IoErr (ExtVec B) := do
  let n ← Act.lift (usub p v.data.length paddingSize)
  let d ← Act.lift (sliceRange v.data 0 n)
  let h ← v.handle.write p d
  pure { v with data := List.replicate paddingSize 0#8, handle := h }

/-- First statement of `grow`, src/vector.rs:305-307. -/
def flushIfFull (v : ExtVec B) : Act B.W IoErr (ExtVec B) :=
  if v.data.length > bufferLimit then v.flush p else pure v

/-- `ExternalVector::grow`, src/vector.rs:304-314: the vector and the position of the returned handle in its buffer. Only
the flush can fail, and then nothing in the vector has changed. -/
def grow (size : Nat) (v : ExtVec B) : Act B.W IoErr (ExtVec B × Nat) := do
  let v ← v.flushIfFull p
  let n ← Act.lift (uadd p v.data.length size)
  Act.lift (alloc n)
  let len ← Act.lift (uadd p v.len 1)
  let pos ← Act.lift (usub p v.data.length paddingSize)
  let _ ← Act.lift (sliceFrom (resize0 v.data n) pos)
  pure (⟨resize0 v.data n, len, v.handle⟩, pos)

/-- `ExternalVector::is_empty`, src/vector.rs:293-295. -/
def isEmpty (v : ExtVec B) : Bool := v.len == 0

/-- `ExternalVector::is_open`, src/vector.rs:328-330. -/
def isOpen (v : ExtVec B) : Bool := v.handle.isOpen

/-- Dropping the vector drops its handle. -/
def drop {E : Type} (v : ExtVec B) : Act B.W E Unit := v.handle.drop

/-- Second half of `close`: closes the handle, then drops the vector, src/vector.rs:340-343. -/
def closeHandle [DiffLib] (v : ExtVec B) : Act B.W RErr (Slice B.Base) := do
  let r ← (v.handle.close p e).mapErr Empty.elim
  r.2.drop
  Act.ofExcept r.1

/-- `ExternalVector::close`, src/vector.rs:336-343; the vector is dropped on return. The result is the data of the
returned `ArrayView`. -/
def close [DiffLib] (v : ExtVec B) : Act B.W RErr (Slice B.Base) := do
  let r ← Act.attempt (v.flush p)
  match r with
  | .error x => do
    v.drop
    Act.fail (.io x v.handle.name)
  | .ok v => v.closeHandle p e

/-- `Debug`, src/vector.rs:346-353. -/
def debug (v : ExtVec B) : String := "ExternalVector { len: " ++ toString v.len ++ " }"

end ExtVec

/-- `create_external_vector`, src/storage.rs:138-156. -/
def createExternalVector {B : Backend} (p : Profile) (e : Endian) (o : B.Obj) (name schema : String) :
    Act B.W IoErr (ExtVec B) := do
  let s ← B.createOutputStream o (Storage.schemaName name)
  B.writeAll s (strBytes schema)
  let s ← B.createOutputStream o name
  let h ← Handle.tryNew p e o name schema s
  pure (ExtVec.new h)

end Flatdata
