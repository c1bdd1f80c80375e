import Verif.Model.IO
/-!
# The `ResourceStorage` trait and `ResourceHandle`: src/storage.rs

`Backend` holds the required methods of the trait; the default methods and the handle are defined for every backend.
A storage object (`Rc<ResourceStorage>`) is a value of `Obj`; the state of all objects is in the world `W`.
-/
namespace Flatdata

/-- A byte slice handed out by a storage: a range of a memory region, whose content may depend on the world. -/
structure Slice (Base : Type) where
  base : Base
  off : Nat
  len : Nat
  deriving DecidableEq, Repr

/-- Required methods of `ResourceStorage` (src/storage.rs:61-86), and of `Stream` (`Write` + `Seek`, 17-26). -/
structure Backend where
  W : Type
  Obj : Type
  Strm : Type
  Base : Type
  /-- `subdir` -/
  subdir : Obj → String → Act W Empty Obj
  /-- `exists` -/
  existsRes : Obj → String → Act W Empty Bool
  /-- `read_resource` -/
  readResource : Obj → String → Act W IoErr (Slice Base)
  /-- `create_output_stream` -/
  createOutputStream : Obj → String → Act W IoErr Strm
  /-- `Write::write_all` -/
  writeAll : Strm → Bytes → Act W IoErr Unit
  /-- `Seek::seek(SeekFrom::Start(0))` -/
  seekStart : Strm → Act W IoErr Unit
  /-- current content of a memory region -/
  content : W → Base → Bytes

/-- Reading all bytes behind a slice now; beyond the current content of the region the access is undefined. -/
def Backend.deref (B : Backend) (w : B.W) (s : Slice B.Base) : Out Bytes :=
  if s.off + s.len ≤ (B.content w s.base).length then .ok (((B.content w s.base).drop s.off).take s.len) else .ub

/-- `deref` as an effect. -/
def Backend.load {E : Type} (B : Backend) (s : Slice B.Base) : Act B.W E Bytes := fun w => Act.lift (B.deref w s) w

/-- `diff::Result` of the crate `diff`. -/
inductive LineDiff where
  | left (l : String)
  | both (l : String)
  | right (r : String)
  deriving DecidableEq, Repr

/-- The function `diff::lines` of the external crate `diff`, with its contract: the left (resp. right) lines of the result
are the lines of the first (second) text, and lines contain no line feed. Everything else about it is unknown. -/
class DiffLib where
  lines : String → String → List LineDiff
  linesOf : String → List String
  noNewline : ∀ s, ∀ l ∈ linesOf s, '\n' ∉ l.toList
  left_lines : ∀ a b, ((lines a b).filterMap fun | .left l => some l | .both l => some l | .right _ => none) = linesOf a
  right_lines : ∀ a b, ((lines a b).filterMap fun | .left _ => none | .both l => some l | .right r => some r) = linesOf b

/-- One line of `compute_diff`. -/
def LineDiff.show : LineDiff → String
  | .left l => "-" ++ l
  | .both l => " " ++ l
  | .right r => "+" ++ r

/-- `compute_diff`, src/storage.rs:373-383. -/
def computeDiff [DiffLib] (left right : String) : String :=
  "\n".intercalate ((DiffLib.lines left right).map LineDiff.show)

namespace Storage
variable (B : Backend) (p : Profile) (e : Endian)

/-- `write_size`, src/storage.rs:399-404. -/
def writeSize (value : Nat) (s : B.Strm) : Act B.W IoErr Unit := do
  let buffer ← Act.lift (writeBytes p e false value (List.replicate 8 0#8) 0 64)
  B.writeAll s buffer

/-- `write_padding`, src/storage.rs:406-409. -/
def writePadding (s : B.Strm) : Act B.W IoErr Unit := B.writeAll s (List.replicate paddingSize 0#8)

/-- `write_to_stream`, src/storage.rs:389-393. -/
def writeToStream (data : Bytes) (s : B.Strm) : Act B.W IoErr Unit := do
  writeSize B p e data.length s
  B.writeAll s data
  writePadding B s

/-- `format!("{}.schema", resource_name)`. -/
def schemaName (name : String) : String := name ++ ".schema"

/-- `write_schema`, src/storage.rs:395-397. -/
def writeSchema (schema : String) (s : B.Strm) : Act B.W IoErr Unit := B.writeAll s (strBytes schema)

/-- `ResourceStorage::write`, src/storage.rs:43-53. (The two `borrow_mut`s are of different streams.) -/
def write (o : B.Obj) (name schema : String) (data : Bytes) : Act B.W IoErr Unit := do
  let s ← B.createOutputStream o name
  writeToStream B p e data s
  let s ← B.createOutputStream o (schemaName name)
  writeSchema B schema s

/-- `&data[8..][..size]` of src/storage.rs:124. -/
def payload (data : Slice B.Base) (size : Nat) : Out (Slice B.Base) :=
  if 8 ≤ data.len ∧ size ≤ data.len - 8 then .ok ⟨data.base, data.off + 8, size⟩ else .panic

/-- Comparison with the expected schema, src/storage.rs:114-125. -/
def checkSchema [DiffLib] (name expected : String) (data : Slice B.Base) (size : Nat) (stored : Bytes) :
    Act B.W RErr (Slice B.Base) :=
  match fromUtf8 stored with
  | none => Act.fail .utf8
  | some s =>
    if s ≠ expected then Act.fail (.wrongSignature name (computeDiff s expected))
    else Act.lift (payload B data size)

/-- Size check, src/storage.rs:105-112, then `checkSchema`. -/
def checkResource [DiffLib] (name expected : String) (data schema : Slice B.Base) : Act B.W RErr (Slice B.Base) :=
  if data.len < 8 + paddingSize then Act.fail .unexpectedDataSize
  else do
    let header ← B.load ⟨data.base, data.off, 8⟩
    let size ← Act.lift (readBytes p e .u64 header 0 64)
    let t ← Act.lift (uadd p size.toNat 8)
    let t ← Act.lift (uadd p t paddingSize)
    if t ≠ data.len then Act.fail .unexpectedDataSize
    else do
      let stored ← B.load schema
      checkSchema B name expected data size.toNat stored

/-- `ResourceStorage::read_and_check_schema` (and `read`), src/storage.rs:34-36, 92-126. -/
def read [DiffLib] (o : B.Obj) (name expected : String) : Act B.W RErr (Slice B.Base) := do
  let data ← (B.readResource o name).mapErr (RErr.io · name)
  let schema ← (B.readResource o (schemaName name)).mapErr (RErr.io · name)
  checkResource B p e name expected data schema

/-- `create_archive`, src/storage.rs:200-220; `signature` is `"{NAME}.archive"`. -/
def createArchive (o : B.Obj) (signature schema : String) : Act B.W RErr Unit := do
  let x ← (B.existsRes o signature).mapErr Empty.elim
  if x then Act.fail (.io .alreadyExists signature)
  else (write B p e o signature schema []).mapErr (RErr.io · signature)

end Storage

/-! ## `ResourceHandle` -/

/-- `ResourceHandle`, src/storage.rs:264-271. -/
structure Handle (B : Backend) where
  stream : Option B.Strm
  size : Nat
  obj : B.Obj
  name : String
  schema : String

namespace Handle
variable {B : Backend} (p : Profile) (e : Endian)

/-- `ResourceHandle::try_new`, src/storage.rs:279-298. -/
def tryNew (o : B.Obj) (name schema : String) (s : B.Strm) : Act B.W IoErr (Handle B) := do
  Storage.writeSize B p e 0 s
  pure ⟨some s, 0, o, name, schema⟩

/-- `ResourceHandle::is_open`, src/storage.rs:301-303. -/
def isOpen (h : Handle B) : Bool := h.stream.isSome

/-- `ResourceHandle::write`, src/storage.rs:306-317. On error the handle is unchanged. -/
def write (h : Handle B) (data : Bytes) : Act B.W IoErr (Handle B) :=
  match h.stream with
  | none => Act.fail .unexpectedEof
  | some s => do
    B.writeAll s data
    let n ← Act.lift (uadd p h.size data.length)
    pure { h with size := n }

/-- First part of `close`: padding and size, src/storage.rs:333-341. -/
def finish (h : Handle B) (s : B.Strm) : Act B.W IoErr Unit := do
  Storage.writePadding B s
  B.seekStart s
  Storage.writeSize B p e h.size s

/-- `ResourceHandle::close`, src/storage.rs:321-346: the result and the handle afterwards. -/
def close [DiffLib] (h : Handle B) : Act B.W Empty (Except RErr (Slice B.Base) × Handle B) :=
  match h.stream with
  | none => pure (.error (.io .unexpectedEof h.name), h)
  | some s => do
    let r ← Act.attempt (h.finish p e s)
    match r with
    | .error x => pure (.error (.io x h.name), h)
    | .ok () => do
      let r ← Act.attempt (Storage.read B p e h.obj h.name h.schema)
      pure (r, { h with stream := none })

/-- Derived `Clone` of `ResourceHandle`, src/storage.rs:264: the copy refers to the same stream. -/
def clone (h : Handle B) : Handle B := h

/-- `Debug`, src/storage.rs:362-371. -/
def debug (h : Handle B) : String :=
  "ResourceHandle { is_open: " ++ (if h.isOpen then "true" else "false") ++ ", size_in_bytes: " ++ toString h.size ++ " }"

/-- `Drop for ResourceHandle`, src/storage.rs:353-360 (while the thread is not already panicking). -/
def drop {E : Type} (h : Handle B) : Act B.W E Unit := if h.isOpen then Act.lift .panic else pure ()

end Handle
end Flatdata
