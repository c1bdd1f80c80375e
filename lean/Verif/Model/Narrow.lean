import Verif.Model.Archive
/-!
# Reading on hosts with any width of `usize`

The other files of the model fix `usize` to 64 bits. Here are the functions that read archives once more, with the number `m`
of values of `usize` as a parameter: every sum, product and difference of `usize` and every cast `as usize` is taken modulo
`m` (or checked against it). For `m = 2 ^ 64` they are the functions of the other files (proved in `Proofs/Narrow`). The
offsets and widths inside structs are constants far below `m`, so accessors of fields are the same on all hosts.
-/
namespace Flatdata.Narrow

variable (m : Nat)

/-- `a + b` on `usize`. -/
def uadd (p : Profile) (a b : Nat) : Out Nat :=
  if a + b < m then .ok (a + b)
  else match p with
    | .debug => .panic
    | .release => .ok ((a + b) % m)

/-- `a * b` on `usize`. -/
def umul (p : Profile) (a b : Nat) : Out Nat :=
  if a * b < m then .ok (a * b)
  else match p with
    | .debug => .panic
    | .release => .ok ((a * b) % m)

/-- `a - b` on `usize`. -/
def usub (p : Profile) (a b : Nat) : Out Nat :=
  if b ≤ a then .ok (a - b)
  else match p with
    | .debug => .panic
    | .release => .ok ((m + a - b) % m)

namespace View

/-- `ArrayView::data_index`, src/arrayview.rs:126-128. -/
def dataIndex (p : Profile) (size index : Nat) : Out Nat := umul m p index size

/-- `ArrayView::at`, src/arrayview.rs:91-95. -/
def at' (p : Profile) (size : Nat) (data : Bytes) (index : Nat) : Out Bytes := do
  let index ← dataIndex m p size index
  let stop ← uadd m p index size
  assert (stop ≤ data.length)
  sliceFrom data index

/-- start of the range in `ArrayView::slice`, src/arrayview.rs:103-107. -/
def startIndex (p : Profile) (size : Nat) : Bound → Out Nat
  | .included idx => dataIndex m p size idx
  | .excluded idx => do let i ← uadd m p idx 1; dataIndex m p size i
  | .unbounded => .ok 0

/-- end of the range in `ArrayView::slice`, src/arrayview.rs:108-112. -/
def endIndex (p : Profile) (size : Nat) (data : Bytes) : Bound → Out Nat
  | .included idx => do let i ← uadd m p idx 1; dataIndex m p size i
  | .excluded idx => dataIndex m p size idx
  | .unbounded => .ok data.length

/-- `ArrayView::slice`, src/arrayview.rs:102-114. -/
def slice (p : Profile) (size : Nat) (data : Bytes) (start stop : Bound) : Out Bytes := do
  let dataStart ← startIndex m p size start
  let dataEnd ← endIndex m p size data stop
  sliceRange data dataStart dataEnd

/-- `ArrayViewIter::next`, src/arrayview.rs:220-228. -/
def next (p : Profile) (size : Nat) (view : Bytes) : Out (Option Bytes × Bytes) := do
  let e ← Flatdata.View.isEmpty size view
  if !e then do
    let element ← at' m p size view 0
    let view ← slice m p size view (.included 1) .unbounded
    .ok (some element, view)
  else .ok (none, view)

/-- `ArrayViewIter::next_back`, src/arrayview.rs:244-253. -/
def nextBack (p : Profile) (size : Nat) (view : Bytes) : Out (Option Bytes × Bytes) := do
  let e ← Flatdata.View.isEmpty size view
  if !e then do
    let l ← Flatdata.View.len size view
    let lastPos ← usub m p l 1
    let element ← at' m p size view lastPos
    let view ← slice m p size view .unbounded (.excluded lastPos)
    .ok (some element, view)
  else .ok (none, view)

end View

namespace MultiView

/-- `MultiArrayView::len`, src/multiarrayview.rs:46-49. -/
def len (p : Profile) (V : Variadic) (v : MultiView) : Out Nat := do
  let n ← Flatdata.View.len V.indexSize v.index
  usub m p n 1

/-- `MultiArrayView::is_empty`, src/multiarrayview.rs:52-54. -/
def isEmpty (p : Profile) (V : Variadic) (v : MultiView) : Out Bool := do
  let l ← len m p V v
  .ok (l == 0)

/-- `IndexStruct::index`, src/archive.rs:322-324: `u64 as usize` keeps the low bits. -/
def getIndex (p : Profile) (e : Endian) (bits : Nat) (mem : Bytes) : Out Nat := do
  let v ← Flatdata.getIndex p e bits mem
  .ok (v % m)

/-- `MultiArrayView::at`, src/multiarrayview.rs:62-69. -/
def at' (p : Profile) (e : Endian) (V : Variadic) (v : MultiView) (index : Nat) : Out Bytes := do
  let x ← View.at' m p V.indexSize v.index index
  let start ← getIndex m p e V.indexBits x
  let next ← uadd m p index 1
  let y ← View.at' m p V.indexSize v.index next
  let stop ← getIndex m p e V.indexBits y
  sliceRange v.data start stop

/-- start of the range in `MultiArrayView::slice`, src/multiarrayview.rs:77-81. -/
def startIndex (p : Profile) : Bound → Out Nat
  | .included idx => .ok idx
  | .excluded idx => uadd m p idx 1
  | .unbounded => .ok 0

/-- end of the range in `MultiArrayView::slice`, src/multiarrayview.rs:83-87. -/
def endIndex (p : Profile) (V : Variadic) (v : MultiView) : Bound → Out Nat
  | .included idx => uadd m p idx 2
  | .excluded idx => uadd m p idx 1
  | .unbounded => Flatdata.View.len V.indexSize v.index

/-- `MultiArrayView::slice`, src/multiarrayview.rs:76-89. -/
def slice (p : Profile) (V : Variadic) (v : MultiView) (start stop : Bound) : Out MultiView := do
  let indexStart ← startIndex m p start
  let indexEnd ← endIndex m p V v stop
  let index ← View.slice m p V.indexSize v.index (.included indexStart) (.excluded indexEnd)
  .ok ⟨index, v.data⟩

/-- `MultiArrayViewIter::next`, src/multiarrayview.rs:234-242. -/
def next (p : Profile) (e : Endian) (V : Variadic) (v : MultiView) : Out (Option Bytes × MultiView) := do
  let b ← isEmpty m p V v
  if !b then do
    let element ← at' m p e V v 0
    let v ← slice m p V v (.included 1) .unbounded
    .ok (some element, v)
  else .ok (none, v)

/-- `MultiArrayViewIter::next_back`, src/multiarrayview.rs:250-259. -/
def nextBack (p : Profile) (e : Endian) (V : Variadic) (v : MultiView) : Out (Option Bytes × MultiView) := do
  let b ← isEmpty m p V v
  if !b then do
    let l ← len m p V v
    let lastPos ← usub m p l 1
    let element ← at' m p e V v lastPos
    let v ← slice m p V v .unbounded (.excluded lastPos)
    .ok (some element, v)
  else .ok (none, v)

end MultiView

section
variable (B : Backend) [DiffLib] (p : Profile) (e : Endian)

/-- Size check of `read_and_check_schema`, src/storage.rs:105-112: the size field is cast `as usize`. -/
def checkResource (name expected : String) (data schema : Slice B.Base) : Act B.W RErr (Slice B.Base) :=
  if data.len < 8 + paddingSize then Act.fail .unexpectedDataSize
  else do
    let header ← B.load ⟨data.base, data.off, 8⟩
    let size ← Act.lift (readBytes p e .u64 header 0 64)
    let t ← Act.lift (uadd m p (size.toNat % m) 8)
    let t ← Act.lift (uadd m p t paddingSize)
    if t ≠ data.len then Act.fail .unexpectedDataSize
    else do
      let stored ← B.load schema
      Storage.checkSchema B name expected data (size.toNat % m) stored

/-- `ResourceStorage::read_and_check_schema`, src/storage.rs:92-126. -/
def read (o : B.Obj) (name expected : String) : Act B.W RErr (Slice B.Base) := do
  let data ← (B.readResource o name).mapErr (RErr.io · name)
  let schema ← (B.readResource o (Storage.schemaName name)).mapErr (RErr.io · name)
  checkResource m B p e name expected data schema

/-- Reading one resource in `open`, src/archive.rs:600-635. -/
def openResource (o : B.Obj) (r : ResDecl) : Act B.W RErr (Opened B.Base) :=
  match r.type with
  | .multi _ index => do
    let i ← checkRes B r.optional (read m B p e o index (Storage.indexSchema r.schema))
    let d ← checkRes B r.optional (read m B p e o r.name r.schema)
    pure (.two i d)
  | _ => do
    let d ← checkRes B r.optional (read m B p e o r.name r.schema)
    pure (.one d)

/-- All resources in order. -/
def openResources (o : B.Obj) : List ResDecl → Act B.W RErr (List (Opened B.Base))
  | [] => pure []
  | r :: rs => do
    let x ← openResource m B p e o r
    let xs ← openResources o rs
    pure (x :: xs)

mutual
/-- `Archive::open`, src/archive.rs:589-650. -/
def openArchive (o : B.Obj) : ArchiveDef → Act B.W RErr (Archive B.Base)
  | .mk name schema resources subs => do
    let _ ← read m B p e o (name ++ ".archive") schema
    let xs ← openResources m B p e o resources
    let ss ← openSubs o subs
    pure (.mk xs ss)

/-- The subarchives in order, src/archive.rs:636-641. -/
def openSubs (o : B.Obj) : SubDefs → Act B.W RErr (SubArchives B.Base)
  | .nil => pure .nil
  | .cons name optional archive rest => do
    let o' ← (B.subdir o name).mapErr Empty.elim
    let a ← checkRes B optional (openArchive o' archive)
    let ss ← openSubs o rest
    pure (.cons a ss)
end

end
end Flatdata.Narrow
