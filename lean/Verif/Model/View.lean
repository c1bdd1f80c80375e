import Verif.Model.Struct
/-!
# `ArrayView` and its iterator: src/arrayview.rs

An `ArrayView<T>` holds nothing but the slice `data`; it is represented by that byte string, the size of `T` being a
parameter.  A reference returned by `at` is represented by the slice handed to `T::create`.
-/
namespace Flatdata

/-- `std::ops::Bound<usize>`. -/
inductive Bound where
  | included (i : Nat)
  | excluded (i : Nat)
  | unbounded
  deriving DecidableEq, Repr

namespace View

/-- `ArrayView::len`, src/arrayview.rs:76-78 (division by zero panics). -/
def len (size : Nat) (data : Bytes) : Out Nat :=
  if size = 0 then .panic else .ok (data.length / size)

/-- `ArrayView::is_empty`, src/arrayview.rs:81-83. -/
def isEmpty (size : Nat) (data : Bytes) : Out Bool := do
  let l ← len size data
  .ok (l == 0)

/-- `ArrayView::data_index`, src/arrayview.rs:126-128. -/
def dataIndex (p : Profile) (size index : Nat) : Out Nat := umul p index size

/-- `ArrayView::at`, src/arrayview.rs:91-95. -/
def at' (p : Profile) (size : Nat) (data : Bytes) (index : Nat) : Out Bytes := do
  let index ← dataIndex p size index
  let stop ← uadd p index size
  assert (stop ≤ data.length)
  sliceFrom data index

/-- start of the range in `ArrayView::slice`, src/arrayview.rs:103-107. -/
def startIndex (p : Profile) (size : Nat) : Bound → Out Nat
  | .included idx => dataIndex p size idx
  | .excluded idx => do let i ← uadd p idx 1; dataIndex p size i
  | .unbounded => .ok 0

/-- end of the range in `ArrayView::slice`, src/arrayview.rs:108-112. -/
def endIndex (p : Profile) (size : Nat) (data : Bytes) : Bound → Out Nat
  | .included idx => do let i ← uadd p idx 1; dataIndex p size i
  | .excluded idx => dataIndex p size idx
  | .unbounded => .ok data.length

/-- `ArrayView::slice`, src/arrayview.rs:102-114. -/
def slice (p : Profile) (size : Nat) (data : Bytes) (start stop : Bound) : Out Bytes := do
  let dataStart ← startIndex p size start
  let dataEnd ← endIndex p size data stop
  sliceRange data dataStart dataEnd

/-- `ArrayViewIter::next`, src/arrayview.rs:220-228; returns the element (if any) and the new state of the
iterator. -/
def next (p : Profile) (size : Nat) (view : Bytes) : Out (Option Bytes × Bytes) := do
  let e ← isEmpty size view
  if !e then do
    let element ← at' p size view 0
    let view ← slice p size view (.included 1) .unbounded
    .ok (some element, view)
  else .ok (none, view)

/-- `ArrayViewIter::next_back`, src/arrayview.rs:244-253. -/
def nextBack (p : Profile) (size : Nat) (view : Bytes) : Out (Option Bytes × Bytes) := do
  let e ← isEmpty size view
  if !e then do
    let l ← len size view
    let lastPos ← usub p l 1
    let element ← at' p size view lastPos
    let view ← slice p size view .unbounded (.excluded lastPos)
    .ok (some element, view)
  else .ok (none, view)

/-- `ArrayViewIter::len` (`ExactSizeIterator`), src/arrayview.rs:235-237. -/
def iterLen (size : Nat) (view : Bytes) : Out Nat := len size view

/-- `iter.take(n).collect::<Vec<_>>()`: `next` is called until it returns `None` or `n` elements were taken
(src/arrayview.rs:149). -/
def takeCollect (p : Profile) (size : Nat) : Nat → Bytes → Out (List Bytes)
  | 0, _ => .ok []
  | n + 1, view => do
    let (x, view) ← next p size view
    match x with
    | none => .ok []
    | some x => do
      let rest ← takeCollect p size n view
      .ok (x :: rest)

/-- Evaluates a formatter on each element, in order. -/
def showAll (f : Bytes → Out String) : List Bytes → Out (List String)
  | [] => .ok []
  | x :: xs => do
    let s ← f x
    let ss ← showAll f xs
    .ok (s :: ss)

/-- `DEBUG_PREVIEW_LEN`, src/lib.rs:54. -/
def debugPreviewLen : Nat := 10

/-- `debug_format`, src/arrayview.rs:140-162, with `{:?}` of a `Vec` = `[a, b, ...]`. -/
def debugFormat (p : Profile) (e : Endian) (S : StructDef) (name : String) (view : Bytes) : Out String := do
  let l ← iterLen S.size view
  let preview ← takeCollect p S.size debugPreviewLen view
  let strs ← showAll (S.debug p e) preview
  .ok (name ++ " { len: " ++ toString l ++ ", data: [" ++ ", ".intercalate strs ++ "]" ++
    (if l ≤ debugPreviewLen then "" else "...") ++ " }")

end View
end Flatdata
