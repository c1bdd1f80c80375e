import Verif.Model.View
/-!
# Variadic structs (`define_variadic_struct!`, src/archive.rs:337-405), `MultiArrayView`, its iterator and the iterator over
one item (src/multiarrayview.rs)
-/
namespace Flatdata

/-- The arguments `$index_type` and `$type_index => ($type, ..)` of `define_variadic_struct!`, src/archive.rs:339-340. The
index type is a struct defined with `define_index!` of size `indexSize` and width `indexBits` (src/archive.rs:308-332). -/
structure Variadic where
  name : String
  indexSize : Nat
  indexBits : Nat
  types : List (BitVec 8 × StructDef)
  deriving DecidableEq, Repr

/-- A reference to a variadic element, the enum `$name` of src/archive.rs:342-345: the variant (named by its type index),
its struct type and the slice handed to the `create` of that type. -/
structure Elem where
  type : BitVec 8
  struct : StructDef
  mem : Bytes
  deriving DecidableEq, Repr

namespace Variadic

/-- `VariadicStruct::create`, src/archive.rs:387-394: the first matching arm; no match panics. -/
def create (V : Variadic) (t : BitVec 8) (data : Bytes) : Out Elem :=
  match V.types.find? (fun x => x.1 = t) with
  | some x => .ok ⟨t, x.2, data⟩
  | none => .panic

end Variadic

namespace Elem

/-- `VariadicRef::size_in_bytes`, src/archive.rs:355-362. -/
def sizeInBytes (x : Elem) : Nat := x.struct.size

/-- `Debug` of a variadic reference, src/archive.rs:347-353. -/
def debug (p : Profile) (e : Endian) (x : Elem) : Out String := x.struct.debug p e x.mem

/-- Derived `PartialEq`, src/archive.rs:342: same variant, and the structs are equal. -/
def eq (p : Profile) (e : Endian) (x y : Elem) : Out Bool :=
  if x.type = y.type then x.struct.eq p e x.mem y.mem else .ok false

end Elem

/-- `MultiArrayView`, src/multiarrayview.rs:16-24: the data of the index view, and the data. -/
structure MultiView where
  index : Bytes
  data : Bytes
  deriving DecidableEq, Repr

namespace MultiView

/-- `MultiArrayViewItemIter::next`, src/multiarrayview.rs:114-124. -/
def itemNext (V : Variadic) (data : Bytes) : Out (Option Elem × Bytes) :=
  match data with
  | [] => .ok (none, [])
  | t :: data => do
    let res ← V.create t data
    let data ← sliceFrom data res.sizeInBytes
    .ok (some res, data)

/-- `iter.collect()`: `next` until it returns `None`. `fuel` bounds the number of calls; every call that returns an element
consumes at least one byte, so the length of the data is enough. -/
def itemCollectN (V : Variadic) : Nat → Bytes → Out (List Elem)
  | 0, _ => .ok []
  | n + 1, data => do
    let (x, data) ← itemNext V data
    match x with
    | none => .ok []
    | some x => do
      let xs ← itemCollectN V n data
      .ok (x :: xs)

@[inherit_doc itemCollectN]
def itemCollect (V : Variadic) (data : Bytes) : Out (List Elem) := itemCollectN V data.length data

/-- `{:?}` of a list of elements, one after the other. -/
def showElems (p : Profile) (e : Endian) : List Elem → Out (List String)
  | [] => .ok []
  | x :: xs => do
    let s ← x.debug p e
    let ss ← showElems p e xs
    .ok (s :: ss)

/-- `Debug` of `MultiArrayViewItemIter`, src/multiarrayview.rs:133-141. -/
def itemDebug (p : Profile) (e : Endian) (V : Variadic) (data : Bytes) : Out String := do
  let preview ← itemCollect V data
  let strs ← showElems p e preview
  .ok ("MultiArrayViewItemIter { data: [" ++ ", ".intercalate strs ++ "] }")

/-- `MultiArrayView::len`, src/multiarrayview.rs:46-49. -/
def len (p : Profile) (V : Variadic) (v : MultiView) : Out Nat := do
  let n ← View.len V.indexSize v.index
  usub p n 1

/-- `MultiArrayView::is_empty`, src/multiarrayview.rs:52-54. -/
def isEmpty (p : Profile) (V : Variadic) (v : MultiView) : Out Bool := do
  let l ← len p V v
  .ok (l == 0)

/-- `MultiArrayView::at`, src/multiarrayview.rs:62-69: the data of the returned item iterator. -/
def at' (p : Profile) (e : Endian) (V : Variadic) (v : MultiView) (index : Nat) : Out Bytes := do
  let x ← View.at' p V.indexSize v.index index
  let start ← getIndex p e V.indexBits x
  let next ← uadd p index 1
  let y ← View.at' p V.indexSize v.index next
  let stop ← getIndex p e V.indexBits y
  sliceRange v.data start stop

/-- start of the range in `MultiArrayView::slice`, src/multiarrayview.rs:77-81. -/
def startIndex (p : Profile) : Bound → Out Nat
  | .included idx => .ok idx
  | .excluded idx => uadd p idx 1
  | .unbounded => .ok 0

/-- end of the range in `MultiArrayView::slice`, src/multiarrayview.rs:83-87. -/
def endIndex (p : Profile) (V : Variadic) (v : MultiView) : Bound → Out Nat
  | .included idx => uadd p idx 2
  | .excluded idx => uadd p idx 1
  | .unbounded => View.len V.indexSize v.index

/-- `MultiArrayView::slice`, src/multiarrayview.rs:76-89. -/
def slice (p : Profile) (V : Variadic) (v : MultiView) (start stop : Bound) : Out MultiView := do
  let indexStart ← startIndex p start
  let indexEnd ← endIndex p V v stop
  let index ← View.slice p V.indexSize v.index (.included indexStart) (.excluded indexEnd)
  .ok ⟨index, v.data⟩

/-- `MultiArrayViewIter::next`, src/multiarrayview.rs:234-242. -/
def next (p : Profile) (e : Endian) (V : Variadic) (v : MultiView) : Out (Option Bytes × MultiView) := do
  let b ← isEmpty p V v
  if !b then do
    let element ← at' p e V v 0
    let v ← slice p V v (.included 1) .unbounded
    .ok (some element, v)
  else .ok (none, v)

/-- `MultiArrayViewIter::next_back`, src/multiarrayview.rs:250-259. -/
def nextBack (p : Profile) (e : Endian) (V : Variadic) (v : MultiView) : Out (Option Bytes × MultiView) := do
  let b ← isEmpty p V v
  if !b then do
    let l ← len p V v
    let lastPos ← usub p l 1
    let element ← at' p e V v lastPos
    let v ← slice p V v .unbounded (.excluded lastPos)
    .ok (some element, v)
  else .ok (none, v)

/-- `MultiArrayViewIter::len` (`ExactSizeIterator`), src/multiarrayview.rs:275-277. -/
def iterLen (p : Profile) (V : Variadic) (v : MultiView) : Out Nat := len p V v

/-- `iter.take(n).enumerate().map(|(index, item)| (index, item.collect())).collect()`, src/multiarrayview.rs:153-157,
counting from `i`. -/
def takeCollect (p : Profile) (e : Endian) (V : Variadic) : Nat → Nat → MultiView → Out (List (Nat × List Elem))
  | _, 0, _ => .ok []
  | i, n + 1, v => do
    let (x, v) ← next p e V v
    match x with
    | none => .ok []
    | some x => do
      let item ← itemCollect V x
      let rest ← takeCollect p e V (i + 1) n v
      .ok ((i, item) :: rest)

/-- `{:?}` of the pairs, one after the other. -/
def showItems (p : Profile) (e : Endian) : List (Nat × List Elem) → Out (List String)
  | [] => .ok []
  | x :: xs => do
    let s ← showElems p e x.2
    let ss ← showItems p e xs
    .ok (("(" ++ toString x.1 ++ ", [" ++ ", ".intercalate s ++ "])") :: ss)

/-- `debug_format`, src/multiarrayview.rs:143-170. -/
def debugFormat (p : Profile) (e : Endian) (V : Variadic) (name : String) (v : MultiView) : Out String := do
  let l ← iterLen p V v
  let preview ← takeCollect p e V 0 View.debugPreviewLen v
  let strs ← showItems p e preview
  .ok (name ++ " { len: " ++ toString l ++ ", data: [" ++ ", ".intercalate strs ++ "]" ++
    (if l ≤ View.debugPreviewLen then "" else "...") ++ " }")

end MultiView
end Flatdata
