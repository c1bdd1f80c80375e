import Verif.Model.Bits
/-!
# Structs: `define_struct!`, `define_index!` (src/archive.rs) and `StructBuf` (src/structbuf.rs)

A struct type is data (`StructDef`); the methods that the macro generates are functions of that data.
A `Ref`/`RefMut` holds a raw pointer obtained from a slice; it is represented by the content of that slice
(`mem`, index 0 = the pointee), and every access beyond the slice is `ub`.
-/
namespace Flatdata

/-- `memory::PADDING_SIZE`, src/memory.rs:3. -/
def paddingSize : Nat := 8

/-- One field tuple `($field, $field_setter, $type : $primitive_type, $offset, $bit_size)` of `define_struct!`,
src/archive.rs:206.
* `ty` is `$primitive_type`,
* `encSigned` is `<$type as Int>::IS_SIGNED` (written by hand for enums, src/archive.rs:767-769),
* `variants` is `none` if `$type = $primitive_type`, and the list of discriminants with their names if `$type`
  is an enum with `#[repr($primitive_type)]`. -/
structure Field where
  name : String
  ty : IntTy
  off : Nat
  bits : Nat
  encSigned : Bool
  variants : Option (List (Int × String)) := none
  deriving DecidableEq, Repr

/-- A field where `$type` and `$primitive_type` coincide (first arm of `define_struct!`, src/archive.rs:199-204). -/
def Field.plain (name : String) (ty : IntTy) (off bits : Nat) : Field :=
  { name, ty, off, bits, encSigned := ty.signed }

/-- The arguments of `define_struct!`, src/archive.rs:205-206 (the schema string plays no role at run time). -/
structure StructDef where
  name : String
  /-- `SIZE_IN_BYTES` -/
  size : Nat
  fields : List Field
  deriving DecidableEq, Repr

/-- `transmute::<$primitive_type, $type>(value)`, src/archive.rs:243: undefined behaviour if the value is not a
discriminant of the enum. -/
def Field.transmute (f : Field) (v : Int) : Out Int :=
  match f.variants with
  | none => .ok v
  | some l => if v ∈ l.map Prod.fst then .ok v else .ub

/-- Generated getter, src/archive.rs:241-244 (and 272-275). -/
def Field.get (p : Profile) (e : Endian) (f : Field) (mem : Bytes) : Out Int := do
  let value ← readBytes p e f.ty mem f.off f.bits
  f.transmute value

/-- Generated setter, src/archive.rs:278-283. `from_raw_parts_mut(self.data, SIZE)` must lie inside the slice
the pointer came from. Returns the new content of that slice. -/
def Field.set (p : Profile) (e : Endian) (size : Nat) (f : Field) (mem : Bytes) (value : Int) : Out Bytes :=
  if mem.length < size then .ub
  else do
    let buffer ← writeBytes p e f.encSigned value (mem.take size) f.off f.bits
    .ok (buffer ++ mem.drop size)

/-- `fill_from`, src/archive.rs:286-288: for each field in order, read from `other`, write to `self`. -/
def fillFields (p : Profile) (e : Endian) (size : Nat) : List Field → Bytes → Bytes → Out Bytes
  | [], dst, _ => .ok dst
  | f :: fs, dst, src => do
    let v ← f.get p e src
    let dst ← f.set p e size dst v
    fillFields p e size fs dst src

@[inherit_doc fillFields]
def StructDef.fillFrom (p : Profile) (e : Endian) (S : StructDef) (dst src : Bytes) : Out Bytes :=
  fillFields p e S.size S.fields dst src

/-- `PartialEq::eq`, src/archive.rs:256-261: field comparisons joined by the short-circuiting `&&`.
(With no fields the macro expansion does not compile; the model returns `true`.) -/
def eqFields (p : Profile) (e : Endian) : List Field → Bytes → Bytes → Out Bool
  | [], _, _ => .ok true
  | f :: fs, a, b => do
    let x ← f.get p e a
    let y ← f.get p e b
    if x = y then eqFields p e fs a b else .ok false

@[inherit_doc eqFields]
def StructDef.eq (p : Profile) (e : Endian) (S : StructDef) (a b : Bytes) : Out Bool :=
  eqFields p e S.fields a b

/-- `{:?}` of a field value: `bool` prints `true`/`false`, integers in decimal, enums their variant name
(derived `Debug`). -/
def Field.showValue (f : Field) (v : Int) : String :=
  match f.variants with
  | some l => ((l.find? fun x => x.1 = v).map Prod.snd).getD ""
  | none => match f.ty with
    | .bool => if v ≠ 0 then "true" else "false"
    | _ => toString v

/-- Evaluates the getters in order: the argument list of the `write!` in src/archive.rs:249-252. -/
def getAll (p : Profile) (e : Endian) : List Field → Bytes → Out (List Int)
  | [], _ => .ok []
  | f :: fs, mem => do
    let v ← f.get p e mem
    let vs ← getAll p e fs mem
    .ok (v :: vs)

/-- `Debug` of a struct reference, src/archive.rs:247-254, with `intersperse!` of src/helper.rs:61-65. -/
def StructDef.debug (p : Profile) (e : Endian) (S : StructDef) (mem : Bytes) : Out String := do
  let vs ← getAll p e S.fields mem
  .ok (S.name ++ " { " ++ ", ".intercalate ((S.fields.zip vs).map fun x => x.1.name ++ ": " ++ x.1.showValue x.2) ++ " }")

/-- The field of `define_index!`, src/archive.rs:308-318: `value`, a `u64` at bit offset 0. -/
def indexField (bits : Nat) : Field := Field.plain "value" .u64 0 bits

/-- Index struct of `define_index!`, src/archive.rs:308-318: it has that field only. -/
def indexDef (name : String) (size bits : Nat) : StructDef :=
  { name, size, fields := [indexField bits] }

/-- `IndexStruct::index`, src/archive.rs:322-324 (`u64 as usize` is the identity on a 64-bit target). -/
def getIndex (p : Profile) (e : Endian) (bits : Nat) (mem : Bytes) : Out Nat := do
  let v ← (indexField bits).get p e mem
  .ok v.toNat

/-- `IndexStruct::set_index`, src/archive.rs:327-329. -/
def setIndex (p : Profile) (e : Endian) (size bits : Nat) (mem : Bytes) (value : Nat) : Out Bytes :=
  (indexField bits).set p e size mem value

/-! ## `StructBuf` -/

/-- `StructBuf::new`, src/structbuf.rs:62-68: the vector `data`. -/
def StructBuf.new (S : StructDef) : Bytes := List.replicate (S.size + paddingSize) 0#8

/-- `StructBuf::get`, src/structbuf.rs:71-73: a reference into the whole vector. -/
def StructBuf.get (data : Bytes) : Bytes := data

/-- `StructBuf::get_mut().set_f(v)`, src/structbuf.rs:76-78 and src/archive.rs:278-283. -/
def StructBuf.set (p : Profile) (e : Endian) (S : StructDef) (f : Field) (data : Bytes) (v : Int) : Out Bytes :=
  f.set p e S.size data v

/-- `StructBuf::as_bytes`, src/structbuf.rs:81-83. -/
def StructBuf.asBytes (S : StructDef) (data : Bytes) : Out Bytes := sliceRange data 0 S.size

end Flatdata
