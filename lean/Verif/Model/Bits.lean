import Verif.Model.Prim
/-!
# Bit-level (de)serialization: `helper.rs`, `bytereader.rs`, `bytewriter.rs`
-/
namespace Flatdata

/-- The Rust types a flatdata field can have: `impl Int for ...` in src/helper.rs:9-43. -/
inductive IntTy where
  | bool | i8 | u8 | i16 | u16 | i32 | u32 | i64 | u64
  deriving DecidableEq, Repr

namespace IntTy

/-- `std::mem::size_of::<T>() * 8`. -/
def bits : IntTy → Nat
  | bool => 8 | i8 => 8 | u8 => 8
  | i16 => 16 | u16 => 16
  | i32 => 32 | u32 => 32
  | i64 => 64 | u64 => 64

/-- `<T as Int>::IS_SIGNED`, src/helper.rs:9-43. -/
def signed : IntTy → Bool
  | bool => false
  | i8 => true | u8 => false
  | i16 => true | u16 => false
  | i32 => true | u32 => false
  | i64 => true | u64 => false

end IntTy

/-- macro `num_bytes!`, src/helper.rs:81-89.  (All operands are small compile-time constants, so plain
`Nat` arithmetic is exact.) -/
def numBytes (offset numBits : Nat) : Nat :=
  if numBits + offset % 8 < 64 then (numBits + offset % 8 + 7) / 8
  else (numBits + 7) / 8

/-- macro `masked!`, src/helper.rs:69-75: `1u64.checked_shl(n)` is `None` iff `n >= 64`. -/
def masked (value : BitVec 64) (numBits : Nat) : BitVec 64 :=
  if numBits < 64 then value &&& ((1#64 <<< numBits) - 1#64) else value

/-- Bytes of a `u64` in memory, lowest address first, on a host with byte order `e`. -/
def u64ToMem (e : Endian) (v : BitVec 64) : Bytes :=
  let le := (List.range 8).map fun i => (v >>> (8 * i)).setWidth 8
  match e with
  | .little => le
  | .big => le.reverse

/-- little-endian reading of a list of bytes into a `u64`. -/
def leToU64 : Bytes → BitVec 64
  | [] => 0#64
  | b :: bs => b.setWidth 64 ||| (leToU64 bs <<< 8)

/-- Interpretation of the 8 memory bytes of a `u64` on a host with byte order `e`. -/
def memToU64 (e : Endian) (m : Bytes) : BitVec 64 :=
  match e with
  | .little => leToU64 m
  | .big => leToU64 m.reverse

/-- `u64::swap_bytes`. -/
def swapBytes (v : BitVec 64) : BitVec 64 := leToU64 (u64ToMem .little v).reverse

/-- `u64::from_le` / `u64::to_le`. -/
def fromLe (e : Endian) (v : BitVec 64) : BitVec 64 :=
  match e with
  | .little => v
  | .big => swapBytes v

/-- `ptr::copy(src, &mut x as *mut u64 as *mut u8, n)` into a `u64` variable that was `0`:
the `n` bytes at the lowest addresses are replaced (bytereader.rs:36-37, bytewriter.rs:39-45). -/
def copyIntoZeroU64 (e : Endian) (src : Bytes) : BitVec 64 :=
  memToU64 e (src ++ List.replicate (8 - src.length) 0)

/-- `value as T` for `value : u64` (truncation, then interpretation in `T`). -/
def castFromU64 (T : IntTy) (v : BitVec 64) : Int :=
  if T.signed then (v.setWidth T.bits).toInt else ((v.setWidth T.bits).toNat : Int)

/-- `value as u64` for a value of a Rust integer, `bool` or enum type (sign extension). -/
def castToU64 (v : Int) : BitVec 64 := BitVec.ofInt 64 v

/-- macro `extend_sign!`, src/helper.rs:93-104.  `wrapping_shl/shr` reduce the shift modulo the width;
`>>` on a signed type is an arithmetic shift. `size_of::<T>() * 8 - num_bits` is a `usize` subtraction. -/
def extendSign (p : Profile) (T : IntTy) (v : BitVec 64) (numBits : Nat) : Out Int :=
  if T.signed then do
    let other ← usub p T.bits numBits
    let k := (other % 2 ^ 32) % T.bits
    let x : BitVec T.bits := v.setWidth T.bits
    .ok ((x <<< k).sshiftRight k).toInt
  else .ok (castFromU64 T v)

/-- macro `read_bytes!` for the non-`bool` types, src/bytereader.rs:24-48.
`mem` is the memory the pointer `$data` points to (index 0 = the pointee); every access beyond it is `ub`.
`debug_assert!(!bytes.is_null())` cannot fail for a pointer derived from a slice.
NB line 42: `data.add(byte_offset + num_bytes)` where `data` already includes `byte_offset`. -/
def readInt (p : Profile) (e : Endian) (T : IntTy) (mem : Bytes) (offset numBits : Nat) : Out Int :=
  let byteOffset := offset / 8
  let bitOffset := offset % 8
  if numBits = 1 then
    match mem[byteOffset]? with
    | none => .ub
    | some b => .ok (if b &&& (1#8 <<< bitOffset) ≠ 0#8 then 1 else 0)
  else
    let nb := numBytes offset numBits
    -- `copy` of `nb` bytes into an 8-byte variable
    if 8 < nb ∨ mem.length < byteOffset + nb then .ub
    else
      let result := fromLe e (copyIntoZeroU64 e ((mem.drop byteOffset).take nb))
      let result := result >>> bitOffset
      if nb * 8 - bitOffset < numBits then
        match mem[byteOffset + (byteOffset + nb)]? with
        | none => .ub
        | some b =>
          let temp : BitVec 64 := b.setWidth 64
          let result := result ||| (temp <<< ((nb * 8 - bitOffset) % (nb * 8)))
          extendSign p T (masked result numBits) numBits
      else
        extendSign p T (masked result numBits) numBits

/-- macro `read_bytes!`, src/bytereader.rs:20-56: the `bool` arm reads a `u8` and compares with 0;
a `bool` is represented as `0`/`1`. -/
def readBytes (p : Profile) (e : Endian) (T : IntTy) (mem : Bytes) (offset numBits : Nat) : Out Int :=
  match T with
  | .bool => do
    let v ← readInt p e .u8 mem offset numBits
    .ok (if v ≠ 0 then 1 else 0)
  | T => readInt p e T mem offset numBits

/-- Overwrites `src.length` bytes of `data` at `pos` (`ptr::copy` into a slice; caller checked bounds). -/
def overwrite (data : Bytes) (pos : Nat) (src : Bytes) : Bytes :=
  data.take pos ++ src ++ data.drop (pos + src.length)

/-- macro `write_bytes!`, src/bytewriter.rs:25-76.
`signed` is `<$T as Int>::IS_SIGNED`, `value` the mathematical value of `$value`,
`data` the slice `$data`.  Raw accesses beyond `data` are `ub`, slice indexing beyond it panics.
NB line 66: the "missing" byte is `$data[num_bytes]`, without `$offset / 8`. -/
def writeBytes (p : Profile) (e : Endian) (signed : Bool) (value : Int) (data : Bytes)
    (offset numBits : Nat) : Out Bytes :=
  if p = .debug ∧ 64 < numBits then .panic
  else if data.length ≤ offset / 8 then .panic
  else
    let bitOffset := offset % 8
    let nb := numBytes offset numBits
    let valueToStore := castToU64 value
    let valueToStore := if signed then masked valueToStore numBits else valueToStore
    let valueMask := masked (BitVec.allOnes 64) numBits
    -- two `copy`s of `nb` bytes from / to an 8-byte variable
    if 8 < nb ∨ data.length < offset / 8 + nb then .ub
    else
      let v := fromLe e (copyIntoZeroU64 e ((data.drop (offset / 8)).take nb))
      let v := v &&& ~~~(valueMask <<< bitOffset)
      let v := v ||| (valueToStore <<< bitOffset)
      let v := fromLe e v
      let data := overwrite data (offset / 8) ((u64ToMem e v).take nb)
      let batched := nb * 8 - bitOffset
      if batched < numBits then
        match data[nb]? with
        | none => .panic
        | some b =>
          let vs := valueToStore >>> (batched % (nb * 8))
          let vm := valueMask >>> (batched % (nb * 8))
          let byteValue := b &&& (~~~vm).setWidth 8
          .ok (data.set nb (byteValue ||| vs.setWidth 8))
      else .ok data

end Flatdata
