import Verif.Spec.Vector
/-!
# Specification of stored resources

Bytes of a resource: payload size (8 bytes, least significant first), payload, 8 bytes of padding.
-/
namespace Flatdata.Spec

/-- The number given by its bytes, least significant first. -/
def leNat : Bytes → Nat
  | [] => 0
  | b :: bs => b.toNat + 256 * leNat bs

/-- The 8 bytes of a number, least significant first. -/
def le64 (n : Nat) : Bytes := (List.range 8).map fun i => BitVec.ofNat 8 (n / 256 ^ i)

/-- The bytes of a resource with a given payload. -/
def image (data : Bytes) : Bytes := le64 data.length ++ data ++ zeros 8

/-- `d` is a complete resource with the given payload: size, payload, and 8 more bytes. -/
structure Holds (d payload : Bytes) : Prop where
  size : leNat (d.take 8) = payload.length
  body : (d.drop 8).take payload.length = payload
  length : d.length = 8 + payload.length + 8

/-- The lines of a text. -/
def splitLines : List Char → List (List Char)
  | [] => [[]]
  | c :: cs =>
    if c = '\n' then [] :: splitLines cs
    else match splitLines cs with
      | [] => [[c]]
      | x :: xs => (c :: x) :: xs

/-- Lines of the first text of a diff in the usual notation: those marked `-` or blank. -/
def diffLeft (d : String) : List String :=
  (splitLines d.toList).filterMap fun
    | '-' :: l => some (String.ofList l)
    | ' ' :: l => some (String.ofList l)
    | _ => none

/-- Lines of the second text: those marked `+` or blank. -/
def diffRight (d : String) : List String :=
  (splitLines d.toList).filterMap fun
    | '+' :: l => some (String.ofList l)
    | ' ' :: l => some (String.ofList l)
    | _ => none

end Flatdata.Spec
