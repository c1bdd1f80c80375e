import Verif.Model.Vector
/-!
# Primitive notions for the storage code: errors, effects, paths, names, UTF-8

Like `Prim`, this file fixes representations; the only code of `/repo` modelled here is `error.rs`.
-/
namespace Flatdata

/-- `std::io::ErrorKind`, as far as it matters. -/
inductive IoErr where
  | notFound | alreadyExists | unexpectedEof | invalidInput | invalidData | other
  deriving DecidableEq, Repr

/-- `ResourceStorageError`, src/error.rs:11-41. (`Utf8Error` without the position of the error.) -/
inductive RErr where
  | io (e : IoErr) (name : String)
  | utf8
  | missingSchema (name : String)
  | wrongSignature (name diff : String)
  | unexpectedDataSize
  deriving DecidableEq, Repr

/-- Outcome of code that may return `Err(e)`, panic, or perform an undefined access. -/
inductive Res (E α : Type) where
  | ok (a : α)
  | err (e : E)
  | panic
  | ub
  deriving DecidableEq, Repr

/-- The outcome is an error. -/
def Res.isErr {E α : Type} : Res E α → Bool
  | .err _ => true
  | _ => false

/-- The outcome is a panic. -/
def Res.isPanic {E α : Type} : Res E α → Bool
  | .panic => true
  | _ => false

/-- The outcome is a value. -/
def Res.isOk {E α : Type} : Res E α → Bool
  | .ok _ => true
  | _ => false

/-- Effectful code over a world `W`. The world survives errors and panics. -/
def Act (W E α : Type) := W → Res E α × W

namespace Act
variable {W E E' α β : Type}

/-- Sequencing; `Err` propagates as with `?`. -/
def bind (x : Act W E α) (f : α → Act W E β) : Act W E β := fun w =>
  match x w with
  | (.ok a, w) => f a w
  | (.err e, w) => (.err e, w)
  | (.panic, w) => (.panic, w)
  | (.ub, w) => (.ub, w)

instance : Monad (Act W E) where
  pure a := fun w => (.ok a, w)
  bind := Act.bind

/-- `return Err(e)`. -/
def fail (e : E) : Act W E α := fun w => (.err e, w)

/-- Pure code that may panic. -/
def lift (x : Out α) : Act W E α := fun w =>
  match x with
  | .ok a => (.ok a, w)
  | .panic => (.panic, w)
  | .ub => (.ub, w)

/-- `.map_err(f)`. -/
def mapErr (f : E → E') (x : Act W E α) : Act W E' α := fun w =>
  match x w with
  | (.ok a, w) => (.ok a, w)
  | (.err e, w) => (.err (f e), w)
  | (.panic, w) => (.panic, w)
  | (.ub, w) => (.ub, w)

/-- Runs code and yields its `Result` as a value. -/
def attempt (x : Act W E α) : Act W E' (Except E α) := fun w =>
  match x w with
  | (.ok a, w) => (.ok (.ok a), w)
  | (.err e, w) => (.ok (.error e), w)
  | (.panic, w) => (.panic, w)
  | (.ub, w) => (.ub, w)

end Act

/-- Functional update of a map. -/
def upd {α β : Type} [DecidableEq α] (f : α → β) (a : α) (b : β) : α → β := fun x => if x = a then b else f x

/-- Content of a file or cursor after writing `b` at position `pos` (a gap is filled with zeroes; writing nothing does nothing). -/
def putAt (c : Bytes) (pos : Nat) (b : Bytes) : Bytes :=
  if b = [] then c else c.take pos ++ List.replicate (pos - c.length) 0#8 ++ b ++ c.drop (pos + b.length)

/-! ## Paths -/

/-- A `PathBuf`: its raw text. -/
abbrev Path := List Char

/-- Components of a path, the root being represented by `"/"`. -/
abbrev Key := List (List Char)

/-- Splits a text at every `/`. -/
def splitSlash : List Char → List (List Char)
  | [] => [[]]
  | c :: cs =>
    if c = '/' then [] :: splitSlash cs
    else match splitSlash cs with
      | [] => [[c]]
      | x :: xs => (c :: x) :: xs

/-- Identity of a path: its components without empty ones and `.`. This is equality of `PathBuf`s (which is
component-wise), except that `PathBuf` keeps a leading `.`, and of file system objects (without symbolic links and
`..`, the current directory being fixed). -/
def key (p : Path) : Key :=
  (if p.head? = some '/' then [['/']] else []) ++ (splitSlash p).filter fun x => x ≠ [] ∧ x ≠ ['.']

/-- `PathBuf::join` on Unix. -/
def join (p : Path) (n : String) : Path :=
  if n.toList.head? = some '/' then n.toList
  else if p = [] then n.toList
  else if p.getLast? = some '/' then p ++ n.toList
  else p ++ '/' :: n.toList

/-! ## UTF-8 -/

/-- `str::as_bytes`. -/
def strBytes (s : String) : Bytes := s.toByteArray.data.toList.map UInt8.toBitVec

/-- `str::from_utf8`; Lean's `String` is, like Rust's `str`, exactly the valid UTF-8 sequences. -/
def fromUtf8 (b : Bytes) : Option String := String.fromUTF8? ⟨(b.map UInt8.ofBitVec).toArray⟩

end Flatdata
