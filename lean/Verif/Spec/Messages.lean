import Verif.Spec.Error
/-!
# Specification of the texts of errors: string literals, as Rust reads them
-/
namespace Flatdata.Spec

/-- The value of a hexadecimal digit. -/
def hexDigit (c : Char) : Option Nat :=
  if '0' ≤ c ∧ c ≤ '9' then some (c.toNat - '0'.toNat)
  else if 'a' ≤ c ∧ c ≤ 'f' then some (c.toNat - 'a'.toNat + 10)
  else none

/-- The value of hexadecimal digits, the most significant one first. -/
def hexValue : List Char → Nat → Option Nat
  | [], n => some n
  | c :: cs, n => (hexDigit c).bind fun d => hexValue cs (16 * n + d)

/-- The characters after a backslash, and what they stand for. -/
def escapes : List (Char × Char) := [('t', '\t'), ('r', '\r'), ('n', '\n'), ('"', '"'), ('\\', '\\'), ('\'', '\''), ('0', '\x00')]

/-- What the inside of a string literal stands for. -/
inductive Literal : List Char → List Char → Prop
  | nil : Literal [] []
  | plain {c : Char} {t s : List Char} (h1 : c ≠ '"') (h2 : c ≠ '\\') (h : Literal t s) : Literal (c :: t) (c :: s)
  | escape {x c : Char} {t s : List Char} (hx : (x, c) ∈ escapes) (h : Literal t s) : Literal ('\\' :: x :: t) (c :: s)
  | unicode {ds : List Char} {c : Char} {t s : List Char} (hd : hexValue ds 0 = some c.toNat) (h : Literal t s) :
      Literal ('\\' :: 'u' :: '{' :: (ds ++ '}' :: t)) (c :: s)

/-- A string literal for a text. -/
def IsLiteral (l : List Char) (s : String) : Prop := ∃ t, l = '"' :: (t ++ ['"']) ∧ Literal t s.toList

/-- A text contains a string literal. -/
def Quotes (text : List Char) (s : String) : Prop := ∃ a l b, text = a ++ l ++ b ∧ IsLiteral l s

end Flatdata.Spec
