import Verif.Model.IO
/-!
# Error texts: src/error.rs
-/
namespace Flatdata

/-- `Error::description` of `ResourceStorageError`, src/error.rs:56-66. -/
def RErr.description : RErr → String
  | .io _ _ => "resource io error"
  | .missingSchema _ => "schema of resource is missing"
  | .unexpectedDataSize => "resource has unexpected size"
  | .utf8 => "utf8 error in schema"
  | .wrongSignature _ _ => "schema is not matching expected schema"

/-- `\u{..}`: the code point in hexadecimal digits. -/
def unicodeEscape (c : Char) : List Char := ['\\', 'u', '{'] ++ Nat.toDigits 16 c.toNat ++ ['}']

/-- `char::escape_debug` as used by `{:?}` of `str` (Rust's standard library, by its documentation): some characters are escaped with a
backslash; of the others those that are not printable are shown as `\u{..}`. Which these are, and whether `'` is escaped and how the
character 0 is, depends on the version of Rust. -/
class EscapeDebug where
  esc : Char → List Char
  tab : esc '\t' = ['\\', 't']
  cr : esc '\r' = ['\\', 'r']
  lf : esc '\n' = ['\\', 'n']
  quote : esc '"' = ['\\', '"']
  backslash : esc '\\' = ['\\', '\\']
  other : ∀ c, c ≠ '\t' → c ≠ '\r' → c ≠ '\n' → c ≠ '"' → c ≠ '\\' →
    esc c = [c] ∨ esc c = unicodeEscape c ∨ (c = '\'' ∧ esc c = ['\\', '\'']) ∨ (c = '\x00' ∧ esc c = ['\\', '0'])

/-- `{:?}` of `str`. -/
def quoted [EscapeDebug] (s : String) : List Char := ['"'] ++ s.toList.flatMap EscapeDebug.esc ++ ['"']

/-- `Display` of `ResourceStorageError`, src/error.rs:50-54, that is its derived `Debug`, 10-41; `io` and `utf8` give the texts of the
errors of the standard library. -/
def RErr.text [EscapeDebug] (io : IoErr → String) (utf8 : String) : RErr → List Char
  | .io e name => "Io(".toList ++ (io e).toList ++ ", ".toList ++ quoted name ++ ")".toList
  | .utf8 => "Utf8Error(".toList ++ utf8.toList ++ ")".toList
  | .missingSchema name => "MissingSchema(".toList ++ quoted name ++ ")".toList
  | .wrongSignature name diff =>
    "WrongSignature { resource_name: ".toList ++ quoted name ++ ", diff: ".toList ++ quoted diff ++ " }".toList
  | .unexpectedDataSize => "UnexpectedDataSize".toList

end Flatdata
