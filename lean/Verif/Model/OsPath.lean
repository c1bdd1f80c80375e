import Verif.Model.FileStorage
/-!
# `FileResourceStorage` in directories whose names are not text

A path is a string of bytes on Unix (`OsString`); `read_resource` works only if these are valid UTF-8. The model of FileStorage leaves
this out. Here paths are still lists of characters, but some of the characters stand for bytes that are not part of valid UTF-8.
-/
namespace Flatdata

/-- Which characters of a path stand for bytes that are not text. (The characters that structure paths do not.) -/
structure RawBytes where
  raw : Char → Bool
  slash : raw '/' = false
  dot : raw '.' = false

/-- `Path::to_str` (std) returns `Some`: the path is valid UTF-8. -/
def RawBytes.text (u : RawBytes) (p : Path) : Bool := p.all fun c => !u.raw c

/-- `read_resource`, src/filestorage.rs:63-79, with the case that `to_str` returns `None`, 74-77. -/
def FileSt.readResourceOs (u : RawBytes) (o : Obj) (name : String) : Act FileW IoErr (Slice Key) := do
  let x ← (FileSt.pathExists (join o.path name)).mapErr Empty.elim
  if !x then Act.fail .notFound
  else if u.text (join o.path name) then FileSt.mapRead o (join o.path name)
  else Act.fail .invalidData

/-- `FileResourceStorage` as a backend. The other methods use paths as they are. -/
abbrev fileOs (u : RawBytes) : Backend where
  W := FileW
  Obj := Obj
  Strm := Nat
  Base := Key
  subdir := FileSt.subdir
  existsRes := FileSt.existsRes
  readResource := FileSt.readResourceOs u
  createOutputStream := FileSt.createOutputStream
  writeAll := FileSt.writeAll
  seekStart := FileSt.seekStart
  content w k := (w.fs.files k).getD []

end Flatdata
