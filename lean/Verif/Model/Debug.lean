import Verif.Model.Archive
/-!
# `Debug` of `StructBuf` and of archives

The other implementations of `Debug` are next to the types: structs (`Model/Struct`), views (`Model/View`, `Model/MultiView`),
vectors (`Model/Vector`, `Model/ExtVector`, `Model/MultiVector`).
-/
namespace Flatdata

/-- `Debug` of `StructBuf`, src/structbuf.rs:86-93. -/
def StructBuf.debug (p : Profile) (e : Endian) (S : StructDef) (data : Bytes) : Out String := do
  let s ← S.debug p e (StructBuf.get data)
  .ok ("StructBuf { resource: " ++ s ++ " }")

/-- `{:?}` of an accessor whose type is given by `opt!`, src/archive.rs:411-419: the value itself, or an `Option` of it. (A
required resource always has a value; the model counts its absence as undefined.) -/
def showOpt (optional : Bool) (x : Option String) : Out String :=
  match optional, x with
  | false, some s => .ok s
  | false, none => .ub
  | true, some s => .ok ("Some(" ++ s ++ ")")
  | true, none => .ok "None"

/-- Formats the value of an accessor, if there is one. -/
def formatSome {α : Type} (f : α → Out String) : Option α → Out (Option String)
  | none => .ok none
  | some x => do
    let s ← f x
    .ok (some s)

section
variable (B : Backend) (w : B.W) (p : Profile) (e : Endian) (addr : Slice B.Base → String)

/-- Derived `Debug` of `MemoryDescriptor`, src/storage.rs:223-227; `addr` gives the text of the pointer. -/
def descDebug (s : Slice B.Base) : String := "MemoryDescriptor { ptr: " ++ addr s ++ ", size: " ++ toString s.len ++ " }"

/-- The descriptor of a raw data resource. -/
def Opened.desc : Opened B.Base → Option (Slice B.Base)
  | .one s => s
  | .two _ _ => none

/-- `{:?}` of one argument in src/archive.rs:576-579: the accessors of struct, vector and multivector resources, but the field
itself, a `MemoryDescriptor`, for raw data. -/
def resDebug (r : ResDecl) (x : Opened B.Base) : Out String :=
  match r.type with
  | .struct S => do
    let b ← x.bytes B w
    let s ← formatSome (S.debug p e) b
    showOpt r.optional s
  | .vector S => do
    let b ← x.bytes B w
    let s ← formatSome (View.debugFormat p e S "ArrayView") b
    showOpt r.optional s
  | .multi V _ => do
    let v ← x.multi B w
    let s ← formatSome (MultiView.debugFormat p e V "MultiArrayView") v
    showOpt r.optional s
  | .raw => showOpt r.optional ((x.desc B).map (descDebug B addr))

/-- The resources in order, each as `name: value`, src/archive.rs:570-573. -/
def allDebug : List ResDecl → List (Opened B.Base) → Out (List String)
  | r :: rs, x :: xs => do
    let s ← resDebug B w p e addr r x
    let ss ← allDebug rs xs
    .ok ((r.name ++ ": " ++ s) :: ss)
  | _, _ => .ok []

mutual
/-- `Debug` of an archive, src/archive.rs:565-583. The first argument of `intersperse!` is the empty string, 569. -/
def archiveDebug : ArchiveDef → Archive B.Base → Out String
  | .mk name _ rs subs, .mk xs ss => do
    let s ← allDebug B w p e addr rs xs
    let t ← subsDebug subs ss
    .ok (name ++ " { " ++ ", ".intercalate ("" :: (s ++ t)) ++ " }")

/-- The subarchives, src/archive.rs:574, 580. -/
def subsDebug : SubDefs → SubArchives B.Base → Out (List String)
  | .cons name optional D rest, .cons a ss => do
    let s ← (match a with
      | none => .ok none
      | some a => do
        let t ← archiveDebug D a
        .ok (some t))
    let t ← showOpt optional s
    let ts ← subsDebug rest ss
    .ok ((name ++ ": " ++ t) :: ts)
  | _, _ => .ok []
end

end
end Flatdata
