import Verif.Spec.Program
import Verif.Spec.Bits
import Verif.Spec.Struct
/-!
# Programs that copy resources and archives element by element with `fill_from`

As `copy_coappearances_archive`, tests/coappearances_test.rs:159-267, does: what is to be written is taken from the accessors
of an opened archive.
-/
namespace Flatdata.Spec

/-- Struct definitions whose fields determine their bits: no field needs a ninth byte (C01), `bool`s have one bit. -/
structure CopyOK (S : StructDef) : Prop where
  wf : WF S
  straight : ∀ f ∈ S.fields, f.bits + f.off % 8 ≤ 64 ∨ f.off < 8
  bool : ∀ f ∈ S.fields, f.ty = .bool → f.bits = 1

/-- All fields of the struct can be read, and bits that belong to no field are zero. -/
def Tidy (p : Profile) (e : Endian) (S : StructDef) (x : Bytes) : Prop :=
  (∀ f ∈ S.fields, ∃ v, f.get p e x = .ok v) ∧
    ∀ k, k < 8 * S.size → (∀ f ∈ S.fields, k < f.off ∨ f.off + f.bits ≤ k) → bitAt x k = false

/-- The loop `for x in view.iter() { v.grow()?.fill_from(&x) }`: the operations on each new element. -/
def copyElements (p : Profile) (size : Nat) (view : Bytes) : Out (List (List HandleOp)) := do
  let refs ← View.takeCollect p size view.length view
  .ok (refs.map fun m => [.fill m])

/-- The loop `for item in view.iter() { let new = v.grow()?; for x in item { match x { T(ref x) => new.add_t().fill_from(x) } } }`:
the additions to each new item. -/
def copyItems (p : Profile) (e : Endian) (V : Variadic) (view : MultiView) : Out (List (List Add)) := do
  let items ← MultiView.takeCollect p e V 0 view.index.length view
  .ok (items.map fun x => x.2.map fun el => ⟨el.type, el.struct, [.fill el.mem]⟩)

/-- How one resource is copied: a struct through a `StructBuf`; nothing for an optional resource that is not there. -/
def copyRes (B : Backend) (w : B.W) (p : Profile) (e : Endian) (r : ResDecl) (x : Opened B.Base) : Out (Option Source) :=
  match r.type with
  | .struct S => do
    let b ← x.bytes B w
    match b with
    | none => .ok none
    | some b => do
      let d ← S.fillFrom p e (StructBuf.new S) b
      .ok (some (.struct d))
  | .vector S => do
    let b ← x.bytes B w
    match b with
    | none => .ok none
    | some b => do
      let es ← copyElements p S.size b
      .ok (some (.elements es))
  | .multi V _ => do
    let v ← x.multi B w
    match v with
    | none => .ok none
    | some v => do
      let its ← copyItems p e V v
      .ok (some (.items its))
  | .raw => do
    let b ← x.bytes B w
    .ok (b.map .data)

/-- All resources, in the order of the definition; then `rest`. -/
def copyAll (B : Backend) (w : B.W) (p : Profile) (e : Endian) : List ResDecl → List (Opened B.Base) → Prog → Out Prog
  | r :: rs, x :: xs, rest => do
    let s ← copyRes B w p e r x
    let t ← copyAll B w p e rs xs rest
    match s with
    | some s => .ok (.res r s t)
    | none => .ok t
  | _, _, rest => .ok rest

mutual
/-- The program that copies an opened archive. -/
def copyProg (B : Backend) (w : B.W) (p : Profile) (e : Endian) : ArchiveDef → Archive B.Base → Out Prog
  | .mk _ _ rs subs, .mk xs ss => do
    let t ← copySubs B w p e subs ss
    copyAll B w p e rs xs t

/-- ... its subarchives. -/
def copySubs (B : Backend) (w : B.W) (p : Profile) (e : Endian) : SubDefs → SubArchives B.Base → Out Prog
  | .cons name _ D rest, .cons a ss => do
    let t ← copySubs B w p e rest ss
    match a with
    | some a => do
      let inner ← copyProg B w p e D a
      .ok (.sub name D inner t)
    | none => .ok t
  | _, _ => .ok .done
end

/-- Contents that can be copied exactly. -/
def Copyable (p : Profile) (e : Endian) (r : ResDecl) : Payload → Prop
  | .bytes b => match r.type with
    | .struct S => CopyOK S ∧ S.size < 2 ^ 63 ∧ b.length = S.size ∧ Tidy p e S b
    | .vector S => CopyOK S ∧ 0 < S.size ∧ b.length + 8 < 2 ^ 63 ∧ b.length % S.size = 0 ∧ ∀ x ∈ elems S.size b, Tidy p e S x
    | .raw => b.length < 2 ^ 63
    | .multi _ _ => False
  | .items xss => match r.type with
    | .multi V index => index = r.name ++ "_index" ∧ VariadicOK V ∧ (∀ x ∈ V.types, CopyOK x.2) ∧
        (∀ xs ∈ xss, ItemOK V xs ∧ ∀ x ∈ xs, ∀ S, (x.1, S) ∈ V.types → Tidy p e S x.2) ∧
        (xss.length + 1) * V.indexSize + 8 < 2 ^ 63 ∧ (encodeItems xss).length + 8 < 2 ^ 63 ∧ (encodeItems xss).length < 2 ^ V.indexBits
    | _ => False

/-- ... for all resources. -/
def AllCopyable (p : Profile) (e : Endian) : List ResDecl → List (Option Payload) → Prop
  | r :: rs, some x :: cs => Copyable p e r x ∧ AllCopyable p e rs cs
  | r :: rs, none :: cs => r.optional = true ∧ AllCopyable p e rs cs
  | [], [] => True
  | _, _ => False

mutual
/-- ... for an archive. -/
def ContentCopyable (p : Profile) (e : Endian) : ArchiveDef → Content → Prop
  | .mk _ _ rs subs, .mk cs ts => AllCopyable p e rs cs ∧ SubsCopyable p e subs ts

/-- ... for its subarchives. -/
def SubsCopyable (p : Profile) (e : Endian) : SubDefs → SubContents → Prop
  | .nil, .nil => True
  | .cons _ optional D rest, .cons c ts =>
    (match c with
      | some c => ContentCopyable p e D c
      | none => optional = true) ∧ SubsCopyable p e rest ts
  | _, _ => False
end

end Flatdata.Spec
