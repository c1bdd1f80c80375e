import Verif.Spec.Struct
import Verif.Spec.Bits
import Verif.Spec.Build
/-!
# Specification of the `Debug` output, as a function of the content
-/
namespace Flatdata.Spec

/-- Texts separated by comma and space. -/
def commaSep : List String → String
  | [] => ""
  | [x] => x
  | x :: y :: l => x ++ ", " ++ commaSep (y :: l)

/-- How a value is shown: the name of the enum variant, `true`/`false`, or the number in decimal. -/
def shown (f : Field) (v : Int) : String :=
  match f.variants with
  | some l => (l.lookup v).getD ""
  | none => if f.ty = .bool then (if v = 0 then "false" else "true") else toString v

/-- The value of a field, given the bytes of the struct. -/
def valueOf (f : Field) (x : Bytes) : Int := decode f.ty f.bits (fieldRaw x f.off f.bits)

/-- The text of a struct. -/
def structText (S : StructDef) (x : Bytes) : String :=
  S.name ++ " { " ++ commaSep (S.fields.map fun f => f.name ++ ": " ++ shown f (valueOf f x)) ++ " }"

/-- The text of a list of which only ten entries are shown. -/
def previewText (name : String) (l : List String) : String :=
  name ++ " { len: " ++ toString l.length ++ ", data: [" ++ commaSep (l.take 10) ++ "]" ++ (if l.length ≤ 10 then "" else "...") ++ " }"

/-- The text of a view of structs. -/
def viewText (name : String) (S : StructDef) (data : Bytes) : String := previewText name ((elems S.size data).map (structText S))

/-- The text of a variant. -/
def elemText (V : Variadic) (x : BitVec 8 × Bytes) : String :=
  match V.types.lookup x.1 with
  | some S => structText S x.2
  | none => ""

/-- The text of the variants of an item. -/
def itemText (V : Variadic) (xs : List (BitVec 8 × Bytes)) : String := "[" ++ commaSep (xs.map (elemText V)) ++ "]"

/-- Items with their numbers, counting from `i`. -/
def numbered (V : Variadic) (i : Nat) : List (List (BitVec 8 × Bytes)) → List String
  | [] => []
  | xs :: xss => ("(" ++ toString i ++ ", " ++ itemText V xs ++ ")") :: numbered V (i + 1) xss

/-- The text of a multi array view. -/
def multiText (name : String) (V : Variadic) (xss : List (List (BitVec 8 × Bytes))) : String := previewText name (numbered V 0 xss)

/-- Struct definitions whose values can be shown: fields that can be read correctly (C01). -/
structure ShowOK (S : StructDef) : Prop where
  wf : WF S
  straight : ∀ f ∈ S.fields, f.bits + f.off % 8 ≤ 64 ∨ f.off < 8
  signed : ∀ f ∈ S.fields, f.ty.signed = true → f.bits ≠ 1

/-- Enum fields hold one of their variants (C09). -/
def EnumsOK (S : StructDef) (x : Bytes) : Prop :=
  ∀ f ∈ S.fields, ∀ l, f.variants = some l → valueOf f x ∈ l.map Prod.fst

/-! ## Archives -/

/-- A value as shown by an accessor that may return an `Option`. -/
def optText (optional : Bool) (t : String) : String := if optional then "Some(" ++ t ++ ")" else t

/-- The text of a resource. For raw data the code shows an address and the length instead of the data. -/
def ResText (r : ResDecl) (t : String) : Option Payload → Prop
  | none => r.optional = true ∧ t = "None"
  | some (.bytes b) => match r.type with
    | .struct S => t = optText r.optional (structText S b)
    | .vector S => t = optText r.optional (viewText "ArrayView" S b)
    | .raw => ∃ ptr : String, t = optText r.optional ("MemoryDescriptor { ptr: " ++ ptr ++ ", size: " ++ toString b.length ++ " }")
    | .multi _ _ => False
  | some (.items xss) => match r.type with
    | .multi V _ => t = optText r.optional (multiText "MultiArrayView" V xss)
    | _ => False

/-- The texts of all resources with their names. -/
def AllText : List ResDecl → List String → List (Option Payload) → Prop
  | [], [], [] => True
  | r :: rs, t :: ts, c :: cs => (∃ s, t = r.name ++ ": " ++ s ∧ ResText r s c) ∧ AllText rs ts cs
  | _, _, _ => False

mutual
/-- The text of an archive: `glue` joins the texts of its resources and subarchives. -/
def ArchiveText (glue : List String → String) : ArchiveDef → String → Content → Prop
  | .mk name _ rs subs, t, .mk cs ss =>
    ∃ ts us, AllText rs ts cs ∧ SubsText glue subs us ss ∧ t = name ++ " { " ++ glue (ts ++ us) ++ " }"

/-- ... of its subarchives. -/
def SubsText (glue : List String → String) : SubDefs → List String → SubContents → Prop
  | .nil, [], .nil => True
  | .cons name optional D rest, t :: ts, .cons c cs =>
    (match c with
      | some c => ∃ s, t = name ++ ": " ++ optText optional s ∧ ArchiveText glue D s c
      | none => optional = true ∧ t = name ++ ": None") ∧ SubsText glue rest ts cs
  | _, _, _ => False
end

/-- The content of a resource can be shown: it has the shape its type requires. -/
def Showable (r : ResDecl) : Payload → Prop
  | .bytes b => match r.type with
    | .struct S => ShowOK S ∧ S.size ≤ b.length ∧ EnumsOK S b
    | .vector S => ShowOK S ∧ 0 < S.size ∧ b.length < 2 ^ 63 ∧ ∀ x ∈ elems S.size b, EnumsOK S x
    | .raw => True
    | .multi _ _ => False
  | .items xss => match r.type with
    | .multi V _ => (V.types.map Prod.fst).Nodup ∧ (∀ x ∈ V.types, ShowOK x.2) ∧
        ∀ xs ∈ xss, ∀ x ∈ xs, ∀ S, (x.1, S) ∈ V.types → EnumsOK S x.2
    | _ => False

/-- ... for all resources; only optional ones may be missing. -/
def AllShowable : List ResDecl → List (Option Payload) → Prop
  | [], [] => True
  | r :: rs, some x :: cs => Showable r x ∧ AllShowable rs cs
  | r :: rs, none :: cs => r.optional = true ∧ AllShowable rs cs
  | _, _ => False

mutual
/-- ... for an archive. -/
def ContentShowable : ArchiveDef → Content → Prop
  | .mk _ _ rs subs, .mk cs ts => AllShowable rs cs ∧ SubsShowable subs ts

/-- ... for its subarchives. -/
def SubsShowable : SubDefs → SubContents → Prop
  | .nil, .nil => True
  | .cons _ optional D rest, .cons c ts =>
    (match c with
      | some c => ContentShowable D c
      | none => optional = true) ∧ SubsShowable rest ts
  | _, _ => False
end

end Flatdata.Spec
