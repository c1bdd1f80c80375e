import Verif.Spec.Archive
import Verif.Spec.MultiVector
/-!
# Specification of built archives

A builder may write the resources of an archive in any order, even interleaved. `Written` describes the history of one
resource from its own point of view: everything else that happens meanwhile is arbitrary, as long as it does not touch the
places of the resource.
-/
namespace Flatdata.Spec

/-- What has been written into a resource: bytes, or the items of a multivector. -/
inductive Payload where
  | bytes (b : Bytes)
  | items (xss : List (List (BitVec 8 × Bytes)))

mutual
/-- What has been written into an archive: for each resource and each subarchive, in the order of the definition. -/
inductive Content where
  | mk (resources : List (Option Payload)) (subs : SubContents)

/-- ... for the subarchives. -/
inductive SubContents where
  | nil
  | cons (c : Option Content) (rest : SubContents)
end

/-- What may happen after a resource with the places `P` has been finished: calls that do not concern these places, and
reading anything through any storage object. -/
inductive Kind.Quiet (k : Kind) (P : k.Place → Prop) : k.backend.W → k.backend.W → Prop
  | refl (w) : Quiet k P w w
  | away {a b c} (h : Quiet k P a b) (s : k.StepAway P b c) : Quiet k P a c
  | read {a b c o n r} (h : Quiet k P a b) (ho : k.alive b o) (hr : k.backend.readResource o n b = (r, c)) : Quiet k P a c

mutual
/-- Nothing belonging to the archive is stored. -/
def NotStored : ArchiveDef → Dir → Prop
  | .mk name _ rs subs, dir => dir [] (name ++ ".archive") = none ∧ (∀ r ∈ rs, ∀ q ∈ parts r, dir [] q.1 = none) ∧ SubsNotStored subs dir

/-- ... to its subarchives. -/
def SubsNotStored : SubDefs → Dir → Prop
  | .nil, _ => True
  | .cons name _ D rest, dir => NotStored D (dir.sub name) ∧ SubsNotStored rest dir
end

section
variable [DiffLib] (k : Kind) (p : Profile) (e : Endian)

/-- The signature of the archive has been written by `ArchiveBuilder::new`. -/
def Signed (D : ArchiveDef) (o : k.backend.Obj) (w : k.backend.W) : Prop :=
  ∃ w0 w1, k.Reachable w0 ∧ k.alive w0 o ∧ k.Unused w0 o (D.name ++ ".archive") ∧
    builderNew k.backend p e o D w0 = (.ok o, w1) ∧ k.Quiet (k.Own o (D.name ++ ".archive")) w1 w

/-- The resource has been written completely by the builder with storage object `o`, before `w`. -/
inductive Written (o : k.backend.Obj) (r : ResDecl) (w : k.backend.W) : Payload → Prop
  | struct {S w0 w1 item} (ht : r.type = .struct S) (hl : S.size < 2 ^ 63) (hr : k.Reachable w0) (ho : k.alive w0 o)
      (hu : k.Unused w0 o r.name) (h : setStruct k.backend p e o r S item w0 = (.ok (), w1)) (q : k.Quiet (k.Own o r.name) w1 w) :
      Written o r w (.bytes (item.take S.size))
  | vector {S w0 w1 view} (ht : r.type = .vector S) (hl : view.length < 2 ^ 63) (hr : k.Reachable w0) (ho : k.alive w0 o)
      (hu : k.Unused w0 o r.name) (h : setVector k.backend p e o r view w0 = (.ok (), w1)) (q : k.Quiet (k.Own o r.name) w1 w) :
      Written o r w (.bytes view)
  | raw {w0 w1 data} (ht : r.type = .raw) (hl : data.length < 2 ^ 63) (hr : k.Reachable w0) (ho : k.alive w0 o)
      (hu : k.Unused w0 o r.name) (h : setRaw k.backend p e o r data w0 = (.ok (), w1)) (q : k.Quiet (k.Own o r.name) w1 w) :
      Written o r w (.bytes data)
  | grown {S w0 w1 w2 w3 v v1 es xs s} (ht : r.type = .vector S) (hs : 0 < S.size) (hr : k.Reachable w0) (ho : k.alive w0 o)
      (hu : k.Unused w0 o r.name) (hc : startVector k.backend p e o r w0 = (.ok v, w1)) (g : Grows k p e S o r.name w1 v es w2 v1)
      (hx : Elements p e S es xs) (hb : es.length * S.size + 8 < 2 ^ 63) (hcl : v1.close p e w2 = (.ok s, w3))
      (q : k.Quiet (k.Own o r.name) w3 w) : Written o r w (.bytes xs.flatten)
  | multi {V index w0 w1 w2 w3 v v1 its xss s} (ht : r.type = .multi V index) (hi : index = r.name ++ "_index")
      (ok : VariadicOK V) (hr : k.Reachable w0) (ho : k.alive w0 o) (hu : k.MUnused w0 o r.name)
      (hc : startMulti k.backend p e o r w0 = (.ok v, w1)) (g : MGrows k p e V o r.name w1 v its w2 v1)
      (hx : AllContents p e its xss) (hbI : (its.length + 1) * V.indexSize + 8 < 2 ^ 63) (hb : dataSize its + 8 < 2 ^ 63)
      (hbits : dataSize its < 2 ^ V.indexBits) (hcl : v1.close p e V w2 = (.ok s, w3))
      (q : k.Quiet (k.MOwn o r.name) w3 w) : Written o r w (.items xss)

/-- Nothing has been written for this resource; none of its parts is stored. -/
def Unwritten (o : k.backend.Obj) (r : ResDecl) (w : k.backend.W) : Prop :=
  ∀ q ∈ parts r, k.stored w o q.1 = none ∧ k.unread w o q.1 ∧ k.unread w o (q.1 ++ ".schema")

/-- Every resource has been written, except that optional ones may have been left out. -/
def AllBuilt (o : k.backend.Obj) (w : k.backend.W) : List ResDecl → List (Option Payload) → Prop
  | [], [] => True
  | r :: rs, some x :: xs => Written k p e o r w x ∧ AllBuilt o w rs xs
  | r :: rs, none :: xs => (r.optional = true ∧ Unwritten k o r w) ∧ AllBuilt o w rs xs
  | _, _ => False

mutual
/-- The archive has been built with storage object `o`, before `w`. -/
def Built (w : k.backend.W) : ArchiveDef → k.backend.Obj → Content → Prop
  | .mk name schema rs subs, o, .mk xs ss =>
    Signed k p e (.mk name schema rs subs) o w ∧ AllBuilt k p e o w rs xs ∧ SubsBuilt w subs o ss

/-- Every subarchive has been built through the builder of its parent, except that optional ones may have been left out. -/
def SubsBuilt (w : k.backend.W) : SubDefs → k.backend.Obj → SubContents → Prop
  | .nil, _, .nil => True
  | .cons name optional D rest, o, .cons c ss =>
    (match c with
      | some c => ∃ o' w1 w2, k.backend.subdir o name w1 = (.ok o', w2) ∧ k.Steps w2 w ∧ Built w D o' c
      | none => optional = true ∧ NotStored D ((k.dir w o).sub name)) ∧ SubsBuilt w rest o ss
  | _, _, _ => False
end
end

mutual
/-- The schemas can be read by the storage. -/
def SchemasReadable (k : Kind) : ArchiveDef → Prop
  | .mk _ schema rs subs => k.mappable (strBytes schema) ∧ (∀ r ∈ rs, k.mappable (strBytes r.schema)) ∧ SubSchemasReadable k subs

/-- ... for the subarchives. -/
def SubSchemasReadable (k : Kind) : SubDefs → Prop
  | .nil => True
  | .cons _ _ D rest => SchemasReadable k D ∧ SubSchemasReadable k rest
end

/-- No subarchive has been written. -/
def SubContents.empty : SubContents → Prop
  | .nil => True
  | .cons c rest => c = none ∧ rest.empty

/-- The subarchives. -/
def Content.subs : Content → SubContents
  | .mk _ ss => ss

/-! ## What the accessors of the opened archive yield -/

section
variable (B : Backend) (w : B.W)

/-- The accessor of a resource yields what was written: the same bytes, or a multi array view showing the same items;
`None` for a resource left out. -/
def Yields (r : ResDecl) (x : Opened B.Base) : Option Payload → Prop
  | none => match r.type with
    | .multi _ _ => x.multi B w = .ok none
    | _ => x.bytes B w = .ok none
  | some (.bytes b) => x.bytes B w = .ok (some b)
  | some (.items xss) => ∃ V index v, r.type = .multi V index ∧ x.multi B w = .ok (some v) ∧ Shows V v xss

/-- All accessors. -/
def AllYield : List ResDecl → List (Opened B.Base) → List (Option Payload) → Prop
  | [], [], [] => True
  | r :: rs, x :: xs, c :: cs => Yields B w r x c ∧ AllYield rs xs cs
  | _, _, _ => False

mutual
/-- All accessors of an archive, including those of subarchives. -/
def ArchiveYields : ArchiveDef → Archive B.Base → Content → Prop
  | .mk _ _ rs subs, .mk xs ss, .mk cs ts => AllYield B w rs xs cs ∧ SubsYield subs ss ts

/-- ... of the subarchives. -/
def SubsYield : SubDefs → SubArchives B.Base → SubContents → Prop
  | .nil, .nil, .nil => True
  | .cons _ _ D rest, .cons a ss, .cons c ts =>
    (match a, c with
      | some a, some c => ArchiveYields D a c
      | none, none => True
      | _, _ => False) ∧ SubsYield rest ss ts
  | _, _, _ => False
end
end

end Flatdata.Spec
