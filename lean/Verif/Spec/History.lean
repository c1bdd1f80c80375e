import Verif.Model.FileStorage
import Verif.Spec.Names
/-!
# Specification of histories of storage calls (C38)
-/
namespace Flatdata.Spec

/-- A call of the user of a storage object. -/
inductive Op where
  | exists_ (name : String)
  | write (name schema : String) (data : Bytes)
  | read (name schema : String)

/-- What the user sees. -/
inductive Obs where
  | exists_ (b : Bool)
  | wrote
  | writeFailed (e : IoErr)
  | bytes (b : Bytes)
  | failed (e : RErr)
  | panicked
  | undefined
  deriving DecidableEq

/-- One call: what is seen, and the state afterwards. -/
def observe [DiffLib] (B : Backend) (p : Profile) (e : Endian) (o : B.Obj) : Op → B.W → Obs × B.W
  | .exists_ n, w =>
    match B.existsRes o n w with
    | (.ok b, w) => (.exists_ b, w)
    | (.err x, _) => x.elim
    | (.panic, w) => (.panicked, w)
    | (.ub, w) => (.undefined, w)
  | .write n s d, w =>
    match Storage.write B p e o n s d w with
    | (.ok (), w) => (.wrote, w)
    | (.err x, w) => (.writeFailed x, w)
    | (.panic, w) => (.panicked, w)
    | (.ub, w) => (.undefined, w)
  | .read n s, w =>
    match Storage.read B p e o n s w with
    | (.ok t, w) =>
      (match B.deref w t with
      | .ok b => .bytes b
      | .panic => .panicked
      | .ub => .undefined, w)
    | (.err x, w) => (.failed x, w)
    | (.panic, w) => (.panicked, w)
    | (.ub, w) => (.undefined, w)

/-- What is seen in a whole history. -/
def observeAll [DiffLib] (B : Backend) (p : Profile) (e : Endian) (o : B.Obj) : List Op → B.W → List Obs
  | [], _ => []
  | op :: h, w => (observe B p e o op w).1 :: observeAll B p e o h (observe B p e o op w).2

/-- Histories on plain names that write every resource at most once (`used` are the names in use), with schemas from `S`. -/
def WriteOnce (S : String → Prop) : List String → List Op → Prop
  | _, [] => True
  | used, .exists_ n :: h => PlainName n ∧ WriteOnce S used h
  | used, .write n s d :: h => PlainName n ∧ S s ∧ d.length < 2 ^ 63 ∧ n ∉ used ∧ n ++ ".schema" ∉ used ∧
      WriteOnce S (n :: (n ++ ".schema") :: used) h
  | used, .read n _ :: h => PlainName n ∧ WriteOnce S used h

/-- A history reads a resource that it has written with an empty schema, or that schema as a resource. -/
def ReadsEmpty (h : List Op) : Prop :=
  ∃ before after n s m d, h = before ++ .read n s :: after ∧ Op.write m "" d ∈ before ∧ (n = m ∨ n = m ++ ".schema")

/-- A directory (existing or not) with nothing in it, that can be created. -/
structure EmptyDir (w : FileW) (path : Path) : Prop where
  noFile : ∀ n, w.fs.files (key path ++ [n]) = none
  noDir : ∀ n, w.fs.isDir (key path ++ [n]) = false
  parents : ∀ i, w.fs.files ((key path).take i) = none

end Flatdata.Spec
