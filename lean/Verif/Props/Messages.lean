import Verif.Props.Errors
import Verif.Proofs.Messages
import Verif.Spec.Messages
/-!
# C65: the texts of errors
-/
namespace Flatdata
open Spec StorageExample

/-! ## literals stand for one text -/

theorem Spec.hexValue_plain : ∀ {ds : List Char} {n m : Nat}, hexValue ds n = some m → '}' ∉ ds
  | [], _, _, _ => by simp
  | c :: cs, n, m, h => by
    unfold hexValue at h
    cases hd : hexDigit c with
    | none => rw [hd] at h; cases h
    | some d =>
      rw [hd] at h
      have h1 := hexValue_plain (show hexValue cs (16 * n + d) = some m from h)
      intro hm
      rcases List.mem_cons.mp hm with hm | hm
      · have h2 : hexDigit '}' = none := by decide
        rw [← hm, h2] at hd
        cases hd
      · exact h1 hm

theorem Spec.escapes_fun {x c c' : Char} (h : (x, c) ∈ escapes) (h' : (x, c') ∈ escapes) : c = c' := by
  simp only [escapes, List.mem_cons, Prod.mk.injEq, List.not_mem_nil, or_false] at h h'
  rcases h with h | h | h | h | h | h | h <;> rcases h' with h' | h' | h' | h' | h' | h' | h' <;>
    first
      | exact h.2.trans h'.2.symm
      | exact absurd (h.1.symm.trans h'.1) (by decide)

theorem Spec.escapes_u {x c : Char} (h : (x, c) ∈ escapes) : x ≠ 'u' := by
  simp only [escapes, List.mem_cons, Prod.mk.injEq, List.not_mem_nil, or_false] at h
  rcases h with h | h | h | h | h | h | h <;> (rw [h.1]; decide)

/-- The specification is not loose: a literal stands for one text. -/
theorem Spec.Literal.unique {t s s' : List Char} (h : Literal t s) (h' : Literal t s') : s = s' := by
  induction h generalizing s' with
  | nil => cases h'; rfl
  | plain h1 h2 _ ih =>
    cases h' with
    | plain _ _ h' => rw [ih h']
    | escape => exact absurd rfl h2
    | unicode => exact absurd rfl h2
  | @escape x c t s hx _ ih =>
    generalize hl : '\\' :: x :: t = l at h'
    cases h' with
    | nil => cases hl
    | plain _ h2 => exact absurd (List.cons.inj hl).1.symm h2
    | escape hx' h' =>
      cases hl
      rw [escapes_fun hx hx', ih h']
    | unicode => exact absurd (List.cons.inj (List.cons.inj hl).2).1 (escapes_u hx)
  | @unicode ds c t s hd _ ih =>
    generalize hl : '\\' :: 'u' :: '{' :: (ds ++ '}' :: t) = l at h'
    cases h' with
    | nil => cases hl
    | plain _ h2 => exact absurd (List.cons.inj hl).1.symm h2
    | escape hx' => exact absurd (List.cons.inj (List.cons.inj hl).2).1.symm (escapes_u hx')
    | unicode hd' h' =>
      have h1 := (List.cons.inj (List.cons.inj (List.cons.inj hl).2).2).2
      obtain ⟨rfl, rfl⟩ := split_first (hexValue_plain hd) (hexValue_plain hd') h1
      rw [hd] at hd'
      rw [Char.toNat_inj.mp (Option.some.inj hd'), ih h']

/-! ## what is written is a literal -/

theorem hexValue_append : ∀ (a b : List Char) (n : Nat), hexValue (a ++ b) n = (hexValue a n).bind (hexValue b)
  | [], _, _ => rfl
  | c :: a, b, n => by
    rw [List.cons_append]
    unfold hexValue
    cases hexDigit c with
    | none => rfl
    | some d => exact hexValue_append a b _

theorem hexDigit_digitChar : ∀ a, a < 16 → hexDigit (Nat.digitChar a) = some a := by decide

theorem hexValue_toDigits (a : Nat) : hexValue (Nat.toDigits 16 a) 0 = some a := by
  induction a using Nat.strongRecOn with
  | _ a ih =>
    by_cases ha : a < 16
    · rw [Nat.toDigits_of_lt_base ha]
      simp [hexValue, hexDigit_digitChar a ha]
    · rw [Nat.toDigits_of_base_le (by decide) (by omega), hexValue_append, ih (a / 16) (by omega)]
      simp only [Option.bind_some, hexValue, hexDigit_digitChar (a % 16) (by omega)]
      congr 1
      omega

section
variable [EscapeDebug]

theorem literal_esc : ∀ s : List Char, Literal (s.flatMap EscapeDebug.esc) s
  | [] => .nil
  | c :: s => by
    rw [List.flatMap_cons]
    have h := esc_shape c
    generalize EscapeDebug.esc c = l at h
    cases h with
    | plain h1 h2 h3 => exact .plain h2 h3 (literal_esc s)
    | unicode =>
      unfold unicodeEscape
      simp only [List.append_assoc, List.cons_append, List.nil_append]
      exact .unicode (hexValue_toDigits _) (literal_esc s)
    | short x hx =>
      refine .escape ?_ (literal_esc s)
      simp only [escapes, List.mem_cons, Prod.mk.injEq, List.not_mem_nil, or_false] at hx ⊢
      rcases hx with hx | hx | hx | hx | hx | hx | hx <;> simp [hx.1, hx.2]

theorem quoted_literal (s : String) : IsLiteral (quoted s) s := ⟨_, by unfold quoted; simp, literal_esc _⟩

/-! ## C65 -/

/-- Different errors have different texts, whatever names and schemas contain. -/
theorem C65_distinct (io : IoErr → String) (u : String) (hio : ∀ e e', io e = io e' → e = e') (a b : RErr)
    (h : a.text io u = b.text io u) : a = b :=
  text_inj hio h

/-- The text of an error is one line, if those of the errors of the standard library are. -/
theorem C65_one_line (io : IoErr → String) (u : String) (hio : ∀ e, '\n' ∉ (io e).toList) (hu : '\n' ∉ u.toList) (y : RErr) :
    '\n' ∉ y.text io u := by
  have hq := fun s => quoted_no_newline s
  cases y <;> unfold RErr.text <;> simp [hq, hio, hu]

/-- The error names a resource: the text contains the name as a literal. -/
theorem quotes_name {io : IoErr → String} {u : String} {y : RErr} {n : String} (h : errorName y = some n) : Quotes (y.text io u) n := by
  cases y with
  | io e m =>
    cases h
    exact ⟨"Io(".toList ++ (io e).toList ++ ", ".toList, quoted n, ")".toList, rfl, quoted_literal n⟩
  | utf8 => cases h
  | missingSchema m => cases h; exact ⟨"MissingSchema(".toList, quoted n, ")".toList, rfl, quoted_literal n⟩
  | wrongSignature m d =>
    cases h
    refine ⟨"WrongSignature { resource_name: ".toList, quoted n, ", diff: ".toList ++ quoted d ++ " }".toList, ?_, quoted_literal n⟩
    unfold RErr.text
    simp only [List.append_assoc]
  | unexpectedDataSize => cases h

/-- The text of an error of reading contains the name of the resource, in quotes, exactly if the data have the right size and the stored
schema is a text. -/
theorem C65_named_exact [DiffLib] (io : IoErr → String) (u : String) (hu : '"' ∉ u.toList) (B : Backend) (p : Profile) (e : Endian)
    (o : B.Obj) (w w' : B.W) (name schema : String) (y : RErr) (h : Storage.read B p e o name schema w = (.err y, w')) :
    Quotes (y.text io u) name ↔ y ≠ .utf8 ∧ y ≠ .unexpectedDataSize := by
  have no : ∀ {t : List Char}, '"' ∉ t → ¬ Quotes t name := by
    rintro t ht ⟨a, l, b, rfl, t, rfl, _⟩
    exact ht (by simp)
  have hnm := (C49_names B p e o w w' y).1 name schema _ h rfl
  constructor
  · intro hq
    constructor <;> rintro rfl
    · refine no ?_ hq
      unfold RErr.text
      simp [hu]
    · exact no (show '"' ∉ "UnexpectedDataSize".toList by decide) hq
  · rintro ⟨h1, h2⟩
    cases hy : errorName y with
    | some n => exact hnm n hy ▸ quotes_name hy
    | none =>
      cases y with
      | utf8 => exact absurd rfl h1
      | unexpectedDataSize => exact absurd rfl h2
      | io => cases hy
      | missingSchema => cases hy
      | wrongSignature => cases hy

/-- Another schema (on disk: not empty) is stored: the text contains, in quotes, the name of the resource and then a diff of the schemas. -/
theorem C65_schemas_partial [DiffLib] (io : IoErr → String) (u : String) (k : Kind) (p : Profile) (e : Endian) (w : k.backend.W)
    (o : k.backend.Obj) (name expected found : String) (d x : Bytes) (hn : k.noFault w) (hl : d.length < 2 ^ 63)
    (hd : k.stored w o name = some d) (hx : Holds d x) (hc : k.stored w o (name ++ ".schema") = some (strBytes found))
    (mc : k.mappable (strBytes found)) (ud : k.unread w o name) (uc : k.unread w o (name ++ ".schema")) (hne : found ≠ expected) :
    ∃ y w' a l b l' c diff, Storage.read k.backend p e o name expected w = (.err y, w') ∧ y.text io u = a ++ l ++ b ++ l' ++ c ∧
      IsLiteral l name ∧ IsLiteral l' diff ∧ diffLeft diff = DiffLib.linesOf found ∧ diffRight diff = DiffLib.linesOf expected := by
  obtain ⟨diff, w', h, h1, h2⟩ := C18_wrong_signature_partial k p e w o name expected found d x hn hl hd hx hc mc ud uc hne
  exact ⟨_, w', "WrongSignature { resource_name: ".toList, quoted name, ", diff: ".toList, quoted diff, " }".toList, diff, h, rfl,
    quoted_literal _, quoted_literal _, h1, h2⟩

/-- A diff of several lines is not shown as it is. -/
theorem C65_diff_escaped (io : IoErr → String) (u : String) (name diff : String) (h : '\n' ∈ diff.toList) :
    ¬ diff.toList <:+: (RErr.wrongSignature name diff).text io u := by
  intro hi
  have hq := fun s => quoted_no_newline s
  have : '\n' ∈ (RErr.wrongSignature name diff).text io u := hi.subset h
  revert this
  unfold RErr.text
  simp [hq]

end

/-- C65, first part in full: the text of every error of reading contains the name of the resource. -/
def C65_claim : Prop :=
  ∀ (_ : DiffLib) (_ : EscapeDebug) (io : IoErr → String) (u : String) (k : Kind) (p : Profile) (e : Endian) (w w' : k.backend.W)
    (o : k.backend.Obj) (name schema : String) (y : RErr), k.Reachable w → k.noFault w →
    Storage.read k.backend p e o name schema w = (.err y, w') → Quotes (y.text io u) name

/-- C65, second part in full: the text shows the diff as it is. -/
def C65_diff_claim : Prop :=
  ∀ (_ : DiffLib) (_ : EscapeDebug) (io : IoErr → String) (u : String) (k : Kind) (p : Profile) (e : Endian) (w w' : k.backend.W)
    (o : k.backend.Obj) (name schema diff : String), k.Reachable w → k.noFault w →
    Storage.read k.backend p e o name schema w = (.err (.wrongSignature name diff), w') →
    diff.toList <:+: (RErr.wrongSignature name diff).text io u

namespace MessageExample

/-- A version that shows all characters but the five. -/
@[instance_reducible] def plainEscape : EscapeDebug where
  esc c := if c = '\t' then ['\\', 't'] else if c = '\r' then ['\\', 'r'] else if c = '\n' then ['\\', 'n']
    else if c = '"' then ['\\', '"'] else if c = '\\' then ['\\', '\\'] else [c]
  tab := rfl
  cr := rfl
  lf := rfl
  quote := rfl
  backslash := rfl
  other c h1 h2 h3 h4 h5 := by rw [if_neg h1, if_neg h2, if_neg h3, if_neg h4, if_neg h5]; exact .inl rfl

/-- A version that escapes everything it may. -/
@[instance_reducible] def fullEscape : EscapeDebug where
  esc c := if c = '\t' then ['\\', 't'] else if c = '\r' then ['\\', 'r'] else if c = '\n' then ['\\', 'n']
    else if c = '"' then ['\\', '"'] else if c = '\\' then ['\\', '\\'] else if c = '\'' then ['\\', '\'']
    else if c = '\x00' then ['\\', '0'] else if c < ' ' then unicodeEscape c else [c]
  tab := rfl
  cr := rfl
  lf := rfl
  quote := rfl
  backslash := rfl
  other c h1 h2 h3 h4 h5 := by
    rw [if_neg h1, if_neg h2, if_neg h3, if_neg h4, if_neg h5]
    split
    · exact .inr (.inr (.inl ⟨‹_›, rfl⟩))
    · split
      · exact .inr (.inr (.inr ⟨‹_›, rfl⟩))
      · split
        · exact .inr (.inl rfl)
        · exact .inl rfl

example : (@RErr.text plainEscape (fun _ => "NotFound") "" (.io .notFound "a\"b\n")) = "Io(NotFound, \"a\\\"b\\n\")".toList := by decide

example : (@RErr.text fullEscape (fun _ => "") "" (.wrongSignature "x'" "-a\n+\x1b")) =
    "WrongSignature { resource_name: \"x\\'\", diff: \"-a\\n+\\u{1b}\" }".toList := by decide

/-- The texts of the errors of the standard library (as an example). -/
def ioText : IoErr → String
  | .notFound => "Kind(NotFound)"
  | .alreadyExists => "Kind(AlreadyExists)"
  | .unexpectedEof => "Kind(UnexpectedEof)"
  | .invalidInput => "Kind(InvalidInput)"
  | .invalidData => "Kind(InvalidData)"
  | .other => "Kind(Other)"

theorem ioText_inj (e e' : IoErr) (h : ioText e = ioText e') : e = e' := by
  cases e <;> cases e' <;> first | rfl | exact absurd h (by decide)

theorem ioText_one_line (e : IoErr) : '\n' ∉ (ioText e).toList := by cases e <;> decide

/-- An error of reading a resource with a name made to look like another error. -/
example : (@RErr.text plainEscape ioText "" (.io .notFound "x")) ≠ (@RErr.text plainEscape ioText "" (.io .notFound "\"), \"x")) :=
  fun h => absurd (@C65_distinct plainEscape ioText "" ioText_inj _ _ h) (by decide)

example : '\n' ∉ (@RErr.text fullEscape ioText "" (.wrongSignature "a\nb" "-a\n+b")) :=
  @C65_one_line fullEscape ioText "" ioText_one_line (by decide) _

/-- Two resources, the first with a header only, the second with another schema. -/
def disk2 : FileW := disk0 [([['d'], ['x']], [1#8]), ([['d'], "x.schema".toList], strBytes "s"),
  ([['d'], ['y']], image [7#8]), ([['d'], "y.schema".toList], strBytes "s\nt")]

theorem short_read : (@Storage.read file .debug .little naiveDiff objD "x" "s" disk2).1 = .err .unexpectedDataSize := by decide +kernel

theorem other_read : (@Storage.read file .debug .little naiveDiff objD "y" "s" disk2).1 =
    .err (.wrongSignature "y" (@computeDiff naiveDiff "s\nt" "s")) := by decide +kernel

theorem other_diff : '\n' ∈ (@computeDiff naiveDiff "s\nt" "s").toList := by decide +kernel

theorem of_fst {α β : Type} {r : α × β} {a : α} (h : r.1 = a) : r = (a, r.2) := by rw [← h]

end MessageExample

open MessageExample

/-- Data of the wrong size are reported without a name. -/
theorem C65_refuted : ¬ C65_claim := by
  intro h
  have h1 := h naiveDiff plainEscape ioText "" .disk .debug .little disk2 _ objD "x" "s" _ (disk0_reachable _ _) (disk0_noFault _) (of_fst short_read)
  have h2 := (@C65_named_exact plainEscape naiveDiff ioText "" (by decide) file .debug .little objD disk2 _ "x" "s" _ (of_fst short_read)).mp h1
  exact h2.2 rfl

/-- The lines of a diff are run together in the text. -/
theorem C65_diff_refuted : ¬ C65_diff_claim := by
  intro h
  exact @C65_diff_escaped plainEscape ioText "" "y" _ other_diff
    (h naiveDiff plainEscape ioText "" .disk .debug .little disk2 _ objD "y" "s" _ (disk0_reachable _ _) (disk0_noFault _) (of_fst other_read))

namespace MessageExample

/-- The error about the other schema names its resource (non-vacuity of `C65_named_exact`). -/
example : Quotes (@RErr.text fullEscape ioText "" (.wrongSignature "y" (@computeDiff naiveDiff "s\nt" "s"))) "y" :=
  (@C65_named_exact fullEscape naiveDiff ioText "" (by decide) file .debug .little objD disk2 _ "y" "s" _ (of_fst other_read)).mpr
    ⟨fun h => (by cases h), fun h => (by cases h)⟩

example [EscapeDebug] [DiffLib] : ∃ y w' a l b l' c diff, Storage.read file .debug .little objD "y" "s" disk2 = (.err y, w') ∧
    y.text ioText "" = a ++ l ++ b ++ l' ++ c ∧ IsLiteral l "y" ∧ IsLiteral l' diff ∧
    diffLeft diff = DiffLib.linesOf "s\nt" ∧ diffRight diff = DiffLib.linesOf "s" :=
  C65_schemas_partial ioText "" .disk .debug .little disk2 objD "y" "s" "s\nt" (image [7#8]) [7#8] (disk0_noFault _) (by decide)
    (by decide +kernel) (holds_image _ (by decide)) (by decide +kernel) (by change strBytes "s\nt" ≠ []; decide) rfl rfl (by decide)

end MessageExample
end Flatdata
