import Verif.Spec.Struct
/-!
# The schema used by the repository's own integration test

tests/coappearances/generated.rs: the struct definitions, as concrete instances for examples.
-/
namespace Flatdata.Coappearances

/-- tests/coappearances/generated.rs:469-476 -/
def Meta : StructDef := ⟨"Meta", 8, [.plain "title_ref" .u32 0 32, .plain "author_ref" .u32 32 32]⟩
/-- tests/coappearances/generated.rs:479-485 -/
def Character : StructDef := ⟨"Character", 4, [.plain "name_ref" .u32 0 32]⟩
/-- tests/coappearances/generated.rs:492-501 -/
def Coappearance : StructDef := ⟨"Coappearance", 8, [.plain "a_ref" .u32 0 16, .plain "b_ref" .u32 16 16,
  .plain "count" .u32 32 16, .plain "first_chapter_ref" .u32 48 16]⟩
/-- tests/coappearances/generated.rs:504-510 -/
def Nickname : StructDef := ⟨"Nickname", 4, [.plain "ref_" .u32 0 32]⟩
/-- tests/coappearances/generated.rs:513-519 -/
def Description : StructDef := ⟨"Description", 4, [.plain "ref_" .u32 0 32]⟩
/-- tests/coappearances/generated.rs:522-529 -/
def UnaryRelation : StructDef := ⟨"UnaryRelation", 6, [.plain "kind_ref" .u32 0 32, .plain "to_ref" .u32 32 16]⟩
/-- tests/coappearances/generated.rs:532-540 -/
def BinaryRelation : StructDef := ⟨"BinaryRelation", 8, [.plain "kind_ref" .u32 0 32, .plain "to_a_ref" .u32 32 16,
  .plain "to_b_ref" .u32 48 16]⟩
/-- tests/coappearances/generated.rs:543-550 -/
def Chapter : StructDef := ⟨"Chapter", 2, [.plain "major" .u8 0 4, .plain "minor" .u8 4 7]⟩
/-- tests/coappearances/generated.rs:553-563 -/
def Invariants : StructDef := ⟨"Invariants", 10, [.plain "max_degree" .u32 0 16, .plain "max_degree_ref" .u32 16 16,
  .plain "min_degree" .u32 32 16, .plain "min_degree_ref" .u32 48 16, .plain "num_connected_components" .u32 64 16]⟩
/-- tests/coappearances/generated.rs:566-572 -/
def Degree : StructDef := ⟨"Degree", 2, [.plain "value" .u32 0 16]⟩
/-- tests/coappearances/generated.rs:575-582 -/
def IndexType32 : StructDef := indexDef "IndexType32" 4 32

end Flatdata.Coappearances

namespace Flatdata.Spec

/-- Numeric part of `FieldOK`, for fields without enum type. -/
def plainOK (size : Nat) (f : Field) : Bool :=
  decide (1 ≤ f.bits) && decide (f.bits ≤ f.ty.bits) && decide (f.off + f.bits ≤ 8 * size) &&
    (f.encSigned == f.ty.signed) && f.variants.isNone

theorem fieldOK_of_plainOK {size : Nat} {f : Field} (h : plainOK size f = true) : FieldOK size f := by
  simp only [plainOK, Bool.and_eq_true, decide_eq_true_eq, beq_iff_eq, Option.isNone_iff_eq_none] at h
  obtain ⟨⟨⟨⟨h1, h2⟩, h3⟩, h4⟩, h5⟩ := h
  exact ⟨h1, h2, h3, h4, by intro l hl; rw [h5] at hl; cases hl⟩

instance (f g : Field) : Decidable (Disjoint f g) := by unfold Disjoint; infer_instance

theorem wf_of_plain {S : StructDef} (h : (S.fields.all (plainOK S.size)) = true)
    (hd : S.fields.Pairwise Disjoint) : WF S :=
  ⟨fun f hf => fieldOK_of_plainOK (List.all_eq_true.mp h f hf), hd⟩

end Flatdata.Spec
