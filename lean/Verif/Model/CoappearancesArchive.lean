import Verif.Model.Coappearances
import Verif.Model.Archive
/-!
# The archives of the integration test, tests/coappearances/generated.rs:584-632

The texts of the schemas are shortened; they play no role other than being compared.
-/
namespace Flatdata.Coappearances

/-- tests/coappearances/generated.rs:602-608. -/
def VerticesData : Variadic :=
  ⟨"VerticesData", 4, 32, [(0#8, Nickname), (1#8, Description), (2#8, UnaryRelation), (3#8, BinaryRelation)]⟩

/-- Resources of `Statistics`, tests/coappearances/generated.rs:586-591. -/
def invariants : ResDecl := ⟨"invariants", "invariants : Invariants", false, .struct Invariants⟩
def vertexDegrees : ResDecl := ⟨"vertex_degrees", "vertex_degrees : vector< Degree >", false, .vector Degree⟩

/-- tests/coappearances/generated.rs:584-598. -/
def Statistics : ArchiveDef := .mk "Statistics" "archive Statistics" [invariants, vertexDegrees] .nil

/-- Resources of `Graph`, tests/coappearances/generated.rs:612-628. -/
def meta' : ResDecl := ⟨"meta", "meta : Meta", false, .struct Meta⟩
def vertices : ResDecl := ⟨"vertices", "vertices : vector< Character >", false, .vector Character⟩
def edges : ResDecl := ⟨"edges", "edges : vector< Coappearance >", false, .vector Coappearance⟩
def chapters : ResDecl := ⟨"chapters", "chapters : vector< Chapter >", false, .vector Chapter⟩
def verticesData : ResDecl := ⟨"vertices_data", "vertices_data : multivector", false, .multi VerticesData "vertices_data_index"⟩
def strings : ResDecl := ⟨"strings", "strings : raw_data", false, .raw⟩

/-- tests/coappearances/generated.rs:610-632. -/
def Graph : ArchiveDef := .mk "Graph" "archive Graph" [meta', vertices, edges, chapters, verticesData, strings]
  (.cons "statistics" true Statistics .nil)

end Flatdata.Coappearances
