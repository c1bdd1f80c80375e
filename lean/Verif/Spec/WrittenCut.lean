import Verif.Spec.Written
import Verif.Spec.Interrupt
/-!
# Under which schema data may be shown that have been written by an interrupted program
-/
namespace Flatdata.Spec

/-- `q` was to be written. What can be read may be `q'`: at the same place, under a beginning of the schema, the same data; or no data,
if the program writes the resource step by step. -/
def CutShort (prog : Prog) (q q' : Labelled Bytes) : Prop :=
  q'.1 = q.1 ∧ q'.2.1 = q.2.1 ∧ strBytes q'.2.2.1 <+: strBytes q.2.2.1 ∧
    (q'.2.2.2 = q.2.2.2 ∨ (q'.2.2.2 = [] ∧ ∃ r, Staged prog r ∧ (q.2.1 = r.name ∨ q.2.1 = r.name ++ "_index")))

end Flatdata.Spec
