import Verif.Spec.WarmFan
import Verif.Spec.Written

/-! # Specification of zones in the file that may add up set points -/

namespace Verif
variable [F : FloatModel]

/-- All loops of the zone entry that compute set points are stepwise loops with rising tables and without outputs below zero. -/
def FileTables (zone : Json) : Prop :=
  ∀ type ∈ heatTypes, ∀ l, LoopIn zone type l → type = "stepwise" ∧
    ∀ p info, Member l "pid" p → StepEntry p info → (∃ n, RisingTable info n) ∧ 0 ≤ info.output 0

end Verif
