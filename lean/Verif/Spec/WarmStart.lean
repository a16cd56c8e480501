import Verif.Spec.Demand
import Verif.Spec.Whole

/-! # Specification of heat at a start -/

namespace Verif
variable [F : FloatModel]

/-- One of the sensors `names` has a reading with property `hot` right now. -/
def ReadsNow (names : List String) (hot : Dbl → Prop) (w : World) : Prop :=
  ∃ n ∈ names, ∃ s r, w.sensors.find? n = some s ∧ s.read w w.nowThermals = .ok r ∧ hot r.value

end Verif
