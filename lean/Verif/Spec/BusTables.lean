import Verif.Spec.BusWritten
import Verif.Spec.Demand

/-! # Specification of zones on the bus that may add up set points -/

namespace Verif
variable [F : FloatModel]

/-- All loops of the zone that compute set points are stepwise loops with rising tables and without outputs below zero. -/
structure BusTables (A : String → ConfProps → Prop) (zone : String) : Prop where
  pids : ∀ base, ForZone A "xyz.openbmc_project.Configuration.Pid" zone base → ∀ cls ∈ heatTypes, ¬ Attr base "Class" TextValue cls
  tables : ∀ base, ForZone A "xyz.openbmc_project.Configuration.Stepwise" zone base → ∀ rs os, Attr base "Reading" NumbersValue rs →
    Attr base "Output" NumbersValue os → rs.Pairwise (· < ·) ∧ os.Pairwise (· ≤ ·) ∧ ∀ y ∈ os, 0 ≤ y

end Verif
