import Verif.Spec.Register
import Verif.Spec.Whole
import Verif.Spec.Build

/-! # Specification of fans nobody controls -/

namespace Verif
variable [F : FloatModel]

/-- A fan loop of the zone controls the fan `n`. -/
def Turns (conf : List Entry) (n : String) : Prop := ∃ e ∈ conf, IsFan e ∧ ∃ x ∈ e.2.inputs, x.name = n

/-- No failsafe percentage configured for the zone is below `v`. (A percentage of zero stands for that of the zone.) -/
def SafeFrom (v : Dbl) (zc : ZoneConfig) (conf : List Entry) : Prop :=
  v ≤ zc.failsafePercent ∧ ∀ e ∈ conf, e.2.failSafePercent = 0 ∨ v ≤ e.2.failSafePercent

/-- No zone exists, running or not. -/
def Whole.Bare (s : Whole) : Prop := s.all = []

/-- No zone exists from now on, whatever of the events has happened. -/
def BareThroughout (o : Opts) (s : Whole) (es : List WEvent) : Prop :=
  ∀ pre post x, es = pre ++ post → s.run o pre = .ok x → x.Bare

end Verif
