import Verif.Spec.DbusInit

/-! # Specification of the sensors of configurations over D-Bus -/

namespace Verif
variable [F : FloatModel]

/-- `base` is a configuration that applies, of a loop other than a fan loop, and sensor `n` is one of its inputs, as a sensor
of type `type`. -/
inductive UsesSensor (b : BusView) (sel : List String) (objs : List ConfObj) (base : ConfProps) (n type : String) : Prop
  | pid {names} : Active sel objs "xyz.openbmc_project.Configuration.Pid" base → Attr base "Class" TextValue type →
      type ≠ "fan" → PidNames b base names → n ∈ names → UsesSensor b sel objs base n type
  | step {inputs acceptable} : Active sel objs "xyz.openbmc_project.Configuration.Stepwise" base → type = "temp" →
      Attr base "Inputs" NamesValue inputs → AttrOr base "MissingIsAcceptable" NamesValue [] acceptable →
      n ∈ stepNames b acceptable inputs → UsesSensor b sel objs base n type

/-- The configuration says whether its sensors count as failed while unavailable, and whether failures count while the host
is off. -/
structure FailureOptions (base : ConfProps) (unavailable hostOff : Bool) : Prop where
  unavailable : AttrOr base "InputUnavailableAsFailed" FlagValue true unavailable
  hostOff : AttrOr base "IgnoreFailIfHostOff" FlagValue false hostOff

/-- `base` is a fan configuration, and controls the fan at `fan` through `pwm`. -/
inductive FanPair (b : BusView) (base : ConfProps) (fan pwm : String) : Prop
  | mk {inputs outputs pairs i j} : Attr base "Class" TextValue "fan" → Attr base "Inputs" NamesValue inputs →
      Attr base "Outputs" NamesValue outputs → Pairs (inputs.flatMap (Matching b)) (outputs.flatMap (Matching b)) pairs →
      ((fan, i), (pwm, j)) ∈ pairs → FanPair b base fan pwm

/-- The fan at `fan` controlled through `pwm` is called `n`: the last parts of both paths. -/
def FanNamed (fan pwm n : String) : Prop := ∃ x y, LastPart fan x ∧ LastPart pwm y ∧ n = x ++ y

end Verif
