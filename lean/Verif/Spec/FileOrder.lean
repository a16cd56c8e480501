import Verif.Spec.Startup

/-! # Specification of configuration files that mean the same -/

namespace Verif
variable [F : FloatModel]

/-- The settings `ks` are given with the same values, or given in neither. -/
def SameSettings (ks : List String) (j j' : Json) : Prop := ∀ k ∈ ks, ∀ v, Member j k v ↔ Member j' k v

/-- Two lists have the same entries up to `R`, in any order, and no two of them have the same name. -/
def Rearranged {κ : Type} (R : Json → Json → Prop) (N : Json → κ → Prop) (es es' : List Json) : Prop :=
  (∃ mid, es.Perm mid ∧ List.Forall₂ R mid es') ∧ es.Pairwise (fun a b => ∀ n, ¬ (N a n ∧ N b n))

/-- Sensor entries with the same documented settings. -/
def SensorAlike : Json → Json → Prop := SameSettings ["name", "type", "readPath", "writePath", "min", "max", "timeout",
  "ignoreDbusMinMax", "unavailableAsFailed", "ignoreFailIfHostOff"]

/-- The numbers of loops with the same documented settings. -/
def NumbersAlike : Json → Json → Prop := SameSettings ["samplePeriod", "proportionalCoeff", "integralCoeff",
  "feedFwdOffsetCoeff", "feedFwdGainCoeff", "integralLimit_min", "integralLimit_max", "outLim_min", "outLim_max", "slewNeg",
  "slewPos", "derivativeCoeff", "positiveHysteresis", "negativeHysteresis", "checkHysteresisWithSetpoint", "isCeiling",
  "reading", "output"]

/-- Loop entries with the same documented settings. -/
def LoopAlike (e e' : Json) : Prop :=
  SameSettings ["name", "type", "inputs", "tempToMargin", "missingIsAcceptable", "setpoint", "FailSafePercent"] e e' ∧
    ∃ p p', Member e "pid" p ∧ Member e' "pid" p' ∧ NumbersAlike p p'

/-- Zone entries with the same documented settings and the same loops in any order. -/
def ZoneAlike (z z' : Json) : Prop :=
  SameSettings ["id", "minThermalOutput", "failsafePercent", "cycleIntervalTimeMS", "updateThermalsTimeMS",
    "accumulateSetPoint"] z z' ∧
    ∃ ls ls', Member z "pids" (.arr ls) ∧ Member z' "pids" (.arr ls') ∧ Rearranged LoopAlike Named ls ls'

/-- Configuration files with the same sensors, zones and loops, in any order. -/
def FileAlike (data data' : Json) : Prop :=
  (∃ ss ss', Member data "sensors" (.arr ss) ∧ Member data' "sensors" (.arr ss') ∧ Rearranged SensorAlike Named ss ss') ∧
    ∃ zs zs', Member data "zones" (.arr zs) ∧ Member data' "zones" (.arr zs') ∧ Rearranged ZoneAlike Numbering zs zs'

end Verif
