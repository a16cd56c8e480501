import Verif.Spec.Daemon
import Verif.Spec.Demand
import Verif.Spec.Ranges
import Verif.Spec.SlowFans

/-! # Specification of settings with which the daemon never stops -/

namespace Verif
variable [F : FloatModel]
open Dbl

/-- Settings of a fan loop of moderate size: output limits that are percentages, slew rates that point the right way, and a sample
period between 1/1024 s and 1024 s. All parts of the loop may be in use: integral, derivative, hysteresis and slew rates. -/
structure ModerateFan (c : PidConf) : Prop where
  limits : FanLimits c
  terms : Moderate c.proportionalCoeff ∧ Moderate c.integralCoeff ∧ Moderate c.derivativeCoeff
  feedForward : Moderate c.feedFwdOffset ∧ Moderate c.feedFwdGain
  integralLimits : Moderate c.integralLimit.min ∧ Moderate c.integralLimit.max
  slewRates : Moderate c.slewNeg ∧ Moderate c.slewPos
  period : ∃ q h, c.ts = .fin q h ∧ 1 / 1024 ≤ q ∧ q ≤ 1024

/-- A zone whose set points are bounded whatever its sensors say, with fan loops of moderate settings. -/
structure BoundedZone (c : ZoneConfig) (conf : List Entry) : Prop where
  single : c.accumulateSetPoint = false
  ceilings : ∀ e ∈ conf, e.2.type = "stepwise" → e.2.stepwiseInfo.isCeiling = false
  bound : ∃ y, 0 ≤ y ∧ Moderate y ∧ c.minThermalOutput ≤ y ∧ ∀ e ∈ conf, IsHeat e → Capped e y
  fans : ∀ f ∈ conf, IsFan f → ModerateFan f.2.pidInfo
  failsafe : (∀ e ∈ conf, Percentage e.2.failSafePercent) ∧ Percentage c.failsafePercent

/-- The events that only bring messages with properties of the right types. -/
def WellTyped : DEvent → Prop
  | .signal _ _ m => ¬ WrongType m
  | _ => True

end Verif
