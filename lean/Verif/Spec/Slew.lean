import Verif.Spec.Lasting

/-! # Specification of loops with slew rates -/

namespace Verif
variable [F : FloatModel]
open Dbl

/-- A loop with a proportional part, a constant and slew rates. Its settings are of moderate size and its sample period is
between 1/1024 s and 1024 s. -/
structure Slewing (c : PidConf) : Prop where
  hysteresis : c.checkHysterWithSetpt = false ∧ c.positiveHysteresis = 0 ∧ c.negativeHysteresis = 0
  terms : c.integralCoeff = 0 ∧ c.derivativeCoeff = 0
  slew : c.slewNeg ≤ 0 ∧ 0 ≤ c.slewPos
  limits : c.outLim.min ≤ c.outLim.max
  moderate : Moderate c.proportionalCoeff ∧ Moderate c.feedFwdOffset ∧ Moderate c.feedFwdGain
  moderateSlew : Moderate c.slewNeg ∧ Moderate c.slewPos
  moderateLimits : Moderate c.outLim.min ∧ Moderate c.outLim.max
  period : ∃ q h, c.ts = .fin q h ∧ 1 / 1024 ≤ q ∧ q ≤ 1024

/-- `N + 1` steps are enough for the output to climb from the lower limit to `y`: a step may add `step` millionths. With slew
rate 0 the output is not limited at all. -/
def Climbs (c : PidConf) (y : Dbl) (N : Nat) : Prop :=
  c.slewPos = 0 ∨ ∃ low step : Int, -(2 ^ 53) ≤ low ∧ 0 ≤ step ∧ low + (N + 1) * step ≤ 2 ^ 53 ∧ step ≤ 2 ^ 53 ∧
    millionths low ≤ c.outLim.min ∧ millionths step ≤ c.slewPos * c.ts ∧ y ≤ millionths (low + (N + 1) * step)

end Verif
