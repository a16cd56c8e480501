import Verif.Spec.Lasting

/-! # Specification of heat that lasts -/

namespace Verif
variable [F : FloatModel]
open Dbl

/-- A loop with a proportional and an integral part. Its settings are of moderate size and its sample period is between 1/1024 s and 1024 s. -/
structure Integrating (c : PidConf) : Prop where
  hysteresis : c.checkHysterWithSetpt = false ∧ c.positiveHysteresis = 0 ∧ c.negativeHysteresis = 0
  terms : c.integralCoeff ≠ 0 ∧ c.derivativeCoeff = 0
  slew : c.slewNeg = 0 ∧ c.slewPos = 0
  limits : c.outLim.min ≤ c.outLim.max
  integralLimits : c.integralLimit.min ≤ c.integralLimit.max
  moderate : Moderate c.proportionalCoeff ∧ Moderate c.integralCoeff ∧ Moderate c.feedFwdOffset ∧ Moderate c.feedFwdGain
  moderateLimits : Moderate c.integralLimit.min ∧ Moderate c.integralLimit.max
  period : ∃ q h, c.ts = .fin q h ∧ 1 / 1024 ≤ q ∧ q ≤ 1024

/-- What such a loop asks for at input `x`, with set point `s`, when its integral is at its upper limit. -/
def woundUpAt (c : PidConf) (s x : Dbl) : Dbl :=
  limited (c.proportionalCoeff * (s - x) + c.integralLimit.max + (s + c.feedFwdOffset) * c.feedFwdGain) c.outLim.min c.outLim.max

/-- At input `x`, with set point `s`, `N` steps are enough for the integral to get from the lower to the upper limit: a
step adds at least `step` millionths. -/
def WindsUp (c : PidConf) (s x : Dbl) (N : Nat) : Prop :=
  ∃ low step : Int, -(2 ^ 53) ≤ low ∧ 0 ≤ step ∧ step ≤ 2 ^ 53 ∧ low + N * step ≤ 2 ^ 53 ∧ millionths low ≤ c.integralLimit.min ∧
    millionths step ≤ (s - x) * c.integralCoeff * c.ts ∧ c.integralLimit.max ≤ millionths (low + N * step)

end Verif
