import Verif.Spec.Pid

/-! # Specification of a control loop without rounding -/

namespace Verif

/-- the settings of a loop as exact numbers -/
structure Gains where
  proportional : ℚ
  integral : ℚ
  derivative : ℚ
  offset : ℚ
  gain : ℚ
  period : ℚ
  sumMin : ℚ
  sumMax : ℚ
  outMin : ℚ
  outMax : ℚ
  down : ℚ
  up : ℚ

/-- the state of a loop as exact numbers: the integral, the last output and the last error -/
structure Exactly where
  sum : ℚ
  last : ℚ
  error : ℚ
  started : Bool

def Exactly.start : Exactly := ⟨0, 0, 0, false⟩

/-- the number in the range nearest to `x` -/
def nearest (lo hi x : ℚ) : ℚ := max lo (min hi x)

/-- the sum of the terms -/
def Gains.total (g : Gains) (s : Exactly) (reading setpoint : ℚ) : ℚ :=
  g.proportional * (setpoint - reading) +
  (if g.integral = 0 then 0 else nearest g.sumMin g.sumMax (s.sum + (setpoint - reading) * g.integral * g.period)) +
  g.derivative * ((setpoint - reading - s.error) / g.period) +
  (setpoint + g.offset) * g.gain

/-- the output: the sum within its limits, and not further from the last output than the slew rates allow -/
def Gains.out (g : Gains) (s : Exactly) (reading setpoint : ℚ) : ℚ :=
  let o := nearest g.outMin g.outMax (g.total s reading setpoint)
  let o := if s.started ∧ g.down ≠ 0 then max o (s.last + g.down * g.period) else o
  if s.started ∧ g.up ≠ 0 then min o (s.last + g.up * g.period) else o

/-- the state afterwards; with slew rates the integral is what the output leaves for it -/
def Gains.next (g : Gains) (s : Exactly) (reading setpoint : ℚ) : Exactly where
  sum := nearest g.sumMin g.sumMax
    (if s.started ∧ (g.down ≠ 0 ∨ g.up ≠ 0) then g.out s reading setpoint - g.proportional * (setpoint - reading)
     else if g.integral = 0 then 0 else nearest g.sumMin g.sumMax (s.sum + (setpoint - reading) * g.integral * g.period))
  last := g.out s reading setpoint
  error := setpoint - reading
  started := true

/-- the outputs for readings and set points -/
def Gains.outputs (g : Gains) : Exactly → List (ℚ × ℚ) → List ℚ
  | _, [] => []
  | s, (r, sp) :: h => g.out s r sp :: g.outputs (g.next s r sp) h

/-- How large numbers become: set points and errors up to `R`, each term of the sum and each limit up to `K`. The period is
positive and at most 1000 seconds; slew rates have the right sign. -/
structure SizedGains (g : Gains) (R K : ℚ) : Prop where
  R1 : 1 ≤ R
  K1 : 1 ≤ K
  K2 : K ≤ 2 ^ 200
  R2 : R ≤ 2 ^ 200
  offset : |g.offset| ≤ 2 ^ 200
  integralCoeff : |g.integral| * R ≤ 2 ^ 200
  rate : R ≤ g.period * 2 ^ 200
  period : 0 < g.period
  period_le : g.period ≤ 1000
  proportional : |g.proportional| * R ≤ K
  integral : |g.integral| * R * g.period ≤ K
  derivative : |g.derivative| * (2 * R) ≤ K * g.period
  feedForward : (R + |g.offset|) * |g.gain| ≤ K
  sums : g.sumMin ≤ g.sumMax ∧ -K ≤ g.sumMin ∧ g.sumMax ≤ K
  outs : g.outMin ≤ g.outMax ∧ -K ≤ g.outMin ∧ g.outMax ≤ K
  down : g.down ≤ 0 ∧ -K ≤ g.down * g.period
  up : 0 ≤ g.up ∧ g.up * g.period ≤ K

section
variable [F : FloatModel]

/-- the double `d` is the number `q` -/
def DoubleOf (d : Dbl) (q : ℚ) : Prop := ∃ h, d = .fin q h

/-- The settings of the loop are these numbers, without hysteresis. -/
structure HasGains (c : PidConf) (g : Gains) : Prop where
  check : c.checkHysterWithSetpt = false
  plus : c.positiveHysteresis = 0
  minus : c.negativeHysteresis = 0
  proportional : DoubleOf c.proportionalCoeff g.proportional
  integral : DoubleOf c.integralCoeff g.integral
  derivative : DoubleOf c.derivativeCoeff g.derivative
  offset : DoubleOf c.feedFwdOffset g.offset
  gain : DoubleOf c.feedFwdGain g.gain
  period : DoubleOf c.ts g.period
  sumMin : DoubleOf c.integralLimit.min g.sumMin
  sumMax : DoubleOf c.integralLimit.max g.sumMax
  outMin : DoubleOf c.outLim.min g.outMin
  outMax : DoubleOf c.outLim.max g.outMax
  down : DoubleOf c.slewNeg g.down
  up : DoubleOf c.slewPos g.up
end

end Verif
