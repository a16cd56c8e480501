import Verif.Model.Pid
import Verif.Model.Stepwise

/-! # Specifications for the PID and stepwise properties -/

namespace Verif
variable [F : FloatModel]
open Dbl

/-- "inside `[l.min, l.max]`, or NaN" -/
def InLimits (l : Limits) (x : Dbl) : Prop := x = nan ∨ (l.min ≤ x ∧ x ≤ l.max)

/-- Outputs of the bare PID computation over a history of (reading, set point) pairs. -/
def pidRun (info : PidInfo) : List (Dbl × Dbl) → List Dbl
  | [] => []
  | (r, s) :: h => (pid info r s).1 :: pidRun (pid info r s).2 h

/-- State of the bare PID computation after a history. -/
def pidAfter (info : PidInfo) : List (Dbl × Dbl) → PidInfo
  | [] => info
  | (r, s) :: h => pidAfter (pid info r s).2 h

/-- Outputs of a control loop (hysteresis included) over a history of (reading, set point) pairs. -/
def loopRun (c : PidCtl) : List (Dbl × Dbl) → List Dbl
  | [] => []
  | (r, s) :: h => (pidStep c s r).1 :: loopRun (pidStep c s r).2 h

/-- State of a control loop after a history. -/
def loopAfter (c : PidCtl) : List (Dbl × Dbl) → PidCtl
  | [] => c
  | (r, s) :: h => loopAfter (pidStep c s r).2 h

/-- A freshly configured loop: the last reading is NaN (pid/pidcontroller.hpp:84-85). -/
def freshLoop (c : PidConf) : PidCtl := { info := initializePIDStruct c, lastInput := nan }

/-- Slew rates of the right sign and a nonnegative sample period. -/
def SaneSlew (c : PidConf) : Prop := c.slewNeg ≤ 0 ∧ 0 ≤ c.slewPos ∧ 0 ≤ c.ts

/-- `x`, or the limit it is beyond -/
def limited (x lo hi : Dbl) : Dbl := if x < lo then lo else if hi < x then hi else x

/-- The unlimited PID sum for a state, reading and set point, as in the textbook:
proportional, integral (itself limited), derivative and feed-forward part. -/
def pidSum (i : PidInfo) (r s : Dbl) : Dbl :=
  i.proportionalCoeff * (s - r)
    + (if i.integralCoeff = 0 then 0
       else limited (i.integral + (s - r) * i.integralCoeff * i.ts) i.integralLimit.min i.integralLimit.max)
    + i.derivativeCoeff * (((s - r) - i.lastError) / i.ts)
    + (s + i.feedFwdOffset) * i.feedFwdGain

/-- Plain hysteresis, as a relation between the history of readings and the readings used: the reading used starts
as the first reading; the one used before stays in use while the current reading is within the band around it, and is
replaced by the current reading otherwise. `prev = none` before the first reading. -/
inductive HystTrack (pos neg : Dbl) : Option Dbl → List Dbl → List Dbl → Prop
  | nil (p) : HystTrack pos neg p [] []
  | first {r rs us} : HystTrack pos neg (some r) rs us → HystTrack pos neg none (r :: rs) (r :: us)
  | keep {u r rs us} : ¬ pos < r - u → ¬ neg < u - r → HystTrack pos neg (some u) rs us →
      HystTrack pos neg (some u) (r :: rs) (u :: us)
  | move {u r rs us} : (pos < r - u ∨ neg < u - r) → HystTrack pos neg (some r) rs us →
      HystTrack pos neg (some u) (r :: rs) (r :: us)

/-- Outputs of a stepwise controller over a history of readings. -/
def stepRun (info : StepwiseInfo) (st : StepState) : List Dbl → List Dbl
  | [] => []
  | x :: h => (stepwiseStep info st x).1 :: stepRun info (stepwiseStep info st x).2 h

/-- `n` is the number of listed points of the table: the first point always counts, the list ends at the first unset
(NaN) reading after it. -/
structure Listed (info : StepwiseInfo) (n : Nat) : Prop where
  pos : 1 ≤ n
  le : n ≤ 20
  set : ∀ i (h : i < 20), 1 ≤ i → i < n → info.reading ⟨i, h⟩ ≠ nan
  unset : ∀ h : n < 20, info.reading ⟨n, h⟩ = nan

/-! ## Textbook PID on rational numbers (for C06) -/

/-- parameters of a loop as rationals -/
structure QConf where
  kp : Rat
  ki : Rat
  kd : Rat
  ffo : Rat
  ffg : Rat
  ts : Rat

/-- sum of the errors of a history of (reading, set point) pairs -/
def errSum : List (Rat × Rat) → Rat
  | [] => 0
  | (r, s) :: h => (s - r) + errSum h

/-- error of the last pair of a history, or `e0` -/
def lastErr (e0 : Rat) : List (Rat × Rat) → Rat
  | [] => e0
  | (r, s) :: h => lastErr (s - r) h

/-- textbook output for the pair `(r, s)` following history `h`, starting from integral `i0` and last error `e0` -/
def textbookOut (c : QConf) (i0 e0 : Rat) (h : List (Rat × Rat)) (r s : Rat) : Rat :=
  c.kp * (s - r) + (i0 + c.ki * c.ts * (errSum h + (s - r))) + c.kd * (((s - r) - lastErr e0 h) / c.ts)
    + (s + c.ffo) * c.ffg

end Verif
