import Verif.Base.Basic

/-!
# PID computation

Models `pid/ec/pid.hpp`, `pid/ec/pid.cpp`, `pid/util.cpp` and `PIDController::calPIDOutput` of
`pid/pidcontroller.cpp`. Core logging (`LogInit`, `LogContext`) does not influence the computation and is modelled
separately in `Verif/Model/CoreLog.lean`.
-/

namespace Verif
variable [F : FloatModel]

/-- `ec::limits_t`, pid/ec/pid.hpp:10-14 -/
structure Limits where
  min : Dbl
  max : Dbl

/-- `ec::pidinfo` (configuration), pid/ec/pid.hpp:48-65 -/
structure PidConf where
  checkHysterWithSetpt : Bool
  ts : Dbl
  proportionalCoeff : Dbl
  integralCoeff : Dbl
  derivativeCoeff : Dbl
  feedFwdOffset : Dbl
  feedFwdGain : Dbl
  integralLimit : Limits
  outLim : Limits
  slewNeg : Dbl
  slewPos : Dbl
  positiveHysteresis : Dbl
  negativeHysteresis : Dbl

/-- `ec::pid_info_t`, pid/ec/pid.hpp:19-42: configuration fields plus the state carried between calls. -/
structure PidInfo extends PidConf where
  initialized : Bool
  integral : Dbl
  lastOutput : Dbl
  lastError : Dbl

/-- The state a controller starts with: the constructor of `PIDController` (pid/pidcontroller.hpp:21-42) zeroes
everything and `initializePIDStruct` (pid/util.cpp:14-31) copies the configuration fields. -/
def initializePIDStruct (c : PidConf) : PidInfo :=
  { toPidConf := c, initialized := false, integral := 0, lastOutput := 0, lastError := 0 }

/-- `clamp`, pid/ec/pid.cpp:20-31 -/
def clamp (x min max : Dbl) : Dbl :=
  if x < min then min
  else if max < x then max
  else x

/-- `x != 0.0f`, pid/ec/pid.cpp:81, 123, 136 and 150 -/
def nonZero (x : Dbl) : Bool := !(Dbl.eqb x 0)

/-- `ec::pid`, pid/ec/pid.cpp:37-179 (without the logging of intermediate values). Returns the output and the
updated state. -/
def pid (info : PidInfo) (input setpoint : Dbl) : Dbl × PidInfo :=
  -- 73-74
  let error := setpoint - input
  let proportionalTerm := info.proportionalCoeff * error
  -- 64, 81-90
  let integralTerm :=
    if nonZero info.integralCoeff then
      clamp (info.integral + error * info.integralCoeff * info.ts) info.integralLimit.min info.integralLimit.max
    else 0
  -- 95-96
  let derivativeTerm := info.derivativeCoeff * ((error - info.lastError) / info.ts)
  -- 101-102
  let feedFwdTerm := (setpoint + info.feedFwdOffset) * info.feedFwdGain
  -- 106-110
  let output := proportionalTerm + integralTerm + derivativeTerm + feedFwdTerm
  let output := clamp output info.outLim.min info.outLim.max
  -- 121-156
  let minOut := info.lastOutput + info.slewNeg * info.ts
  let output := if info.initialized && nonZero info.slewNeg then (if output < minOut then minOut else output) else output
  let maxOut := info.lastOutput + info.slewPos * info.ts
  let output := if info.initialized && nonZero info.slewPos then (if maxOut < output then maxOut else output) else output
  let integralTerm :=
    if info.initialized && (nonZero info.slewNeg || nonZero info.slewPos) then output - proportionalTerm
    else integralTerm
  -- 163-168
  let integralTerm := clamp integralTerm info.integralLimit.min info.integralLimit.max
  (output, { info with integral := integralTerm, initialized := true, lastError := error, lastOutput := output })

/-- Mutable state of a `PIDController` that `calPIDOutput` touches: the PID state and `lastInput`
(pid/pidcontroller.hpp:81-85). -/
structure PidCtl where
  info : PidInfo
  lastInput : Dbl

/-- `PIDController::calPIDOutput`, pid/pidcontroller.cpp:13-86 -/
def calPIDOutput (c : PidCtl) (setpt input : Dbl) : Dbl × PidCtl :=
  if c.info.checkHysterWithSetpt then
    if setpt + c.info.positiveHysteresis < input then
      -- 22-31
      let (output, info) := pid c.info input setpt
      (output, { info := { info with lastOutput := output }, lastInput := input })
    else if input < setpt - c.info.negativeHysteresis then
      -- 33-38
      (0, { info := { c.info with integral := 0, lastOutput := 0 }, lastInput := setpt })
    else
      -- 40-44
      (c.info.lastOutput, { c with lastInput := input })
  else if Dbl.eqb c.info.positiveHysteresis 0 && Dbl.eqb c.info.negativeHysteresis 0 then
    -- 51-60
    let (output, info) := pid c.info input setpt
    (output, { info := info, lastInput := input })
  else
    -- 65-81
    let lastInput :=
      if !c.lastInput.isFinite then input
      else if c.info.positiveHysteresis < input - c.lastInput then input
      else if c.info.negativeHysteresis < c.lastInput - input then input
      else c.lastInput
    let (output, info) := pid c.info lastInput setpt
    (output, { info := info, lastInput := lastInput })

/-- The numeric core of `PIDController::process`, pid/pidcontroller.cpp:88-111: after `calPIDOutput` the output is
stored once more as `lastOutput` (line 105). -/
def pidStep (c : PidCtl) (setpt input : Dbl) : Dbl × PidCtl :=
  let (output, c') := calPIDOutput c setpt input
  (output, { c' with info := { c'.info with lastOutput := output } })

end Verif
