import Verif.Model.DbusInit
import Verif.Spec.Build
import Verif.Spec.Json

/-! # Specification of the configuration over D-Bus -/

namespace Verif
variable [F : FloatModel]
open Dbl

/-! ## Attributes -/

/-- the attribute `k` has the value `x` -/
def Attr {α : Type} (p : ConfProps) (k : String) (R : ConfVariant → α → Prop) (x : α) : Prop :=
  ∃ v, p.find? k = some v ∧ R v x

/-- the attribute `k` has the value `x`, the default `d` if it is not given -/
def AttrOr {α : Type} (p : ConfProps) (k : String) (R : ConfVariant → α → Prop) (d x : α) : Prop :=
  Attr p k R x ∨ (p.find? k = none ∧ x = d)

def TextValue (v : ConfVariant) (s : String) : Prop := v = .str s
def FlagValue (v : ConfVariant) (b : Bool) : Prop := v = .bool b
def NamesValue (v : ConfVariant) (l : List String) : Prop := v = .strs l
def NumbersValue (v : ConfVariant) (l : List Dbl) : Prop := v = .dbls l
def NumberValue (v : ConfVariant) (d : Dbl) : Prop :=
  (∃ i, v = .int i ∧ d = Dbl.ofInt i) ∨ v = .dbl d ∨ (∃ b : Bool, v = .bool b ∧ d = if b then 1 else 0)

/-- a percentage loses its fraction -/
def PercentValue (v : ConfVariant) (d : Dbl) : Prop :=
  ∃ q h n, NumberValue v (.fin q h) ∧ Truncates q n ∧ -(2 ^ 31) ≤ n ∧ n ≤ 2 ^ 31 - 1 ∧ d = Dbl.ofInt n

/-- the configuration `p` applies with these profiles selected: it names none, or one of them -/
def Selected (sel : List String) (p : ConfProps) : Prop :=
  sel = [] ∨ p.find? "Profiles" = none ∨ ∃ l, Attr p "Profiles" NamesValue l ∧ (l = [] ∨ ∃ x ∈ l, x ∈ sel)

/-- `p` is a configuration of kind `interface` that applies -/
def Active (sel : List String) (objs : List ConfObj) (interface : String) (p : ConfProps) : Prop :=
  ∃ o ∈ objs, o.find? interface = some p ∧ Selected sel p

/-! ## Zones -/

/-- a cycle time: a number of milliseconds of at least 1 without its fraction, the default otherwise -/
def CycleAttr (zone : ConfProps) (k : String) (d n : Nat) : Prop :=
  (∃ q h, Attr zone k NumberValue (.fin q h) ∧ 1 ≤ q ∧ Truncates q n ∧ n < 2 ^ 64) ∨
  (n = d ∧ (zone.find? k = none ∨ ∃ x, Attr zone k NumberValue x ∧ ¬ (1 : Dbl) ≤ x))

/-- `zone` is the configuration for the settings `c` -/
structure ZoneSettings (zone : ConfProps) (c : ZoneConfig) : Prop where
  minThermalOutput : Attr zone "MinThermalOutput" NumberValue c.minThermalOutput
  failsafePercent : AttrOr zone "FailSafePercent" PercentValue 0 c.failsafePercent
  cycle : CycleAttr zone "CycleIntervalTimeMS" 100 c.cycleTime.cycleIntervalTimeMS
  thermals : CycleAttr zone "UpdateThermalsTimeMS" 1000 c.cycleTime.updateThermalsTimeMS
  accumulateSetPoint : AttrOr zone "AccumulateSetPoint" FlagValue false c.accumulateSetPoint

/-- no two zone configurations that apply have the same name -/
def DistinctZones (sel : List String) (objs : List ConfObj) : Prop :=
  objs.Pairwise (fun o o' => ∀ z z' n, o.find? "xyz.openbmc_project.Configuration.Pid.Zone" = some z → Selected sel z → o'.find? "xyz.openbmc_project.Configuration.Pid.Zone" = some z' →
    Selected sel z' → Attr z "Name" TextValue n → ¬ Attr z' "Name" TextValue n)

/-- the zone named `n` is configured with the number `k` -/
def WantsIndex (sel : List String) (objs : List ConfObj) (n : String) (k : Int) : Prop :=
  ∃ zone q h, Active sel objs "xyz.openbmc_project.Configuration.Pid.Zone" zone ∧ Attr zone "Name" TextValue n ∧
    zone.find? "ZoneIndex" = some (.dbl (.fin q h)) ∧ Truncates q k

/-! ## Inputs -/

/-- the sensors a name of the configuration stands for -/
def Matching (b : BusView) (n : String) : List (String × String) :=
  match b.regex ("/" ++ sensorNameToDbusName n ++ "$") with
  | some p => b.sensors.filter (fun s => p s.1)
  | none => []

/-- names of the sensors found for a list of names -/
def foundNames (b : BusView) (names : List String) : List String :=
  (names.flatMap (Matching b)).map (fun s => sensorNameFromPath s.1)

/-- the missing sensors a thermal loop still waits for, if missing objects are handled -/
def missingNames (b : BusView) (acceptable names : List String) : List String :=
  if b.handleMissing then (names.filter (fun n => Matching b n = [] ∧ n ∉ acceptable)).map sensorNameToDbusName else []

/-- the fans and their controls: one control for all of them, or one for each -/
inductive Pairs {α β : Type} : List α → List β → List (α × β) → Prop
  | one (fs : List α) (p : β) : Pairs fs [p] (fs.map (fun f => (f, p)))
  | each {fs : List α} {ps : List β} : fs.length = ps.length → Pairs fs ps (fs.zip ps)

/-- the names of the inputs of a PID configuration -/
inductive PidNames (b : BusView) (base : ConfProps) : List String → Prop
  | heat {cls inputs acceptable} : Attr base "Class" TextValue cls → cls ∈ ["temp", "margin", "power", "powersum"] →
      Attr base "Inputs" NamesValue inputs → AttrOr base "MissingIsAcceptable" NamesValue [] acceptable →
      PidNames b base (missingNames b acceptable inputs ++ foundNames b inputs)
  | fan {inputs outputs pairs} : Attr base "Class" TextValue "fan" → Attr base "Inputs" NamesValue inputs →
      Attr base "Outputs" NamesValue outputs → Pairs (inputs.flatMap (Matching b)) (outputs.flatMap (Matching b)) pairs →
      PidNames b base (pairs.map (fun p => sensorNameFromPath p.1.1 ++ sensorNameFromPath p.2.1))
  | other {cls inputs acceptable} : Attr base "Class" TextValue cls →
      cls ∉ ["fan", "temp", "margin", "power", "powersum"] →
      Attr base "Inputs" NamesValue inputs → AttrOr base "MissingIsAcceptable" NamesValue [] acceptable →
      PidNames b base (missingNames b acceptable inputs)

/-- the inputs with these names: margins by position, leniency by name -/
def Spliced (inputs : List SensorInput) (names : List String) (margins : List Dbl) (lenient : List String) : Prop :=
  inputs.map SensorInput.name = names ∧
  ∀ i (x : SensorInput), inputs[i]? = some x →
    x.convertTempToMargin = decide (i < margins.length) ∧ x.convertMarginZero = margins.getD i nan ∧
    x.missingIsAcceptable = decide (x.name ∈ lenient)

/-- `inputs` are the inputs of the PID configuration `base` -/
def PidInputs (b : BusView) (base : ConfProps) (inputs : List SensorInput) : Prop :=
  ∃ names margins acceptable, PidNames b base names ∧ AttrOr base "TempToMargin" NumbersValue [] margins ∧
    AttrOr base "MissingIsAcceptable" NamesValue [] acceptable ∧ Spliced inputs names margins (foundNames b acceptable)

/-! ## Sensors -/

/-- `t` is `s` with underscores for spaces -/
def Underscored (s t : String) : Prop :=
  List.Forall₂ (fun a b => (a = ' ' ∧ b = '_') ∨ (a ≠ ' ' ∧ b = a)) s.toList t.toList

/-- `n` is the last part of `path` -/
def LastPart (path n : String) : Prop := '/' ∉ n.toList ∧ (path = n ∨ ∃ dir, path = dir ++ "/" ++ n)

/-- the directory of the sensors of a class -/
inductive SensorDir : String → String → Prop
  | temp : SensorDir "temp" "/xyz/openbmc_project/sensors/temperature/"
  | margin : SensorDir "margin" "/xyz/openbmc_project/sensors/temperature/"
  | power : SensorDir "power" "/xyz/openbmc_project/sensors/power/"
  | powersum : SensorDir "powersum" "/xyz/openbmc_project/sensors/power/"
  | fan : SensorDir "fan" "/xyz/openbmc_project/sensors/fan_tach/"
  | other (type : String) : type ∉ ["temp", "margin", "power", "powersum", "fan"] →
      SensorDir type "/xyz/openbmc_project/sensors/unknown/"

/-- Where a sensor that is not there yet is expected. -/
def AwaitedAt (type name path : String) : Prop := ∃ dir, SensorDir type dir ∧ path = dir ++ name

/-- the settings of the sensor `n` fit a sensor on the bus -/
inductive SensorFits (b : BusView) (n : String) (c : SensorConfig) : Prop
  /-- a sensor whose path ends in its name -/
  | found (i : String) : (c.readPath, i) ∈ b.sensors → sensorNameFromPath c.readPath = n → c.type ≠ "fan" →
      c.ignoreDbusMinMax = true → c.timeout = 0 → SensorFits b n c
  /-- a sensor that is awaited -/
  | missing : b.handleMissing = true → AwaitedAt c.type n c.readPath → c.type ≠ "fan" →
      c.ignoreDbusMinMax = true → c.timeout = 0 → SensorFits b n c
  /-- a fan with its control -/
  | fan : (c.readPath, "xyz.openbmc_project.Sensor.Value") ∈ b.sensors → (c.writePath, "xyz.openbmc_project.Control.FanPwm") ∈ b.sensors → c.type = "fan" →
      n = sensorNameFromPath c.readPath ++ sensorNameFromPath c.writePath → c.min = 0 → c.max = 255 → c.timeout = 0 →
      SensorFits b n c

/-! ## Loops -/

/-- the settings of a PID loop other than its set point -/
structure PidSettings (base : ConfProps) (info : ControllerInfo) : Prop where
  type : Attr base "Class" TextValue info.type
  failSafePercent : AttrOr base "FailSafePercent" PercentValue 0 info.failSafePercent
  ts : info.pidInfo.ts = 1
  proportionalCoeff : Attr base "PCoefficient" NumberValue info.pidInfo.proportionalCoeff
  integralCoeff : Attr base "ICoefficient" NumberValue info.pidInfo.integralCoeff
  feedFwdOffset : Attr base "FFOffCoefficient" NumberValue info.pidInfo.feedFwdOffset
  feedFwdGain : Attr base "FFGainCoefficient" NumberValue info.pidInfo.feedFwdGain
  integralMax : Attr base "ILimitMax" NumberValue info.pidInfo.integralLimit.max
  integralMin : Attr base "ILimitMin" NumberValue info.pidInfo.integralLimit.min
  outMax : Attr base "OutLimitMax" NumberValue info.pidInfo.outLim.max
  outMin : Attr base "OutLimitMin" NumberValue info.pidInfo.outLim.min
  slewNeg : Attr base "SlewNeg" NumberValue info.pidInfo.slewNeg
  slewPos : Attr base "SlewPos" NumberValue info.pidInfo.slewPos
  checkHysterWithSetpt : AttrOr base "CheckHysteresisWithSetpoint" FlagValue false info.pidInfo.checkHysterWithSetpt
  negativeHysteresis : AttrOr base "NegativeHysteresis" NumberValue 0 info.pidInfo.negativeHysteresis
  positiveHysteresis : AttrOr base "PositiveHysteresis" NumberValue 0 info.pidInfo.positiveHysteresis
  derivativeCoeff : AttrOr base "DCoefficient" NumberValue 0 info.pidInfo.derivativeCoeff

/-- the configured set point: none for fans -/
def SetPointAttr (base : ConfProps) (x : Dbl) : Prop :=
  (Attr base "Class" TextValue "fan" ∧ x = 0) ∨
  (∃ cls, Attr base "Class" TextValue cls ∧ cls ≠ "fan" ∧ Attr base "SetPoint" NumberValue x)

/-- the interface of a threshold -/
def thresholdInterface (t : String) : String :=
  if t = "WarningHigh" ∨ t = "WarningLow" then "xyz.openbmc_project.Sensor.Threshold.Warning"
  else "xyz.openbmc_project.Sensor.Threshold.Critical"

/-- the loop `info`, listed as `n`, of the PID configuration `base` -/
inductive PidLoop (b : BusView) (base : ConfProps) (n : String) (info : ControllerInfo) : Prop
  /-- one loop over all inputs -/
  | plain (name : String) : Attr base "Name" TextValue name → n = sensorNameToDbusName name →
      base.find? "SetPointOffset" = none → PidSettings base info → SetPointAttr base info.setpoint →
      PidInputs b base info.inputs → PidLoop b base n info
  /-- a loop for every input, with the threshold of its (first) sensor added to its set point -/
  | offset (t : String) (x y : Dbl) (inputs : List SensorInput) (i j : SensorInput) (c : SensorConfig) :
      Attr base "SetPointOffset" TextValue t → t ∈ ["CriticalLow", "CriticalHigh", "WarningLow", "WarningHigh"] →
      PidSettings base info → SetPointAttr base x → info.inputs.head? = some j → SensorFits b j.name c →
      b.threshold (thresholdInterface t) c.readPath t = .ok y → info.setpoint = x + y →
      PidInputs b base inputs → i ∈ inputs → i.name = n → i ∈ info.inputs → PidLoop b base n info

/-- the names of the inputs of a stepwise configuration: without support for missing objects those before the first one
that is not found -/
def stepNames (b : BusView) (acceptable names : List String) : List String :=
  if b.handleMissing then
    names.flatMap (fun n => if Matching b n = [] then (if n ∈ acceptable then [] else [sensorNameToDbusName n])
      else foundNames b [n])
  else foundNames b (names.takeWhile (fun n => Matching b n ≠ []))

/-- the names a stepwise configuration lets be missing: without support for missing objects those before the first one
that is not found -/
def stepLenient (b : BusView) (acceptable : List String) : List String :=
  if b.handleMissing then foundNames b acceptable
  else foundNames b (acceptable.takeWhile (fun n => Matching b n ≠ []))

/-- a table of at most 20 points, ended by NaN -/
def TableOf (table : Fin maxStepwisePoints → Dbl) (l : List Dbl) : Prop :=
  (∀ (k : Fin maxStepwisePoints) (h : k.val < l.length), table k = l[k.val]) ∧
  ∀ k : Fin maxStepwisePoints, k.val = l.length → table k = nan

/-- the loop `info`, listed as `n`, of the stepwise configuration `base` -/
structure StepLoop (b : BusView) (base : ConfProps) (n : String) (info : ControllerInfo) : Prop where
  name : ∃ name, Attr base "Name" TextValue name ∧ n = sensorNameToDbusName name
  type : info.type = "stepwise"
  ts : info.stepwiseInfo.ts = 1
  isCeiling : ∃ cls, Attr base "Class" TextValue cls ∧ info.stepwiseInfo.isCeiling = decide (cls = "Ceiling")
  positiveHysteresis : AttrOr base "PositiveHysteresis" NumberValue 0 info.stepwiseInfo.positiveHysteresis
  negativeHysteresis : AttrOr base "NegativeHysteresis" NumberValue 0 info.stepwiseInfo.negativeHysteresis
  tables : ∃ rs os, Attr base "Reading" NumbersValue rs ∧ Attr base "Output" NumbersValue os ∧ 1 ≤ rs.length ∧
    rs.length ≤ 20 ∧ rs.length = os.length ∧ TableOf info.stepwiseInfo.reading rs ∧ TableOf info.stepwiseInfo.output os
  inputs : ∃ names margins acceptable, Attr base "Inputs" NamesValue names ∧
    AttrOr base "TempToMargin" NumbersValue [] margins ∧ AttrOr base "MissingIsAcceptable" NamesValue [] acceptable ∧
    Spliced info.inputs (stepNames b acceptable names) margins (stepLenient b acceptable)

/-- the loop `n` of zone `zone` comes from one of the configurations that apply -/
def LoopSource (b : BusView) (sel : List String) (objs : List ConfObj) (zone n : String) (info : ControllerInfo) : Prop :=
  (∃ base zones, Active sel objs "xyz.openbmc_project.Configuration.Pid" base ∧ Attr base "Zones" NamesValue zones ∧ zone ∈ zones ∧
    PidLoop b base n info) ∨
  (∃ base zones, Active sel objs "xyz.openbmc_project.Configuration.Stepwise" base ∧ Attr base "Zones" NamesValue zones ∧ zone ∈ zones ∧
    StepLoop b base n info)

end Verif
