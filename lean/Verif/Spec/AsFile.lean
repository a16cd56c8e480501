import Verif.Lemmas.OMap
import Verif.Model.Startup

/-!
# Configurations written as files

How a configuration (main.cpp:55-59) is written down as the contents of a `config.json`, following the keys documented in
configure.md:32-340, and which configurations can be written. Nothing here refers to how the daemon reads a file.
-/

namespace Verif
variable [F : FloatModel]

/-- What the text of a JSON file can hold: integers of 64 bits, finite numbers, and objects with every key once (listed in
the order of the library's map). -/
inductive Json.Real : Json → Prop
  | null : Json.Real .null
  | bool (b : Bool) : Json.Real (.bool b)
  | int {i : Int} (h : -(2 ^ 63) ≤ i) (h' : i < 2 ^ 64) : Json.Real (.int i)
  | float {d : Dbl} (h : d.isFinite = true) : Json.Real (.float d)
  | str (s : String) : Json.Real (.str s)
  | arr {xs : List Json} (h : ∀ x ∈ xs, Json.Real x) : Json.Real (.arr xs)
  | obj {l : List (String × Json)} (h : ∀ m ∈ l, Json.Real m.2) (hs : l.Pairwise (fun a b => a.1 < b.1)) : Json.Real (.obj l)

/-- a sensor -/
def SensorConfig.asJson (name : String) (s : SensorConfig) : Json :=
  .obj [("ignoreDbusMinMax", .bool s.ignoreDbusMinMax), ("ignoreFailIfHostOff", .bool s.ignoreFailIfHostOff),
        ("max", .int s.max), ("min", .int s.min), ("name", .str name), ("readPath", .str s.readPath),
        ("timeout", .int s.timeout), ("type", .str s.type), ("unavailableAsFailed", .bool s.unavailableAsFailed),
        ("writePath", .str s.writePath)]

/-- the settings of a PID loop -/
def PidConf.asJson (p : PidConf) : Json :=
  .obj [("checkHysteresisWithSetpoint", .bool p.checkHysterWithSetpt), ("derivativeCoeff", .float p.derivativeCoeff),
        ("feedFwdGainCoeff", .float p.feedFwdGain), ("feedFwdOffsetCoeff", .float p.feedFwdOffset),
        ("integralCoeff", .float p.integralCoeff), ("integralLimit_max", .float p.integralLimit.max),
        ("integralLimit_min", .float p.integralLimit.min), ("negativeHysteresis", .float p.negativeHysteresis),
        ("outLim_max", .float p.outLim.max), ("outLim_min", .float p.outLim.min),
        ("positiveHysteresis", .float p.positiveHysteresis), ("proportionalCoeff", .float p.proportionalCoeff),
        ("samplePeriod", .float p.ts), ("slewNeg", .float p.slewNeg), ("slewPos", .float p.slewPos)]

/-- the numbers of the points in the order of their decimal texts -/
def pointOrder : List (Fin maxStepwisePoints) := [0, 1, 10, 11, 12, 13, 14, 15, 16, 17, 18, 19, 2, 3, 4, 5, 6, 7, 8, 9]

/-- the points of a table that are there -/
def pointsAsJson (f : Fin maxStepwisePoints → Dbl) : Json :=
  .obj ((pointOrder.filter (fun i => !(f i).isNaN)).map (fun i => (toString i.val, .float (f i))))

/-- the settings of a stepwise loop -/
def StepwiseInfo.asJson (s : StepwiseInfo) : Json :=
  .obj [("isCeiling", .bool s.isCeiling), ("negativeHysteresis", .float s.negativeHysteresis), ("output", pointsAsJson s.output),
        ("positiveHysteresis", .float s.positiveHysteresis), ("reading", pointsAsJson s.reading), ("samplePeriod", .float s.ts)]

/-- a loop -/
def ControllerInfo.asJson (name : String) (c : ControllerInfo) : Json :=
  .obj [("FailSafePercent", .float c.failSafePercent), ("inputs", .arr (c.inputs.map (fun i => .str i.name))),
        ("missingIsAcceptable", .arr ((c.inputs.filter SensorInput.missingIsAcceptable).map (fun i => .str i.name))),
        ("name", .str name), ("pid", if c.type = "stepwise" then c.stepwiseInfo.asJson else c.pidInfo.asJson),
        ("setpoint", .float c.setpoint),
        ("tempToMargin", .arr ((c.inputs.filter SensorInput.convertTempToMargin).map (fun i => .float i.convertMarginZero))),
        ("type", .str c.type)]

/-- a zone with its loops -/
def ZoneConfig.asJson (id : Int) (loops : PIDConf) (z : ZoneConfig) : Json :=
  .obj [("accumulateSetPoint", .bool z.accumulateSetPoint), ("cycleIntervalTimeMS", .int z.cycleTime.cycleIntervalTimeMS),
        ("failsafePercent", .float z.failsafePercent), ("id", .int id), ("minThermalOutput", .float z.minThermalOutput),
        ("pids", .arr (loops.entries.map (fun e => e.2.asJson e.1))),
        ("updateThermalsTimeMS", .int z.cycleTime.updateThermalsTimeMS)]

/-- The file: all sensors, and the zones that have loops. -/
def Config.asFile (c : Config) : Json :=
  .obj [("sensors", .arr (c.sensors.entries.map (fun e => e.2.asJson e.1))),
        ("zones", .arr (c.pids.entries.map (fun e => ((c.zones.find? e.1).getD ⟨0, 0, ⟨100, 1000⟩, false⟩).asJson e.1 e.2)))]

/-! ## What can be written -/

/-- a number of 64 bits -/
def Fits64 (i : Int) : Prop := -(2 ^ 63) ≤ i ∧ i < 2 ^ 63

/-- a sensor: only fans have limits -/
structure SensorConfig.Expressible (s : SensorConfig) : Prop where
  min : Fits64 s.min
  max : Fits64 s.max
  timeout : Fits64 s.timeout
  limits : s.type ≠ "fan" → s.min = 0 ∧ s.max = 0

/-- The margins belong to the first inputs; the others have none. -/
def MarginsFirst : List SensorInput → Prop
  | [] => True
  | i :: rest =>
    (i.convertTempToMargin = true ∧ i.convertMarginZero.isFinite = true ∧ MarginsFirst rest) ∨
      ∀ j ∈ i :: rest, j.convertTempToMargin = false ∧ j.convertMarginZero = .nan

structure PidConf.Expressible (p : PidConf) : Prop where
  ts : p.ts.isFinite = true
  proportionalCoeff : p.proportionalCoeff.isFinite = true
  integralCoeff : p.integralCoeff.isFinite = true
  derivativeCoeff : p.derivativeCoeff.isFinite = true
  feedFwdOffset : p.feedFwdOffset.isFinite = true
  feedFwdGain : p.feedFwdGain.isFinite = true
  imin : p.integralLimit.min.isFinite = true
  imax : p.integralLimit.max.isFinite = true
  omin : p.outLim.min.isFinite = true
  omax : p.outLim.max.isFinite = true
  slewNeg : p.slewNeg.isFinite = true
  slewPos : p.slewPos.isFinite = true
  positiveHysteresis : p.positiveHysteresis.isFinite = true
  negativeHysteresis : p.negativeHysteresis.isFinite = true

/-- A point of a table is a finite number or missing. -/
structure StepwiseInfo.Expressible (s : StepwiseInfo) : Prop where
  ts : s.ts.isFinite = true
  reading : ∀ i, s.reading i = .nan ∨ (s.reading i).isFinite = true
  output : ∀ i, s.output i = .nan ∨ (s.output i).isFinite = true
  positiveHysteresis : s.positiveHysteresis.isFinite = true
  negativeHysteresis : s.negativeHysteresis.isFinite = true

/-- A loop: settings of one of the two kinds, the others are zero; the failsafe percentage is an `int`. -/
structure ControllerInfo.Expressible (c : ControllerInfo) : Prop where
  setpoint : c.setpoint.isFinite = true
  percent : ∃ i : Int, -(2 ^ 31) ≤ i ∧ i < 2 ^ 31 ∧ c.failSafePercent = Dbl.ofInt i
  margins : MarginsFirst c.inputs
  missing : ∀ i ∈ c.inputs, ∀ j ∈ c.inputs, i.name = j.name → i.missingIsAcceptable = j.missingIsAcceptable
  pid : c.type ≠ "stepwise" → c.pidInfo.Expressible ∧ c.stepwiseInfo = ⟨0, fun _ => 0, fun _ => 0, 0, 0, false⟩
  stepwise : c.type = "stepwise" → c.stepwiseInfo.Expressible ∧
    c.pidInfo = ⟨false, 0, 0, 0, 0, 0, 0, ⟨0, 0⟩, ⟨0, 0⟩, 0, 0, 0, 0⟩

structure ZoneConfig.Expressible (z : ZoneConfig) : Prop where
  minThermalOutput : z.minThermalOutput.isFinite = true
  failsafePercent : z.failsafePercent.isFinite = true
  cycle : 1 ≤ z.cycleTime.cycleIntervalTimeMS ∧ z.cycleTime.cycleIntervalTimeMS < 2 ^ 64
  thermals : 1 ≤ z.cycleTime.updateThermalsTimeMS ∧ z.cycleTime.updateThermalsTimeMS < 2 ^ 64

/-- A configuration: tables with every name once, at least one sensor, and at least one loop in every zone that is
mentioned by loops. -/
structure Config.Expressible (c : Config) : Prop where
  tables : c.sensors.WF ∧ c.pids.WF ∧ c.zones.WF
  any : c.sensors.entries ≠ []
  sensor : ∀ n s, c.sensors.find? n = some s → s.Expressible
  zone : ∀ i p, c.pids.find? i = some p → Fits64 i ∧ p.WF ∧ p.entries ≠ [] ∧ ∃ z, c.zones.find? i = some z ∧ z.Expressible
  loop : ∀ i p, c.pids.find? i = some p → ∀ n l, p.find? n = some l → l.Expressible

end Verif
