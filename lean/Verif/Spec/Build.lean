import Verif.Model.Build
import Verif.Spec.History

/-! # Specification of built zones -/

namespace Verif
variable [F : FloatModel]
open Dbl

/-- An entry of a zone's configuration: name and settings of a loop. -/
abbrev Entry [FloatModel] := String × ControllerInfo

/-- entries for fan loops -/
def IsFan (e : Entry) : Prop := e.2.type = "fan"
/-- entries for loops that compute a set point: PID loops over temperatures, margins and powers, and stepwise loops -/
def IsHeat (e : Entry) : Prop := e.2.type ∈ ["temp", "margin", "power", "powersum", "stepwise"]

instance (e : Entry) : Decidable (IsFan e) := by unfold IsFan; infer_instance
instance (e : Entry) : Decidable (IsHeat e) := by unfold IsHeat; infer_instance

/-- the fan loop of an entry: none without fans -/
def fanOf (e : Entry) : Option FanPid :=
  if e.2.inputs = [] then none
  else some ⟨e.1, e.2.inputs.map SensorInput.name, 0, .neutral, ⟨⟨e.2.pidInfo, false, 0, 0, 0⟩, nan⟩⟩

/-- `c` is the new loop of the entry `e` -/
inductive HeatLoop (e : Entry) : ThermalCtl → Prop
  | margin : e.2.type = "margin" →
      HeatLoop e (.pid ⟨e.1, e.2.inputs, .margin, e.2.setpoint, ⟨⟨e.2.pidInfo, false, 0, 0, 0⟩, nan⟩⟩)
  | absolute : e.2.type = "temp" ∨ e.2.type = "power" →
      HeatLoop e (.pid ⟨e.1, e.2.inputs, .absolute, e.2.setpoint, ⟨⟨e.2.pidInfo, false, 0, 0, 0⟩, nan⟩⟩)
  | summation : e.2.type = "powersum" →
      HeatLoop e (.pid ⟨e.1, e.2.inputs, .summation, e.2.setpoint, ⟨⟨e.2.pidInfo, false, 0, 0, 0⟩, nan⟩⟩)
  | stepwise : e.2.type = "stepwise" →
      HeatLoop e (.stepwise ⟨e.1, e.2.inputs.map SensorInput.name, e.2.stepwiseInfo, ⟨nan, nan⟩⟩)

/-- the class shown on the bus for a loop -/
def className (type : String) : String :=
  match type with
  | "temp" => "Temperature"
  | "margin" => "Margin"
  | "power" => "Power"
  | "powersum" => "PowerSum"
  | _ => ""

/-- the failsafe percentages given for sensor `s`, in order -/
def percentsFor (s : String) (conf : List Entry) : List Dbl :=
  ((conf.filter (fun e => IsFan e ∨ IsHeat e)).flatMap (fun e => e.2.inputs.map (fun i => (i.name, e.2.failSafePercent)))
    |>.filter (fun p => p.1 = s)).map Prod.snd

/-- `z` is the new zone for the settings `c` and the loops `conf`. -/
structure NewZone (id : Int) (c : ZoneConfig) (conf : List Entry) (z : Zone) : Prop where
  zoneId : z.d.zoneId = id
  minThermalOutput : z.d.minThermalOutputSetPt = c.minThermalOutput
  failsafePercent : z.d.zoneFailSafePercent = c.failsafePercent
  cycleTime : z.d.cycleTime = c.cycleTime
  accumulateSetPoint : z.d.accumulateSetPoint = c.accumulateSetPoint
  manualMode : z.d.manualMode = false
  /-- the fan loops, in order -/
  fans : z.fans = (conf.filter IsFan).map fanOf
  /-- the other loops, in order -/
  thermals : List.Forall₂ HeatLoop (conf.filter IsHeat) z.thermals
  fanInputs : z.d.fanInputs = (conf.filter IsFan).flatMap (fun e => e.2.inputs.map SensorInput.name)
  /-- every thermal input once, in order of appearance -/
  thermalInputs : z.d.thermalInputs.Nodup
  thermalInputs_mem : ∀ n, n ∈ z.d.thermalInputs ↔ ∃ e ∈ conf, IsHeat e ∧ ∃ i ∈ e.2.inputs, i.name = n
  thermalInputs_order : z.d.thermalInputs =
    ((conf.filter IsHeat).flatMap (fun e => e.2.inputs.map SensorInput.name)).eraseDups
  missing : ∀ n, n ∈ z.d.missingAcceptable ↔
    ∃ e ∈ conf, (IsFan e ∨ IsHeat e) ∧ ∃ i ∈ e.2.inputs, i.name = n ∧ i.missingIsAcceptable = true
  /-- one control process for every loop that computes a set point -/
  processes : ∀ n p, z.d.procs.find? n = some p ↔
    ∃ e ∈ conf, IsHeat e ∧ e.1 = n ∧ p = ⟨true, e.2.setpoint, className e.2.type, "", 0, 0⟩
  /-- of several percentages for a sensor the largest -/
  percents : ∀ s, z.d.sensorFailSafePercent.find? s =
    match percentsFor s conf with
    | [] => none
    | p :: ps => some (ps.foldl Dbl.cmax p)
  /-- nothing has failed and nothing is requested yet -/
  failed : z.d.failSafeSensors = {}
  requested : z.d.setPoints = {} ∧ z.d.rpmCeilings = [] ∧ z.d.maximumSetPoint = 0

/-- The failsafe percentage the configuration sets for sensor `s`: the largest one of the loops that use it, or the zone's
if there is none or it is zero. -/
inductive PercentFor (c : ZoneConfig) (conf : List Entry) (s : String) : Dbl → Prop
  | own {p} : Largest (· ∈ percentsFor s conf) p → p ≠ 0 → PercentFor c conf s p
  | zero : Largest (· ∈ percentsFor s conf) 0 → PercentFor c conf s c.failsafePercent
  | zone : percentsFor s conf = [] → PercentFor c conf s c.failsafePercent

/-- A thermal input that has to be there: some loop that computes a set point uses it, and no loop accepts it missing. -/
def MustRead (conf : List Entry) (s : String) : Prop :=
  (∃ e ∈ conf, IsHeat e ∧ ∃ i ∈ e.2.inputs, i.name = s) ∧
  ∀ e ∈ conf, ∀ i ∈ e.2.inputs, i.name = s → i.missingIsAcceptable = false

/-- A configuration a zone can run with: fan loops have fans, and the margin settings of margin loops are finite. -/
def Runnable (conf : List Entry) : Prop :=
  (∀ e ∈ conf, IsFan e → e.2.inputs ≠ []) ∧
  ∀ e ∈ conf, e.2.type = "margin" → ∀ i ∈ e.2.inputs, i.convertTempToMargin = true → i.convertMarginZero.isFinite = true

end Verif
