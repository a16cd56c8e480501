import Verif.Model.Daemon
import Verif.Spec.BuildSensors
import Verif.Spec.Build
import Verif.Spec.Loop
import Verif.Spec.Sensors
import Verif.Lemmas.OMap

/-! # Specification of the running daemon -/

namespace Verif
variable [F : FloatModel]
open Dbl

/-- The types for which sensors exist. -/
def KnownType (t : String) : Prop := t ∈ ["fan", "temp", "margin", "power", "powersum"]

instance (t : String) : Decidable (KnownType t) := by unfold KnownType; infer_instance

/-- A sensor a loop can use: there is something to read it from. -/
def Usable (c : SensorConfig) : Prop :=
  KnownType c.type ∧ (ReadKind c.readPath .dbusPassive ∨ ReadKind c.readPath .sysfs ∨ ExternalSensor c)

/-- A loop the daemon builds. -/
def IsLoop (e : Entry) : Prop := IsFan e ∨ IsHeat e

/-- The sensors suit the zones: every input of a loop is a sensor that can be read, and those of fan loops can be
written. There is a zone, every zone has its details, and every loop has inputs (and finite margins). -/
structure Suits (sensors : OMap String SensorConfig) (pids : OMap Int PIDConf) (configs : OMap Int ZoneConfig) : Prop where
  sensorsWf : sensors.WF
  pidsWf : pids.WF
  loopsWf : ∀ i conf, pids.find? i = some conf → conf.WF
  zone : ∃ i conf, pids.find? i = some conf
  details : ∀ i conf, pids.find? i = some conf → ∃ c, configs.find? i = some c
  loops : ∀ i conf, pids.find? i = some conf → Runnable conf.entries ∧ ∀ e ∈ conf.entries, IsHeat e → e.2.inputs ≠ []
  inputs : ∀ i conf, pids.find? i = some conf → ∀ e ∈ conf.entries, IsLoop e → ∀ x ∈ e.2.inputs,
    ∃ c, sensors.find? x.name = some c ∧ Usable c ∧ (IsFan e → ¬ ExternalSensor c)

/-- The files the sensors are read from can be read; with tuning enabled no file is blank. -/
def FilesOk (o : Opts) (dirs : Dirs) (sensors : OMap String SensorConfig) (files : String → FileContent) : Prop :=
  (∀ n c q, sensors.find? n = some c → ReadKind c.readPath .sysfs → Stands dirs c.readPath q →
    files q ≠ .missing ∧ files q ≠ .blank) ∧
  (o.tuningEnabled = true → ∀ path, files path ≠ .blank)

/-- An event that leaves the files readable. -/
def EventOk (o : Opts) (dirs : Dirs) (sensors : OMap String SensorConfig) : DEvent → Prop
  | .outside _ _ _ _ files _ => FilesOk o dirs sensors files
  | _ => True

/-- The properties that should be true or false, with their interfaces. -/
def switches : List (String × String) :=
  [("xyz.openbmc_project.Sensor.Threshold.Critical", "CriticalAlarmLow"),
    ("xyz.openbmc_project.Sensor.Threshold.Critical", "CriticalAlarmHigh"),
    ("xyz.openbmc_project.Sensor.Threshold.Warning", "WarningAlarmHigh"),
    ("xyz.openbmc_project.State.Decorator.Availability", "Available"),
    ("xyz.openbmc_project.State.Decorator.OperationalStatus", "Functional")]

/-- A message in which such a property is a number. -/
def WrongType (m : PropMsg) : Prop :=
  ∃ n v, (m.iface, n) ∈ switches ∧ m.props.find? n = some v ∧ ∀ b, v ≠ .bool b

/-- the messages for sensor `n` among events -/
def signalsFor (n : String) : List DEvent → Signals
  | [] => []
  | .signal name t m :: es => if name = n then (t, m) :: signalsFor n es else signalsFor n es
  | _ :: es => signalsFor n es

/-- The mode of zone `i` after events, from `manual` before. -/
def modeAfter (i : Int) : Bool → List DEvent → Bool
  | manual, [] => manual
  | manual, .manual j b :: es => modeAfter i (if j = i then b else manual) es
  | manual, _ :: es => modeAfter i manual es

/-- How often the timer of zone `i` expired in automatic mode. -/
def autoTicks (i : Int) : Bool → List DEvent → Nat
  | _, [] => 0
  | manual, .manual j b :: es => autoTicks i (if j = i then b else manual) es
  | manual, .tick j :: es => (if j = i ∧ manual = false then 1 else 0) + autoTicks i manual es
  | manual, _ :: es => autoTicks i manual es

/-- Between `w` and `w'` every fan loop of the configuration commanded its fans, in order, and those loops that can write
any fan commanded a fraction of at least `v`. -/
def FansAtLeast (conf : List Entry) (v : Dbl) (w w' : World) : Prop :=
  ∃ (l : List (FanPid × Dbl)) (b : Bool),
    l.map (fun x => x.1.inputs) = (conf.filter IsFan).map (fun e => e.2.inputs.map SensorInput.name) ∧ Drives b w l w' ∧
    ∀ x ∈ l, (∃ m ∈ x.1.inputs, targetOf w m ≠ none) → v ≤ x.2

/-- Sensor `n` fails whenever the timer of zone `i` expires while the events happen. -/
def FailsThroughout (o : Opts) (i : Int) (n : String) (d : Daemon) (es : List DEvent) : Prop :=
  ∀ es1 es2 d1, es = es1 ++ .tick i :: es2 → d.run o es1 = .ok d1 →
    FailsAt d1.w d1.w.nowFans n ∧ FailsAt d1.w d1.w.nowThermals n

/-- Events that set the clock set it to `t` or later. -/
def ClockFrom (t : Int) : DEvent → Prop
  | .outside nowFans nowThermals _ _ _ _ => t ≤ nowFans ∧ t ≤ nowThermals
  | _ => True

end Verif
