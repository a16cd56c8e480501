import Verif.Model.Build
import Verif.Model.BuildSensors
import Verif.Model.Loop

/-!
# The running daemon

Models what `restartControlLoops` (main.cpp:127-186) sets up from a configuration that has been read, and what happens to
it afterwards: messages, writes and timers of all zones, with the sensors they share. Left out: the failsafe loggers
(Model/FailsafeLog.lean), the timers' times (Model/Loop.lean), reloading (Model/Whole.lean, Model/Lifecycle.lean,
Model/Reload.lean).
-/

namespace Verif
variable [F : FloatModel]

/-- The sensors and the zones of the daemon, main.cpp:61-71; every zone with its cycle counter (pid/pidloop.cpp:35-37). -/
structure Daemon where
  w : World
  zones : OMap Int (Zone × Nat)

/-- The first call of `pidControlLoop` for every zone, main.cpp:178-186. Simplification: time stands still meanwhile. -/
def startZones (o : Opts) (w : World) : OMap Int (Zone × Nat) → List (Int × Zone) → Res (OMap Int (Zone × Nat))
  | acc, [] => .ok acc
  | acc, (i, z) :: rest => do
    let z ← z.start o w
    startZones o w (acc.insert i (z, 0)) rest

/-- `restartControlLoops` once the configuration has been read, main.cpp:163-186. `w` is the world outside; its sensors are
replaced. -/
def Daemon.launch (o : Opts) (bus : BuildBus) (now : Int) (w : World) (sensors : OMap String SensorConfig)
    (pids : OMap Int PIDConf) (configs : OMap Int ZoneConfig) : Res Daemon := do
  let m ← buildSensors o bus now sensors
  let zones ← buildZones pids configs
  if zones.isEmpty then .error (.exc "No zones defined, exiting.")
  else
    let zs ← startZones o { w with sensors := m.sensors } {} zones.entries
    .ok ⟨{ w with sensors := m.sensors }, zs⟩

/-- What can happen while the daemon runs. -/
inductive DEvent where
  /-- the clock, the host, the redundancy groups, files and the fan services change -/
  | outside (nowFans nowThermals : Int) (hostOn : Bool) (redundancyFailed : List String) (files : String → FileContent)
      (busOk : String → Bool)
  /-- a `PropertiesChanged` message for the object of a sensor, dbus/dbuspassive.cpp:160 and 509-516. Every
  sensor has its own match: a message for the object of two sensors is two events -/
  | signal (name : String) (now : Int) (m : PropMsg)
  /-- the `Value` of a host sensor is set, sensors/host.cpp:51-59 -/
  | hostWrite (name : String) (now : Int) (v : Dbl)
  /-- the mode of a zone is set, pid/zone.cpp:579-584 -/
  | manual (zone : Int) (b : Bool)
  /-- a loop is switched on or off -/
  | enable (zone : Int) (loop : String) (b : Bool)
  /-- the timer of a zone expires -/
  | tick (zone : Int)

/-- A change of one zone; nothing for zones that do not exist. -/
def Daemon.onZone (d : Daemon) (i : Int) (f : ZoneData → ZoneData) : Daemon :=
  match d.zones.find? i with
  | some (z, cnt) =>
    { d with
      zones := d.zones.insert i ({ z with
        d := f z.d }, cnt) }
  | none => d

/-- Replaces a sensor. -/
def Daemon.setSensor (d : Daemon) (name : String) (s : Sensor) : Daemon :=
  { d with
    w := { d.w with
      sensors := d.w.sensors.insert name s } }

/-- A message for sensor `name`, dbus/dbuspassive.cpp:415-516; only D-Bus sensors listen. -/
def Daemon.signal (o : Opts) (d : Daemon) (name : String) (now : Int) (m : PropMsg) : Res Daemon :=
  match d.w.sensors.find? name with
  | some s =>
    match s.impl with
    | .pluggable (.passive p) wr => do
      let p ← handleSensorValue o p now m
      .ok (d.setSensor name { s with
        impl := .pluggable (.passive p) wr })
    | _ => .ok d
  | none => .ok d

/-- One event. An error is an exception that ends the daemon, or undefined behaviour. -/
def Daemon.step (o : Opts) (d : Daemon) : DEvent → Res Daemon
  | .outside nowFans nowThermals hostOn redundancyFailed files busOk =>
    .ok { d with
      w := ⟨nowFans, nowThermals, hostOn, redundancyFailed, files, busOk, d.w.sensors, d.w.trace⟩ }
  | .signal name now m => d.signal o name now m
  | .hostWrite name now v =>
    match d.w.sensors.find? name with
    | some s => .ok (d.setSensor name (s.hostWrite now v))
    | none => .ok d
  | .manual i b => .ok (d.onZone i (fun z => z.setManualMode b))
  | .enable i loop b => .ok (d.onZone i (fun z => z.setEnabled loop b))
  | .tick i =>
    match d.zones.find? i with
    | some (z, cnt) => do
      let (w, z, cnt) ← z.tick o d.w cnt
      .ok ⟨w, d.zones.insert i (z, cnt)⟩
    | none => .ok d

/-- A sequence of events. -/
def Daemon.run (o : Opts) : Daemon → List DEvent → Res Daemon
  | d, [] => .ok d
  | d, e :: es => do
    let d ← d.step o e
    Daemon.run o d es

end Verif
