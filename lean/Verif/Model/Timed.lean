import Verif.Model.Daemon

/-!
# The running daemon with its timers

Puts the timers of Model/Loop.lean into the daemon of Model/Daemon.lean. Times are nanoseconds of the steady clock.
-/

namespace Verif
variable [F : FloatModel]

/-- The daemon and, for every zone, the expiry of its timer and whether a handler waits for it. -/
structure Timed where
  d : Daemon
  timers : OMap Int (Int × Bool)

/-- An event and the time at which its handler begins. -/
abbrev TEvent := Int × DEvent

/-- The first call of `pidControlLoop` for every zone, main.cpp:178-186. `started i` is the clock after the first thermal
pass of zone `i`. Simplification: the sensors do not change meanwhile. -/
def startTimers (o : Opts) (w : World) (started : Int → Int) : Timed → List (Int × Zone) → Res Timed
  | td, [] => .ok td
  | td, (i, z) :: rest => do
    let l ← pidControlLoop o w (started i) false true ⟨z, 0, 0, false⟩
    startTimers o w started
      ⟨⟨td.d.w, td.d.zones.insert i (l.zone, l.cycleCnt)⟩, td.timers.insert i (l.expiry, l.waiting)⟩ rest

/-- `restartControlLoops` once the configuration has been read, main.cpp:163-186, as `Daemon.launch` -/
def Timed.launch (o : Opts) (bus : BuildBus) (now : Int) (started : Int → Int) (w : World)
    (sensors : OMap String SensorConfig) (pids : OMap Int PIDConf) (configs : OMap Int ZoneConfig) : Res Timed := do
  let m ← buildSensors o bus now sensors
  let zones ← buildZones pids configs
  if zones.isEmpty then .error (.exc "No zones defined, exiting.")
  else startTimers o { w with sensors := m.sensors } started ⟨⟨{ w with sensors := m.sensors }, {}⟩, {}⟩ zones.entries

/-- One event. The handler of a timer is that of pid/pidloop.cpp:70-142; every zone has a timer. -/
def Timed.step (o : Opts) (td : Timed) (e : TEvent) : Res Timed :=
  match e.2 with
  | .tick i =>
    match td.d.zones.find? i with
    | some (z, cnt) => do
      let timer := (td.timers.find? i).getD (0, false)
      let (w, l) ← Loop.handler o td.d.w e.1 false false ⟨z, cnt, timer.1, timer.2⟩
      .ok ⟨⟨w, td.d.zones.insert i (l.zone, l.cycleCnt)⟩, td.timers.insert i (l.expiry, l.waiting)⟩
    | none => .ok td
  | _ => do
    let d ← td.d.step o e.2
    .ok ⟨d, td.timers⟩

/-- A sequence of events. -/
def Timed.run (o : Opts) : Timed → List TEvent → Res Timed
  | td, [] => .ok td
  | td, e :: es => do
    let td ← td.step o e
    Timed.run o td es

end Verif
