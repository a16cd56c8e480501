import Verif.Model.Daemon
import Verif.Model.HostState
import Verif.Model.Redundancy

/-!
# What the running daemon watches besides its sensors

Models the one `HostStateMonitor` (main.cpp:420-421) and the one `DbusPassiveRedundancy` (sensors/builder.cpp:67-69) next to
the running daemon, which asks them whenever it polls a sensor. Left out: reloading.
-/

namespace Verif
variable [F : FloatModel]

/-- The running daemon with its host state monitor (hoststatemonitor.hpp:61-65) and the failed fans of its redundancy
groups (dbus/dbuspassiveredundancy.hpp:35-47). -/
structure Watched where
  d : Daemon
  host : HostMonitor
  failed : List String

/-- What can happen. -/
inductive HeardEvent where
  /-- an event of the daemon; of an `outside` event only the clock, the files and the fan services count -/
  | own (e : DEvent)
  /-- a `PropertiesChanged` message of the host state object, hoststatemonitor.hpp:79-84 -/
  | host (m : HostMsg)
  /-- a `PropertiesChanged` message of the redundancy object `obj`, dbus/dbuspassiveredundancy.cpp:51-110; `collection` is
  what the object then answers to `Get` -/
  | group (obj : String) (status : Option String) (collection : Option (List String))

/-- The host state monitor after an event. -/
def Watched.nextHost (x : Watched) : HeardEvent → HostMonitor
  | .host m => x.host.signal m
  | _ => x.host

/-- The failed fans of the groups after an event. -/
def Watched.nextFailed (x : Watched) : HeardEvent → List String
  | .group _ status collection => redundancySignal x.failed status collection
  | _ => x.failed

/-- What the event is to the daemon: `isPowerOn` (sensors/pluggable.cpp:36-40, sensors/host.cpp:85-89) and `getFailed` of
the groups (dbus/dbuspassive.cpp:196-204) answer from what has been heard. -/
def Watched.event (x : Watched) (e : HeardEvent) : DEvent :=
  match e with
  | .own (.outside nowFans nowThermals _ _ files busOk) =>
    .outside nowFans nowThermals x.host.powerStatusOn x.failed files busOk
  | .own e => e
  | e => .outside x.d.w.nowFans x.d.w.nowThermals (x.nextHost e).powerStatusOn (x.nextFailed e) x.d.w.files x.d.w.busOk

/-- One event. -/
def Watched.step (o : Opts) (x : Watched) (e : HeardEvent) : Res Watched := do
  let d ← x.d.step o (x.event e)
  .ok ⟨d, x.nextHost e, x.nextFailed e⟩

/-- A sequence of events. -/
def Watched.run (o : Opts) : Watched → List HeardEvent → Res Watched
  | x, [] => .ok x
  | x, e :: es => do
    let x ← x.step o e
    Watched.run o x es

/-- The failed fans when the first sensor on the bus is built, sensors/builder.cpp:65-69. Without such a sensor nobody asks. -/
def failedAtStart (answers : Option (List (Option RedundancyProps))) (sensors : OMap String SensorConfig) : Res (List String) :=
  if sensors.entries.any (fun e => getReadInterfaceType e.2.readPath = .dbusPassive) then redundancyInit answers else .ok []

/-- The start, main.cpp:417-421: the restart of the control loops is only posted (main.cpp:213-218), so the monitor is there
first, and listens. `reply` is the host's answer, `answers` are those of the redundancy objects. Simplifications: they are
asked before any sensor is built, and no message arrives in between. -/
def Watched.launch (o : Opts) (bus : BuildBus) (now : Int) (w : World) (reply : Option String)
    (answers : Option (List (Option RedundancyProps))) (sensors : OMap String SensorConfig) (pids : OMap Int PIDConf)
    (configs : OMap Int ZoneConfig) : Res Watched := do
  let host := (HostMonitor.ctor reply).startMonitoring
  let failed ← failedAtStart answers sensors
  let d ← Daemon.launch o bus now { w with
    hostOn := host.powerStatusOn, redundancyFailed := failed } sensors pids configs
  .ok ⟨d, host, failed⟩

end Verif
