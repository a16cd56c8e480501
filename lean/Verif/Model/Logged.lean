import Verif.Model.FailsafeMsgs
import Verif.Model.Daemon

/-!
# The running daemon and its failsafe log

Model of the daemon (Model/Daemon.lean) together with the failsafe loggers that main.cpp:163-170 builds and the calls of the
zones reach (Model/FailsafeMsgs.lean). Every event has the time of the loggers' clock, in milliseconds.
-/

namespace Verif
variable [F : FloatModel]

/-- What `buildFailsafeLoggers` asks of the zones, failsafeloggers/builder.cpp:30-40: `getSensorNames` returns the thermal
inputs only (pid/zone.cpp:569-572). Simplification: the zones are asked in the order of their numbers, in the program in the
order of a hash map. -/
def fsZones (zones : OMap Int Zone) : List FsZone :=
  zones.entries.map (fun e => ⟨e.1, e.2.d.getFailSafeMode, e.2.d.thermalInputs⟩)

/-- The daemon, its loggers, and the calls so far with the lines they printed, oldest first. -/
structure LoggedDaemon where
  d : Daemon
  loggers : FsLoggers
  log : List FsEvent

/-- The calls of the first call of `pidControlLoop` for every zone, main.cpp:178-186. -/
def startLogs (now : Nat) (w : World) : FsLoggers → List (Int × Zone) → Res (List FsEvent × FsLoggers)
  | s, [] => .ok ([], s)
  | s, (_, z) :: rest => do
    let ms ← z.startMsgs w
    let r ← startLogs now w (s.deliver now ms).2 rest
    .ok ((s.deliver now ms).1 ++ r.1, r.2)

/-- `restartControlLoops` with its calls, main.cpp:163-186: at most 20 lines per second and zone (170). -/
def LoggedDaemon.launch (o : Opts) (bus : BuildBus) (now : Int) (ms : Nat) (w : World) (sensors : OMap String SensorConfig)
    (pids : OMap Int PIDConf) (configs : OMap Int ZoneConfig) : Res LoggedDaemon := do
  let d ← Daemon.launch o bus now w sensors pids configs
  let zones ← buildZones pids configs
  let r ← startLogs ms d.w (buildFailsafeLoggers 20 (fsZones zones)) zones.entries
  .ok ⟨d, r.2, r.1⟩

/-- The calls of one event at which the daemon is `d`: only zones make any, when their timer expires. -/
def Daemon.msgs (d : Daemon) : DEvent → Res (List FsMsg)
  | .tick i =>
    match d.zones.find? i with
    | some (z, cnt) => z.tickMsgs d.w cnt
    | none => .ok []
  | _ => .ok []

/-- One event at time `e.1`. -/
def LoggedDaemon.step (o : Opts) (l : LoggedDaemon) (e : Nat × DEvent) : Res LoggedDaemon := do
  let ms ← l.d.msgs e.2
  let d ← l.d.step o e.2
  .ok ⟨d, (l.loggers.deliver e.1 ms).2, l.log ++ (l.loggers.deliver e.1 ms).1⟩

/-- A sequence of events. -/
def LoggedDaemon.run (o : Opts) : LoggedDaemon → List (Nat × DEvent) → Res LoggedDaemon
  | l, [] => .ok l
  | l, e :: es => do
    let l ← l.step o e
    LoggedDaemon.run o l es

end Verif
