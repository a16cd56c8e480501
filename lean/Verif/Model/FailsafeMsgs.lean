import Verif.Model.Zone
import Verif.Model.FailsafeLog

/-!
# The calls to the failsafe log

Model of the calls of `outputFailsafeLogWithSensor` in `DbusPassive::getFailed` (dbus/dbuspassive.cpp:194-280) and of
`outputFailsafeLogWithZone` in pid/zone.cpp:97-125 and pid/zone.hpp:183-221.  What the loggers do with the calls is
Model/FailsafeLog.lean; what a zone does apart from these calls is Model/Zone.lean.
-/

namespace Verif
variable [F : FloatModel]

/-- One call: for a sensor or a zone, with the state it reports, the location and the reason. -/
structure FsMsg where
  target : FsTarget
  state : Bool
  location : String
  reason : String
deriving DecidableEq, Repr

/-- The call made by `DbusPassive::getFailed`, dbus/dbuspassive.cpp:194-280.  `_id` is the name of the sensor
(sensors/builder.cpp:71-84). -/
def Passive.failMsgs (p : Passive) (redundant : List String) (id : String) : List FsMsg :=
  if p.hasRedundancy && redundant.contains p.path then
    [⟨.sensor id, true, id, "The sensor path is marked redundant."⟩]
  else if p.objectMissing then [⟨.sensor id, true, id, "The sensor D-Bus object is missing."⟩]
  else if !p.typeFan && !p.available && !p.unavailableAsFailed then []
  else if p.badReading then [⟨.sensor id, true, id, "The sensor has bad readings."⟩]
  else if p.marginHot then [⟨.sensor id, true, id, "The sensor has no thermal margin left."⟩]
  else if p.failed then [⟨.sensor id, true, id, "The sensor has failed with a critical issue."⟩]
  else if !p.available then [⟨.sensor id, true, id, "The sensor is unavailable."⟩]
  else if !p.functional then [⟨.sensor id, true, id, "The sensor is not functional."⟩]
  else [⟨.sensor id, false, id, "The sensor has recovered."⟩]

/-- The calls made by `Sensor::getFailed`: sensors/pluggable.cpp:30-44 for D-Bus sensors, sensors/host.cpp:76-95 for host
sensors; sysfs readers make none. -/
def Sensor.failMsgs (w : World) (s : Sensor) : List FsMsg :=
  match s.impl with
  | .pluggable (.passive p) _ => p.failMsgs w.redundancyFailed s.name
  | .host v _ =>
    if v.isFinite then []
    else if s.ignoreFailIfHostOff && !w.hostOn then []
    else [⟨.sensor s.name, true, s.name, "The sensor has invalid readings."⟩]
  | _ => []

namespace ZoneData

/-- The call made by `markSensorMissing`, pid/zone.cpp:97-125, which leaves the zone as `z'`. -/
def missingMsgs (z : ZoneData) (name : String) (z' : ZoneData) : List FsMsg :=
  if z.missingAcceptable.contains name then
    [⟨.zone z.zoneId, z'.getFailSafeMode, name, "The sensor is missing but is acceptable."⟩]
  else [⟨.zone z.zoneId, z'.getFailSafeMode, name, "The sensor is missing."⟩]

/-- The calls in the body of the loop of `processSensorInputs`, pid/zone.hpp:183-221, with the zone afterwards
(`processSensorInput`). -/
def processSensorInputMsgs (w : World) (now : Int) (z : ZoneData) (name : String) : Res (ZoneData × List FsMsg) := do
  let sensor ← w.getSensor name
  let r ← sensor.read w now
  let z' ← z.processSensorInput w now name
  let failed ← sensor.getFailed w
  let duration := Int.tdiv (now - r.updated) 1000000000
  let first := sensor.failMsgs w
  if failed then .ok (z', first ++ z.missingMsgs name z')
  else if sensor.timeout ≠ 0 ∧ sensor.timeout ≤ duration then
    .ok (z', first ++ z.missingMsgs name z' ++ [⟨.zone z.zoneId, z'.getFailSafeMode, name, "The sensor has timed out."⟩])
  else if z.failSafeSensors.contains name then
    .ok (z', first ++ [⟨.zone z.zoneId, z'.getFailSafeMode, name, "The sensor has recovered."⟩])
  else .ok (z', first)

/-- The calls of `processSensorInputs`, pid/zone.hpp:144-223. -/
def processSensorInputsMsgs (w : World) (now : Int) : ZoneData → List String → Res (ZoneData × List FsMsg)
  | z, [] => .ok (z, [])
  | z, name :: rest => do
    let a ← z.processSensorInputMsgs w now name
    let b ← processSensorInputsMsgs w now a.1 rest
    .ok (b.1, a.2 ++ b.2)

/-- The calls of the two loops of `initializeCache`, pid/zone.cpp:503-523: one `markSensorMissing` per input. -/
def initMsgs (z : ZoneData) : List String → List FsMsg
  | [] => []
  | name :: rest => z.missingMsgs name (z.markSensorMissing name "") ++ initMsgs (z.markSensorMissing name "") rest

end ZoneData

/-- The calls of `pidControlLoop` up to the first wait, pid/pidloop.cpp:46-57.  The failsafe state does not depend on the
caches `initializeCache` fills. -/
def Zone.startMsgs (w : World) (z : Zone) : Res (List FsMsg) := do
  let a ← z.d.initializeCache.processSensorInputsMsgs w w.nowThermals z.d.thermalInputs
  .ok (z.d.initMsgs (z.d.fanInputs ++ z.d.thermalInputs) ++ a.2)

/-- The calls of one expiry of the zone's timer, pid/pidloop.cpp:70-142: the pass over the fans (112) and, when the
thermal loops are due, the pass over the thermal inputs. -/
def Zone.tickMsgs (w : World) (z : Zone) (cnt : Nat) : Res (List FsMsg) :=
  if z.d.manualMode then .ok []
  else do
    let a ← z.d.processSensorInputsMsgs w w.nowFans z.d.fanInputs
    if z.d.cycleTime.updateThermalsTimeMS ≤ cnt then do
      let b ← a.1.processSensorInputsMsgs w w.nowThermals a.1.thermalInputs
      .ok (a.2 ++ b.2)
    else .ok a.2

/-- The calls reach the loggers: `outputFailsafeLogWithSensor` and `outputFailsafeLogWithZone`,
failsafeloggers/failsafe_logger_utility.hpp:26-52.  All calls of one tick are taken to happen in the same millisecond. -/
def FsLoggers.deliver (now : Nat) : FsLoggers → List FsMsg → List FsEvent × FsLoggers
  | s, [] => ([], s)
  | s, m :: ms =>
    let (lines, s') :=
      match m.target with
      | .sensor n => s.withSensor now n m.state m.location m.reason
      | .zone i => s.withZone now i m.state m.location m.reason
    let (more, s'') := deliver now s' ms
    (⟨m.target, now, m.state, m.location, m.reason, lines⟩ :: more, s'')

end Verif
