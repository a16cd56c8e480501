import Verif.Model.Passive

/-!
# Writers, sensors, and the world a zone talks to

Models `dbus/dbuswrite.cpp`, `sysfs/sysfsread.cpp`, `sysfs/sysfswrite.cpp`, `sensors/pluggable.cpp`,
`sensors/host.cpp`, `sensors/manager.hpp` and the part of `interfaces.hpp`, `sensors/sensor.hpp`, `notimpl/*.cpp`
they rely on.
-/

namespace Verif
variable [F : FloatModel]

/-- Externally visible effects: the calls at dbus/dbuswrite.cpp:83-99 and 145-161, the output at sysfs/sysfswrite.cpp:22-25
and 32-35. -/
inductive Effect where
  /-- `Properties.Set` of `Target` on a D-Bus fan; `ok` is "the call succeeded" -/
  | dbusSet (path : String) (value : Int) (ok : Bool)
  /-- a number written to a sysfs file -/
  | sysfsWrite (path : String) (value : Int)
deriving DecidableEq, Repr

/-- Content of a file as seen by `ifs >> value`, sysfs/sysfsread.cpp:19-23 and pid/zone.cpp:293-298. Simplification: what
follows the number is ignored. -/
inductive FileContent where
  /-- the file cannot be opened -/
  | missing
  /-- empty or only white space: extraction fails without touching the variable -/
  | blank
  /-- text that is not a number: extraction stores 0 -/
  | nonNumber
  /-- an integer (extraction saturates to the target type) -/
  | number (v : Int)

/-- `WriteInterface` (interfaces.hpp:61-98) implementations held by a `PluggableSensor`. `null` is a null pointer. -/
inductive Writer where
  /-- `DbusWritePercent` with its `oldValue`, dbus/dbuswrite.hpp:29-48 -/
  | dbusPercent (path : String) (min max : Int) (oldValue : Int)
  /-- `DbusWrite`, dbus/dbuswrite.hpp:50-69 -/
  | dbusRaw (path : String) (oldValue : Int)
  /-- `SysFsWritePercent`, sysfs/sysfswrite.hpp:16-27 -/
  | sysfsPercent (path : String) (min max : Int)
  /-- `SysFsWrite`, sysfs/sysfswrite.hpp:29-40 -/
  | sysfsRaw (path : String)
  /-- `ReadOnlyNoExcept`, notimpl/readonly.cpp:16-19 -/
  | readOnlyNoExcept
  | null
deriving DecidableEq

/-- The percent-to-raw computation shared by `DbusWritePercent::write` (dbus/dbuswrite.cpp:65-70) and
`SysFsWritePercent::write` (sysfs/sysfswrite.cpp:15-20). `min`, `max` are `int64_t` converted to double. -/
def percentToRaw (min max : Int) (value : Dbl) : Dbl :=
  let minimum := Dbl.ofInt min
  let maximum := Dbl.ofInt max
  let range := maximum - minimum
  let offset := range * value
  offset + minimum

/-- Result of a write (interfaces.hpp:75-80): the writer afterwards, the visible effect, and the value stored through
`written` (if any). -/
structure WriteResult where
  writer : Writer
  effect : Option Effect
  written : Option Int

/-- The common tail of the two D-Bus writers, dbus/dbuswrite.cpp:72-106 and 134-168: `ov` is the raw double. -/
def dbusWriteTail (busOk : Bool) (path : String) (oldValue : Int) (mk : Int → Writer) (ov : Dbl) (force : Bool) :
    Res WriteResult := do
  let raw ← castOr "cast to int64_t" ov.toI64
  if oldValue = raw ∧ force = false then
    .ok ⟨mk oldValue, none, some oldValue⟩
  else do
    let u ← castOr "cast to uint64_t" ov.toU64
    .ok ⟨mk raw, some (.dbusSet path u busOk), some raw⟩

/-- `write(value, force, &written)` of each writer; the sysfs writers and `ReadOnlyNoExcept` do not override the
three-argument form (interfaces.hpp:75-80), so they leave `written` alone. dbus/dbuswrite.cpp:63-107 and 132-169,
sysfs/sysfswrite.cpp:13-38. -/
def Writer.write (busOk : String → Bool) (w : Writer) (value : Dbl) (force : Bool) : Res WriteResult :=
  match w with
  | .dbusPercent path min max old =>
    dbusWriteTail (busOk path) path old (.dbusPercent path min max) (percentToRaw min max value) force
  | .dbusRaw path old => dbusWriteTail (busOk path) path old (.dbusRaw path) value force
  | .sysfsPercent path min max => do
    let raw ← castOr "cast to int64_t" (percentToRaw min max value).toI64
    .ok ⟨w, some (.sysfsWrite path raw), none⟩
  | .sysfsRaw path => do
    let raw ← castOr "cast to int64_t" value.toI64
    .ok ⟨w, some (.sysfsWrite path raw), none⟩
  | .readOnlyNoExcept => .ok ⟨w, none, none⟩
  | .null => .error (.ub "null writer")

/-- `ReadInterface` (interfaces.hpp:37-55) implementations. `null` is a null pointer. -/
inductive Reader where
  | passive (p : Passive)
  /-- `SysFsRead`, sysfs/sysfsread.hpp:15-26 -/
  | sysfs (path : String)
  /-- `WriteOnly`, notimpl/writeonly.cpp:13-16: `read` throws -/
  | writeOnly
  | null

/-- What a sensor is made of: sensors/pluggable.hpp:17-37, sensors/host.hpp:29-59. -/
inductive SensorImpl where
  /-- `PluggableSensor` -/
  | pluggable (r : Reader) (w : Writer)
  /-- `HostSensor` with `_value`, `_updated` -/
  | host (value : Dbl) (updated : Int)

/-- `Sensor`, sensors/sensor.hpp:14-81 -/
structure Sensor where
  name : String
  timeout : Int
  ignoreFailIfHostOff : Bool
  impl : SensorImpl

/-- Everything outside a zone. `nowFans`/`nowThermals` are the clock values (ns) read by `updateFanTelemetry` and
`updateSensors` in one tick (pid/zone.cpp:471 and 498); `hostOn` is `HostStateMonitor::isPowerOn`
(hoststatemonitor.hpp:38-41), `redundancyFailed` is `DbusPassiveRedundancy::getFailed`
(dbus/dbuspassiveredundancy.cpp:185-188), `sensors` is `_sensorMap` (sensors/manager.hpp:60). Simplification: nothing
outside changes during a tick. -/
structure World where
  nowFans : Int
  nowThermals : Int
  hostOn : Bool
  redundancyFailed : List String
  files : String → FileContent
  busOk : String → Bool
  sensors : OMap String Sensor
  trace : List Effect

/-- `SysFsRead::read`, sysfs/sysfsread.cpp:16-29: the variable is not initialised before extraction. -/
def sysfsRead (c : FileContent) (now : Int) : Res ReadReturn :=
  let rr (v : Int) : ReadReturn := ⟨Dbl.ofInt v, now, Dbl.ofInt v⟩
  match c with
  | .missing => .error (.ub "uninitialised value read")
  | .blank => .error (.ub "uninitialised value read")
  | .nonNumber => .ok (rr 0)
  | .number v => .ok (rr (Max.max (-(2 ^ 63)) (Min.min v (2 ^ 63 - 1))))

/-- `Sensor::read`: sensors/pluggable.cpp:15-18, sensors/host.cpp:61-69 (`unscaled` defaults to `value`,
interfaces.hpp:15). Simplification: a sysfs read is stamped with the time of the polling pass. -/
def Sensor.read (w : World) (now : Int) (s : Sensor) : Res ReadReturn :=
  match s.impl with
  | .host v u => .ok ⟨v, u, v⟩
  | .pluggable (.passive p) _ => .ok p.read
  | .pluggable (.sysfs path) _ => sysfsRead (w.files path) now
  | .pluggable .writeOnly _ => .error (.exc "Not supported.")
  | .pluggable .null _ => .error (.ub "null reader")

/-- `Sensor::getFailed`: sensors/pluggable.cpp:30-44, sensors/host.cpp:76-95. Readers other than `DbusPassive` use the
default `false` (interfaces.hpp:46-49). -/
def Sensor.getFailed (w : World) (s : Sensor) : Res Bool :=
  let exempt (failed : Bool) : Bool := if failed && s.ignoreFailIfHostOff then w.hostOn else failed
  match s.impl with
  | .host v _ => .ok (exempt (!v.isFinite))
  | .pluggable (.passive p) _ => .ok (exempt (p.getFailed w.redundancyFailed))
  | .pluggable (.sysfs _) _ => .ok false
  | .pluggable .writeOnly _ => .ok false
  | .pluggable .null _ => .error (.ub "null reader")

/-- `Sensor::getFailReason`: sensors/pluggable.cpp:46-49, defaults in sensors/sensor.hpp:54-57, interfaces.hpp:51-54. -/
def Sensor.getFailReason (s : Sensor) : Res String :=
  match s.impl with
  | .host _ _ => .ok "Unimplemented"
  | .pluggable (.passive p) _ => .ok p.getFailReason
  | .pluggable .null _ => .error (.ub "null reader")
  | .pluggable _ _ => .ok "Unimplemented"

/-- `SensorManager::getSensor`, sensors/manager.hpp:44-47: `at` throws for an unknown name. -/
def World.getSensor (w : World) (name : String) : Res Sensor := w.sensors.atKey name

/-- `sensor->write(value, force, &written)` for the sensor called `name`: sensors/pluggable.cpp:25-28, and
sensors/host.cpp:71-74 through sensors/sensor.hpp:42-47. Returns the world afterwards, the sensor's name and the value
stored in `written`. -/
def World.writeSensor (w : World) (name : String) (value : Dbl) (force : Bool) : Res (World × String × Option Int) := do
  let s ← w.getSensor name
  match s.impl with
  | .host _ _ => .error (.exc "Not Implemented.")
  | .pluggable r wr => do
    let res ← wr.write w.busOk value force
    .ok ({ w with
        sensors := w.sensors.insert name { s with impl := .pluggable r res.writer },
        trace := w.trace ++ res.effect.toList }, s.name, res.written)

/-- `HostSensor::value(double)`, sensors/host.cpp:51-59 -/
def Sensor.hostWrite (s : Sensor) (now : Int) (v : Dbl) : Sensor :=
  match s.impl with
  | .host _ _ => { s with impl := .host (v * Dbl.pow10 0) now }
  | _ => s

/-- `HostSensor::createTemp`, sensors/host.cpp:25-49 -/
def createHostSensor (now : Int) (name : String) (timeout : Int) (ignoreFailIfHostOff : Bool) : Sensor :=
  Sensor.hostWrite { name, timeout, ignoreFailIfHostOff, impl := .host 0 0 } now 0

end Verif
