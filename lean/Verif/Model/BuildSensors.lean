import Verif.Model.World

/-!
# Building sensors from configuration

Models `sensors/build_utils.cpp`, `sensors/builder.cpp`, `FixupPath` of `sysfs/util.cpp` and `SensorManager::addSensor`.
-/

namespace Verif
variable [F : FloatModel]

/-- `conf::SensorConfig`, conf.hpp:21-35 -/
structure SensorConfig where
  type : String
  readPath : String
  writePath : String
  min : Int
  max : Int
  timeout : Int
  ignoreDbusMinMax : Bool
  unavailableAsFailed : Bool
  ignoreFailIfHostOff : Bool
deriving DecidableEq

/-- `IOInterfaceType`, sensors/build_utils.hpp:16-24 -/
inductive IOType where
  | none | external | dbusPassive | dbusActive | sysfs | unknown
deriving DecidableEq, Repr

/-- `getWriteInterfaceType`, sensors/build_utils.cpp:16-35 -/
def getWriteInterfaceType (path : String) : IOType :=
  if path = "" ∨ path = "None" then .none
  else if containsSub path "/sys/" then .sysfs
  else if containsSub path "/xyz/openbmc_project/" then .dbusActive
  else .unknown

/-- `getReadInterfaceType`, sensors/build_utils.cpp:37-60 -/
def getReadInterfaceType (path : String) : IOType :=
  if path = "" ∨ path = "None" then .none
  else if containsSub path "/xyz/openbmc_project/extsensors/" then .external
  else if containsSub path "/xyz/openbmc_project/" then .dbusPassive
  else if containsSub path "/sys/" then .sysfs
  else .unknown

/-- The names in a directory in the order in which `directory_iterator` gives them (sysfs/util.cpp:35); `none` if it throws. -/
abbrev Dirs := String → Option (List String)

/-- The part of the bus a sensor build sees: answers for passive sensors by name, and whether
`createDbusWrite` finds a connection name for a path (dbus/dbuswrite.cpp:40-56 and 109-125: a failing `getService` gives
null). And the directories. -/
structure BuildBus where
  passive : String → PassiveAnswers
  writeService : String → Bool
  dirs : Dirs

/-- `base / name` as in the paths given by `directory_iterator` -/
def joinPath (base name : String) : String :=
  if base.toList.getLast? = some '/' then base ++ name else base ++ "/" ++ name

/-- `FixupPath`, sysfs/util.cpp:20-50 -/
def fixupPath (dirs : Dirs) (original : String) : Res String :=
  match findSub "**".toList original.toList with
  | none => .ok original
  | some n =>
    let base := String.ofList (original.toList.take n)
    let f := String.ofList (original.toList.drop (n + 2))
    match dirs base with
    | none => .error (.exc "filesystem_error")
    | some [] => .ok original
    | some (name :: _) => .ok (joinPath base name ++ f)

/-- The reader chosen in sensors/builder.cpp:63-101, with the constructor at sysfs/sysfsread.hpp:18-20 -/
def buildReader (o : Opts) (bus : BuildBus) (now : Int) (name : String) (info : SensorConfig) : Res Reader :=
  match getReadInterfaceType info.readPath with
  | .dbusPassive =>
    match createDbusPassive o now info.type name info.readPath info.ignoreDbusMinMax info.unavailableAsFailed
        (decide (info.type = "fan")) (bus.passive name) with
    | some p => .ok (.passive p)
    | none => .error (.exc "SensorBuildException: passive sensor")
  | .external => .ok .null
  | .sysfs => do
    let path ← fixupPath bus.dirs info.readPath
    .ok (.sysfs path)
  | _ => .ok .writeOnly

/-- The writer chosen for a fan in sensors/builder.cpp:105-145, with the constructors at sysfs/sysfswrite.hpp:19-21 and
32-34 -/
def buildWriter (bus : BuildBus) (info : SensorConfig) : Res Writer :=
  match getWriteInterfaceType info.writePath with
  | .sysfs => do
    let path ← fixupPath bus.dirs info.writePath
    if 0 < info.max then .ok (.sysfsPercent path info.min info.max) else .ok (.sysfsRaw path)
  | .dbusActive =>
    if !bus.writeService info.writePath then .error (.exc "SensorBuildException: write interface")
    else if 0 < info.max then .ok (.dbusPercent info.writePath info.min info.max (-1))
    else .ok (.dbusRaw info.writePath (-1))
  | _ => .ok .readOnlyNoExcept

/-- One pass of the loop in `buildSensors`, sensors/builder.cpp:43-182. `none` is a type nothing is built for.
`HostSensor::createTemp` is called without `ignoreFailIfHostOff` (lines 168-170), whose default is `false`
(sensors/host.hpp:34). -/
def buildSensor (o : Opts) (bus : BuildBus) (now : Int) (name : String) (info : SensorConfig) : Res (Option Sensor) := do
  let ri ← buildReader o bus now name info
  if info.type = "fan" then
    let wi ← buildWriter bus info
    .ok (some ⟨name, info.timeout, info.ignoreFailIfHostOff, .pluggable ri wi⟩)
  else if info.type = "temp" ∨ info.type = "margin" ∨ info.type = "power" ∨ info.type = "powersum" then
    if getReadInterfaceType info.readPath = .external then
      .ok (some (createHostSensor now name info.timeout false))
    else .ok (some ⟨name, info.timeout, info.ignoreFailIfHostOff, .pluggable ri .readOnlyNoExcept⟩)
  else .ok none

/-- `SensorManager::_sensorMap` and `_sensorTypeList`, sensors/manager.hpp:60-61 -/
structure Manager where
  sensors : OMap String Sensor := {}
  types : OMap String (List String) := {}

/-- `SensorManager::addSensor`, sensors/manager.cpp:16-28 -/
def Manager.addSensor (m : Manager) (type name : String) (s : Sensor) : Manager :=
  { sensors := m.sensors.insert name s,
    types := m.types.insert type ((m.types.find? type).getD [] ++ [name]) }

/-- the loop of `buildSensors`, sensors/builder.cpp:43-182 -/
def buildSensorsLoop (o : Opts) (bus : BuildBus) (now : Int) : Manager → List (String × SensorConfig) → Res Manager
  | m, [] => .ok m
  | m, (name, info) :: rest => do
    match ← buildSensor o bus now name info with
    | some s => buildSensorsLoop o bus now (m.addSensor info.type name s) rest
    | none => buildSensorsLoop o bus now m rest

/-- `buildSensors`, sensors/builder.cpp:35-185 -/
def buildSensors (o : Opts) (bus : BuildBus) (now : Int) (config : OMap String SensorConfig) : Res Manager :=
  buildSensorsLoop o bus now {} config.entries

end Verif
