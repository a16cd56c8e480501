import Verif.Model.DbusConf

/-!
# Building zones

Models `buildZones` of `pid/builder.cpp` with the factories of the controllers. Log output, the registration of the D-Bus
objects and the errors this can raise (for example for names that are no valid object paths) are left out.
-/

namespace Verif
variable [F : FloatModel]

/-- The state of a new `PIDController`, pid/pidcontroller.hpp:21-43 and 82-84 -/
def PidCtl.fresh (initial : PidConf) : PidCtl := ⟨initializePIDStruct initial, .nan⟩

/-- `FanController::createFanPid`, pid/fancontroller.cpp:29-43: a null pointer without inputs -/
def createFanPid (id : String) (inputs : List String) (initial : PidConf) : Option FanPid :=
  if inputs.length = 0 then none
  else some { id := id, inputs := inputs, setpoint := 0, direction := .neutral, ctl := PidCtl.fresh initial }

/-- `getThermalType`, pid/thermalcontroller.cpp:25-41 -/
def getThermalType (type : String) : Res ThermalType :=
  if type = "margin" then .ok .margin
  else if type = "temp" ∨ type = "power" then .ok .absolute
  else if type = "powersum" then .ok .summation
  else .error (.exc "Unrecognized PID Type/Class string")

/-- `isThermalType`, pid/thermalcontroller.cpp:43-48 -/
def isThermalType (type : String) : Bool := ["temp", "margin", "power", "powersum"].contains type

/-- `ThermalController::createThermalPid`, pid/thermalcontroller.cpp:50-69 -/
def createThermalPid (id : String) (inputs : List SensorInput) (setpoint : Dbl) (initial : PidConf) (type : ThermalType) :
    Res ThermalPid :=
  if inputs.isEmpty then .error (.exc "Thermal controller missing inputs")
  else .ok { id := id, inputs := inputs, type := type, setpoint := setpoint, ctl := PidCtl.fresh initial }

/-- `StepwiseController::createStepwiseController`, pid/stepwisecontroller.cpp:70-84 -/
def createStepwiseController (id : String) (inputs : List String) (initial : StepwiseInfo) : Res StepwiseCtl :=
  if inputs.isEmpty then .error (.exc "Stepwise controller missing inputs")
  else .ok { id := id, inputs := inputs, info := initial, st := StepState.init }

/-- the loop at pid/builder.cpp:87-91 -/
def ZoneData.addFanInputs (z : ZoneData) (inputs : List SensorInput) : ZoneData :=
  inputs.foldl (fun z i => z.addFanInput i.name i.missingIsAcceptable) z

/-- the loops at pid/builder.cpp:101-105 and 120-124 -/
def ZoneData.addThermalInputs (z : ZoneData) (inputs : List SensorInput) : ZoneData :=
  inputs.foldl (fun z i => z.addThermalInput i.name i.missingIsAcceptable) z

/-- the body of the loop over the loops of a zone, pid/builder.cpp:76-133 -/
def Zone.addLoop (z : Zone) (name : String) (info : ControllerInfo) : Res Zone :=
  if info.type = "fan" then
    let d := z.d.addFanInputs info.inputs
    let pid := createFanPid name (splitNames info.inputs) info.pidInfo
    let d := d.addPidFailSafePercent (splitNames info.inputs) info.failSafePercent
    .ok { z with d := d, fans := z.fans ++ [pid] }
  else if isThermalType info.type then do
    let d := z.d.addThermalInputs info.inputs
    let type ← getThermalType info.type
    let pid ← createThermalPid name info.inputs info.setpoint info.pidInfo type
    let d := d.addPidControlProcess name info.type info.setpoint
    let d := d.addPidFailSafePercent (splitNames info.inputs) info.failSafePercent
    .ok { z with d := d, thermals := z.thermals ++ [.pid pid] }
  else if info.type = "stepwise" then do
    let d := z.d.addThermalInputs info.inputs
    let stepwise ← createStepwiseController name (splitNames info.inputs) info.stepwiseInfo
    let d := d.addPidControlProcess name info.type info.setpoint
    let d := d.addPidFailSafePercent (splitNames info.inputs) info.failSafePercent
    .ok { z with d := d, thermals := z.thermals ++ [.stepwise stepwise] }
  else .ok z

/-- the loop over the loops of a zone, pid/builder.cpp:76-150 -/
def Zone.addLoops : Zone → List (String × ControllerInfo) → Res Zone
  | z, [] => .ok z
  | z, (name, info) :: rest => do
    let z ← z.addLoop name info
    Zone.addLoops z rest

/-- one zone, pid/builder.cpp:57-152 -/
def buildZone (zoneConfigs : OMap Int ZoneConfig) (zoneId : Int) (pidConfig : PIDConf) : Res Zone :=
  match zoneConfigs.find? zoneId with
  | none => .error (.exc "Bailing during load, missing Zone Configuration")
  | some zoneConf =>
    Zone.addLoops { d := ZoneData.ctor zoneId zoneConf.minThermalOutput zoneConf.failsafePercent zoneConf.cycleTime
                      zoneConf.accumulateSetPoint, fans := [], thermals := [] } pidConfig.entries

/-- the loop over the zones, pid/builder.cpp:51-154 -/
def buildZoneList (zoneConfigs : OMap Int ZoneConfig) : OMap Int Zone → List (Int × PIDConf) → Res (OMap Int Zone)
  | zones, [] => .ok zones
  | zones, (zoneId, pidConfig) :: rest => do
    let z ← buildZone zoneConfigs zoneId pidConfig
    buildZoneList zoneConfigs (zones.insert zoneId z) rest

/-- `buildZones`, pid/builder.cpp:44-157. The result is an unordered map; its order does not matter here. -/
def buildZones (zonePids : OMap Int PIDConf) (zoneConfigs : OMap Int ZoneConfig) : Res (OMap Int Zone) :=
  buildZoneList zoneConfigs {} zonePids.entries

end Verif
