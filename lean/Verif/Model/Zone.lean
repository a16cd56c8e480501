import Verif.Model.World
import Verif.Model.Pid
import Verif.Model.Stepwise

/-!
# Zones and their controllers

Models `pid/zone.hpp`, `pid/zone.cpp`, `pid/thermalcontroller.cpp`, `pid/fancontroller.cpp`,
`pid/stepwisecontroller.cpp`, `PIDController::process` of `pid/pidcontroller.cpp`. The CSV log is in
`Verif/Model/ZoneLog.lean` and the failsafe log calls are in `Verif/Model/FailsafeMsgs.lean`. Not modelled: debug output
on stderr.
-/

namespace Verif
variable [F : FloatModel]

/-- `ValueCacheEntry`, interfaces.hpp:24-31: scaled and unscaled value -/
structure CacheEntry where
  scaled : Dbl
  unscaled : Dbl
deriving DecidableEq

/-- `conf::CycleTime`, conf.hpp:65-72 (milliseconds) -/
structure CycleTime where
  cycleIntervalTimeMS : Nat := 100
  updateThermalsTimeMS : Nat := 1000
deriving DecidableEq

/-- The D-Bus object of one thermal loop (`ProcessObject`: `Object.Enable` and `Debug.Pid.ThermalPower`),
pid/zone.hpp:38-43. The bindings are generated; a property holds what was last stored. -/
structure ProcObj where
  enabled : Bool
  setpoint : Dbl
  classType : String
  leader : String
  input : Dbl
  output : Dbl
deriving DecidableEq

/-- Data members of `DbusPidZone`, pid/zone.hpp:225-261, except the controllers. `procs` maps a loop name to its D-Bus
object; a missing entry stands for the null pointer `operator[]` would create. -/
structure ZoneData where
  zoneId : Int
  maximumSetPoint : Dbl
  maximumSetPointName : String
  maximumSetPointNamePrev : String
  manualMode : Bool
  redundantWrite : Bool
  accumulateSetPoint : Bool
  minThermalOutputSetPt : Dbl
  zoneFailSafePercent : Dbl
  cycleTime : CycleTime
  failSafeSensors : OMap String (String × Dbl)
  missingAcceptable : List String
  setPoints : OMap String Dbl
  rpmCeilings : List Dbl
  fanInputs : List String
  thermalInputs : List String
  cachedValuesByName : OMap String CacheEntry
  cachedFanOutputs : OMap String CacheEntry
  procs : OMap String ProcObj
  sensorFailSafePercent : OMap String Dbl

/-- Constructor, pid/zone.hpp:60-76 and the member initialisers -/
def ZoneData.ctor (zone : Int) (minThermalOutput failSafePercent : Dbl) (cycleTime : CycleTime) (acc : Bool) : ZoneData :=
  { zoneId := zone, maximumSetPoint := 0, maximumSetPointName := "", maximumSetPointNamePrev := "",
    manualMode := false, redundantWrite := false, accumulateSetPoint := acc,
    minThermalOutputSetPt := minThermalOutput, zoneFailSafePercent := failSafePercent, cycleTime,
    failSafeSensors := {}, missingAcceptable := [], setPoints := {}, rpmCeilings := [], fanInputs := [],
    thermalInputs := [], cachedValuesByName := {}, cachedFanOutputs := {}, procs := {}, sensorFailSafePercent := {} }

namespace ZoneData

/-- `setManualMode`, pid/zone.cpp:75-84; reached through the D-Bus property `Manual` (`manual`, 579-584) -/
def setManualMode (z : ZoneData) (mode : Bool) : ZoneData :=
  { z with manualMode := mode, redundantWrite := if mode then z.redundantWrite else true }

/-- `getFailSafeMode`, pid/zone.cpp:86-90; also the D-Bus property `FailSafe` (`failSafe`, 586-589) -/
def getFailSafeMode (z : ZoneData) : Bool := !z.failSafeSensors.isEmpty

/-- `markSensorMissing`, pid/zone.cpp:97-125 -/
def markSensorMissing (z : ZoneData) (name reason : String) : ZoneData :=
  if z.missingAcceptable.contains name then z
  else
    let own := (z.sensorFailSafePercent.find? name).getD 0
    let table := if z.sensorFailSafePercent.contains name then z.sensorFailSafePercent
      else z.sensorFailSafePercent.insert name 0
    let percent := if Dbl.eqb own 0 then z.zoneFailSafePercent else own
    { z with sensorFailSafePercent := table, failSafeSensors := z.failSafeSensors.insert name (reason, percent) }

/-- `isPidProcessEnabled`, pid/zone.cpp:621-624 -/
def isPidProcessEnabled (z : ZoneData) (name : String) : Res Bool :=
  match z.procs.find? name with
  | some p => .ok p.enabled
  | none => .error (.ub "null ProcessObject")

/-- `name.substr(name.find('_') + 1)`: with no `_`, `npos + 1` is 0 and the whole name is kept. pid/zone.cpp:147 -/
def profileName (name : String) : String :=
  match findSub ['_'] name.toList with
  | some i => String.ofList (name.toList.drop (i + 1))
  | none => name

/-- `addSetPoint`, pid/zone.cpp:132-167 -/
def addSetPoint (z : ZoneData) (setPoint : Dbl) (name : String) : Res ZoneData := do
  if !(← z.isPidProcessEnabled name) then
    .ok z
  else
    let profile := if z.accumulateSetPoint then profileName name else name
    let old := (z.setPoints.find? profile).getD 0
    let new := if z.accumulateSetPoint then old + setPoint else if old < setPoint then setPoint else old
    let z := { z with setPoints := z.setPoints.insert profile new }
    if z.maximumSetPoint < new then
      .ok { z with maximumSetPoint := new, maximumSetPointName := profile }
    else .ok z

/-- `addRPMCeiling`, pid/zone.cpp:169-172 -/
def addRPMCeiling (z : ZoneData) (c : Dbl) : ZoneData := { z with rpmCeilings := z.rpmCeilings ++ [c] }

/-- `clearRPMCeilings`, pid/zone.cpp:174-177 -/
def clearRPMCeilings (z : ZoneData) : ZoneData := { z with rpmCeilings := [] }

/-- `clearSetPoints`, pid/zone.cpp:179-184 -/
def clearSetPoints (z : ZoneData) : ZoneData :=
  { z with setPoints := {}, maximumSetPoint := 0, maximumSetPointName := "" }

/-- `std::max_element` with `<` on doubles (pid/zone.cpp:193-198): the first largest -/
def maxElement (x : Dbl) (xs : List Dbl) : Dbl := xs.foldl (fun best y => if best < y then y else best) x

/-- `getFailSafePercent`, pid/zone.cpp:186-210 -/
def getFailSafePercent (z : ZoneData) : Dbl :=
  match z.failSafeSensors.entries with
  | [] => z.zoneFailSafePercent
  | e :: es =>
    let m := maxElement e.2.2 (es.map (fun e => e.2.2))
    if Dbl.eqb m 0 then z.zoneFailSafePercent else m

/-- `getCachedValues`, pid/zone.cpp:242-245 (`at` throws); `getCachedValue` is its `scaled` part (237-240) -/
def getCachedValues (z : ZoneData) (name : String) : Res CacheEntry := z.cachedValuesByName.atKey name

/-- `setOutputCache`, pid/zone.cpp:247-251 -/
def setOutputCache (z : ZoneData) (name : String) (e : CacheEntry) : ZoneData :=
  { z with cachedFanOutputs := z.cachedFanOutputs.insert name e }

/-- `addFanInput`, pid/zone.cpp:253-261 -/
def addFanInput (z : ZoneData) (fan : String) (missingAcceptable : Bool) : ZoneData :=
  { z with
    fanInputs := z.fanInputs ++ [fan],
    missingAcceptable := if missingAcceptable then z.missingAcceptable ++ [fan] else z.missingAcceptable }

/-- `addThermalInput`, pid/zone.cpp:263-281 -/
def addThermalInput (z : ZoneData) (therm : String) (missingAcceptable : Bool) : ZoneData :=
  { z with
    thermalInputs := if z.thermalInputs.contains therm then z.thermalInputs else z.thermalInputs ++ [therm],
    missingAcceptable := if missingAcceptable then z.missingAcceptable ++ [therm] else z.missingAcceptable }

/-- `addPidControlProcess`, pid/zone.cpp:591-619; properties not set there keep the defaults of the D-Bus interfaces
(0 and ""). -/
def addPidControlProcess (z : ZoneData) (name type : String) (setpoint : Dbl) : ZoneData :=
  let classType :=
    if type = "temp" then "Temperature" else if type = "margin" then "Margin" else if type = "power" then "Power"
    else if type = "powersum" then "PowerSum" else ""
  let obj : ProcObj := { enabled := true, setpoint, classType, leader := "", input := 0, output := 0 }
  { z with procs := z.procs.insert name obj }

/-- `addPidFailSafePercent`, pid/zone.cpp:626-653 -/
def addPidFailSafePercent (z : ZoneData) : List String → Dbl → ZoneData
  | [], _ => z
  | s :: inputs, percent =>
    let new := match z.sensorFailSafePercent.find? s with
      | some old => Dbl.cmax old percent
      | none => percent
    addPidFailSafePercent { z with sensorFailSafePercent := z.sensorFailSafePercent.insert s new } inputs percent

/-- `updateThermalPowerDebugInterface`, pid/zone.cpp:660-672 -/
def updateThermalPowerDebugInterface (z : ZoneData) (pidName leader : String) (input output : Dbl) : Res ZoneData :=
  match z.procs.find? pidName with
  | none => .error (.ub "null ProcessObject")
  | some p =>
    if leader = "" then .ok { z with procs := z.procs.insert pidName { p with output := output } }
    else .ok { z with procs := z.procs.insert pidName { p with leader := leader, input := input } }

/-- The body of the loop in `processSensorInputs`, pid/zone.hpp:150-221. -/
def processSensorInput (w : World) (now : Int) (z : ZoneData) (name : String) : Res ZoneData := do
  let sensor ← w.getSensor name
  let r ← sensor.read w now
  let z := { z with cachedValuesByName := z.cachedValuesByName.insert name ⟨r.value, r.unscaled⟩ }
  let duration := Int.tdiv (now - r.updated) 1000000000
  if ← sensor.getFailed w then
    .ok (z.markSensorMissing name (← sensor.getFailReason))
  else if sensor.timeout ≠ 0 ∧ sensor.timeout ≤ duration then
    .ok (z.markSensorMissing name "Sensor timeout")
  else
    .ok { z with failSafeSensors := z.failSafeSensors.erase name }

/-- `processSensorInputs`, pid/zone.hpp:144-223 -/
def processSensorInputs (w : World) (now : Int) : ZoneData → List String → Res ZoneData
  | z, [] => .ok z
  | z, name :: rest => do processSensorInputs w now (← z.processSensorInput w now name) rest

/-- `updateFanTelemetry`, pid/zone.cpp:465-493 -/
def updateFanTelemetry (w : World) (z : ZoneData) : Res ZoneData := z.processSensorInputs w w.nowFans z.fanInputs

/-- `updateSensors`, pid/zone.cpp:495-501 -/
def updateSensors (w : World) (z : ZoneData) : Res ZoneData := z.processSensorInputs w w.nowThermals z.thermalInputs

/-- `initializeCache`, pid/zone.cpp:503-523: the fan loop and the thermal loop -/
def initializeCache (z : ZoneData) : ZoneData :=
  let z := z.fanInputs.foldl (fun z f =>
    ({ z with
      cachedValuesByName := z.cachedValuesByName.insert f ⟨.nan, .nan⟩,
      cachedFanOutputs := z.cachedFanOutputs.insert f ⟨.nan, .nan⟩ } : ZoneData).markSensorMissing f "") z
  z.thermalInputs.foldl (fun z t =>
    ({ z with cachedValuesByName := z.cachedValuesByName.insert t ⟨.nan, .nan⟩ } : ZoneData).markSensorMissing t "") z

/-- `fileParseRpm`, pid/zone.cpp:285-333 (without the throttled complaint on stderr): `int value` is not initialised
before extraction. -/
def fileParseRpm (c : FileContent) (rpm : Dbl) : Res Dbl :=
  match c with
  | .missing => .ok rpm
  | .blank => .error (.ub "uninitialised value read")
  | .nonNumber => .ok rpm
  | .number v =>
    let v := Max.max (-(2 ^ 31)) (Min.min v (2 ^ 31 - 1))
    if v ≤ 0 then .ok rpm
    else if v ≤ 100 then .ok rpm
    else .ok (Dbl.ofInt v)

/-- the name join of pid/zone.cpp:362-377 -/
def joinIds (profile : String) : String → List String → String
  | acc, [] => acc
  | acc, id :: ids =>
    if containsSub id profile then joinIds profile (if acc = "" then id else acc ++ (" + " ++ id)) ids
    else joinIds profile acc ids

/-- `"/etc/thermal.d/setpoint"`, pid/zone.cpp:411 -/
def setpointPath : String := "/etc/thermal.d/setpoint"

/-- `determineMaxSetPointRequest`, pid/zone.cpp:335-423. `ids` are the IDs of the thermal controllers. -/
def determineMaxSetPointRequest (o : Opts) (w : World) (ids : List String) (z : ZoneData) : Res ZoneData := do
  -- 340-352
  let z := match z.rpmCeilings with
    | [] => z
    | c :: cs =>
      let lowest := minElement c cs
      if lowest < z.maximumSetPoint then { z with maximumSetPoint := lowest, maximumSetPointName := "Ceiling" } else z
  -- 357-378
  let z := if z.accumulateSetPoint then { z with maximumSetPointName := joinIds z.maximumSetPointName "" ids } else z
  -- 384-403
  let z :=
    if z.maximumSetPoint ≤ z.minThermalOutputSetPt then
      { z with maximumSetPoint := z.minThermalOutputSetPt, maximumSetPointName := "Minimum" }
    else if z.maximumSetPointName ≠ z.maximumSetPointNamePrev then
      { z with maximumSetPointNamePrev := z.maximumSetPointName }
    else z
  -- 404-421
  if o.tuningEnabled then
    let rpm ← fileParseRpm (w.files setpointPath) z.maximumSetPoint
    let rpm ← fileParseRpm (w.files (setpointPath ++ ".zone" ++ toString z.zoneId)) rpm
    .ok { z with maximumSetPoint := rpm }
  else .ok z

end ZoneData

/-! ## Controllers -/

/-- `ThermalType`, pid/thermalcontroller.hpp:22-27 -/
inductive ThermalType where
  | margin | absolute | summation
deriving DecidableEq

/-- `conf::SensorInput`, conf.hpp:44-50 -/
structure SensorInput where
  name : String
  convertMarginZero : Dbl := .nan
  convertTempToMargin : Bool := false
  missingIsAcceptable : Bool := false

/-- `ThermalController`, pid/thermalcontroller.hpp:45-66, with its base, pid/pidcontroller.hpp:81-85 -/
structure ThermalPid where
  id : String
  inputs : List SensorInput
  type : ThermalType
  setpoint : Dbl
  ctl : PidCtl

/-- `StepwiseController`, pid/stepwisecontroller.hpp:51-61 -/
structure StepwiseCtl where
  id : String
  inputs : List String
  info : StepwiseInfo
  st : StepState

/-- The controllers in a zone's `_thermals`, pid/zone.hpp:254. -/
inductive ThermalCtl where
  | pid (c : ThermalPid)
  | stepwise (c : StepwiseCtl)

/-- `getID`, pid/pidcontroller.hpp:51-54 and pid/stepwisecontroller.hpp:36-39 -/
def ThermalCtl.id : ThermalCtl → String
  | .pid c => c.id
  | .stepwise c => c.id

/-- `FanSpeedDirection`, pid/fan.hpp:7-12 -/
inductive FanDirection where
  | down | up | neutral
deriving DecidableEq

/-- `FanController`, pid/fancontroller.hpp:46-52 (the fields used only to print state transitions are left out) -/
structure FanPid where
  id : String
  inputs : List String
  setpoint : Dbl
  direction : FanDirection
  ctl : PidCtl

/-- One iteration of the loop in `ThermalController::inputProc`, pid/thermalcontroller.cpp:101-153. The pair is
(`value`, `acceptable`). -/
def ThermalPid.inputOne (c : ThermalPid) (z : ZoneData) (value : Dbl) (acceptable : Bool) (i : SensorInput) :
    Res (ZoneData × Dbl × Bool) := do
  let cached := (← z.getCachedValues i.name).scaled
  if !cached.isFinite then .ok (z, value, acceptable)
  else
    let cached ←
      if c.type = .margin ∧ i.convertTempToMargin then
        if !i.convertMarginZero.isFinite then .error (.exc "Unrecognized TempToMargin")
        else .ok (i.convertMarginZero - cached)
      else .ok cached
    let new := match c.type with
      | .margin => Dbl.cmin value cached
      | .absolute => Dbl.cmax value cached
      | .summation => value + cached
    if !Dbl.eqb value new then
      let z ← z.updateThermalPowerDebugInterface c.id i.name new 0
      .ok (z, new, true)
    else .ok (z, new, true)

/-- The loop of `ThermalController::inputProc`, pid/thermalcontroller.cpp:101-153. -/
def ThermalPid.inputLoop (c : ThermalPid) : ZoneData → Dbl → Bool → List SensorInput → Res (ZoneData × Dbl × Bool)
  | z, v, a, [] => .ok (z, v, a)
  | z, v, a, i :: is => do
    let (z, v, a) ← c.inputOne z v a i
    c.inputLoop z v a is

/-- `ThermalController::inputProc`, pid/thermalcontroller.cpp:72-171. `_inputs.begin()->name` on an empty vector is
undefined (line 98); controllers are only created with inputs. -/
def ThermalPid.inputProc (c : ThermalPid) (z : ZoneData) : Res (ZoneData × Dbl) := do
  if c.inputs.isEmpty then .error (.ub "begin() of an empty vector")
  else
    let start := match c.type with
      | .margin => Dbl.dblMax
      | .absolute => Dbl.lowest
      | .summation => 0
    let (z, v, a) ← c.inputLoop z start false c.inputs
    .ok (z, if a then v else c.setpoint)

/-- `PIDController::process` on a `ThermalController`: pid/pidcontroller.cpp:88-111, pid/thermalcontroller.cpp:174-191 -/
def ThermalPid.process (c : ThermalPid) (z : ZoneData) : Res (ZoneData × ThermalPid) := do
  let (z, input) ← c.inputProc z
  let (output, ctl) := pidStep c.ctl c.setpoint input
  let z ← z.addSetPoint output c.id
  let z ← z.updateThermalPowerDebugInterface c.id "" 0 output
  .ok (z, { c with ctl := ctl })

/-- `StepwiseController::inputProc`, pid/stepwisecontroller.cpp:86-101, from value `v` on -/
def StepwiseCtl.inputLoop (z : ZoneData) : Dbl → List String → Res Dbl
  | v, [] => .ok v
  | v, i :: is => do inputLoop z (Dbl.cmax v (← z.getCachedValues i).scaled) is

/-- `StepwiseController::process`, pid/stepwisecontroller.cpp:37-68, with `outputProc` 103-118 -/
def StepwiseCtl.process (c : StepwiseCtl) (z : ZoneData) : Res (ZoneData × StepwiseCtl) := do
  let input ← inputLoop z Dbl.lowest c.inputs
  let (output, st) := stepwiseStep c.info c.st input
  let z ← if c.info.isCeiling then .ok (z.addRPMCeiling output) else z.addSetPoint output c.id
  .ok (z, { c with st := st })

/-- `process` of a thermal controller, pid/zone.cpp:558-561 -/
def ThermalCtl.process (z : ZoneData) : ThermalCtl → Res (ZoneData × ThermalCtl)
  | .pid c => do
    let (z, c) ← c.process z
    .ok (z, .pid c)
  | .stepwise c => do
    let (z, c) ← c.process z
    .ok (z, .stepwise c)

/-- The readings `FanController::inputProc` keeps: finite and above 0. pid/fancontroller.cpp:53-76 -/
def FanPid.readings (z : ZoneData) : List String → Res (List Dbl)
  | [] => .ok []
  | name :: rest => do
    let v := (← z.getCachedValues name).unscaled
    let vs ← readings z rest
    .ok (if !v.isFinite then vs else if v ≤ 0 then vs else v :: vs)

/-- `FanController::inputProc`, pid/fancontroller.cpp:45-97 -/
def FanPid.inputProc (c : FanPid) (z : ZoneData) : Res Dbl := do
  match ← readings z c.inputs with
  | [] => .ok 0
  | v :: vs => .ok (minElement v vs)

/-- `FanController::setptProc`, pid/fancontroller.cpp:99-122 -/
def FanPid.setptProc (c : FanPid) (z : ZoneData) : FanPid :=
  let maxRPM := z.maximumSetPoint
  let prev := c.setpoint
  { c with
    direction := if prev < maxRPM then .up else if maxRPM < prev then .down else .neutral,
    setpoint := maxRPM }

/-- The failsafe part of `FanController::outputProc`, pid/fancontroller.cpp:126-161: the percentage to command -/
def fanPercent (o : Opts) (z : ZoneData) (value : Dbl) : Dbl :=
  if o.tuningEnabled then value
  else if z.getFailSafeMode then
    if o.strictFailsafePwm then z.getFailSafePercent
    else if value < z.getFailSafePercent then z.getFailSafePercent
    else value
  else value

/-- The write loop of `FanController::outputProc`, pid/fancontroller.cpp:204-217; `percent` is already divided by 100.
`raw0` is the initial value of `rawWritten` (`-1` here; uninitialised in the destructor). -/
def writeFans (raw0 : Res Int) (percent : Dbl) : World → ZoneData → List String → Res (World × ZoneData)
  | w, z, [] => .ok (w, z)
  | w, z, name :: rest => do
    let (w, sensorName, written) ← w.writeSensor name percent z.redundantWrite
    let raw ← written.elim raw0 .ok
    writeFans raw0 percent w (z.setOutputCache sensorName ⟨percent, Dbl.ofInt raw⟩) rest

/-- `PIDController::process` on a `FanController`: pid/pidcontroller.cpp:88-111, pid/fancontroller.cpp:45-220 -/
def FanPid.process (o : Opts) (w : World) (z : ZoneData) (c : FanPid) : Res (World × ZoneData × FanPid) := do
  let c := c.setptProc z
  let input ← c.inputProc z
  let (output, ctl) := pidStep c.ctl c.setpoint input
  let percent := fanPercent o z output
  let (w, z) ← writeFans (.ok (-1)) (percent / 100) w z c.inputs
  .ok (w, z, { c with ctl := ctl })

/-- `FanController::~FanController`, pid/fancontroller.cpp:222-252 -/
def FanPid.destroy (o : Opts) (w : World) (z : ZoneData) (c : FanPid) : Res (World × ZoneData) :=
  if !o.offlineFailsafePwm then .ok (w, z)
  else writeFans (.error (.ub "uninitialised value read")) (z.getFailSafePercent / 100) w z c.inputs

/-- A `DbusPidZone` with its controllers (pid/zone.hpp:253-254); a fan controller can be a null pointer
(`createFanPid` with no inputs, pid/fancontroller.cpp:33-36). -/
structure Zone where
  d : ZoneData
  fans : List (Option FanPid)
  thermals : List ThermalCtl

/-- the loop of `DbusPidZone::processThermals`, pid/zone.cpp:556-562 -/
def processThermalList : ZoneData → List ThermalCtl → Res (ZoneData × List ThermalCtl)
  | z, [] => .ok (z, [])
  | z, c :: cs => do
    let (z, c) ← c.process z
    let (z, cs) ← processThermalList z cs
    .ok (z, c :: cs)

/-- the loop of `DbusPidZone::processFans`, pid/zone.cpp:544-547 -/
def processFanList (o : Opts) : World → ZoneData → List (Option FanPid) → Res (World × ZoneData × List (Option FanPid))
  | w, z, [] => .ok (w, z, [])
  | _, _, none :: _ => .error (.ub "null fan controller")
  | w, z, some c :: cs => do
    let (w, z, c) ← c.process o w z
    let (w, z, cs) ← processFanList o w z cs
    .ok (w, z, some c :: cs)

/-- `DbusPidZone::processFans`, pid/zone.cpp:542-554 -/
def Zone.processFans (o : Opts) (w : World) (z : Zone) : Res (World × Zone) := do
  let (w, d, fans) ← processFanList o w z.d z.fans
  .ok (w, { z with d := { d with redundantWrite := false }, fans := fans })

/-- `pid_control::processThermals`, pid/pidloop.cpp:22-33 -/
def Zone.processThermals (o : Opts) (w : World) (z : Zone) : Res Zone := do
  let d ← z.d.updateSensors w
  let d := d.clearSetPoints.clearRPMCeilings
  let (d, thermals) ← processThermalList d z.thermals
  let d ← d.determineMaxSetPointRequest o w (thermals.map ThermalCtl.id)
  .ok { z with d := d, thermals := thermals }

/-- The first call of `pidControlLoop` for a zone up to the first wait: pid/pidloop.cpp:46-57 -/
def Zone.start (o : Opts) (w : World) (z : Zone) : Res Zone :=
  Zone.processThermals o w { z with d := z.d.initializeCache }

/-- One expiry of the zone's timer: the handler of `pidControlLoop`, pid/pidloop.cpp:70-142, with the cycle counter.
Simplification: `cycleCnt` is a natural number (`uint64_t` in the code). -/
def Zone.tick (o : Opts) (w : World) (z : Zone) (cnt : Nat) : Res (World × Zone × Nat) := do
  if z.d.manualMode then .ok (w, z, cnt)
  else
    let d ← z.d.updateFanTelemetry w
    let z := { z with d := d }
    let (z, cnt) ←
      if z.d.cycleTime.updateThermalsTimeMS ≤ cnt then do
        let z ← z.processThermals o w
        .ok (z, cnt - z.d.cycleTime.updateThermalsTimeMS)
      else .ok (z, cnt)
    let (w, z) ← z.processFans o w
    .ok (w, z, cnt + z.d.cycleTime.cycleIntervalTimeMS)

end Verif
