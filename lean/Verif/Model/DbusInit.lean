import Verif.Model.Build

/-!
# Configuration over D-Bus: `init`

Models `dbus_configuration::init` of `dbus/dbusconfiguration.cpp` with `populatePidInfo`, and `findSensors` of
`dbus/dbusutil.cpp`. What the bus answers is a parameter (`BusView`). Hash maps are iterated in an unspecified order; where
this matters the model takes a list, and theorems hold for every list. Log output is left out.
-/

namespace Verif
variable [F : FloatModel]

/-- `std::get<std::string>` on a `DbusVariantType` (dbus/dbusconfiguration.hpp:31-33), as at dbus/dbusconfiguration.cpp:337 -/
def ConfVariant.getStr : ConfVariant → Res String
  | .str s => .ok s
  | _ => .error (.exc "bad_variant_access")

/-- `std::get<bool>`, as at dbus/dbusconfiguration.cpp:430 -/
def ConfVariant.getBool : ConfVariant → Res Bool
  | .bool b => .ok b
  | _ => .error (.exc "bad_variant_access")

/-- `std::get<std::vector<std::string>>`, as at dbus/dbusconfiguration.cpp:583 -/
def ConfVariant.getStrs : ConfVariant → Res (List String)
  | .strs l => .ok l
  | _ => .error (.exc "bad_variant_access")

/-- `std::get<std::vector<double>>`, as at dbus/dbusconfiguration.cpp:1207 -/
def ConfVariant.getDbls : ConfVariant → Res (List Dbl)
  | .dbls l => .ok l
  | _ => .error (.exc "bad_variant_access")

/-- the properties of one interface of an object, dbus/dbusconfiguration.hpp:38 -/
abbrev ConfProps [FloatModel] := OMap String ConfVariant
/-- the interfaces of one object, dbus/dbusconfiguration.hpp:37-38 -/
abbrev ConfObj [FloatModel] := OMap String ConfProps

/-- a required property: `base.at(key)` or `getPIDAttribute`, dbus/dbusconfiguration.cpp:292-303 -/
def ConfProps.req {α : Type} (p : ConfProps) (key : String) (get : ConfVariant → Res α) : Res α :=
  match p.find? key with
  | none => .error (.exc "missing attribute")
  | some v => get v

/-- an optional property: `find` with a default, as at dbus/dbusconfiguration.cpp:418-446 -/
def ConfProps.opt {α : Type} (p : ConfProps) (key : String) (default : α) (get : ConfVariant → Res α) : Res α :=
  match p.find? key with
  | none => .ok default
  | some v => get v

/-- `int failsafepercent = std::visit(VariantToDoubleVisitor(), …)`, dbus/dbusconfiguration.cpp:348-355 and 675-682 -/
def ConfVariant.getPercent (v : ConfVariant) : Res Dbl := do
  let d ← v.toDbl
  let i ← castOr "cast to int" d.toI32
  .ok (Dbl.ofInt i)

abbrev pidInterface : String := "xyz.openbmc_project.Configuration.Pid"
abbrev zoneInterface : String := "xyz.openbmc_project.Configuration.Pid.Zone"
abbrev stepwiseInterface : String := "xyz.openbmc_project.Configuration.Stepwise"
abbrev valueInterface : String := "xyz.openbmc_project.Sensor.Value"
abbrev pwmInterface : String := "xyz.openbmc_project.Control.FanPwm"

/-- `getSensorNameFromPath`, dbus/dbusconfiguration.cpp:98-101 -/
def sensorNameFromPath (path : String) : String :=
  String.ofList (path.toList.reverse.takeWhile (· ≠ '/')).reverse

/-- `sensorNameToDbusName`, dbus/dbusconfiguration.cpp:103-108 -/
def sensorNameToDbusName (name : String) : String :=
  String.ofList (name.toList.map (fun c => if c = ' ' then '_' else c))

/-- What the configuration sees of the bus: the sensors in the order of the hash map, what a regular expression matches
(`none`: it is malformed), and threshold values (0 where the property cannot be read); see dbus/dbusconfiguration.cpp:379-390
and 495-527. -/
structure BusView [FloatModel] where
  handleMissing : Bool
  sensors : List (String × String)
  regex : String → Option (String → Bool)
  threshold : String → String → String → Res Dbl

/-- the sensors of one object, dbus/dbusconfiguration.cpp:514-524 -/
def noteSensor (path : String) (m : OMap String String) (interface : String) : OMap String String :=
  if interface = valueInterface ∨ interface = pwmInterface then
    if interface = valueInterface ∧ containsSub path "pwm" then m
    else m.insert path interface
  else m

/-- the map of sensors, dbus/dbusconfiguration.cpp:495-527: objects with their interfaces (of all owners) -/
def sensorsOfReply (reply : List (String × List String)) : OMap String String :=
  reply.foldl (fun m o => o.2.foldl (noteSensor o.1) m) {}

/-- `findSensors`, dbus/dbusutil.cpp:75-89: the new matches -/
def BusView.find (b : BusView) (search : String) : Res (List (String × String)) :=
  match b.regex ("/" ++ search ++ "$") with
  | none => .error (.exc "regex_error")
  | some p => .ok (b.sensors.filter (fun s => p s.1))

/-- `findSensors` for every name of a list, dbus/dbusconfiguration.cpp:824-834 -/
def BusView.findAll (b : BusView) : List String → Res (List (String × String))
  | [] => .ok []
  | n :: ns => do
    let found ← b.find (sensorNameToDbusName n)
    let rest ← b.findAll ns
    .ok (found ++ rest)

/-! ## Profiles -/

/-- whether an interface is kept, dbus/dbusconfiguration.cpp:576-608 -/
def keepsInterface (selected : List String) (p : ConfProps) : Res Bool :=
  match p.find? "Profiles" with
  | none => .ok true
  | some v => do
    let profiles ← v.getStrs
    if profiles.isEmpty then .ok true
    else .ok (profiles.any (fun x => selected.contains x))

/-- the interfaces of one object, dbus/dbusconfiguration.cpp:573-609 -/
def filterInterfaces (selected : List String) : List (String × ConfProps) → Res (List (String × ConfProps))
  | [] => .ok []
  | (k, p) :: rest => do
    let keep ← keepsInterface selected p
    let rest ← filterInterfaces selected rest
    .ok (if keep then (k, p) :: rest else rest)

/-- the objects, dbus/dbusconfiguration.cpp:570-618 -/
def filterObjects (selected : List String) : List ConfObj → Res (List ConfObj)
  | [] => .ok []
  | o :: rest => do
    let es ← filterInterfaces selected o.entries
    let rest ← filterObjects selected rest
    .ok (if es.isEmpty then rest else ⟨es⟩ :: rest)

/-- the profile filter, dbus/dbusconfiguration.cpp:566-619: without selected profiles everything is kept -/
def applyProfiles (selected : List String) (objs : List ConfObj) : Res (List ConfObj) :=
  if selected.isEmpty then .ok objs else filterObjects selected objs

/-! ## Zones -/

/-- the body of the first pass, dbus/dbusconfiguration.cpp:631-655. The conversion of the number is undefined outside of the
range of `int64_t`. -/
def presetZone (numbers : OMap String Int) (obj : ConfObj) : Res (OMap String Int) :=
  match obj.find? zoneInterface with
  | none => .ok numbers
  | some zone => do
    let name ← zone.req "Name" ConfVariant.getStr
    match zone.find? "ZoneIndex" with
    | some (.dbl d) => do
      let desired ← castOr "cast to int64_t" d.toI64
      let (_, numbers) ← setZoneIndex name numbers desired
      .ok numbers
    | _ => .ok numbers

/-- the first pass, dbus/dbusconfiguration.cpp:628-656 -/
def presetZones : OMap String Int → List ConfObj → Res (OMap String Int)
  | numbers, [] => .ok numbers
  | numbers, o :: rest => do
    let numbers ← presetZone numbers o
    presetZones numbers rest

/-- the results of `init` and the numbers given to zones, dbus/dbusconfiguration.cpp:454-457 and 628 -/
structure DbusCfg [FloatModel] where
  sensors : OMap String SensorConfig := {}
  pids : OMap Int PIDConf := {}
  zones : OMap Int ZoneConfig := {}
  numbers : OMap String Int := {}

/-- a value-initialised `conf::ZoneConfig`, conf.hpp:66-93 -/
def ZoneConfig.zero : ZoneConfig := ⟨0, 0, ⟨100, 1000⟩, false⟩
/-- a value-initialised `conf::ControllerInfo`, conf.hpp:55-63 -/
def ControllerInfo.zero : ControllerInfo := ⟨"", [], 0, PidConf.zero, StepwiseInfo.zero, 0⟩
/-- a value-initialised `conf::SensorConfig`, conf.hpp:21-35 -/
def SensorConfig.zero : SensorConfig := ⟨"", "", "", 0, 0, 0, false, false, false⟩

/-- the settings of a zone, dbus/dbusconfiguration.cpp:670-695, over the present details -/
def zoneDetails (zone : ConfProps) (details : ZoneConfig) : Res ZoneConfig := do
  let minThermalOutput ← zone.req "MinThermalOutput" ConfVariant.toDbl
  let failsafePercent ← zone.opt "FailSafePercent" 0 ConfVariant.getPercent
  let cycle ← cycleTimeFromDbus zone "CycleIntervalTimeMS" details.cycleTime.cycleIntervalTimeMS
  let thermals ← cycleTimeFromDbus zone "UpdateThermalsTimeMS" details.cycleTime.updateThermalsTimeMS
  let acc ← zone.opt "AccumulateSetPoint" false ConfVariant.getBool
  .ok ⟨minThermalOutput, failsafePercent, ⟨cycle, thermals⟩, acc⟩

/-- a zone, dbus/dbusconfiguration.cpp:660-696 -/
def addZone (c : DbusCfg) (zone : ConfProps) : Res DbusCfg := do
  let name ← zone.req "Name" ConfVariant.getStr
  let (index, numbers) ← getZoneIndex name c.numbers
  let details ← zoneDetails zone ((c.zones.find? index).getD ZoneConfig.zero)
  .ok { c with numbers := numbers, zones := c.zones.insert index details }

/-! ## PID loops -/

/-- the options of a loop for its sensors, dbus/dbusconfiguration.cpp:735-750 and 1071-1086 -/
structure InputFlags where
  unavailableAsFailed : Bool
  ignoreFailIfHostOff : Bool

def inputFlags (base : ConfProps) : Res InputFlags := do
  let u ← base.opt "InputUnavailableAsFailed" true ConfVariant.getBool
  let i ← base.opt "IgnoreFailIfHostOff" false ConfVariant.getBool
  .ok ⟨u, i⟩

/-- the settings of an input, dbus/dbusconfiguration.cpp:798-809, 857-864, 1116-1126 and 1149-1158: over the present ones -/
def noteInput (sensors : OMap String SensorConfig) (name type readPath : String) (f : InputFlags) : OMap String SensorConfig :=
  let config := (sensors.find? name).getD SensorConfig.zero
  sensors.insert name
    { config with
      type := type, readPath := readPath, timeout := 0, ignoreDbusMinMax := true,
      unavailableAsFailed := f.unavailableAsFailed, ignoreFailIfHostOff := f.ignoreFailIfHostOff }

/-- `inputSensorInterfaces`, `archivedInputSensorNames` and the sensor settings, dbus/dbusconfiguration.cpp:752-763 -/
structure InputState where
  found : List (String × String)
  archived : List String
  sensors : OMap String SensorConfig

/-- one name of `Inputs`, dbus/dbusconfiguration.cpp:767-822 -/
def findInput (b : BusView) (pidClass : String) (acceptable : List String) (f : InputFlags) (s : InputState)
    (sensorName : String) : Res InputState := do
  let found ← b.find (sensorNameToDbusName sensorName)
  if !b.handleMissing ∨ found ≠ [] then .ok { s with found := s.found ++ found }
  else if pidClass = "fan" ∨ sensorName ∈ acceptable then .ok s
  else
    let name := sensorNameToDbusName sensorName
    .ok { s with archived := s.archived ++ [name],
                 sensors := noteInput s.sensors name pidClass (getSensorPath pidClass name) f }

/-- all names, dbus/dbusconfiguration.cpp:765-823 -/
def findInputs (b : BusView) (pidClass : String) (acceptable : List String) (f : InputFlags) :
    InputState → List String → Res InputState
  | s, [] => .ok s
  | s, n :: ns => do
    let s ← findInput b pidClass acceptable f s n
    findInputs b pidClass acceptable f s ns

/-- the inputs found, dbus/dbusconfiguration.cpp:836-877 -/
def noteFound (pidClass : String) (f : InputFlags) : InputState → List (String × String) → Res InputState
  | s, [] => .ok s
  | s, (path, interface) :: rest =>
    let s := if isThermalType pidClass then
        let name := sensorNameFromPath path
        { s with archived := s.archived ++ [name], sensors := noteInput s.sensors name pidClass path f }
      else s
    if interface ≠ valueInterface then .error (.exc "sensor with wrong interface")
    else noteFound pidClass f s rest

/-- the names that may be missing, dbus/dbusconfiguration.cpp:879-904 -/
def acceptableNames : List (String × String) → Res (List String)
  | [] => .ok []
  | (path, interface) :: rest =>
    if interface ≠ valueInterface then .error (.exc "sensor with wrong interface")
    else do
      let rest ← acceptableNames rest
      .ok (sensorNameFromPath path :: rest)

/-- the control of every fan, dbus/dbusconfiguration.cpp:911-958: one for all, or one for each -/
def pairFans (inputs outputs : List (String × String)) : Res (List ((String × String) × (String × String))) :=
  match outputs with
  | [o] => .ok (inputs.map (fun i => (i, o)))
  | _ =>
    if inputs.length = outputs.length then .ok (inputs.zip outputs)
    else .error (.exc "fan PID has invalid number of Outputs")

/-- the settings of the fans, dbus/dbusconfiguration.cpp:950-980 -/
def noteFans : InputState → List ((String × String) × (String × String)) → Res InputState
  | s, [] => .ok s
  | s, ((fanPath, _), (pwmPath, pwmIface)) :: rest =>
    if pwmIface ≠ pwmInterface then .error (.exc "fan pwm control with wrong interface")
    else
      let name := sensorNameFromPath fanPath ++ sensorNameFromPath pwmPath
      let config := (s.sensors.find? name).getD SensorConfig.zero
      let config := { config with type := "fan", readPath := fanPath, writePath := pwmPath, max := 255, min := 0 }
      noteFans { s with archived := s.archived ++ [name], sensors := s.sensors.insert name config } rest

/-- the fans of a fan loop, dbus/dbusconfiguration.cpp:909-981 -/
def fanInputs (pidClass : String) (outputs : List (String × String)) (s : InputState) : Res InputState :=
  if pidClass = "fan" then do
    let pairs ← pairFans s.found outputs
    noteFans s pairs
  else .ok s

/-- `Outputs`, dbus/dbusconfiguration.cpp:728-733 -/
def outputNames (base : ConfProps) (pidClass : String) : Res (List String) :=
  if pidClass = "fan" then base.req "Outputs" ConfVariant.getStrs else .ok []

/-- the inputs of a PID loop with their settings, dbus/dbusconfiguration.cpp:714-981: names of the inputs, names that may
be missing, and sensor settings -/
def pidInputs (b : BusView) (sensors : OMap String SensorConfig) (base : ConfProps) (pidClass : String) :
    Res (List String × List String × OMap String SensorConfig) := do
  let inputs ← base.req "Inputs" ConfVariant.getStrs
  let acceptable ← base.opt "MissingIsAcceptable" [] ConfVariant.getStrs
  let outputs ← outputNames base pidClass
  let f ← inputFlags base
  let s ← findInputs b pidClass acceptable f ⟨[], [], sensors⟩ inputs
  let outputs ← b.findAll outputs
  let missing ← b.findAll acceptable
  let s ← noteFound pidClass f s s.found
  let missing ← acceptableNames missing
  let s ← fanInputs pidClass outputs s
  .ok (s.archived, missing, s.sensors)

/-- `thresholds::types`, dbus/dbusconfiguration.cpp:89-90 -/
def thresholdTypes : List String := ["CriticalLow", "CriticalHigh", "WarningLow", "WarningHigh"]

/-- `SetPointOffset`, dbus/dbusconfiguration.cpp:989-1006: `none` if there is none -/
def offsetType (base : ConfProps) : Res (Option String) :=
  match base.find? "SetPointOffset" with
  | none => .ok none
  | some v => do
    let t ← v.getStr
    if t ∈ thresholdTypes then .ok (some t) else .error (.exc "Unsupported type")

/-- the set point, dbus/dbusconfiguration.cpp:336-345 -/
def pidSetpoint (base : ConfProps) (type : String) : Res Dbl :=
  if type = "fan" then .ok 0 else base.req "SetPoint" ConfVariant.toDbl

/-- the set point with its offset, dbus/dbusconfiguration.cpp:357-390 -/
def offsetSetpoint (b : BusView) (setpoint : Dbl) (inputs : List SensorInput) (sensors : OMap String SensorConfig) :
    Option String → Res Dbl
  | none => .ok setpoint
  | some prop =>
    match inputs with
    | [] => .error (.ub "front() of an empty vector")
    | i :: _ => do
      let config ← sensors.atKey i.name
      let interface := if prop = "WarningHigh" ∨ prop = "WarningLow" then ifWarning else ifCritical
      let reading ← b.threshold interface config.readPath prop
      .ok (setpoint + reading)

/-- the settings of the loop, dbus/dbusconfiguration.cpp:392-451 -/
def pidConfFromDbus (base : ConfProps) : Res PidConf := do
  let p ← base.req "PCoefficient" ConfVariant.toDbl
  let i ← base.req "ICoefficient" ConfVariant.toDbl
  let ffOff ← base.req "FFOffCoefficient" ConfVariant.toDbl
  let ffGain ← base.req "FFGainCoefficient" ConfVariant.toDbl
  let imax ← base.req "ILimitMax" ConfVariant.toDbl
  let imin ← base.req "ILimitMin" ConfVariant.toDbl
  let omax ← base.req "OutLimitMax" ConfVariant.toDbl
  let omin ← base.req "OutLimitMin" ConfVariant.toDbl
  let slewNeg ← base.req "SlewNeg" ConfVariant.toDbl
  let slewPos ← base.req "SlewPos" ConfVariant.toDbl
  let check ← base.opt "CheckHysteresisWithSetpoint" false ConfVariant.getBool
  let neg ← base.opt "NegativeHysteresis" 0 ConfVariant.toDbl
  let pos ← base.opt "PositiveHysteresis" 0 ConfVariant.toDbl
  let d ← base.opt "DCoefficient" 0 ConfVariant.toDbl
  .ok { checkHysterWithSetpt := check, ts := 1, proportionalCoeff := p, integralCoeff := i, derivativeCoeff := d,
        feedFwdOffset := ffOff, feedFwdGain := ffGain, integralLimit := ⟨imin, imax⟩, outLim := ⟨omin, omax⟩,
        slewNeg := slewNeg, slewPos := slewPos, positiveHysteresis := pos, negativeHysteresis := neg }

/-- `populatePidInfo`, dbus/dbusconfiguration.cpp:331-452 -/
def populatePidInfo (b : BusView) (base : ConfProps) (info : ControllerInfo) (offset : Option String)
    (sensors : OMap String SensorConfig) : Res ControllerInfo := do
  let type ← base.req "Class" ConfVariant.getStr
  let setpoint ← pidSetpoint base type
  let failSafe ← base.opt "FailSafePercent" 0 ConfVariant.getPercent
  let setpoint ← offsetSetpoint b setpoint info.inputs sensors offset
  let pid ← pidConfFromDbus base
  .ok { info with type := type, setpoint := setpoint, failSafePercent := failSafe, pidInfo := pid }

/-- one loop for every input, dbus/dbusconfiguration.cpp:1031-1038 -/
def addOffsetLoops (b : BusView) (base : ConfProps) (offset : String) (sensors : OMap String SensorConfig) :
    PIDConf → List SensorInput → Res PIDConf
  | conf, [] => .ok conf
  | conf, i :: rest => do
    let info := (conf.find? i.name).getD ControllerInfo.zero
    let info ← populatePidInfo b base { info with inputs := info.inputs ++ [i] } (some offset) sensors
    addOffsetLoops b base offset sensors (conf.insert i.name info) rest

/-- the loops of a PID configuration, dbus/dbusconfiguration.cpp:1021-1039 -/
def addPidLoops (b : BusView) (base : ConfProps) (pidName : String) (sensors : OMap String SensorConfig) (conf : PIDConf)
    (inputs : List SensorInput) : Option String → Res PIDConf
  | none => do
    let info := (conf.find? pidName).getD ControllerInfo.zero
    let info ← populatePidInfo b base { info with inputs := inputs } none sensors
    .ok (conf.insert pidName info)
  | some offset => addOffsetLoops b base offset sensors conf inputs

/-- the rest of a PID configuration once its inputs are known, dbus/dbusconfiguration.cpp:982-1039 -/
def finishPid (b : BusView) (c : DbusCfg) (index : Int) (conf : PIDConf) (base : ConfProps) (pidName : String)
    (archived missing : List String) : Res DbusCfg :=
  if archived = [] then .ok c
  else do
    let offset ← offsetType base
    let margins ← base.opt "TempToMargin" [] ConfVariant.getDbls
    let conf ← addPidLoops b base pidName c.sensors conf (spliceInputs archived margins missing) offset
    .ok { c with pids := c.pids.insert index conf }

/-- a PID configuration in one zone, dbus/dbusconfiguration.cpp:711-1040 -/
def addPid (b : BusView) (base : ConfProps) (pidName pidClass : String) (c : DbusCfg) (zone : String) : Res DbusCfg := do
  let (index, numbers) ← getZoneIndex zone c.numbers
  let conf := (c.pids.find? index).getD {}
  let (archived, missing, sensors) ← pidInputs b c.sensors base pidClass
  finishPid b { c with numbers := numbers, pids := c.pids.insert index conf, sensors := sensors } index conf base pidName
    archived missing

/-- the loop over the zones of a configuration, dbus/dbusconfiguration.cpp:709-711 and 1051-1053 -/
def overZones (step : DbusCfg → String → Res DbusCfg) : DbusCfg → List String → Res DbusCfg
  | c, [] => .ok c
  | c, z :: zs => do
    let c ← step c z
    overZones step c zs

/-- a PID configuration, dbus/dbusconfiguration.cpp:699-1041 -/
def addPidObject (b : BusView) (c : DbusCfg) (base : ConfProps) : Res DbusCfg := do
  let name ← base.req "Name" ConfVariant.getStr
  let pidClass ← base.req "Class" ConfVariant.getStr
  let zones ← base.req "Zones" ConfVariant.getStrs
  overZones (addPid b base (sensorNameToDbusName name) pidClass) c zones

/-! ## Stepwise loops -/

/-- the sensors found for one name, dbus/dbusconfiguration.cpp:1142-1160 -/
def noteStepInputs (f : InputFlags) : List String × OMap String SensorConfig → List (String × String) →
    List String × OMap String SensorConfig
  | s, [] => s
  | s, (path, _) :: rest =>
    noteStepInputs f (s.1 ++ [sensorNameFromPath path], noteInput s.2 (sensorNameFromPath path) "temp" path f) rest

/-- the inputs of a stepwise loop, dbus/dbusconfiguration.cpp:1088-1162. Without support for missing objects the loop ends
at the first name that is not found. -/
def stepInputs (b : BusView) (acceptable : List String) (f : InputFlags) : List String × OMap String SensorConfig →
    List String → Res (List String × OMap String SensorConfig)
  | s, [] => .ok s
  | s, n :: ns => do
    let found ← b.find (sensorNameToDbusName n)
    if found ≠ [] then stepInputs b acceptable f (noteStepInputs f s found) ns
    else if !b.handleMissing then .ok s
    else if n ∈ acceptable then stepInputs b acceptable f s ns
    else
      let name := sensorNameToDbusName n
      stepInputs b acceptable f (s.1 ++ [name], noteInput s.2 name "temp" (getSensorPath "temp" name) f) ns

/-- the names that may be missing, dbus/dbusconfiguration.cpp:1168-1197 -/
def stepAcceptable (b : BusView) : List String → Res (List String)
  | [] => .ok []
  | n :: ns => do
    let found ← b.find (sensorNameToDbusName n)
    if found = [] ∧ !b.handleMissing then .ok []
    else do
      let rest ← stepAcceptable b ns
      .ok (found.map (fun s => sensorNameFromPath s.1) ++ rest)

/-- `std::copy` into a table and the NaN behind it, dbus/dbusconfiguration.cpp:1243-1249 and 1257-1263 -/
def fillTable (table : Fin maxStepwisePoints → Dbl) (l : List Dbl) : Fin maxStepwisePoints → Dbl :=
  fun k => if h : k.val < l.length then l[k.val] else if k.val = l.length then .nan else table k

/-- the tables of a stepwise loop, dbus/dbusconfiguration.cpp:1232-1263 -/
def stepTables (base : ConfProps) (s : StepwiseInfo) : Res StepwiseInfo := do
  let readings ← base.req "Reading" ConfVariant.getDbls
  if maxStepwisePoints < readings.length then .error (.exc "Too many stepwise points.")
  else if readings = [] then .error (.exc "Must have one stepwise point.")
  else do
    let outputs ← base.req "Output" ConfVariant.getDbls
    if readings.length ≠ outputs.length then .error (.exc "Outputs size must match readings")
    else .ok { s with reading := fillTable s.reading readings, output := fillTable s.output outputs }

/-- the settings of a stepwise loop, dbus/dbusconfiguration.cpp:1199-1263 -/
def populateStepwise (base : ConfProps) (info : ControllerInfo) (inputs missing : List String) : Res ControllerInfo := do
  let margins ← base.opt "TempToMargin" [] ConfVariant.getDbls
  let subtype ← base.req "Class" ConfVariant.getStr
  let pos ← base.opt "PositiveHysteresis" 0 ConfVariant.toDbl
  let neg ← base.opt "NegativeHysteresis" 0 ConfVariant.toDbl
  let s ← stepTables base { info.stepwiseInfo with ts := 1, positiveHysteresis := pos, negativeHysteresis := neg,
                                                   isCeiling := decide (subtype = "Ceiling") }
  .ok { info with inputs := spliceInputs inputs margins missing, type := "stepwise", stepwiseInfo := s }

/-- the rest of a stepwise configuration once its inputs are known, dbus/dbusconfiguration.cpp:1163-1263 -/
def finishStepwise (b : BusView) (c : DbusCfg) (index : Int) (conf : PIDConf) (base : ConfProps) (pidName : String)
    (inputs acceptable : List String) : Res DbusCfg :=
  if inputs = [] then .ok c
  else do
    let missing ← stepAcceptable b acceptable
    let info ← populateStepwise base ((conf.find? pidName).getD ControllerInfo.zero) inputs missing
    .ok { c with pids := c.pids.insert index (conf.insert pidName info) }

/-- a stepwise configuration in one zone, dbus/dbusconfiguration.cpp:1053-1264 -/
def addStepwise (b : BusView) (base : ConfProps) (pidName : String) (c : DbusCfg) (zone : String) : Res DbusCfg := do
  let (index, numbers) ← getZoneIndex zone c.numbers
  let conf := (c.pids.find? index).getD {}
  let names ← base.req "Inputs" ConfVariant.getStrs
  let acceptable ← base.opt "MissingIsAcceptable" [] ConfVariant.getStrs
  let f ← inputFlags base
  let (inputs, sensors) ← stepInputs b acceptable f ([], c.sensors) names
  finishStepwise b { c with numbers := numbers, pids := c.pids.insert index conf, sensors := sensors } index conf base
    pidName inputs acceptable

/-- a stepwise configuration, dbus/dbusconfiguration.cpp:1044-1265 -/
def addStepwiseObject (b : BusView) (c : DbusCfg) (base : ConfProps) : Res DbusCfg := do
  let name ← base.req "Name" ConfVariant.getStr
  let zones ← base.req "Zones" ConfVariant.getStrs
  overZones (addStepwise b base (sensorNameToDbusName name)) c zones

/-! ## All objects -/

/-- one interface of an object, if it is there: dbus/dbusconfiguration.cpp:660-664, 697-702 and 1042-1046 -/
def withInterface (obj : ConfObj) (interface : String) (f : DbusCfg → ConfProps → Res DbusCfg) (c : DbusCfg) : Res DbusCfg :=
  match obj.find? interface with
  | none => .ok c
  | some p => f c p

/-- the body of the second pass, dbus/dbusconfiguration.cpp:660-1265 -/
def addObject (b : BusView) (c : DbusCfg) (obj : ConfObj) : Res DbusCfg := do
  let c ← withInterface obj zoneInterface addZone c
  let c ← withInterface obj pidInterface (addPidObject b) c
  withInterface obj stepwiseInterface (addStepwiseObject b) c

/-- the second pass, dbus/dbusconfiguration.cpp:658-1266 -/
def addObjects (b : BusView) : DbusCfg → List ConfObj → Res DbusCfg
  | c, [] => .ok c
  | c, o :: rest => do
    let c ← addObject b c o
    addObjects b c rest

/-- `init`, dbus/dbusconfiguration.cpp:454-1278, from the objects with a configuration on: the result of the function and
the configuration -/
def dbusInit (b : BusView) (selected : List String) (objs : List ConfObj) : Res (Bool × DbusCfg) := do
  let objs ← applyProfiles selected objs
  let numbers ← presetZones {} objs
  let c ← addObjects b { numbers := numbers } objs
  .ok (!(c.pids.isEmpty || c.zones.isEmpty), c)

end Verif
