import Verif.Model.BuildSensors
import Verif.Model.Util

/-!
# Configuration files

Models `validateJson` of `buildjson/buildjson.cpp`, `sensors/buildjson.cpp` and `pid/buildjson.cpp`. The text parser of
the JSON library is not modelled: a configuration is the parsed value. The accessors follow the documented behaviour of
nlohmann::json 3.x; that library is not part of /repo.
-/

namespace Verif
variable [F : FloatModel]

/-- `nlohmann::json`. Integers are `int64_t` or `uint64_t` in the library. An object is a `std::map`: members in key
order. -/
inductive Json where
  | null
  | bool (b : Bool)
  | int (i : Int)
  | float (d : Dbl)
  | str (s : String)
  | arr (xs : List Json)
  | obj (members : List (String × Json))

/-- the member of a list of members; library code behind the accessors below -/
def findMember (k : String) : List (String × Json) → Option Json
  | [] => none
  | (k', v) :: rest => if k = k' then some v else findMember k rest

namespace Json

/-- `find` (pid/buildjson.cpp:40, sensors/buildjson.cpp:26, …): the end iterator if this is not an object -/
def find? (j : Json) (k : String) : Option Json :=
  match j with
  | .obj l => findMember k l
  | _ => none

/-- `at` (pid/buildjson.cpp:34, sensors/buildjson.cpp:22, …): `type_error` if this is not an object, `out_of_range` for a missing key -/
def atKey (j : Json) (k : String) : Res Json :=
  match j with
  | .obj l => match findMember k l with
    | some v => .ok v
    | none => .error (.exc "json out_of_range")
  | _ => .error (.exc "json type_error")

/-- `operator[]` of a constant value (pid/buildjson.cpp:206, buildjson/buildjson.cpp:19, …): undefined for a missing key (an assertion in debug builds) -/
def index (j : Json) (k : String) : Res Json :=
  match j with
  | .obj l => match findMember k l with
    | some v => .ok v
    | none => .error (.ub "json operator[] without the key")
  | _ => .error (.exc "json type_error")

/-- what a range-based for loop visits (pid/buildjson.cpp:199, sensors/buildjson.cpp:112, buildjson/buildjson.cpp:31) -/
def elems : Json → List Json
  | .null => []
  | .arr xs => xs
  | .obj l => l.map Prod.snd
  | j => [j]

/-- `size`, buildjson/buildjson.cpp:19 and 39 -/
def size : Json → Nat
  | .null => 0
  | .arr xs => xs.length
  | .obj l => l.length
  | _ => 1

/-- `count`, buildjson/buildjson.cpp:13, 25 and 33 -/
def count (j : Json) (k : String) : Nat := if (j.find? k).isSome then 1 else 0

/-- `get<std::string>` and `get_to` (pid/buildjson.cpp:34, sensors/buildjson.cpp:22, …) -/
def getStr : Json → Res String
  | .str s => .ok s
  | _ => .error (.exc "json type_error")

/-- `get<bool>` and `get_to` (sensors/buildjson.cpp:45-61, …) -/
def getBool : Json → Res Bool
  | .bool b => .ok b
  | _ => .error (.exc "json type_error")

/-- `get<double>` and `get_to` (pid/buildjson.cpp:96-114, …): any number -/
def getDbl : Json → Res Dbl
  | .int i => .ok (Dbl.ofInt i)
  | .float d => .ok d
  | _ => .error (.exc "json type_error")

/-- `get<int64_t>` and `get_to` (sensors/buildjson.cpp:63-100, pid/buildjson.cpp:206): integers wrap, other numbers are cast -/
def getI64 : Json → Res Int
  | .int i => .ok ((i + 2 ^ 63) % 2 ^ 64 - 2 ^ 63)
  | .float d => castOr "cast to int64_t" d.toI64
  | _ => .error (.exc "json type_error")

/-- `get<uint64_t>` and `get_to` (pid/buildjson.cpp:171) -/
def getU64 : Json → Res Nat
  | .int i => .ok (i % 2 ^ 64).toNat
  | .float d => do
    let i ← castOr "cast to uint64_t" d.toU64
    .ok i.toNat
  | _ => .error (.exc "json type_error")

/-- `get<int>` and `get_to` (pid/buildjson.cpp:86-93): the general conversion of arithmetic types, which also takes booleans -/
def getI32 : Json → Res Int
  | .int i => .ok ((i + 2 ^ 31) % 2 ^ 32 - 2 ^ 31)
  | .float d => castOr "cast to int" d.toI32
  | .bool b => .ok (if b then 1 else 0)
  | _ => .error (.exc "json type_error")

/-- the elements of a vector, see `getVec` -/
def getAll {α : Type} (get : Json → Res α) : List Json → Res (List α)
  | [] => .ok []
  | x :: xs => do
    let a ← get x
    let as ← getAll get xs
    .ok (a :: as)

/-- `get<std::vector<T>>`, pid/buildjson.cpp:35, 43 and 49 -/
def getVec {α : Type} (get : Json → Res α) : Json → Res (List α)
  | .arr xs => getAll get xs
  | _ => .error (.exc "json type_error")

/-- `j.at(k).get_to(x)`, pid/buildjson.cpp:34-36, 96-114 and sensors/buildjson.cpp:22-23 -/
def req {α : Type} (j : Json) (k : String) (get : Json → Res α) : Res α := do
  let v ← j.atKey k
  get v

/-- `x = d; if (j.find(k) != j.end()) j.at(k).get_to(x)`, sensors/buildjson.cpp:45-100 and pid/buildjson.cpp:38-91 -/
def opt {α : Type} (j : Json) (k : String) (d : α) (get : Json → Res α) : Res α :=
  match j.find? k with
  | some v => get v
  | none => .ok d

end Json

/-- What `validateJson` reports, buildjson/buildjson.cpp:11-45 -/
def validateZones : List Json → Res Unit
  | [] => .ok ()
  | zone :: rest =>
    if zone.count "pids" ≠ 1 then .error (.exc "KeyError: should only have one 'pids' key per zone.")
    else do
      let pids ← zone.index "pids"
      if pids.size = 0 then .error (.exc "Invalid Configuration: must be at least one pid per zone.")
      else validateZones rest

/-- `validateJson`, buildjson/buildjson.cpp:11-45 -/
def validateJson (data : Json) : Res Unit :=
  if data.count "sensors" ≠ 1 then .error (.exc "KeyError: 'sensors' not found (or found repeatedly)")
  else do
    let sensors ← data.index "sensors"
    if sensors.size = 0 then .error (.exc "Invalid Configuration: At least one sensor required")
    else if data.count "zones" ≠ 1 then .error (.exc "KeyError: 'zones' not found (or found repeatedly)")
    else do
      let zones ← data.index "zones"
      validateZones zones.elems

/-- `Sensor::getDefaultTimeout`, sensors/sensor.hpp:26-29 -/
def getDefaultTimeout (type : String) : Int := if type = "fan" then 0 else 2

/-- sensors/buildjson.cpp:63-75 and 77-89: the value is read for fans only -/
def Json.fanOnly (j : Json) (type k : String) : Res Int := if type = "fan" then j.opt k 0 Json.getI64 else .ok 0

/-- `from_json(const json&, conf::SensorConfig&)`, sensors/buildjson.cpp:20-101 -/
def sensorFromJson (j : Json) : Res SensorConfig := do
  let type ← j.req "type" Json.getStr
  let readPath ← j.req "readPath" Json.getStr
  let writePath ← j.opt "writePath" "" Json.getStr
  let ignoreDbusMinMax ← j.opt "ignoreDbusMinMax" false Json.getBool
  let unavailableAsFailed ← j.opt "unavailableAsFailed" true Json.getBool
  let ignoreFailIfHostOff ← j.opt "ignoreFailIfHostOff" false Json.getBool
  let min ← j.fanOnly type "min"
  let max ← j.fanOnly type "max"
  let timeout ← j.opt "timeout" (getDefaultTimeout type) Json.getI64
  .ok { type := type, readPath := readPath, writePath := writePath, min := min, max := max, timeout := timeout,
        ignoreDbusMinMax := ignoreDbusMinMax, unavailableAsFailed := unavailableAsFailed,
        ignoreFailIfHostOff := ignoreFailIfHostOff }

/-- the loop of `buildSensorsFromJson`, sensors/buildjson.cpp:112-115. The right side of the assignment is evaluated
first. -/
def sensorsFromList : OMap String SensorConfig → List Json → Res (OMap String SensorConfig)
  | config, [] => .ok config
  | config, sensor :: rest => do
    let c ← sensorFromJson sensor
    let n ← sensor.index "name"
    let name ← n.getStr
    sensorsFromList (config.insert name c) rest

/-- `buildSensorsFromJson`, sensors/buildjson.cpp:104-118 -/
def buildSensorsFromJson (data : Json) : Res (OMap String SensorConfig) := do
  let sensors ← data.index "sensors"
  sensorsFromList {} sensors.elems

/-- `conf::ControllerInfo`, conf.hpp:55-63 -/
structure ControllerInfo where
  type : String
  inputs : List SensorInput
  setpoint : Dbl
  pidInfo : PidConf
  stepwiseInfo : StepwiseInfo
  failSafePercent : Dbl

/-- `ec::pidinfo()`, pid/ec/pid.hpp:48-65 -/
def PidConf.zero : PidConf :=
  { checkHysterWithSetpt := false, ts := 0, proportionalCoeff := 0, integralCoeff := 0, derivativeCoeff := 0,
    feedFwdOffset := 0, feedFwdGain := 0, integralLimit := ⟨0, 0⟩, outLim := ⟨0, 0⟩, slewNeg := 0, slewPos := 0,
    positiveHysteresis := 0, negativeHysteresis := 0 }

/-- `ec::StepwiseInfo()` as part of a value-initialised `ControllerInfo`, pid/ec/stepwise.hpp and conf.hpp:55-63 -/
def StepwiseInfo.zero : StepwiseInfo :=
  { ts := 0, reading := fun _ => 0, output := fun _ => 0, positiveHysteresis := 0, negativeHysteresis := 0,
    isCeiling := false }

/-- the loops over the points, pid/buildjson.cpp:132-139 and 146-153 -/
def pointLoop (r : Json) : List (Fin maxStepwisePoints) → (Fin maxStepwisePoints → Dbl) → Res (Fin maxStepwisePoints → Dbl)
  | [], f => .ok f
  | i :: rest, f =>
    match r.find? (toString i.val) with
    | none => pointLoop r rest f
    | some v => do
      let d ← v.getDbl
      pointLoop r rest (fun k => if k = i then d else f k)

/-- pid/buildjson.cpp:121-140 and 142-154: all points NaN, then the listed ones -/
def pointsFromJson (p : Json) (key : String) : Res (Fin maxStepwisePoints → Dbl) :=
  match p.find? key with
  | none => .ok (fun _ => .nan)
  | some r => pointLoop r (List.finRange maxStepwisePoints) (fun _ => .nan)

/-- the optional settings, pid/buildjson.cpp:61-84 -/
structure OptionalPid where
  checkHysterWithSetpt : Bool
  positiveHysteresis : Dbl
  negativeHysteresis : Dbl
  derivativeCoeff : Dbl

/-- pid/buildjson.cpp:61-84 -/
def optionalFromJson (p : Json) : Res OptionalPid := do
  let c ← p.opt "checkHysteresisWithSetpoint" false Json.getBool
  let pos ← p.opt "positiveHysteresis" 0 Json.getDbl
  let neg ← p.opt "negativeHysteresis" 0 Json.getDbl
  let d ← p.opt "derivativeCoeff" 0 Json.getDbl
  .ok { checkHysterWithSetpt := c, positiveHysteresis := pos, negativeHysteresis := neg, derivativeCoeff := d }

/-- pid/buildjson.cpp:96-114 -/
def pidConfFromJson (p : Json) (o : OptionalPid) : Res PidConf := do
  let ts ← p.req "samplePeriod" Json.getDbl
  let proportionalCoeff ← p.req "proportionalCoeff" Json.getDbl
  let integralCoeff ← p.req "integralCoeff" Json.getDbl
  let feedFwdOffset ← p.req "feedFwdOffsetCoeff" Json.getDbl
  let feedFwdGain ← p.req "feedFwdGainCoeff" Json.getDbl
  let imin ← p.req "integralLimit_min" Json.getDbl
  let imax ← p.req "integralLimit_max" Json.getDbl
  let omin ← p.req "outLim_min" Json.getDbl
  let omax ← p.req "outLim_max" Json.getDbl
  let slewNeg ← p.req "slewNeg" Json.getDbl
  let slewPos ← p.req "slewPos" Json.getDbl
  .ok { checkHysterWithSetpt := o.checkHysterWithSetpt, ts := ts, proportionalCoeff := proportionalCoeff,
        integralCoeff := integralCoeff, derivativeCoeff := o.derivativeCoeff, feedFwdOffset := feedFwdOffset,
        feedFwdGain := feedFwdGain, integralLimit := ⟨imin, imax⟩, outLim := ⟨omin, omax⟩, slewNeg := slewNeg,
        slewPos := slewPos, positiveHysteresis := o.positiveHysteresis, negativeHysteresis := o.negativeHysteresis }

/-- pid/buildjson.cpp:118-157 -/
def stepwiseFromJson (p : Json) (o : OptionalPid) : Res StepwiseInfo := do
  let ts ← p.req "samplePeriod" Json.getDbl
  let isCeiling ← p.req "isCeiling" Json.getBool
  let reading ← pointsFromJson p "reading"
  let output ← pointsFromJson p "output"
  .ok { ts := ts, reading := reading, output := output, positiveHysteresis := o.positiveHysteresis,
        negativeHysteresis := o.negativeHysteresis, isCeiling := isCeiling }

/-- `from_json(const json&, conf::ControllerInfo&)`, pid/buildjson.cpp:29-159 -/
def controllerFromJson (j : Json) : Res ControllerInfo := do
  let type ← j.req "type" Json.getStr
  let inputNames ← j.req "inputs" (Json.getVec Json.getStr)
  let setpoint ← j.req "setpoint" Json.getDbl
  let tempToMargin ← j.opt "tempToMargin" [] (Json.getVec Json.getDbl)
  let missing ← j.opt "missingIsAcceptable" [] (Json.getVec Json.getStr)
  let p ← j.atKey "pid"
  let o ← optionalFromJson p
  let failSafe ← j.opt "FailSafePercent" 0 Json.getI32
  if type ≠ "stepwise" then
    let info ← pidConfFromJson p o
    .ok { type := type, inputs := spliceInputs inputNames tempToMargin missing, setpoint := setpoint, pidInfo := info,
          stepwiseInfo := StepwiseInfo.zero, failSafePercent := Dbl.ofInt failSafe }
  else
    let info ← stepwiseFromJson p o
    .ok { type := type, inputs := spliceInputs inputNames tempToMargin missing, setpoint := setpoint,
          pidInfo := PidConf.zero, stepwiseInfo := info, failSafePercent := Dbl.ofInt failSafe }

/-- `getCycleTimeSetting`, pid/buildjson.cpp:163-187, from the default `value` -/
def cycleTimeFromJson (zone : Json) (attributeName : String) (value : Nat) : Res Nat :=
  match zone.find? attributeName with
  | none => .ok value
  | some v => do
    let tmp ← v.getU64
    if 1 ≤ tmp then .ok tmp else .ok value

/-- `conf::ZoneConfig`, conf.hpp:79-93 -/
structure ZoneConfig where
  minThermalOutput : Dbl
  failsafePercent : Dbl
  cycleTime : CycleTime
  accumulateSetPoint : Bool

/-- `conf::PIDConf`, conf.hpp:95 -/
abbrev PIDConf [FloatModel] := OMap String ControllerInfo

/-- the loop over the loops of a zone, pid/buildjson.cpp:224-236: a repeated name replaces the earlier entry -/
def pidsFromList : PIDConf → List Json → Res PIDConf
  | conf, [] => .ok conf
  | conf, pid :: rest => do
    let n ← pid.index "name"
    let item ← controllerFromJson pid
    let name ← n.getStr
    pidsFromList (conf.insert name item) rest

/-- one zone, pid/buildjson.cpp:201-236 -/
def zoneFromJson (zone : Json) : Res (Int × PIDConf × ZoneConfig) := do
  let idj ← zone.index "id"
  let id ← idj.getI64
  let mj ← zone.index "minThermalOutput"
  let minThermalOutput ← mj.getDbl
  let fj ← zone.index "failsafePercent"
  let failsafePercent ← fj.getDbl
  let cycle ← cycleTimeFromJson zone "cycleIntervalTimeMS" 100
  let thermals ← cycleTimeFromJson zone "updateThermalsTimeMS" 1000
  let acc ← zone.opt "accumulateSetPoint" false Json.getBool
  let pids ← zone.index "pids"
  let conf ← pidsFromList {} pids.elems
  .ok (id, conf, { minThermalOutput := minThermalOutput, failsafePercent := failsafePercent,
                   cycleTime := { cycleIntervalTimeMS := cycle, updateThermalsTimeMS := thermals },
                   accumulateSetPoint := acc })

/-- the loop over the zones, pid/buildjson.cpp:199-240 -/
def zonesFromList : OMap Int PIDConf → OMap Int ZoneConfig → List Json → Res (OMap Int PIDConf × OMap Int ZoneConfig)
  | pids, zones, [] => .ok (pids, zones)
  | pids, zones, zone :: rest => do
    let r ← zoneFromJson zone
    zonesFromList (pids.insert r.1 r.2.1) (zones.insert r.1 r.2.2) rest

/-- `buildPIDsFromJson`, pid/buildjson.cpp:189-243 -/
def buildPIDsFromJson (data : Json) : Res (OMap Int PIDConf × OMap Int ZoneConfig) := do
  let zones ← data.index "zones"
  zonesFromList {} {} zones.elems

end Verif
