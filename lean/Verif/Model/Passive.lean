import Verif.Base.Basic

/-!
# D-Bus read sensors

Models `dbus/dbuspassive.cpp`, `scaleSensorReading`, `validType`, `getSensorPath` of `dbus/dbusutil.cpp` and
`thresholdsAsserted` of `dbus/dbushelper.cpp`. The failsafe log calls inside `getFailed` do not influence the
result and are left out. Times are integers in nanoseconds.
-/

namespace Verif
variable [F : FloatModel]

/-- Build options (meson.build:17-40) and `tuningEnabled` (pid/tuning.hpp:22), which the model depends on. -/
structure Opts where
  strictFailsafePwm : Bool := false
  offlineFailsafePwm : Bool := false
  uncFailsafe : Bool := false
  handleMissingObjectPaths : Bool := false
  tuningEnabled : Bool := false

/-- `ReadReturn`, interfaces.hpp:11-22 -/
structure ReadReturn where
  value : Dbl
  updated : Int
  unscaled : Dbl

/-- `scaleSensorReading`, dbus/dbusutil.cpp:157-165 -/
def scaleSensorReading (min max value : Dbl) : Dbl :=
  if max ≤ 0 ∨ max ≤ min then value
  else (value - min) / (max - min)

/-- `DbusPassive` members, dbus/dbuspassive.hpp:72-101. `hasRedundancy` is "the `redundancy` pointer is not null". -/
structure Passive where
  typeMargin : Bool
  typeFan : Bool
  path : String
  hasRedundancy : Bool
  objectMissing : Bool
  scale : Int
  value : Dbl
  unscaled : Dbl
  max : Dbl
  min : Dbl
  failed : Bool
  functional : Bool
  available : Bool
  availableOverridden : Bool
  unavailableAsFailed : Bool
  badReading : Bool
  marginHot : Bool
  updated : Int

/-- `SensorProperties`, dbus/dbushelper_interface.hpp:9-18 (without the unit) -/
structure SensorProperties where
  scale : Int := 0
  value : Dbl := 0
  min : Dbl := 0
  max : Dbl := 0
  available : Bool := false
  unavailableAsFailed : Bool := false

/-- Constructor, dbus/dbuspassive.cpp:155-168 and the member initialisers. -/
def Passive.ctor (type path : String) (hasRedundancy objectMissing : Bool) : Passive :=
  { typeMargin := type = "margin", typeFan := type = "fan", path, hasRedundancy, objectMissing, scale := 0,
    value := 0, unscaled := 0, max := 0, min := 0, failed := false, functional := true, available := true,
    availableOverridden := false, unavailableAsFailed := true, badReading := false, marginHot := false, updated := 0 }

/-- `DbusPassive::read`, dbus/dbuspassive.cpp:170-177 -/
def Passive.read (p : Passive) : ReadReturn := ⟨p.value, p.updated, p.unscaled⟩

/-- `DbusPassive::updateValue` with `setValue`, dbus/dbuspassive.cpp:369-413 and 179-186, at time `now` -/
def Passive.updateValue (p : Passive) (now : Int) (value : Dbl) (force : Bool) : Passive :=
  if !value.isFinite && !force then { p with badReading := true }
  else
    let v := value * Dbl.pow10 p.scale
    { p with
      badReading := !value.isFinite,
      marginHot := if p.typeMargin then decide (v ≤ 0) else p.marginHot,
      value := scaleSensorReading p.min p.max v,
      unscaled := v,
      updated := now }

/-- `setFailed`, dbus/dbuspassive.cpp:311-314 -/
def Passive.setFailed (p : Passive) (b : Bool) : Passive := { p with failed := b }
/-- `setFunctional`, dbus/dbuspassive.cpp:316-319 -/
def Passive.setFunctional (p : Passive) (b : Bool) : Passive := { p with functional := b }
/-- `setAvailable`, dbus/dbuspassive.cpp:321-325 -/
def Passive.setAvailable (p : Passive) (b : Bool) : Passive := { p with available := b, availableOverridden := true }
/-- `setAvailableFromProperty`, dbus/dbuspassive.cpp:341-347 -/
def Passive.setAvailableFromProperty (p : Passive) (b : Bool) : Passive :=
  if p.availableOverridden then p else { p with available := b }

/-- `initFromSettings`, dbus/dbuspassive.cpp:327-339 -/
def Passive.initFromSettings (p : Passive) (now : Int) (s : SensorProperties) (failed : Bool) : Passive :=
  let p := { p with
    failed := failed, scale := s.scale, min := s.min * Dbl.pow10 s.scale, max := s.max * Dbl.pow10 s.scale,
    unavailableAsFailed := s.unavailableAsFailed }
  (p.setAvailableFromProperty s.available).updateValue now s.value true

/-- `DbusPassive::getFailed`, dbus/dbuspassive.cpp:194-280. `redundant` is the set of paths failed by redundancy. -/
def Passive.getFailed (p : Passive) (redundant : List String) : Bool :=
  if p.hasRedundancy && redundant.contains p.path then true
  else if p.objectMissing then true
  else if !p.typeFan && !p.available && !p.unavailableAsFailed then false
  else if p.badReading then true
  else if p.marginHot then true
  else if p.failed then true
  else if !p.available then true
  else if !p.functional then true
  else false

/-- `DbusPassive::getFailReason`, dbus/dbuspassive.cpp:282-309 -/
def Passive.getFailReason (p : Passive) : String :=
  if p.objectMissing then "Sensor D-Bus object missing"
  else if p.badReading then "Sensor reading bad"
  else if p.marginHot then "Margin hot"
  else if p.failed then "Sensor threshold asserted"
  else if !p.available then "Sensor unavailable"
  else if !p.functional then "Sensor not functional"
  else "Unknown"

/-- `std::variant<int64_t, double, bool>`, dbus/dbuspassive.cpp:418 (dbus/dbushelper.cpp:31 also has strings, which behave like any other wrong type) -/
inductive Variant where
  | int (i : Int)
  | dbl (d : Dbl)
  | bool (b : Bool)

/-- `VariantToDoubleVisitor`, dbus/dbusutil.hpp:15-30 -/
def Variant.toDbl : Variant → Dbl
  | int i => Dbl.ofInt i
  | dbl d => d
  | bool b => if b then 1 else 0

/-- `std::get<bool>`, dbus/dbuspassive.cpp:445-503 and dbus/dbushelper.cpp:175-210 -/
def Variant.getBool : Variant → Res Bool
  | bool b => .ok b
  | _ => .error (.exc "bad_variant_access")

/-- A `PropertiesChanged` message: interface name and changed properties, dbus/dbuspassive.cpp:417-420. -/
structure PropMsg where
  iface : String
  props : OMap String Variant

def ifSensorValue : String := "xyz.openbmc_project.Sensor.Value"
def ifCritical : String := "xyz.openbmc_project.Sensor.Threshold.Critical"
def ifWarning : String := "xyz.openbmc_project.Sensor.Threshold.Warning"
def ifAvailability : String := "xyz.openbmc_project.State.Decorator.Availability"
def ifOperational : String := "xyz.openbmc_project.State.Decorator.OperationalStatus"

/-- `handleSensorValue`, dbus/dbuspassive.cpp:415-507 -/
def handleSensorValue (o : Opts) (p : Passive) (now : Int) (m : PropMsg) : Res Passive :=
  if m.iface = ifSensorValue then
    match m.props.find? "Value" with
    | some v => .ok (p.updateValue now v.toDbl false)
    | none => .ok p
  else if m.iface = ifCritical then
    match m.props.find? "CriticalAlarmLow", m.props.find? "CriticalAlarmHigh" with
    | none, none => .ok p
    | low, high => do
      let asserted ← match low with
        | some v => v.getBool
        | none => .ok false
      let asserted ← if asserted then .ok true else match high with
        | some v => v.getBool
        | none => .ok false
      .ok (p.setFailed asserted)
  else if o.uncFailsafe && m.iface = ifWarning then
    match m.props.find? "WarningAlarmHigh" with
    | none => .ok p
    | some v => do .ok (p.setFailed (← v.getBool))
  else if m.iface = ifAvailability then
    match m.props.find? "Available" with
    | none => .ok p
    | some v => do
      let asserted ← v.getBool
      let p := p.setAvailable asserted
      .ok (if asserted then p else p.updateValue now .nan true)
  else if m.iface = ifOperational then
    match m.props.find? "Functional" with
    | none => .ok p
    | some v => do .ok (p.setFunctional (← v.getBool))
  else .ok p

/-- `validType`, dbus/dbusutil.cpp:150-155 -/
def validType (type : String) : Bool := ["fan", "temp", "margin", "power", "powersum"].contains type

/-- `getSensorPath`, dbus/dbusutil.cpp:113-142 -/
def getSensorPath (type id : String) : String :=
  let layer :=
    if type = "fan" then "fan_tach"
    else if type = "temp" then "temperature"
    else if type = "margin" then "temperature"
    else if type = "power" then "power"
    else if type = "powersum" then "power"
    else "unknown"
  "/xyz/openbmc_project/sensors/" ++ layer ++ "/" ++ id

/-- What the bus answers when a sensor is created (dbus/dbuspassive.cpp:80-140): `service = none` is a failing `getService`, `props = none` a failing
`getProperties`/`thresholdsAsserted`. -/
structure PassiveAnswers where
  service : Bool
  props : Option (SensorProperties × Bool)

/-- `DbusPassive::createDbusPassive`, dbus/dbuspassive.cpp:54-153 (helper not null). `none` is `nullptr`. -/
def createDbusPassive (o : Opts) (now : Int) (type id readPath : String) (ignoreDbusMinMax unavailableAsFailed hasRedundancy : Bool)
    (a : PassiveAnswers) : Option Passive :=
  if !validType type then none
  else
    let path := if readPath = "" then getSensorPath type id else readPath
    if !a.service then
      if !o.handleMissingObjectPaths then none
      else
        some ((Passive.ctor type path hasRedundancy true).initFromSettings now
          { value := .nan, available := false, unavailableAsFailed := true } true)
    else
      match a.props with
      | none => none
      | some (s, failed) =>
        let s := if ignoreDbusMinMax then { s with min := 0, max := 0 } else s
        some ((Passive.ctor type path hasRedundancy false).initFromSettings now
          { s with unavailableAsFailed := unavailableAsFailed } failed)

/-- `DbusHelper::thresholdsAsserted`, dbus/dbushelper.cpp:148-213. `none` is a failing `GetAll`. -/
def thresholdsAsserted (o : Opts) (critical warning : Option (OMap String Variant)) : Res Bool :=
  match critical, o.uncFailsafe with
  | none, false => .ok false
  | crit, unc => do
    let m := crit.getD {}
    let asserted ← match m.find? "CriticalAlarmLow" with
      | some v => v.getBool
      | none => .ok false
    let asserted ← if asserted then .ok true else match m.find? "CriticalAlarmHigh" with
      | some v => v.getBool
      | none => .ok false
    if unc && !asserted then
      match warning with
      | none => .ok false
      | some wm => match wm.find? "WarningAlarmHigh" with
        | some v => v.getBool
        | none => .ok asserted
    else .ok asserted

end Verif
