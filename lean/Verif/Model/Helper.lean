import Verif.Model.Passive

/-!
# Reading a sensor object from the bus

Model of `getService` and `getProperties` of dbus/dbushelper.cpp:39-146 and of their use in
`createDbusPassive` (dbus/dbuspassive.cpp:54-153).  `thresholdsAsserted` is in Model/Passive.lean.
-/

namespace Verif
variable [F : FloatModel]

/-- `Value` of dbus/dbushelper.cpp:31, as `read` leaves it.  A property of any other D-Bus type leaves the first
alternative, `int 0` (behaviour of sdbusplus, not of this repository). -/
inductive HVal where
  | int (i : Int)
  | dbl (d : Dbl)
  | str (s : String)
  | bool (b : Bool)

/-- `VariantToDoubleVisitor`, dbus/dbusutil.hpp:15-30 -/
def HVal.toDbl : HVal → Res Dbl
  | int i => .ok (Dbl.ofInt i)
  | dbl d => .ok d
  | bool b => .ok (if b then 1 else 0)
  | str _ => .error (.exc "Cannot translate type to double")

/-- `std::get<std::string>`, dbus/dbushelper.cpp:105 -/
def HVal.getStr : HVal → Res String
  | str s => .ok s
  | _ => .error (.exc "bad_variant_access")

/-- `std::get<int64_t>`, dbus/dbushelper.cpp:118 -/
def HVal.getInt : HVal → Res Int
  | int i => .ok i
  | _ => .error (.exc "bad_variant_access")

/-- What a process answers about one of its sensor objects.  `value`: answer of GetAll on the value interface.
`available`: answer of Get on the availability interface, `none` when the call fails.  `critical`, `warning`: answers of
GetAll on the threshold interfaces. -/
structure SensorReplies where
  value : Option (OMap String HVal)
  available : Option Bool
  critical : Option (OMap String Variant)
  warning : Option (OMap String Variant)

/-- What the bus answers about the path of a sensor.  `owners`: the processes in the answer of the mapper, in the order of
the message (`none`: the call fails).  `object`: what each process answers. -/
structure SensorBus where
  owners : Option (List String)
  object : String → SensorReplies

/-- an entry of the answer of the mapper goes into the map, dbus/dbushelper.cpp:50, 56; the interfaces are not kept -/
def addOwner (m : OMap String Unit) (o : String) : OMap String Unit := m.insert o ()

/-- `getService`, dbus/dbushelper.cpp:39-70; the answer is read into a map (50, 56), whose first key is returned (69) -/
def getService (b : SensorBus) : Res String :=
  match b.owners with
  | none => .error (.exc "ObjectMapper call failure")
  | some l =>
    match (l.foldl addOwner {}).entries with
    | [] => .error (.exc "Unable to find Object")
    | e :: _ => .ok e.1

/-- dbus/dbushelper.cpp:102-106 -/
def readUnit : Option HVal → Res String
  | some v => v.getStr
  | none => .ok ""

/-- dbus/dbushelper.cpp:115-119 -/
def readScale : Option HVal → Res Int
  | some v => v.getInt
  | none => .ok 0

/-- dbus/dbushelper.cpp:113-114, 120-127 -/
def readLimit : Option HVal → Res Dbl
  | some v => v.toDbl
  | none => .ok 0

/-- `propMap[…]`, dbus/dbushelper.cpp:129-130: a missing property is inserted with the default `int64_t` 0. -/
def readValue : Option HVal → Res Dbl
  | some v => v.toDbl
  | none => (HVal.int 0).toDbl

/-- `getProperties`, dbus/dbushelper.cpp:72-146.  The unit is checked but not kept: nothing uses it. -/
def getProperties (b : SensorReplies) : Res SensorProperties :=
  match b.value with
  | none => .error (.exc "GetAll Properties Failed")
  | some m => do
    let _ ← readUnit (m.find? "Unit")
    let scale ← readScale (m.find? "Scale")
    let max ← readLimit (m.find? "MaxValue")
    let min ← readLimit (m.find? "MinValue")
    let value ← readValue (m.find? "Value")
    .ok { scale, value, min, max, available := b.available.getD true }

/-- The two calls inside the `try` of dbus/dbuspassive.cpp:132-140; any exception there makes `createDbusPassive`
return null. -/
def readSensor (o : Opts) (b : SensorReplies) : Res (SensorProperties × Bool) := do
  let s ← getProperties b
  let f ← thresholdsAsserted o b.critical b.warning
  .ok (s, f)

/-- the answers `createDbusPassive` gets, dbus/dbuspassive.cpp:85-140: the properties are asked of the process that
`getService` returned -/
def SensorBus.answers (o : Opts) (b : SensorBus) : PassiveAnswers :=
  match getService b with
  | .error _ => ⟨false, none⟩
  | .ok s => ⟨true, match readSensor o (b.object s) with
    | .ok r => some r
    | .error _ => none⟩

end Verif
