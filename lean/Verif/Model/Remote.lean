import Verif.Model.Daemon
import Verif.Model.DbusInit
import Verif.Model.Ipmi

/-!
# Writes of properties over D-Bus

Models what the running daemon offers on the bus for writing: the mode of every zone (pid/zone.hpp:35-37), the switch of every
thermal loop (pid/zone.hpp:38-43) and the value of every host sensor (sensors/host.hpp:19-20); and the two programs that make use
of it, the IPMI commands (Model/Ipmi.lean) and `setsensor` (setsensor.cpp). That a value must have the type of the property is
checked by sd-bus. Writes to what loops show for diagnosis are in Model/Shown.lean.
-/

namespace Verif
variable [F : FloatModel]

/-- a value in a message: the types `b`, `x` and `d` of D-Bus -/
inductive BusVal where
  | bool (b : Bool)
  | int (i : Int)
  | dbl (d : Dbl)

/-- a call of `org.freedesktop.DBus.Properties.Set`, ipmi/dbus_mode.cpp:74-78 and setsensor.cpp:37-42, 70-75 -/
structure SetCall where
  service : String
  path : String
  interface : String
  property : String
  value : BusVal

/-- the name of the bus of the zones, main.cpp:406; also ipmi/dbus_mode.cpp:23 and setsensor.cpp:14 -/
def fanCtrlService : String := "xyz.openbmc_project.State.FanCtrl"

/-- the name of the bus of the host sensors, main.cpp:405; also setsensor.cpp:23 -/
def hostService : String := "xyz.openbmc_project.Hwmon.external"

/-- `ControlMode::interface`, ipmi/dbus_mode.cpp:76 and setsensor.cpp:73 -/
def modeInterface : String := "xyz.openbmc_project.Control.Mode"

/-- the interface of `ProcessInterface`, pid/zone.hpp:38-39 -/
def enableInterface : String := "xyz.openbmc_project.Object.Enable"

/-- `getPidControlPath`, pid/builder.cpp:39-42 -/
def pidControlPath (zone : Int) (name : String) : String := zoneObjectPath ++ toString zone ++ "/" ++ name

/-- the host sensors of a configuration with their paths, sensors/builder.cpp:152-172 -/
def hostObjects (config : OMap String SensorConfig) : List (String × String) :=
  (config.entries.filter (fun e =>
    isThermalType e.2.type && decide (getReadInterfaceType e.2.readPath = .external))).map (fun e => (e.2.readPath, e.1))

/-- the zone at a path, pid/builder.cpp:67-71 -/
def Daemon.zoneAt (d : Daemon) (path : String) : Option (Int × (Zone × Nat)) :=
  d.zones.entries.find? (fun e => decide (zoneControlPath e.1 = path))

/-- the loop at a path, pid/builder.cpp:112-114 and 128-130 -/
def Daemon.loopAt (d : Daemon) (path : String) : Option (Int × String) :=
  (d.zones.entries.flatMap (fun e => e.2.1.d.procs.entries.map (fun p => (e.1, p.1)))).find?
    (fun x => decide (pidControlPath x.1 x.2 = path))

/-- What a write is for the daemon; `none` if it is refused (or writes a property that is left out).
pid/zone.cpp:579-584, sensors/host.cpp:51-59; the switch of a loop is stored by sdbusplus. -/
def Daemon.accept (hosts : List (String × String)) (d : Daemon) (now : Int) (c : SetCall) : Option DEvent :=
  if c.service = fanCtrlService then
    if c.interface = modeInterface ∧ c.property = "Manual" then
      match c.value with
      | .bool b => (d.zoneAt c.path).map (fun e => .manual e.1 b)
      | _ => none
    else if c.interface = enableInterface ∧ c.property = "Enabled" then
      match c.value with
      | .bool b => (d.loopAt c.path).map (fun e => .enable e.1 e.2 b)
      | _ => none
    else none
  else if c.service = hostService then
    if c.interface = valueInterface ∧ c.property = "Value" then
      match c.value with
      | .dbl v => (hosts.find? (fun h => decide (h.1 = c.path))).map (fun h => .hostWrite h.2 now v)
      | _ => none
    else none
  else none

/-- a write that reaches the daemon, with whether the answer is a success -/
def Daemon.set (o : Opts) (hosts : List (String × String)) (d : Daemon) (now : Int) (c : SetCall) : Res (Daemon × Bool) :=
  match d.accept hosts now c with
  | some e => do
    let d ← d.step o e
    .ok (d, true)
  | none => .ok (d, false)

/-- the write behind an IPMI command, ipmi/dbus_mode.cpp:65-91 -/
def modeCall (path property : String) (b : Bool) : SetCall := ⟨fanCtrlService, path, modeInterface, property, .bool b⟩

/-- how the running daemon answers the IPMI commands, pid/zone.cpp:579-589 -/
def Daemon.ipmiBus (d : Daemon) : IpmiBus where
  getAll path := (d.zoneAt path).map (fun e =>
    (({} : OMap String Bool).insert "FailSafe" e.2.1.d.getFailSafeMode).insert "Manual" e.2.1.d.manualMode)
  set path property b := (d.accept [] 0 (modeCall path property b)).isSome

/-- the effect of a call made by an IPMI command -/
def Daemon.ipmiCall (o : Opts) (d : Daemon) : IpmiCall → Res Daemon
  | .getAll _ => .ok d
  | .set path property b => do
    let r ← d.set o [] 0 (modeCall path property b)
    .ok r.1

/-- the effects of all calls, in order -/
def Daemon.ipmiCalls (o : Opts) : Daemon → List IpmiCall → Res Daemon
  | d, [] => .ok d
  | d, c :: cs => do
    let d ← d.ipmiCall o c
    Daemon.ipmiCalls o d cs

/-- an IPMI request while the daemon runs, ipmi/manualcmds.cpp:104-132 -/
def Daemon.ipmi (o : Opts) (d : Daemon) (req : List UInt8) : Res (IpmiResult × Daemon) := do
  let d' ← d.ipmiCalls o (manualModeControl d.ipmiBus req).calls
  .ok (manualModeControl d.ipmiBus req, d')

/-- `SetManualMode`, setsensor.cpp:55-86, for a zone number that fits into `int8_t` -/
def toolManual (zone : Int) : SetCall := ⟨fanCtrlService, zoneObjectPath ++ toString zone, modeInterface, "Manual", .bool true⟩

/-- `SetHostSensor`, setsensor.cpp:28-53: the value is an `int64_t` -/
def toolHost : SetCall :=
  ⟨hostService, "/xyz/openbmc_project/extsensors/margin/sluggish0", valueInterface, "Value", .int 300⟩

/-- the lines `setsensor` prints, setsensor.cpp:47-51 and 80-84 -/
def toolLine (what : String) (ok : Bool) : String :=
  "call to Set the " ++ what ++ (if ok then " succeeded." else " failed.")

/-- `main` of `setsensor`, setsensor.cpp:88-97: the daemon afterwards, the lines and the exit code -/
def setSensorTool (o : Opts) (hosts : List (String × String)) (d : Daemon) (now : Int) : Res (Daemon × List String × Int) := do
  let r ← d.set o hosts now (toolManual 1)
  let s ← r.1.set o hosts now toolHost
  .ok (s.1, [toolLine "manual mode" r.2, toolLine "host sensor value" s.2], 0)

end Verif
