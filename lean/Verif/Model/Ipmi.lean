import Verif.Model.Zone

/-!
# IPMI commands for manual mode

Models `ipmi/manualcmds.cpp`, `ipmi/manual_messages.hpp`, `ipmi/dbus_mode.cpp` and the D-Bus object paths of zones
(`pid/builder.cpp:34-37`). The request buffer is a list of bytes whose length is `*dataLen`.
-/

namespace Verif
variable [F : FloatModel]

/-- `::ipmi::ccSuccess`, ipmi/manualcmds.cpp:44 (the value is that of the IPMI specification) -/
def ccSuccess : UInt8 := 0x00

/-- `::ipmi::ccInvalidCommand`, ipmi/manualcmds.cpp:29 (the value is that of the IPMI specification) -/
def ccInvalidCommand : UInt8 := 0xC1

/-- `objectPath`, ipmi/dbus_mode.cpp:22 and pid/builder.cpp:32 -/
def zoneObjectPath : String := "/xyz/openbmc_project/settings/fanctrl/zone"

/-- `getControlPath(int64_t)`, pid/builder.cpp:34-37: the path at which the program offers a zone -/
def zoneControlPath (zone : Int) : String := zoneObjectPath ++ toString zone

/-- conversion of a byte to `int8_t`, ipmi/dbus_mode.cpp:31 and 39 -/
def toInt8 (b : UInt8) : Int := if b.toNat < 128 then b.toNat else (b.toNat : Int) - 256

/-- `getControlPath(int8_t)`, ipmi/dbus_mode.cpp:31-34, called with a `uint8_t` -/
def ipmiControlPath (zone : UInt8) : String := zoneObjectPath ++ toString (toInt8 zone)

/-- Method calls made to the fan control program, ipmi/dbus_mode.cpp:42-44 and 74-78. -/
inductive IpmiCall
  | getAll (path : String)
  | set (path property : String) (value : Bool)
  deriving DecidableEq

/-- How the bus answers at ipmi/dbus_mode.cpp:51-53 and 82: `none` (or `false`) stands for an `sdbusplus::exception_t`. -/
structure IpmiBus where
  getAll : String → Option (OMap String Bool)
  set : String → String → Bool → Bool

/-- What a command leaves behind (ipmi/manualcmds.cpp:22-45): completion code, bytes stored in the reply buffer, `*dataLen`, calls made. -/
structure IpmiResult where
  cc : UInt8
  reply : List UInt8
  dataLen : Nat
  calls : List IpmiCall
  deriving DecidableEq

/-- `DbusZoneControl::getFanCtrlProperty`, ipmi/dbus_mode.cpp:36-63. `propMap[property]` of a missing property is a
default constructed `variant<bool>`, i.e. `false`. -/
def getFanCtrlProperty (bus : IpmiBus) (zone : UInt8) (property : String) : Option Bool :=
  match bus.getAll (ipmiControlPath zone) with
  | none => none
  | some m => some ((m.find? property).getD false)

/-- `getFailsafeModeState` / `getManualModeState`, ipmi/manualcmds.cpp:22-45 and 53-76, which differ in the property only -/
def getModeState (bus : IpmiBus) (property : String) (req : List UInt8) : IpmiResult :=
  match req with
  | _ :: zone :: _ =>
    match getFanCtrlProperty bus zone property with
    | none => { cc := ccInvalidCommand, reply := [], dataLen := req.length, calls := [.getAll (ipmiControlPath zone)] }
    | some current =>
      { cc := ccSuccess, reply := [if current then 1 else 0], dataLen := 1, calls := [.getAll (ipmiControlPath zone)] }
  | _ => { cc := ccInvalidCommand, reply := [], dataLen := req.length, calls := [] }

/-- `setManualModeState`, ipmi/manualcmds.cpp:85-101, with `DbusZoneControl::setFanCtrlProperty`, ipmi/dbus_mode.cpp:65-91 -/
def setManualModeState (bus : IpmiBus) (req : List UInt8) : IpmiResult :=
  match req with
  | _ :: zone :: value :: _ =>
    let v := decide (value ≠ 0)
    { cc := if bus.set (ipmiControlPath zone) "Manual" v then ccSuccess else ccInvalidCommand
      reply := [], dataLen := req.length, calls := [.set (ipmiControlPath zone) "Manual" v] }
  | _ => { cc := ccInvalidCommand, reply := [], dataLen := req.length, calls := [] }

/-- `manualModeControl`, ipmi/manualcmds.cpp:104-132, with ipmi/manual_messages.hpp:8-26 -/
def manualModeControl (bus : IpmiBus) (req : List UInt8) : IpmiResult :=
  match req with
  | command :: _ :: _ =>
    if command = 0 then getModeState bus "Manual" req
    else if command = 1 then setManualModeState bus req
    else if command = 2 then getModeState bus "FailSafe" req
    else { cc := ccInvalidCommand, reply := [], dataLen := req.length, calls := [] }
  | _ => { cc := ccInvalidCommand, reply := [], dataLen := req.length, calls := [] }

/-- The zone objects of the program (pid/builder.cpp:67-71): zone number and zone, offered at `zoneControlPath`. -/
abbrev ZoneObjects [FloatModel] := OMap Int ZoneData

/-- the zone offered at a path, pid/builder.cpp:34-37 and 67-71 -/
def zoneAt (zones : ZoneObjects) (path : String) : Option (Int × ZoneData) :=
  zones.entries.find? (fun e => decide (zoneControlPath e.1 = path))

/-- How the program answers on the bus (pid/zone.cpp:579-589): `GetAll` of the mode interface (properties `Manual`, `FailSafe`) and `Set`. Unknown
objects and the read-only property are errors. -/
def zoneBus (zones : ZoneObjects) : IpmiBus where
  getAll path := (zoneAt zones path).map (fun e =>
    (({} : OMap String Bool).insert "FailSafe" e.2.getFailSafeMode).insert "Manual" e.2.manualMode)
  set path property _ := (zoneAt zones path).isSome && decide (property = "Manual")

/-- The zones after a call: `Set` of `Manual` is `DbusPidZone::manual`, pid/zone.cpp:579-584. -/
def applyCall (zones : ZoneObjects) : IpmiCall → ZoneObjects
  | .getAll _ => zones
  | .set path property value =>
    if property = "Manual" then
      match zoneAt zones path with
      | some e => zones.insert e.1 (e.2.setManualMode value)
      | none => zones
    else zones

/-- A request from the management network (ipmi/main_ipmi.cpp:33-36) handled by the program. -/
def serveRequest (zones : ZoneObjects) (req : List UInt8) : IpmiResult × ZoneObjects :=
  let r := manualModeControl (zoneBus zones) req
  (r, r.calls.foldl applyCall zones)

end Verif
