import Verif.Base.Basic

/-!
# Host power state

Models `hoststatemonitor.hpp`.
-/

namespace Verif

/-- `std::string::ends_with` (hoststatemonitor.hpp:108 and 137) -/
def endsWith (s suffix : String) : Bool := suffix.toList.isSuffixOf s.toList

/-- `HostStateMonitor`, hoststatemonitor.hpp:20-52: `monitoring` is "`hostStateMatch` is not null". -/
structure HostMonitor where
  powerStatusOn : Bool
  monitoring : Bool

/-- Constructor with `getInitialState`, hoststatemonitor.hpp:67-71 and 123-143. `none` is a failing call or a reply of
another type. -/
def HostMonitor.ctor (reply : Option String) : HostMonitor :=
  { powerStatusOn := match reply with
      | some state => endsWith state ".Running"
      | none => false,
    monitoring := false }

/-- `startMonitoring`, hoststatemonitor.hpp:73-86 -/
def HostMonitor.startMonitoring (m : HostMonitor) : HostMonitor := { m with monitoring := true }

/-- `stopMonitoring`, hoststatemonitor.hpp:88-91 -/
def HostMonitor.stopMonitoring (m : HostMonitor) : HostMonitor := { m with monitoring := false }

/-- A `PropertiesChanged` signal of the host state object, hoststatemonitor.hpp:95-100: `none` is a message that cannot be read. -/
abbrev HostMsg := Option (OMap String String)

/-- `handleStateChange`, hoststatemonitor.hpp:93-121 -/
def HostMonitor.handleStateChange (m : HostMonitor) (msg : HostMsg) : HostMonitor :=
  match msg with
  | none => m
  | some values =>
    match values.find? "CurrentHostState" with
    | none => m
    | some stateValue =>
      let newPowerStatus := endsWith stateValue ".Running"
      if newPowerStatus ≠ m.powerStatusOn then { m with powerStatusOn := newPowerStatus } else m

/-- A signal on the bus: the callback (hoststatemonitor.hpp:79-84) runs only while the match exists. -/
def HostMonitor.signal (m : HostMonitor) (msg : HostMsg) : HostMonitor :=
  if m.monitoring then m.handleStateChange msg else m

end Verif
