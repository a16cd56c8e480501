import Verif.Model.Remote
import Verif.Spec.Daemon

/-! # Specification of remote control over D-Bus -/

namespace Verif
variable [F : FloatModel]

/-- the path of the object of zone `i` -/
def zoneObject (i : Int) : String := "/xyz/openbmc_project/settings/fanctrl/zone" ++ toString i

/-- the call asks zone `i` to be in manual mode (`b = true`) or in automatic mode -/
def AsksMode (c : SetCall) (i : Int) (b : Bool) : Prop :=
  c = ⟨"xyz.openbmc_project.State.FanCtrl", zoneObject i, "xyz.openbmc_project.Control.Mode", "Manual", .bool b⟩

/-- the call asks loop `name` of zone `i` to be switched on or off -/
def AsksSwitch (c : SetCall) (i : Int) (name : String) (b : Bool) : Prop :=
  c = ⟨"xyz.openbmc_project.State.FanCtrl", zoneObject i ++ "/" ++ name, "xyz.openbmc_project.Object.Enable", "Enabled", .bool b⟩

/-- the call asks the host sensor at `path` to be set to `v` -/
def AsksValue (c : SetCall) (path : String) (v : Dbl) : Prop :=
  c = ⟨"xyz.openbmc_project.Hwmon.external", path, "xyz.openbmc_project.Sensor.Value", "Value", .dbl v⟩

/-- whether zone `i` is in manual mode; `none` if there is no such zone -/
def Daemon.manualOf (d : Daemon) (i : Int) : Option Bool := (d.zones.find? i).map (fun e => e.1.d.manualMode)

/-- whether loop `name` of zone `i` is switched on; `none` if there is no such loop -/
def Daemon.switchOf (d : Daemon) (i : Int) (name : String) : Option Bool :=
  (d.zones.find? i).bind (fun e => (e.1.d.procs.find? name).map (·.enabled))

/-- the value of host sensor `name` and when it was set; `none` if there is no such host sensor -/
def Daemon.hostOf (d : Daemon) (name : String) : Option (Dbl × Int) :=
  (d.w.sensors.find? name).bind (fun s => match s.impl with
    | .host v t => some (v, t)
    | _ => none)

/-- Between `d` and `d'` nothing has changed but the modes of zones (with their wish to write all fans), the objects of loops and
sensors. -/
def OnlySet (d d' : Daemon) : Prop :=
  d'.w = { d.w with sensors := d'.w.sensors } ∧
  ∀ i, match d.zones.find? i, d'.zones.find? i with
    | some (z, cnt), some (z', cnt') => cnt' = cnt ∧ z'.fans = z.fans ∧ z'.thermals = z.thermals ∧
      z'.d = { z.d with manualMode := z'.d.manualMode, redundantWrite := z'.d.redundantWrite, procs := z'.d.procs }
    | none, none => True
    | _, _ => False

end Verif
