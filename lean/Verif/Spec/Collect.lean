import Verif.Model.Collect
import Verif.Spec.DbusInit

/-! # Specification of what is on the bus -/

namespace Verif
variable [F : FloatModel]

/-- an object on the bus -/
structure BusObject [FloatModel] where
  service : String
  path : String
  interfaces : ConfObj

/-- The object has interface `i`. -/
def BusObject.Has (o : BusObject) (i : String) : Prop := o.interfaces.find? i ≠ none

/-- The object is a configuration. -/
def BusObject.Configures (o : BusObject) : Prop :=
  o.Has "xyz.openbmc_project.Configuration.Pid" ∨ o.Has "xyz.openbmc_project.Configuration.Pid.Zone" ∨
    o.Has "xyz.openbmc_project.Configuration.Stepwise"

instance (o : BusObject) : Decidable o.Configures := by unfold BusObject.Configures BusObject.Has; infer_instance

/-- The object manages others. -/
def BusObject.Manages (o : BusObject) : Prop := o.Has "org.freedesktop.DBus.ObjectManager"

/-- `path` is below `top`. -/
def BelowPath (top path : String) : Prop := (top = "/" ∧ path ≠ "/") ∨ (top ++ "/").toList <+: path.toList

/-- the interfaces asked for -/
def askedFor : List String :=
  ["org.freedesktop.DBus.ObjectManager", "xyz.openbmc_project.Configuration.Pid", "xyz.openbmc_project.Configuration.Pid.Zone",
    "xyz.openbmc_project.Configuration.Stepwise", "xyz.openbmc_project.Sensor.Value", "xyz.openbmc_project.Control.FanPwm"]

/-- The mapper's answer says which of the interfaces asked for exist where. -/
def MapperKnows (objs : List BusObject) (reply : SubTree) : Prop :=
  ∀ service path i, i ∈ askedFor →
    ((∃ p ∈ reply, p.1 = path ∧ ∃ s ∈ p.2, s.1 = service ∧ i ∈ s.2) ↔
      ∃ o ∈ objs, o.service = service ∧ o.path = path ∧ o.Has i)

/-- Object managers answer with all objects of their service below them. -/
def ManagersAnswer (objs : List BusObject) (managed : String → String → Option (List (String × ConfObj))) : Prop :=
  ∀ m ∈ objs, m.Manages → ∃ l, managed m.service m.path = some l ∧
    ∀ path obj, (path, obj) ∈ l ↔ ∃ o ∈ objs, o.service = m.service ∧ o.path = path ∧ o.interfaces = obj ∧ BelowPath m.path path

/-- Every service with configurations has one object manager, above all of them, and no two configurations have the same path. -/
structure Arranged (objs : List BusObject) : Prop where
  distinct : objs.Nodup
  manager : ∀ o ∈ objs, o.Configures → ∃ m ∈ objs, m.Manages ∧ m.service = o.service
  only : ∀ m ∈ objs, ∀ m' ∈ objs, m.Manages → m'.Manages → m.service = m'.service → m.path = m'.path
  below : ∀ o ∈ objs, o.Configures → ∀ m ∈ objs, m.Manages → m.service = o.service → BelowPath m.path o.path
  paths : ∀ o ∈ objs, ∀ o' ∈ objs, o.Configures → o'.Configures → o.path = o'.path → o = o'

/-- The object is a sensor to be read, or a control of fans (`i`). Values with `pwm` in their path do not count. -/
def BusObject.Serves (o : BusObject) (i : String) : Prop :=
  o.Has i ∧ ((i = "xyz.openbmc_project.Sensor.Value" ∧ ¬ "pwm".toList <:+: o.path.toList) ∨
    i = "xyz.openbmc_project.Control.FanPwm")

/-- The modes of the system: `owner` has an object at `path` with a thermal mode. -/
def HasMode (modes : SubTree) (owner path : String) : Prop := ∃ p ∈ modes, p.1 = path ∧ ∃ o ∈ p.2, o.1 = owner

end Verif
