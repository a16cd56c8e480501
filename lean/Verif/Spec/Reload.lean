import Verif.Model.Reload

/-! # Specification of reload requests -/

namespace Verif

/-- Executions of a quiet-moment timer that was created at time `t0`, with the times of triggers and restart requests,
oldest first. -/
inductive QuietRun (delay t0 : Int) : List (Int × QuietEv) → Quiet → Prop
  | start : QuietRun delay t0 [] { now := t0, pending := none, ready := [] }
  | silent {tr s s'} : QuietRun delay t0 tr s → QuietStep delay s none s' → QuietRun delay t0 tr s'
  | event {tr s s' e} : QuietRun delay t0 tr s → QuietStep delay s (some e) s' →
      QuietRun delay t0 (tr ++ [(s.now, e)]) s'

/-- Number of events of one kind. -/
def countEv (e : QuietEv) : List (Int × QuietEv) → Nat
  | [] => 0
  | (_, e') :: tr => (if e' = e then 1 else 0) + countEv e tr

/-- Number of triggers that no trigger follows within the delay. -/
def bursts (delay : Int) : List (Int × QuietEv) → Nat
  | [] => 0
  | (u, e) :: tr => (if e = .trigger ∧ ∀ x ∈ tr, x.2 = .trigger → u + delay ≤ x.1 then 1 else 0) + bursts delay tr

/-- A trigger at time `u` was followed by quiet. -/
def QuietAfter (delay : Int) (tr : List (Int × QuietEv)) (u : Int) : Prop :=
  ∃ a b, tr = a ++ (u, .trigger) :: b ∧ ∀ v, (v, QuietEv.trigger) ∈ b → u + delay ≤ v

/-- `s` names `ns` or something inside it. -/
def Within (ns s : String) : Prop := s = ns ∨ (ns ++ ".").toList <+: s.toList

/-- The object is below the sensor tree of the bus. -/
def SensorObject (path : String) : Prop := "/xyz/openbmc_project/sensors/".toList <+: path.toList

/-- A D-Bus object path: no slash at the end, except for the root. -/
def ObjectPath (path : String) : Prop := path = "/" ∨ path.toList.getLast? ≠ some '/'

/-- The announcement is about associations only: these come from the mapper, not from the sensor. -/
def OnlyAssociations (ifaces : List String) : Prop :=
  ifaces ≠ [] ∧ ∀ i ∈ ifaces, i = "xyz.openbmc_project.Association" ∨ i = "xyz.openbmc_project.Association.Definitions"

/-- Signals that must lead to a reload. -/
def AsksReload (s : BusSignal) : Prop :=
  (s.member = "PropertiesChanged" ∧
    (Within "xyz.openbmc_project.Control.ThermalMode" s.arg0 ∨ Within "xyz.openbmc_project.Configuration.Pid" s.arg0 ∨
      Within "xyz.openbmc_project.Configuration.Stepwise" s.arg0)) ∨
  (s.member = "InterfacesRemoved" ∧ (SensorObject s.arg0 ∨ s.arg0 = "/")) ∨
  (s.member = "InterfacesAdded" ∧ (SensorObject s.arg0 ∨ s.arg0 = "/") ∧ ¬ OnlyAssociations s.ifaces)

end Verif
