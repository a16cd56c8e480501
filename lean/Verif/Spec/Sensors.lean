import Verif.Model.World

/-! # Specifications for D-Bus sensors and host sensors -/

namespace Verif
variable [F : FloatModel]
open Dbl

/-- A property of type bool reported by a message of interface `iface`. -/
def boolProp (iface name : String) (m : PropMsg) : Option Bool :=
  if m.iface = iface then
    match m.props.find? name with
    | some (.bool b) => some b
    | _ => none
  else none

/-- the value reported by a message -/
def valueIn (m : PropMsg) : Option Dbl :=
  if m.iface = "xyz.openbmc_project.Sensor.Value" then (m.props.find? "Value").map Variant.toDbl else none

def availIn : PropMsg → Option Bool := boolProp "xyz.openbmc_project.State.Decorator.Availability" "Available"
def functionalIn : PropMsg → Option Bool := boolProp "xyz.openbmc_project.State.Decorator.OperationalStatus" "Functional"
def critLowIn : PropMsg → Option Bool := boolProp "xyz.openbmc_project.Sensor.Threshold.Critical" "CriticalAlarmLow"
def critHighIn : PropMsg → Option Bool := boolProp "xyz.openbmc_project.Sensor.Threshold.Critical" "CriticalAlarmHigh"
def warnHighIn : PropMsg → Option Bool := boolProp "xyz.openbmc_project.Sensor.Threshold.Warning" "WarningAlarmHigh"

/-- A history of messages with their arrival times, oldest first. -/
abbrev Signals := List (Int × PropMsg)

/-- The latest thing `f` finds in a history, `init` if there is none. -/
def lastOf {α : Type} (f : Int × PropMsg → Option α) (init : α) (h : Signals) : α :=
  h.foldl (fun acc s => (f s).getD acc) init

/-- what a message says about the sensor's value: a reported value, or "none" (NaN) on a loss of availability -/
def seenIn (s : Int × PropMsg) : Option Dbl :=
  match valueIn s.2 with
  | some v => some v
  | none => if availIn s.2 = some false then some nan else none

/-- the reading a message provides, with its time: finite values, and NaN on a loss of availability -/
def readingIn (s : Int × PropMsg) : Option (Int × Dbl) :=
  match valueIn s.2 with
  | some v => if v.isFinite then some (s.1, v) else none
  | none => if availIn s.2 = some false then some (s.1, nan) else none

/-- what the code takes as the alarm state: the alarms of the latest alarm message alone -/
def alarmIn (o : Opts) (s : Int × PropMsg) : Option Bool :=
  match critLowIn s.2, critHighIn s.2 with
  | none, none => if o.uncFailsafe then warnHighIn s.2 else none
  | low, high => some (low = some true || high = some true)

/-- What a sensor starts with: its configuration and the answers of the bus. -/
structure Setup where
  type : String
  path : String
  hasRedundancy : Bool
  missing : Bool
  props : SensorProperties
  alarm : Bool
  created : Int

/-- the sensor object made from a setup -/
def Setup.sensor (st : Setup) : Passive :=
  (Passive.ctor st.type st.path st.hasRedundancy st.missing).initFromSettings st.created st.props st.alarm

/-- The sensor received the messages `h` (all of them well formed) and is now `p`. -/
inductive Heard (o : Opts) (st : Setup) : Signals → Passive → Prop
  | start : Heard o st [] st.sensor
  | signal {h p p'} (t : Int) (m : PropMsg) : Heard o st h p → handleSensorValue o p t m = .ok p' →
      Heard o st (h ++ [(t, m)]) p'

/-! Conditions of a sensor after messages `h` -/

def Setup.reading (st : Setup) (h : Signals) : Int × Dbl := lastOf readingIn (st.created, st.props.value) h
def Setup.Bad (st : Setup) (h : Signals) : Prop := (lastOf seenIn st.props.value h).isFinite = false
def Setup.Hot (st : Setup) (h : Signals) : Prop :=
  st.type = "margin" ∧ (st.reading h).2 * Dbl.pow10 st.props.scale ≤ 0
def Setup.Alarm (st : Setup) (o : Opts) (h : Signals) : Prop := lastOf (alarmIn o) st.alarm h = true
def Setup.Unavailable (st : Setup) (h : Signals) : Prop := lastOf (fun s => availIn s.2) st.props.available h = false
def Setup.Broken (st : Setup) (h : Signals) : Prop := lastOf (fun s => functionalIn s.2) true h = false
/-- unavailable in a way that is not held against the sensor -/
def Setup.Excused (st : Setup) (h : Signals) : Prop :=
  st.type ≠ "fan" ∧ st.Unavailable h ∧ st.props.unavailableAsFailed = false

/-- The documented precedence of failure conditions. -/
def Setup.ShouldFail (st : Setup) (o : Opts) (h : Signals) (redundant : List String) : Prop :=
  (st.hasRedundancy = true ∧ st.path ∈ redundant) ∨ st.missing = true ∨
    (¬ st.Excused h ∧ (st.Bad h ∨ st.Hot h ∨ st.Alarm o h ∨ st.Unavailable h ∨ st.Broken h))

/-- The conditions in documented order with their texts. -/
def Setup.reasons (st : Setup) (o : Opts) (h : Signals) : List (Prop × String) :=
  [(st.missing = true, "Sensor D-Bus object missing"), (st.Bad h, "Sensor reading bad"), (st.Hot h, "Margin hot"),
    (st.Alarm o h, "Sensor threshold asserted"), (st.Unavailable h, "Sensor unavailable"),
    (st.Broken h, "Sensor not functional")]

/-- `r` is the text of the first condition that holds. -/
def FirstReason : List (Prop × String) → String → Prop
  | [], _ => False
  | (c, text) :: rest, r => (c ∧ r = text) ∨ (¬ c ∧ FirstReason rest r)

/-- A critical alarm is asserted: the last report of the low or of the high alarm was "asserted". -/
def CriticalAsserted (h : Signals) : Prop :=
  lastOf (fun s => critLowIn s.2) false h = true ∨ lastOf (fun s => critHighIn s.2) false h = true

/-- A host sensor received the writes `h` (time, value) since it was created, and is now `s`. -/
inductive Written (s0 : Sensor) : List (Int × Dbl) → Sensor → Prop
  | start : Written s0 [] s0
  | write {h s} (t : Int) (v : Dbl) : Written s0 h s → Written s0 (h ++ [(t, v)]) (s.hostWrite t v)

end Verif
