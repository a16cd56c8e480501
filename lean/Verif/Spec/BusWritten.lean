import Verif.Spec.Complete
import Verif.Spec.OnBus
import Verif.Spec.Written

/-! # Specification of a running daemon in terms of its configuration over D-Bus

`A interface base` says that `base` is a configuration of this kind that applies. -/

namespace Verif
variable [F : FloatModel]
open Dbl

/-- The objects on the bus, the mapper and the object managers that tell of them, and the profiles `sel` selected. The
configuration makes sense; support for missing objects is not compiled in. -/
structure OnTheBus (objs : List BusObject) (b : ConfBus) (reply : SubTree) (sel : List String) : Prop where
  subTree : b.subTree = some reply
  mapper : MapperKnows objs reply
  managers : ManagersAnswer objs b.managed
  arranged : Arranged objs
  configured : ∃ o ∈ objs, o.Configures
  sorted : ∀ o ∈ objs, OMap.WF o.interfaces
  missing : b.handleMissing = false
  profiles : getSelectedProfiles b.modes b.mode = .ok sel
  suits : BusSuits objs sel

/-- the kinds of configurations that make loops -/
def loopInterfaces : List String :=
  ["xyz.openbmc_project.Configuration.Pid", "xyz.openbmc_project.Configuration.Stepwise"]

/-- `zp` is the configuration of the zone called `zone`. -/
def ZoneCalled (A : String → ConfProps → Prop) (zone : String) (zp : ConfProps) : Prop :=
  A "xyz.openbmc_project.Configuration.Pid.Zone" zp ∧ Attr zp "Name" TextValue zone

/-- The configuration `base` of kind `interface` is for the zone called `zone`. -/
def ForZone (A : String → ConfProps → Prop) (interface zone : String) (base : ConfProps) : Prop :=
  A interface base ∧ ∃ zones, Attr base "Zones" NamesValue zones ∧ zone ∈ zones

/-- the sensors a loop configuration of kind `i` uses, and those it lets be missing -/
inductive InputNames (b : BusView) (base : ConfProps) (i : String) : List String → List String → Prop
  | pid {names acceptable} : i = "xyz.openbmc_project.Configuration.Pid" → PidNames b base names →
      AttrOr base "MissingIsAcceptable" NamesValue [] acceptable → InputNames b base i names (foundNames b acceptable)
  | step {inputs acceptable} : i = "xyz.openbmc_project.Configuration.Stepwise" → Attr base "Inputs" NamesValue inputs →
      AttrOr base "MissingIsAcceptable" NamesValue [] acceptable →
      InputNames b base i (stepNames b acceptable inputs) (stepLenient b acceptable)

/-- The loops of the zone do not get in each other's way: they have different names (with underscores for spaces), and none
is split up by a threshold. -/
structure Tidy (A : String → ConfProps → Prop) (zone : String) : Prop where
  plain : ∀ base, ForZone A "xyz.openbmc_project.Configuration.Pid" zone base → base.find? "SetPointOffset" = none
  named : ∀ i ∈ loopInterfaces, ∀ i' ∈ loopInterfaces, ∀ base base' n n' t, ForZone A i zone base → ForZone A i' zone base' →
    Attr base "Name" TextValue n → Attr base' "Name" TextValue n' → Underscored n t → Underscored n' t → i = i' ∧ base = base'

/-- A configuration of a loop that computes a set point. -/
def HeatConf (i : String) (base : ConfProps) : Prop :=
  i = "xyz.openbmc_project.Configuration.Stepwise" ∨
    ∃ cls ∈ ["temp", "margin", "power", "powersum"], Attr base "Class" TextValue cls

/-- The zone cannot do without sensor `n`: a loop that computes a set point uses it, and no loop that uses it lets it be
missing. -/
def NeededFor (A : String → ConfProps → Prop) (b : BusView) (zone n : String) : Prop :=
  (∃ i base names lenient, ForZone A i zone base ∧ InputNames b base i names lenient ∧ HeatConf i base ∧ n ∈ names) ∧
  ∀ i base names lenient, ForZone A i zone base → InputNames b base i names lenient → n ∈ names → n ∉ lenient

/-- No failsafe percentage for the zone is below zero. -/
structure NoNegative (A : String → ConfProps → Prop) (zone : String) : Prop where
  loops : ∀ base p, ForZone A "xyz.openbmc_project.Configuration.Pid" zone base →
    Attr base "FailSafePercent" PercentValue p → 0 ≤ p
  zone : ∀ zp p, ZoneCalled A zone zp → Attr zp "FailSafePercent" PercentValue p → 0 ≤ p

/-- The failsafe percentage `p` is required for sensor `n`: a PID configuration that uses the sensor has it, or none that
uses the sensor has any and the zone has it. (The percentages of stepwise configurations are ignored.) -/
inductive DemandedFor (A : String → ConfProps → Prop) (b : BusView) (zone n : String) : Dbl → Prop
  | loop {base names lenient p} : ForZone A "xyz.openbmc_project.Configuration.Pid" zone base →
      InputNames b base "xyz.openbmc_project.Configuration.Pid" names lenient → n ∈ names →
      Attr base "FailSafePercent" PercentValue p → 0 < p → DemandedFor A b zone n p
  | zone {zp p} : (∀ base names lenient, ForZone A "xyz.openbmc_project.Configuration.Pid" zone base →
      InputNames b base "xyz.openbmc_project.Configuration.Pid" names lenient → n ∈ names →
      base.find? "FailSafePercent" = none) → ZoneCalled A zone zp →
      AttrOr zp "FailSafePercent" PercentValue 0 p → DemandedFor A b zone n p

/-- All configurations that use sensor `n` let it count as failed while it is unavailable, also while the host is off, and no
fan is called so. -/
structure SensorFor (b : BusView) (sel : List String) (objs : List ConfObj) (n : String) : Prop where
  options : ∀ base type, UsesSensor b sel objs base n type → FailureOptions base true false
  nofan : ∀ base fan pwm, Active sel objs "xyz.openbmc_project.Configuration.Pid" base → FanPair b base fan pwm →
    ¬ FanNamed fan pwm n

/-- Of all zones the zone called `zone` alone has the fan called `m`, which is controlled through `path`; no other fan is, and
no sensor is called like the fan. -/
structure FanFor (b : BusView) (sel : List String) (objs : List ConfObj) (zone m path : String) : Prop where
  pair : ∃ base fan, ForZone (Active sel objs) "xyz.openbmc_project.Configuration.Pid" zone base ∧ FanPair b base fan path ∧
    FanNamed fan path m
  same : ∀ base fan pwm, Active sel objs "xyz.openbmc_project.Configuration.Pid" base → FanPair b base fan pwm →
    FanNamed fan pwm m → pwm = path
  only : ∀ base fan m', Active sel objs "xyz.openbmc_project.Configuration.Pid" base → FanPair b base fan path →
    FanNamed fan path m' → m' = m
  zones : ∀ zone' base fan pwm, ForZone (Active sel objs) "xyz.openbmc_project.Configuration.Pid" zone' base →
    FanPair b base fan pwm → FanNamed fan pwm m → zone' = zone
  controls : ∀ base fan pwm, Active sel objs "xyz.openbmc_project.Configuration.Pid" base → FanPair b base fan pwm →
    WriteKind pwm .dbusActive
  plain : ∀ base, Active sel objs "xyz.openbmc_project.Configuration.Pid" base → Attr base "Class" TextValue "fan" →
    base.find? "SetPointOffset" = none
  nosensor : ∀ base type, ¬ UsesSensor b sel objs base m type

/-- The daemon `d` with its timers as they are set at the start: that of the zone numbered `i` at `started i`. Zones have
timers if they have loop configurations. -/
structure WithBusTimers (A : String → ConfProps → Prop) (numbers : OMap String Int) (started : Int → Int) (d : Daemon)
    (td : Timed) : Prop where
  daemon : td.d = d
  timers : ∀ zone zp i, ∀ interface ∈ loopInterfaces, ∀ base n, ZoneCalled A zone zp → numbers.find? zone = some i →
    ForZone A interface zone base → CycleAttr zp "CycleIntervalTimeMS" 100 n →
    td.timers.find? i = some (started i + ms n, true)
  others : ∀ i, (∀ zone, numbers.find? zone = some i → ∀ interface ∈ loopInterfaces, ∀ base, ¬ ForZone A interface zone base) →
    td.timers.find? i = none
  sorted : td.timers.WF

end Verif
