import Verif.Spec.SteadySum
import Verif.Spec.Timed

/-! # Specification of the time until the steady state -/

namespace Verif
variable [F : FloatModel]
open Dbl

/-- The set point `m` of a zone with settings `c` whose loops see the inputs `val`. -/
def SetPointFor (c : ZoneConfig) (conf : List Entry) (on : String → Bool) (val : String → Dbl) (m : Dbl) : Prop :=
  if c.accumulateSetPoint = true then SteadySum conf on val c.minThermalOutput m else SteadyPoint conf on val c.minThermalOutput m

/-- A zone whose loops with a say have no memory, whose fan loops hand their set point on, and whose failsafe percentages are not
negative. -/
structure PlainConf (c : ZoneConfig) (conf : List Entry) (on : String → Bool) : Prop where
  memoryless : ∀ e ∈ conf, HasSay on e → Memoryless e.2
  fans : ∀ f ∈ conf, IsFan f → HandsOn f.2.pidInfo
  percents : ∀ e ∈ conf, 0 ≤ e.2.failSafePercent
  percent : 0 ≤ c.failsafePercent

/-- The timed daemon `td` ran through the events `pre`, until time `ta` at most, to `tda` and through `post` to `td1`. Since then
zone `i` is in automatic mode, its switches are as in `on`, its loops see the inputs `val` and the inputs in `broken` fail, and
this has lasted for the thermal interval, two fan intervals and the lateness at time `t`. -/
structure SteadySince (o : Opts) (i : Int) (c : ZoneConfig) (conf : List Entry) (on : String → Bool) (val : String → Dbl)
    (broken : String → Prop) (late t0 ta : Int) (td : Timed) (pre : List TEvent) (tda : Timed) (post : List TEvent) (td1 : Timed)
    (t : Int) (ev : DEvent) : Prop where
  served : Served o late t0 td (pre ++ post ++ [(t, ev)])
  start : t0 ≤ ta
  ranPre : td.run o pre = .ok tda
  ranPost : tda.run o post = .ok td1
  before : ∀ x ∈ pre, x.1 ≤ ta
  moderate : ∀ e ∈ conf, IsPid e.2.type → Memoryless e.2 → ModerateInput o e.2 td.d (eventsOf pre ++ eventsOf post)
  steady : SteadyThroughout o i conf on val (eventsOf pre) tda.d (eventsOf post)
  failing : BrokenThroughout o i conf broken tda.d (eventsOf post)
  automatic : Automatic i (eventsOf pre) (eventsOf post)
  long : ta + ms (c.cycleTime.updateThermalsTimeMS + 2 * c.cycleTime.cycleIntervalTimeMS) + late ≤ t

end Verif
