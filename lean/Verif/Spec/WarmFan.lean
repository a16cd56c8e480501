import Verif.Spec.WarmStart
import Verif.Spec.Shared
import Verif.Spec.Held

/-! # Specification of heat in the zones that turn a fan -/

namespace Verif
variable [F : FloatModel]

/-- Zone `i` has a stepwise loop `e` with a rising table, whose point `k` asks for at least `v` percent and is within what the fan
loops can give; the zone takes the largest request, or adds up requests that all come from rising tables without outputs below zero;
its fan loops hand the result on. -/
structure WarmZone (configs : OMap Int ZoneConfig) (v : Dbl) (i : Int) (conf : PIDConf) (e : Entry) (k : Fin 20) : Prop where
  zone : ∃ zc, configs.find? i = some zc ∧ (zc.accumulateSetPoint = false ∨ TablesOnly conf.entries) ∧
    1 ≤ zc.cycleTime.cycleIntervalTimeMS
  loop : e ∈ conf.entries ∧ e.2.type = "stepwise"
  ceilings : ∀ e ∈ conf.entries, e.2.type = "stepwise" → e.2.stepwiseInfo.isCeiling = false
  table : ∃ m, RisingTable e.2.stepwiseInfo m ∧ k < m
  fans : ∀ f ∈ conf.entries, IsFan f → HandsOn f.2.pidInfo ∧ e.2.stepwiseInfo.output k ≤ f.2.pidInfo.outLim.max
  enough : v ≤ e.2.stepwiseInfo.output k

/-- It is hot in the zone from the start of daemon `d` on: some sensor of the loop has passed the point then and whenever the timer
of the zone expires during `es`; nobody switches the loop off or puts the zone into manual mode. -/
structure StaysHot (o : Opts) (i : Int) (e : Entry) (k : Fin 20) (d : Daemon) (es : List DEvent) : Prop where
  now : ReadsNow (e.2.inputs.map SensorInput.name)
    (Passed e.2.stepwiseInfo.positiveHysteresis (e.2.stepwiseInfo.reading k)) d.w
  later : ReadsThroughout o i (e.2.inputs.map SensorInput.name)
    (Passed e.2.stepwiseInfo.positiveHysteresis (e.2.stepwiseInfo.reading k)) d es
  on : ∀ es1 es2, es = es1 ++ es2 → switchAfter i e.1 true es1 = true
  automatic : ∀ es1 es2, es = es1 ++ es2 → modeAfter i false es1 = false

end Verif
