import Verif.Spec.Unattended
import Verif.Spec.Timed

/-! # Specification of fans that several zones turn -/

namespace Verif
variable [F : FloatModel]

/-- Zone `i` turns the fan `n`. -/
def TurnedBy (pids : OMap Int PIDConf) (n : String) (i : Int) : Prop := ∃ conf, pids.find? i = some conf ∧ Turns conf.entries n

/-- While sensor `s` fails, zone `i` has to ask for at least `v` percent, and does within the events `post` after `pre`: it cannot
do without the sensor, no percentage configured for it is less, and it had the ticks it takes to notice. -/
structure Guards (configs : OMap Int ZoneConfig) (s : String) (v : Dbl) (pre post : List DEvent) (i : Int)
    (conf : PIDConf) : Prop where
  reads : MustRead conf.entries s
  settings : ∃ zc, configs.find? i = some zc ∧ SafeFrom v zc conf.entries ∧ (∀ e ∈ conf.entries, e.2.failSafePercent ≠ .nan) ∧
    1 ≤ zc.cycleTime.cycleIntervalTimeMS ∧
    (zc.cycleTime.updateThermalsTimeMS + zc.cycleTime.cycleIntervalTimeMS - 1) / zc.cycleTime.cycleIntervalTimeMS ≤
      autoTicks i (modeAfter i false pre) post

end Verif
