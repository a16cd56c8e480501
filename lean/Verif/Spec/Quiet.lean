import Verif.Spec.Recovery
import Verif.Spec.Demand
import Verif.Spec.Register

/-! # Specification of quiet fans -/

namespace Verif
variable [F : FloatModel]
open Dbl

/-- Reading `v` stays clear of `x`: it is below, and the distance is more than the negative hysteresis, if there is one. -/
def ClearOf (hysteresis x v : Dbl) : Prop := v < x ∧ (hysteresis = 0 ∨ hysteresis < x - v)

/-- Loop `e` asks for at most `y` while all its readings are `cool`: because of its table, because of its limits, or
because it is proportional. -/
inductive Keeps (e : Entry) (y : Dbl) (cool : Dbl → Prop) : Prop
  /-- the readings are clear of the point after `k`, if there is one, and the output of point `k` is at most `y` -/
  | table (type : e.2.type = "stepwise") (n k : Nat) (rising : RisingTable e.2.stepwiseInfo n) (hk : k < 20) (hkn : k < n)
      (output : e.2.stepwiseInfo.output ⟨k, hk⟩ ≤ y) (some : e.2.inputs ≠ [])
      (clear : ∀ v, cool v → v.isFinite = true ∧ ∀ h : k + 1 < 20, k + 1 < n →
        ClearOf e.2.stepwiseInfo.negativeHysteresis (e.2.stepwiseInfo.reading ⟨k + 1, h⟩) v)
  /-- whatever the readings, the limits do not allow more -/
  | limits (type : e.2.type ≠ "stepwise") (slew : SaneSlew e.2.pidInfo)
      (bounds : e.2.pidInfo.outLim.min ≤ y ∧ e.2.pidInfo.outLim.max ≤ y)
  /-- the finite readings are at most `x`, and what the loop asks for at `x`, and at its set point, is at most `y` -/
  | proportional (type : e.2.type = "temp" ∨ e.2.type = "power") (conf : Proportional e.2.pidInfo)
      (setpoint : Moderate e.2.setpoint) (x : Dbl) (hx : Moderate x)
      (output : proportionalAt e.2.pidInfo e.2.setpoint x ≤ y ∧ proportionalAt e.2.pidInfo e.2.setpoint e.2.setpoint ≤ y)
      (below : ∀ v, cool v → v.isFinite = true → v ≤ x)

/-- Whenever the timer of zone `i` expires while the events happen, all readings of its loops are cool. -/
def CoolThroughout (o : Opts) (i : Int) (conf : List Entry) (cool : Entry → Dbl → Prop) (d : Daemon) (es : List DEvent) : Prop :=
  ∀ es1 es2 d1, es = es1 ++ .tick i :: es2 → d.run o es1 = .ok d1 → ∀ e ∈ conf, IsHeat e → ∀ j ∈ e.2.inputs,
    ∀ s r, d1.w.sensors.find? j.name = some s → s.read d1.w d1.w.nowThermals = .ok r → cool e r.value

/-- Between `w` and `w'` every fan loop of the configuration commanded its fans, in order, and those loops that can write
any fan commanded a fraction of at least `lo` and at most `hi`. -/
def FansWithin (conf : List Entry) (lo hi : Dbl) (w w' : World) : Prop :=
  ∃ (l : List (FanPid × Dbl)) (b : Bool),
    l.map (fun x => x.1.inputs) = (conf.filter IsFan).map (fun e => e.2.inputs.map SensorInput.name) ∧ Drives b w l w' ∧
    ∀ x ∈ l, (∃ m ∈ x.1.inputs, targetOf w m ≠ none) → lo ≤ x.2 ∧ x.2 ≤ hi

/-- The fan behind `path` was last told at most what the configuration `c` makes of the fraction `v`. -/
def ToldAtMost (c : SensorConfig) (path : String) (v : Dbl) (w : World) : Prop :=
  ∃ u, valueAt path w = some u ∧ 0 ≤ u ∧ ∀ r, rawCommand (limitsOf c) v = some r → u ≤ r

end Verif
