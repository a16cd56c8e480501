import Verif.Spec.Hotter

/-! # Specification of two configurations, one with more cooling than the other -/

namespace Verif
variable [F : FloatModel]

/-- Entry `e'` has the same loop as `e`. Only the failsafe percentage may differ. -/
def SameLoop (e e' : Entry) : Prop := e'.1 = e.1 ∧ e'.2 = { e.2 with failSafePercent := e'.2.failSafePercent }

/-- Sensor `n` is read by a loop of the given kind. -/
def ReadBy (kind : Entry → Prop) (conf : List Entry) (n : String) : Prop :=
  ∃ e ∈ conf, kind e ∧ ∃ i ∈ e.2.inputs, i.name = n

/-- A zone of settings `c'` and loops `conf'` asks for as much cooling as one of `c` and `conf`, or more. It has the same fan
loops, and all loops that compute set points. It may have more of these. The lowest set point and the failsafe percentages of the
sensors of `conf` may be larger. The additional loops read no fans, and they accept no sensor missing that has to be there in `conf`. -/
structure AsMuchCooling (c c' : ZoneConfig) (conf conf' : List Entry) : Prop where
  fans : (conf'.filter IsFan).map (fun e => (e.2.inputs, e.2.pidInfo)) = (conf.filter IsFan).map (fun e => (e.2.inputs, e.2.pidInfo))
  loops : ∀ e ∈ conf, IsHeat e → ∃ e' ∈ conf', SameLoop e e'
  lowest : c.minThermalOutput = c'.minThermalOutput ∨ c.minThermalOutput ≤ c'.minThermalOutput
  percents : ∀ n, ReadBy (fun e => IsFan e ∨ IsHeat e) conf n → ∀ p p', PercentFor c conf n p → PercentFor c' conf' n p' → p ≤ p'
  apart : ∀ n, ReadBy IsHeat conf' n → ReadBy IsFan conf n → ReadBy IsHeat conf n
  missing : ∀ e' ∈ conf', IsFan e' ∨ IsHeat e' → ∀ i' ∈ e'.2.inputs, i'.missingIsAcceptable = true →
    ReadBy (fun e => IsFan e ∨ IsHeat e) conf i'.name →
    ∃ e ∈ conf, (IsFan e ∨ IsHeat e) ∧ ∃ i ∈ e.2.inputs, i.name = i'.name ∧ i.missingIsAcceptable = true
  cycleTime : c'.cycleTime = c.cycleTime

end Verif
