import Verif.Spec.Daemon
import Verif.Spec.Pid

/-! # Specification of the way from a hot sensor to the fans -/

namespace Verif
variable [F : FloatModel]
open Dbl

/-- A table whose `n` listed points have rising readings and outputs that do not fall. -/
structure RisingTable (info : StepwiseInfo) (n : Nat) : Prop where
  listed : Listed info n
  readings : ∀ i j (hi : i < 20) (hj : j < 20), i < j → j < n → info.reading ⟨i, hi⟩ < info.reading ⟨j, hj⟩
  outputs : ∀ i j (hi : i < 20) (hj : j < 20), i ≤ j → j < n → info.output ⟨i, hi⟩ ≤ info.output ⟨j, hj⟩

/-- All loops of a zone that compute set points are stepwise loops with rising tables that have no outputs below zero. -/
def TablesOnly (conf : List Entry) : Prop :=
  ∀ e ∈ conf, IsHeat e → e.2.type = "stepwise" ∧ (∃ n, RisingTable e.2.stepwiseInfo n) ∧ 0 ≤ e.2.stepwiseInfo.output 0

/-- Reading `v` has passed `x`: it is not below, and the distance is more than the positive hysteresis, if there is one. -/
def Passed (hysteresis x v : Dbl) : Prop := x ≤ v ∧ (hysteresis = 0 ∨ hysteresis < v - x)

/-- A fan loop that hands its set point on: feed forward only, without slew rates. -/
structure HandsOn (c : PidConf) : Prop where
  hysteresis : c.checkHysterWithSetpt = false
  terms : c.proportionalCoeff = 0 ∧ c.integralCoeff = 0 ∧ c.derivativeCoeff = 0
  feedForward : c.feedFwdOffset = 0 ∧ c.feedFwdGain = 1
  slew : c.slewNeg = 0 ∧ c.slewPos = 0

/-- The position of the switch of a loop after events, from `on` before. -/
def switchAfter (i : Int) (loop : String) : Bool → List DEvent → Bool
  | on, [] => on
  | on, .enable j l b :: es => switchAfter i loop (if j = i ∧ l = loop then b else on) es
  | on, _ :: es => switchAfter i loop on es

/-- Whenever the timer of zone `i` expires while the events happen, one of the sensors `names` has a reading with
property `hot`. -/
def ReadsThroughout (o : Opts) (i : Int) (names : List String) (hot : Dbl → Prop) (d : Daemon) (es : List DEvent) : Prop :=
  ∀ es1 es2 d1, es = es1 ++ .tick i :: es2 → d.run o es1 = .ok d1 →
    ∃ n ∈ names, ∃ s r, d1.w.sensors.find? n = some s ∧ s.read d1.w d1.w.nowThermals = .ok r ∧ hot r.value

/-- A number of moderate size: up to about a million, 2^20. -/
def Moderate (x : Dbl) : Prop := -1048576 ≤ x ∧ x ≤ 1048576

/-- A loop over temperatures or powers that only has a proportional part and a constant: the hotter, the faster. Its
settings are of moderate size and its sample period is at least 1/1024 s. -/
structure Proportional (c : PidConf) : Prop where
  hysteresis : c.checkHysterWithSetpt = false ∧ c.positiveHysteresis = 0 ∧ c.negativeHysteresis = 0
  terms : c.proportionalCoeff ≤ 0 ∧ c.integralCoeff = 0 ∧ c.derivativeCoeff = 0
  slew : c.slewNeg = 0 ∧ c.slewPos = 0
  limits : c.outLim.min ≤ c.outLim.max
  moderate : Moderate c.proportionalCoeff ∧ Moderate c.feedFwdOffset ∧ Moderate c.feedFwdGain
  period : ∃ q h, c.ts = .fin q h ∧ 1 / 1024 ≤ q

/-- What such a loop asks for at reading `x`, with set point `s`. -/
def proportionalAt (c : PidConf) (s x : Dbl) : Dbl :=
  limited (c.proportionalCoeff * (s - x) + (s + c.feedFwdOffset) * c.feedFwdGain) c.outLim.min c.outLim.max

/-- While the events happen, and after them, the finite readings of the sensors `names` are of moderate size. -/
def ModerateThroughout (o : Opts) (names : List String) (d : Daemon) (es : List DEvent) : Prop :=
  ∀ es1 es2 d1, es = es1 ++ es2 → d.run o es1 = .ok d1 → ∀ n ∈ names, ∀ s r, d1.w.sensors.find? n = some s →
    s.read d1.w d1.w.nowThermals = .ok r → r.value.isFinite = true → Moderate r.value

end Verif
