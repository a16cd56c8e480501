import Verif.Spec.Hotter
import Verif.Spec.Recovery

/-! # Specification of the steady state -/

namespace Verif
variable [F : FloatModel]
open Dbl

/-- What the table says at `v`: the output of the last listed point not above `v`, or the first output if there is none. -/
def TableSays (info : StepwiseInfo) (v y : Dbl) : Prop :=
  ∃ n, Listed info n ∧
    ((∃ k, ∃ hk : k < 20, k < n ∧ y = info.output ⟨k, hk⟩ ∧ ¬ v < info.reading ⟨k, hk⟩ ∧
        ∀ j (hj : j < 20), k < j → j < n → v < info.reading ⟨j, hj⟩) ∨
      (y = info.output ⟨0, by decide⟩ ∧ ∀ j (hj : j < 20), j < n → v < info.reading ⟨j, hj⟩))

/-- A loop without memory: a PID with proportional part and constant only, without slew rates and with settings of moderate
size, or a stepwise loop without hysteresis, with increasing readings and with numbers as outputs. -/
inductive Memoryless (e : ControllerInfo) : Prop
  | pid : IsPid e.type → Slewing e.pidInfo → e.pidInfo.slewNeg = 0 ∧ e.pidInfo.slewPos = 0 → Moderate e.setpoint → Memoryless e
  | table {n : Nat} : e.type = "stepwise" → Listed e.stepwiseInfo n →
      (∀ i j (hi : i < 20) (hj : j < 20), i < j → j < n → e.stepwiseInfo.reading ⟨i, hi⟩ < e.stepwiseInfo.reading ⟨j, hj⟩) →
      (∀ j (hj : j < 20), j < n → e.stepwiseInfo.output ⟨j, hj⟩ ≠ nan) →
      e.stepwiseInfo.positiveHysteresis = 0 → e.stepwiseInfo.negativeHysteresis = 0 → Memoryless e

/-- What such a loop asks for at input `v`. -/
inductive AsksAt (e : ControllerInfo) (v y : Dbl) : Prop
  | pid : IsPid e.type → y = proportionalAt e.pidInfo e.setpoint v → AsksAt e v y
  | table : e.type = "stepwise" → TableSays e.stepwiseInfo v y → AsksAt e v y

/-- A loop that sets a ceiling. -/
def SetsCeiling (e : Entry) : Prop := e.2.type = "stepwise" ∧ e.2.stepwiseInfo.isCeiling = true

/-- A loop that has a say: it sets a ceiling, or it is switched on. -/
def HasSay (on : String → Bool) (e : Entry) : Prop := IsHeat e ∧ (SetsCeiling e ∨ on e.1 = true)

/-- The set point `m` that the configuration gives for loops that see the inputs `val`: the largest output of the loops that are
switched on (at least 0), capped by the lowest ceiling, and not below the minimum. -/
def SteadyPoint (conf : List Entry) (on : String → Bool) (val : String → Dbl) (min m : Dbl) : Prop :=
  ∃ req cap, Largest (fun x => x = 0 ∨ ∃ e ∈ conf, HasSay on e ∧ ¬ SetsCeiling e ∧ AsksAt e.2 (val e.1) x) req ∧
    Smallest (fun x => x = req ∨ ∃ e ∈ conf, IsHeat e ∧ SetsCeiling e ∧ AsksAt e.2 (val e.1) x) cap ∧
    Largest (fun x => x = cap ∨ (x ≠ nan ∧ x = min)) m

/-- Whenever the timer of zone `i` expires while the events `es` happen, after the events `pre`, the switches of its loops are
as in `on`, and those with a say see the inputs `val`. -/
def SteadyThroughout (o : Opts) (i : Int) (conf : List Entry) (on : String → Bool) (val : String → Dbl) (pre : List DEvent)
    (d : Daemon) (es : List DEvent) : Prop :=
  ∀ es1 es2 d1, es = es1 ++ .tick i :: es2 → d.run o es1 = .ok d1 → ∀ e ∈ conf, IsHeat e →
    switchAfter i e.1 true (pre ++ es1) = on e.1 ∧ (HasSay on e → ∀ v, LoopInput d1.w e.2 v → v = val e.1)

/-- Between `w` and `w'` every fan loop of the configuration commanded its fans, in order, and those that can write any fan
commanded exactly the percentage `m`, or the limit of the loop it is beyond. -/
def FansGet (conf : List Entry) (m : Dbl) (w w' : World) : Prop :=
  ∃ (l : List (FanPid × Dbl)) (b : Bool), Drives b w l w' ∧
    List.Forall₂ (fun f x => f.2.inputs.map SensorInput.name = x.1.inputs ∧ ((∃ n ∈ x.1.inputs, targetOf w n ≠ none) →
      x.2 = limited m f.2.pidInfo.outLim.min f.2.pidInfo.outLim.max / 100)) (conf.filter IsFan) l

/-- A daemon that ran from `d0` to `d2`, first while anything may have happened, then in a steady state of zone `i` that has lasted
for the automatic cycles that fit between two computations of the set point. -/
def SteadyFor (o : Opts) (i : Int) (conf : List Entry) (ct : CycleTime) (on : String → Bool) (val : String → Dbl) (d0 d2 : Daemon) :
    Prop :=
  ∃ pre post d1, d0.run o pre = .ok d1 ∧ d1.run o post = .ok d2 ∧
    (∀ e ∈ conf, IsPid e.2.type → Memoryless e.2 → ModerateInput o e.2 d0 (pre ++ post)) ∧
    SteadyThroughout o i conf on val pre d1 (post ++ [.tick i]) ∧ WorkThroughout o i conf d1 (post ++ [.tick i]) ∧
    (ct.updateThermalsTimeMS + ct.cycleIntervalTimeMS - 1) / ct.cycleIntervalTimeMS ≤ autoTicks i (modeAfter i false pre) post ∧
    modeAfter i false (pre ++ post) = false

end Verif
