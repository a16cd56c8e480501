import Verif.Spec.Steady

/-! # Specification of the steady state with failed sensors -/

namespace Verif
variable [F : FloatModel]
open Dbl

/-- Whenever the timer of zone `i` expires while the events happen, exactly the inputs in `broken` fail among those that have to
be there. -/
def BrokenThroughout (o : Opts) (i : Int) (conf : List Entry) (broken : String → Prop) (d : Daemon) (es : List DEvent) : Prop :=
  ∀ es1 es2 d1, es = es1 ++ .tick i :: es2 → d.run o es1 = .ok d1 → ∀ n, NeededBy conf n →
    (FailsAt d1.w d1.w.nowFans n ↔ broken n) ∧ (FailsAt d1.w d1.w.nowThermals n ↔ broken n)

/-- What becomes of the percentage `x` of a fan loop when the inputs in `broken` fail. If none of these has to be there, nothing.
Otherwise it is raised to the largest percentage that the configuration sets for one of them, or, with strict failsafe, replaced
by it. -/
inductive Raised (strict : Bool) (c : ZoneConfig) (conf : List Entry) (broken : String → Prop) (x : Dbl) : Dbl → Prop
  | none : (∀ n, NeededBy conf n → ¬ broken n) → Raised strict c conf broken x x
  | some {p : Dbl} : Largest (fun q => ∃ n, NeededBy conf n ∧ broken n ∧ PercentFor c conf n q) p →
      Raised strict c conf broken x (if strict = true ∨ x < p then p else x)

/-- Between `w` and `w'` every fan loop of the configuration commanded its fans, in order, and those that can write any fan
commanded exactly a percentage that `R` makes of the set point `m`, or of the limit of the loop it is beyond. -/
def FansGetBy (R : Dbl → Dbl → Prop) (conf : List Entry) (m : Dbl) (w w' : World) : Prop :=
  ∃ (l : List (FanPid × Dbl)) (b : Bool), Drives b w l w' ∧
    List.Forall₂ (fun f x => f.2.inputs.map SensorInput.name = x.1.inputs ∧ ((∃ n ∈ x.1.inputs, targetOf w n ≠ none) →
      ∃ y, R (limited m f.2.pidInfo.outLim.min f.2.pidInfo.outLim.max) y ∧ x.2 = y / 100)) (conf.filter IsFan) l

/-- `Stable o d0 broken z0 cnt0 n z cnt`: starting from zone `z0` with cycle counter `cnt0` there were `n` automatic ticks, in
all of which exactly the inputs in `broken` failed among those that have to be there; anything else may have happened in
between. -/
inductive Stable (o : Opts) (d0 : ZoneData) (broken : String → Prop) (z0 : Zone) (cnt0 : Nat) : Nat → Zone → Nat → Prop
  | start : Stable o d0 broken z0 cnt0 0 z0 cnt0
  | manual {n z cnt} (b : Bool) : Stable o d0 broken z0 cnt0 n z cnt →
      Stable o d0 broken z0 cnt0 n { z with d := z.d.setManualMode b } cnt
  | enable {n z cnt} (name : String) (b : Bool) : Stable o d0 broken z0 cnt0 n z cnt →
      Stable o d0 broken z0 cnt0 n { z with d := z.d.setEnabled name b } cnt
  | idle {n z cnt} (w : World) {w' z' cnt'} : Stable o d0 broken z0 cnt0 n z cnt → z.d.manualMode = true →
      z.tick o w cnt = .ok (w', z', cnt') → Stable o d0 broken z0 cnt0 n z' cnt'
  | auto {n z cnt} (w : World) {w' z' cnt'} : Stable o d0 broken z0 cnt0 n z cnt → z.d.manualMode = false →
      (∀ s, Required d0 s → (FailsAt w w.nowFans s ↔ broken s) ∧ (FailsAt w w.nowThermals s ↔ broken s)) →
      z.tick o w cnt = .ok (w', z', cnt') → Stable o d0 broken z0 cnt0 (n + 1) z' cnt'

end Verif
