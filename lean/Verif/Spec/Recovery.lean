import Verif.Spec.Daemon

/-! # Specification of recovery from failures -/

namespace Verif
variable [F : FloatModel]
open Dbl

/-- An input that has to be there: some loop uses it, and no loop accepts it missing. -/
def NeededBy (conf : List Entry) (n : String) : Prop :=
  (∃ e ∈ conf, IsLoop e ∧ ∃ i ∈ e.2.inputs, i.name = n) ∧
  ∀ e ∈ conf, IsLoop e → ∀ i ∈ e.2.inputs, i.name = n → i.missingIsAcceptable = false

/-- Whenever the timer of zone `i` expires while the events happen, none of its inputs that have to be there fails. -/
def WorkThroughout (o : Opts) (i : Int) (conf : List Entry) (d : Daemon) (es : List DEvent) : Prop :=
  ∀ es1 es2 d1, es = es1 ++ .tick i :: es2 → d.run o es1 = .ok d1 → ∀ n, NeededBy conf n →
    ¬ FailsAt d1.w d1.w.nowFans n ∧ ¬ FailsAt d1.w d1.w.nowThermals n

/-- `Working o d0 z0 cnt0 n z cnt`: starting from zone `z0` with cycle counter `cnt0` there were `n` automatic ticks, in
all of which none of the inputs that have to be there failed; anything else may have happened in between. -/
inductive Working (o : Opts) (d0 : ZoneData) (z0 : Zone) (cnt0 : Nat) : Nat → Zone → Nat → Prop
  | start : Working o d0 z0 cnt0 0 z0 cnt0
  | manual {n z cnt} (b : Bool) : Working o d0 z0 cnt0 n z cnt →
      Working o d0 z0 cnt0 n { z with d := z.d.setManualMode b } cnt
  | enable {n z cnt} (name : String) (b : Bool) : Working o d0 z0 cnt0 n z cnt →
      Working o d0 z0 cnt0 n { z with d := z.d.setEnabled name b } cnt
  | idle {n z cnt} (w : World) {w' z' cnt'} : Working o d0 z0 cnt0 n z cnt → z.d.manualMode = true →
      z.tick o w cnt = .ok (w', z', cnt') → Working o d0 z0 cnt0 n z' cnt'
  | auto {n z cnt} (w : World) {w' z' cnt'} : Working o d0 z0 cnt0 n z cnt → z.d.manualMode = false →
      (∀ s, Required d0 s → ¬ FailsAt w w.nowFans s ∧ ¬ FailsAt w w.nowThermals s) →
      z.tick o w cnt = .ok (w', z', cnt') → Working o d0 z0 cnt0 (n + 1) z' cnt'

/-- Between `w` and `w'` every fan loop of the configuration commanded its fans, in order, exactly what its PID
computation gives for the set point and the fan readings of `z`: nothing is raised to a failsafe percentage. -/
def FansAsComputed (conf : List Entry) (z : ZoneData) (w w' : World) : Prop :=
  ∃ (l : List (FanPid × Dbl)) (b : Bool),
    l.map (fun x => x.1.inputs) = (conf.filter IsFan).map (fun e => e.2.inputs.map SensorInput.name) ∧ Drives b w l w' ∧
    ∀ x ∈ l, ∃ input, x.1.inputProc z = .ok input ∧ x.2 = (pidStep x.1.ctl z.maximumSetPoint input).1 / 100

end Verif
