import Verif.Model.Timed
import Verif.Spec.Demand
import Verif.Spec.Register

/-! # Specification of the time the daemon needs -/

namespace Verif
variable [F : FloatModel]
open Dbl

/-- The events without their times. -/
def eventsOf (tes : List TEvent) : List DEvent := tes.map Prod.snd

/-- How often the timer of zone `i` expired. -/
def ticksOf (i : Int) : List TEvent → Nat
  | [] => 0
  | (_, .tick j) :: es => (if j = i then 1 else 0) + ticksOf i es
  | _ :: es => ticksOf i es

/-- A history the operating system and the event loop allow: time does not go back, the handler of a timer is called when
the timer has expired and reads the clock after that, and nothing else happens while a timer is overdue by more than `late`. -/
structure Served (o : Opts) (late t0 : Int) (td : Timed) (tes : List TEvent) : Prop where
  ordered : tes.Pairwise (fun a b => a.1 ≤ b.1)
  after : ∀ x ∈ tes, t0 ≤ x.1
  expired : ∀ es1 es2 t i td1 x, tes = es1 ++ (t, .tick i) :: es2 → td.run o es1 = .ok td1 →
    td1.timers.find? i = some x → x.1 ≤ t
  clock : ∀ es1 es2 t i td1, tes = es1 ++ (t, .tick i) :: es2 → td.run o es1 = .ok td1 →
    t ≤ td1.d.w.nowFans ∧ t ≤ td1.d.w.nowThermals
  prompt : ∀ es1 es2 t e td1 i x, tes = es1 ++ (t, e) :: es2 → td.run o es1 = .ok td1 →
    td1.timers.find? i = some x → t ≤ x.1 + late

/-- milliseconds as nanoseconds -/
def ms (n : Nat) : Int := n * 1000000

/-- Zone `i` is in automatic mode all the time while the events `post` happen after `pre`. -/
def Automatic (i : Int) (pre post : List DEvent) : Prop :=
  ∀ es1 es2, post = es1 ++ es2 → modeAfter i false (pre ++ es1) = false

/-- No zone but `i` has the fan `n`. -/
def OnlyZone (pids : OMap Int PIDConf) (i : Int) (n : String) : Prop :=
  ∀ j conf, j ≠ i → pids.find? j = some conf → ∀ e ∈ conf.entries, IsFan e → ∀ x ∈ e.2.inputs, x.name ≠ n

end Verif
