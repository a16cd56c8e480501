import Verif.Spec.SteadyFail

/-! # Specification of the steady state of zones that add up set points -/

namespace Verif
variable [F : FloatModel]
open Dbl

open Classical in
/-- What the loops of profile `p` that are switched on ask for, in the order of the configuration. -/
noncomputable def asksOf (on : String → Bool) (ask : Entry → Dbl) (p : String) (conf : List Entry) : List Dbl :=
  (conf.filter (fun e => HasSay on e ∧ ¬ SetsCeiling e ∧ IsProfile e.1 p)).map ask

/-- The set point `m` that the configuration gives for loops that see the inputs `val`, in a zone that adds up set points: the
outputs of the loops that are switched on are added up per profile in the order of the configuration; the largest of these sums
on the way (at least 0), capped by the lowest ceiling, and not below the minimum. -/
def SteadySum (conf : List Entry) (on : String → Bool) (val : String → Dbl) (min m : Dbl) : Prop :=
  ∃ (ask : Entry → Dbl) (req cap : Dbl), (∀ e ∈ conf, HasSay on e → AsksAt e.2 (val e.1) (ask e)) ∧
    Largest (fun x => x = 0 ∨ (x ≠ nan ∧ ∃ first p, first <+: conf ∧ asksOf on ask p first ≠ [] ∧ x = sumUp (asksOf on ask p first))) req ∧
    Smallest (fun x => x = req ∨ ∃ e ∈ conf, IsHeat e ∧ SetsCeiling e ∧ x = ask e) cap ∧
    Largest (fun x => x = cap ∨ (x ≠ nan ∧ x = min)) m

/-- The same with the total of every profile. -/
def SteadyTotal (conf : List Entry) (on : String → Bool) (val : String → Dbl) (min m : Dbl) : Prop :=
  ∃ (ask : Entry → Dbl) (req cap : Dbl), (∀ e ∈ conf, HasSay on e → AsksAt e.2 (val e.1) (ask e)) ∧
    Largest (fun x => x = 0 ∨ ∃ p, x = sumUp (asksOf on ask p conf)) req ∧
    Smallest (fun x => x = req ∨ ∃ e ∈ conf, IsHeat e ∧ SetsCeiling e ∧ x = ask e) cap ∧
    Largest (fun x => x = cap ∨ (x ≠ nan ∧ x = min)) m

end Verif
