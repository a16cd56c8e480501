import Verif.Model.Ending
import Verif.Spec.Reloading

/-! # Specification for the end of the process -/

namespace Verif
variable [F : FloatModel]

/-- no restart of the loops is attempted -/
def NoAttempt (es : List EndEvent) : Prop := ∀ e r, EndEvent.other e ∈ es → ¬ e.Attempts r

/-- the program is not started a second time -/
def OneStart (es : List EndEvent) : Prop := ∀ r, EndEvent.other (.start r) ∉ es

/-- What the process leaves behind: with the option `offlineFailsafePwm` every fan was commanded the failsafe percentage its zone had
when its loops ran last, without it nothing was written at the end. -/
def Leaves (o : Opts) (s : Whole) (w : World) : Prop :=
  (o.offlineFailsafePwm = true → LeftSafe s.d.w s.all w) ∧ (o.offlineFailsafePwm = false → w = s.d.w)

end Verif
