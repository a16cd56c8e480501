import Verif.Spec.Register
import Verif.Spec.Build
import Verif.Spec.Pid
import Verif.Spec.Writers
import Verif.Spec.Written

/-! # Specification of the range of the numbers fans are told -/

namespace Verif
variable [F : FloatModel]
open Dbl

/-- A number between 0 and 100. -/
def Percentage (x : Dbl) : Prop := 0 ≤ x ∧ x ≤ 100

/-- Settings of a fan loop whose output limits are percentages, in order, and whose slew rates point the right way. -/
structure FanLimits (c : PidConf) : Prop where
  slew : SaneSlew c
  min : 0 ≤ c.outLim.min
  order : c.outLim.min ≤ c.outLim.max
  max : c.outLim.max ≤ 100

/-- A zone that has fan `n` has percentages for limits of its loops with the fan, and all its failsafe percentages are
percentages. -/
def SafeFor (n : String) (c : ZoneConfig) (conf : List Entry) : Prop :=
  ∀ f ∈ conf, IsFan f → (∃ i ∈ f.2.inputs, i.name = n) →
    FanLimits f.2.pidInfo ∧ (∀ e ∈ conf, Percentage e.2.failSafePercent) ∧ Percentage c.failsafePercent

/-- The same for the entry of a zone in the configuration file. -/
def SafeEntryFor (n : String) (zone : Json) : Prop :=
  ∀ f, LoopIn zone "fan" f → Lists f "inputs" n →
    (∀ p c, Member f "pid" p → PidEntry p c → FanLimits c) ∧
    (∀ type l v, LoopIn zone type l → Setting l "FailSafePercent" IsInt32 v → 0 ≤ v ∧ v ≤ 100) ∧
    ∀ p, Setting zone "failsafePercent" IsNumber p → Percentage p

/-- Every number that was ever sent to `path`, successfully or not, is between `lo` and `hi`. -/
def WithinRange (path : String) (lo hi : Int) (w : World) : Prop :=
  ∀ e ∈ w.trace, e.path = path → lo ≤ e.value ∧ e.value ≤ hi

end Verif
