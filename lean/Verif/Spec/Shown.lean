import Verif.Model.Shown
import Verif.Spec.Zone

/-!
# Specification: what loops show for diagnosis
-/

namespace Verif
variable [F : FloatModel]

/-- the events without the writes to what loops show -/
def withoutWrites : List ShownEvent → List DEvent
  | [] => []
  | .event e :: es => e :: withoutWrites es
  | .scribble _ _ _ :: es => withoutWrites es

/-- Two daemons that differ in nothing but what their loops show: sensors, files, fans and everything sent to them are the same,
and so is everything in the zones apart from the objects of the loops, which have the same switches. -/
structure SameButShown (a b : Daemon) : Prop where
  world : a.w = b.w
  zones : ∀ i, match a.zones.find? i, b.zones.find? i with
    | none, none => True
    | some (x, m), some (y, n) => m = n ∧ x.fans = y.fans ∧ x.thermals = y.thermals ∧
        y.d = { x.d with procs := y.d.procs } ∧
        ∀ k, (y.d.procs.find? k).map (·.enabled) = (x.d.procs.find? k).map (·.enabled)
    | _, _ => False

/-- Two outcomes agree: both are failures of the same kind, or neither is and the daemons differ in nothing but what is shown. -/
def SameOutcome : Res Daemon → Res Daemon → Prop
  | .ok a, .ok b => SameButShown a b
  | .error e, .error f => e = f
  | _, _ => False

/-- The object of loop `n` shows the output `x`, and the loop is switched on. -/
def ShownOn (z : ZoneData) (n : String) (x : Dbl) : Prop := ∃ p, z.procs.find? n = some p ∧ p.enabled = true ∧ p.output = x

/-- The set point of the zone can be told from what its loops show and the configured minimum `m`: it is the largest of these. -/
def ToldByShown (m : Dbl) (z : ZoneData) : Prop :=
  Largest (fun x => x = 0 ∨ (x ≠ .nan ∧ (x = m ∨ ∃ n, ShownOn z n x))) z.maximumSetPoint

end Verif
