import Verif.Spec.Daemon

/-! # Specification of the independence of zones -/

namespace Verif
variable [F : FloatModel]

/-- No fan loop of `conf'` uses a fan of a fan loop of `conf`. -/
def NoSharedFan (conf conf' : List Entry) : Prop :=
  ∀ e ∈ conf, IsFan e → ∀ x ∈ e.2.inputs, ∀ e' ∈ conf', IsFan e' → ∀ x' ∈ e'.2.inputs, x.name ≠ x'.name

/-- What the cycles of zone `i` write while the events happen, in order. -/
def writesOf (o : Opts) (i : Int) : Daemon → List DEvent → List Effect
  | _, [] => []
  | d, e :: es =>
    match d.step o e with
    | .error _ => []
    | .ok d' =>
      match e with
      | .tick j => if j = i then d'.w.trace.drop d.w.trace.length ++ writesOf o i d' es else writesOf o i d' es
      | _ => writesOf o i d' es

end Verif
