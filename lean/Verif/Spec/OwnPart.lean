import Verif.Spec.Alone

/-! # Specification of what a zone can notice -/

namespace Verif
variable [F : FloatModel]

/-- The sensors and fans the loops of a zone name. -/
def namedBy (conf : List Entry) : List String := conf.flatMap (fun e => e.2.inputs.map SensorInput.name)

/-- Events zone `i` with the loops `conf` can notice: changes of the surroundings, messages of the sensors its loops name, orders for
it and the expiry of its timer. -/
def Notices (i : Int) (conf : List Entry) : DEvent → Bool
  | .outside .. => true
  | .signal n _ _ => (namedBy conf).contains n
  | .hostWrite n _ _ => (namedBy conf).contains n
  | .manual j _ => j == i
  | .enable j _ _ => j == i
  | .tick j => j == i

end Verif
