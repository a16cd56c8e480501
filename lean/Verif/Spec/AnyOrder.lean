import Verif.Model.Daemon

/-! # Specification of event sequences that differ only in the order of unrelated events -/

namespace Verif
variable [F : FloatModel]

/-- What an event can be about: the surroundings; the reading, the alarm or the operational state of a sensor; the mode of a zone, the
switch of a loop, the timer of a zone. -/
inductive Thing where
  | outside
  | reading (sensor : String)
  | alarm (sensor : String)
  | functional (sensor : String)
  | mode (zone : Int)
  | switch (zone : Int) (loop : String)
  | timer (zone : Int)
deriving DecidableEq

/-- What an event is about. Availability is about the reading, since sensors that become unavailable lose theirs. -/
def about : DEvent → Thing
  | .outside .. => .outside
  | .signal n _ m =>
    if m.iface = ifCritical ∨ m.iface = ifWarning then .alarm n
    else if m.iface = ifOperational then .functional n
    else .reading n
  | .hostWrite n _ _ => .reading n
  | .manual i _ => .mode i
  | .enable i l _ => .switch i l
  | .tick i => .timer i

/-- Things whose events may not be exchanged: the same things, and timers with everything but the modes and switches of other
zones. -/
def Linked : Thing → Thing → Prop
  | .timer i, .mode j => i = j
  | .timer i, .switch j _ => i = j
  | .timer _, _ => True
  | .mode j, .timer i => i = j
  | .switch j _, .timer i => i = j
  | _, .timer _ => True
  | a, b => a = b

/-- In both sequences the events about any two linked things are the same and come in the same order. -/
def SameOrders (es es' : List DEvent) : Prop :=
  ∀ a b, Linked a b → es.filter (fun e => about e = a ∨ about e = b) = es'.filter (fun e => about e = a ∨ about e = b)

end Verif
