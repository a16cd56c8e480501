import Verif.Model.Whole

/-!
# The same life by another clock

Vocabulary for C137: the events of a life when all times are read from another clock.
-/

namespace Verif
variable [F : FloatModel]

/-- The world as seen `k` nanoseconds later by the clock. -/
def World.shifted (k : Int) (w : World) : World := { w with nowFans := w.nowFans + k, nowThermals := w.nowThermals + k }

/-- The same event, `k` nanoseconds later by the clock. -/
def DEvent.shifted (k : Int) : DEvent → DEvent
  | .outside a b h r f ok => .outside (a + k) (b + k) h r f ok
  | .signal n now m => .signal n (now + k) m
  | .hostWrite n now v => .hostWrite n (now + k) v
  | e => e

/-- The same event, `k` nanoseconds later by the clock. -/
def WEvent.shifted (k : Int) : WEvent → WEvent
  | .event e => .event (e.shifted k)
  | .reload r => .reload { r with now := r.now + k }

/-- The event without its times. -/
def DEvent.timeless : DEvent → DEvent
  | .outside _ _ h r f ok => .outside 0 0 h r f ok
  | .signal n _ m => .signal n 0 m
  | .hostWrite n _ v => .hostWrite n 0 v
  | e => e

/-- The event without its times. -/
def WEvent.timeless : WEvent → WEvent
  | .event e => .event e.timeless
  | .reload r => .reload { r with now := 0 }

/-- No configuration that is read asks for a sensor to time out. -/
def NoTimeouts (es : List WEvent) : Prop :=
  ∀ r, WEvent.reload r ∈ es → ∀ c, r.read = .got c → ∀ x ∈ c.sensors.entries, x.2.timeout = 0

/-- What there is to see of a life: the zones with all they hold, and everything the fans were told. -/
def Whole.seen (s : Whole) : OMap Int (Zone × Nat) × List Zone × List String × Bool × List Effect :=
  (s.d.zones, s.idle, s.hosts, s.again, s.d.w.trace)

end Verif
