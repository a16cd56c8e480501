import Verif.Model.Retry
import Verif.Spec.Whole

/-! # Specification for the attempts to start the loops -/

namespace Verif
variable [F : FloatModel]

/-- nobody asks for a restart -/
def NoRequest (es : List RetryEvent) : Prop := ∀ r, RetryEvent.request r ∉ es

/-- the timer does not lead to an attempt -/
def NoRetry (es : List RetryEvent) : Prop := ∀ r, RetryEvent.retry r ∉ es

/-- A daemon started in this world from what is found would run (Model/Startup.lean), and the bus takes its objects. -/
def Found.Ready (o : Opts) (r : Found) (s : Whole) : Prop :=
  (∀ w, s.stop o = .ok w → ∃ d, attempt o r.conf r.files r.objects r.order r.bus r.now w = .running d) ∧
    ∀ p ∈ s.hosts, ¬ r.Clashes p

/-- Whenever the daemon tries again while no loop runs, what it finds is ready. -/
def ReadyThroughout (o : Opts) (late : Int) (s : Retrying) (es : List RetryEvent) : Prop :=
  ∀ pre r post x, es = pre ++ RetryEvent.retry r :: post → RetryRun o late s pre x → x.whole.NoneRuns → r.Ready o x.whole

/-- what happens to the sensors and zones -/
def eventsIn : List RetryEvent → List DEvent
  | [] => []
  | .event e :: es => e :: eventsIn es
  | _ :: es => eventsIn es

/-- No loop runs, and none will unless somebody asks for it. -/
def Retrying.Idle (s : Retrying) : Prop := s.whole.NoneRuns ∧ s.retryAt = none

end Verif
