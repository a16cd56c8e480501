import Verif.Model.Lifecycle

/-! # Specifications for starting and stopping loops -/

namespace Verif

/-- A run of the program: what was observed, oldest first. All states that were passed satisfy `P`. -/
inductive LifeRun (P : Life → Prop) : List LifeEv → Life → Prop
  | init : P Life.init → LifeRun P [] Life.init
  | step {t s e s'} : LifeRun P t s → LifeStep s e s' → P s' → LifeRun P (t ++ e) s'

/-- every state -/
def anyLife : Life → Prop := fun _ => True

/-- an attempt to restart or terminate that is ready to run -/
def Job.isAttempt : Job → Bool
  | .restart true | .terminate true => true
  | _ => false

/-- at most one attempt is ready -/
def OneAttempt (s : Life) : Prop := (s.queue.filter Job.isAttempt).length ≤ 1

/-- at most one zone is configured -/
def OneZone (s : Life) : Prop := s.zones.length ≤ 1

/-- No zone made before a completed stop ticks after it. -/
def StopsForGood (t : List LifeEv) : Prop :=
  ∀ t1 t2 z, t = t1 ++ .stopDone :: t2 → .start z ∈ t1 → .tick z ∉ t2

/-- The program is at its end: nothing happens any more. -/
def Ended (s : Life) : Prop := ∀ e s', ¬ LifeStep s e s'

/-- An attempt to terminate is ready or will be made. -/
def Terminating (s : Life) : Prop := .terminate true ∈ s.queue ∨ 0 < s.retryTerminate

end Verif
