import Verif.Model.Logged
import Verif.Spec.FailsafeLog
import Verif.Spec.FailsafeMsgs

/-! # Specification of the failsafe log of the running daemon -/

namespace Verif

/-- what is compared to find out whether a line has been printed before -/
def FsAttempt.text (a : FsAttempt) : String := a.location ++ " @ " ++ a.reason
def FsEvent.text (e : FsEvent) : String := e.location ++ " @ " ++ e.reason

/-- number of different elements -/
def different (l : List String) : Nat := l.dedup.length

/-- Histories of one logger that consist of bursts: in each, at one time, first at least `max` different messages that
report that the zone is not in failsafe mode, then messages that report that it is. -/
inductive Bursts (max : Nat) : List FsAttempt → Prop
  | none : Bursts max []
  | burst {h : List FsAttempt} (t : Nat) (quiet loud : List FsAttempt) : Bursts max h →
      (∀ a ∈ quiet, a.now = t ∧ a.state = false) → max ≤ different (quiet.map FsAttempt.text) →
      (∀ a ∈ loud, a.now = t ∧ a.state = true) → loud ≠ [] → Bursts max (h ++ quiet ++ loud)

/-- The call is about zone `i` or one of its thermal inputs. -/
def FsEvent.concerns (i : Int) (inputs : List String) (e : FsEvent) : Bool :=
  match e.target with
  | .sensor n => decide (n ∈ inputs)
  | .zone j => decide (i = j)

/-- The call is not yet a second old at time `t`. -/
def FsEvent.recent (t : Nat) (e : FsEvent) : Bool := decide (t < e.now + 1000)

end Verif
