import Verif.Model.Watched
import Verif.Spec.Host
import Verif.Spec.Recovery

/-! # Specification of the daemon with the host and the redundancy groups it watches -/

namespace Verif
variable [F : FloatModel]
open Dbl

/-- The daemon's own events. -/
def ownOf : List HeardEvent → List DEvent
  | [] => []
  | .own e :: es => e :: ownOf es
  | _ :: es => ownOf es

/-- The host states reported. -/
def statesOf : List HeardEvent → List String
  | [] => []
  | .host m :: es => (stateIn m).toList ++ statesOf es
  | _ :: es => statesOf es

/-- The reports of redundancy groups. -/
def reportsOf : List HeardEvent → List GroupReport
  | [] => []
  | .group obj status collection :: es => ⟨obj, status, collection.isSome⟩ :: reportsOf es
  | _ :: es => reportsOf es

/-- The host runs: the last state it reported says so, or what it answered at the start. -/
def HostRuns (reply : Option String) (es : List HeardEvent) : Prop :=
  match (statesOf es).getLast? with
  | some s => Running s
  | none => ∃ s, reply = some s ∧ Running s

/-- Groups that answer always name the members `groups` tells. -/
def Members (groups : String → List String) (es : List HeardEvent) : Prop :=
  ∀ obj status c, HeardEvent.group obj status (some c) ∈ es → c = groups obj

/-- The answers at the start. -/
def answersOf (groups : String → List String) (first : FirstAnswers) : Option (List (Option RedundancyProps)) :=
  first.map (·.map (fun a => a.map (fun p => ⟨p.2, some (groups p.1)⟩)))

/-- A fan that has to be there: some fan loop uses it, and no loop accepts it missing. -/
def MustTurn (conf : List Entry) (n : String) : Prop :=
  (∃ e ∈ conf, IsFan e ∧ ∃ i ∈ e.2.inputs, i.name = n) ∧
  ∀ e ∈ conf, ∀ i ∈ e.2.inputs, i.name = n → i.missingIsAcceptable = false

end Verif
