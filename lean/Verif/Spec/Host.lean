import Verif.Model.HostState
import Verif.Model.Redundancy

/-! # Specifications for fan redundancy and the host state -/

namespace Verif

/-- a text that contains `Failed` -/
def SaysFailed (status : String) : Prop := "Failed".toList <:+: status.toList

/-- A status report of a redundancy object: `status` is absent if the signal is about another property, `answered` says
whether the object then told its members. -/
structure GroupReport where
  obj : String
  status : Option String
  answered : Bool

/-- The report counts: it has a status and the members are known. -/
def GroupReport.says (r : GroupReport) (obj : String) : Option String :=
  if r.obj = obj ∧ r.answered = true then r.status else none

/-- What the bus answered at the start: `none` if the list of the objects could not be had, else for each object its
status, `none` for an object that did not answer. -/
abbrev FirstAnswers := Option (List (Option (String × Option String)))

/-- the answers before the first missing one -/
def beforeGap : List (Option (String × Option String)) → List (String × Option String)
  | [] => []
  | none :: _ => []
  | some a :: rest => a :: beforeGap rest

/-- the answers that are used -/
def usable (first : FirstAnswers) : List (String × Option String) := beforeGap (first.getD [])

/-- The daemon asked at the start and then received the reports `h`; `groups` tells the members of each object. -/
inductive Groups (groups : String → List String) (first : FirstAnswers) : List GroupReport → List String → Prop
  | start {failed} :
      redundancyInit (first.map (·.map (fun a => a.map (fun p => ⟨p.2, some (groups p.1)⟩)))) = .ok failed →
      Groups groups first [] failed
  | report {h failed} (r : GroupReport) : Groups groups first h failed →
      Groups groups first (h ++ [r]) (redundancySignal failed r.status (if r.answered then some (groups r.obj) else none))

/-- The group's last status says `Failed`; before any report, a status of the first answers does. -/
def GroupFailed (first : FirstAnswers) (obj : String) (h : List GroupReport) : Prop :=
  match (h.filterMap (GroupReport.says · obj)).getLast? with
  | some s => SaysFailed s
  | none => ∃ s, (obj, some s) ∈ usable first ∧ SaysFailed s

/-! ## Host state -/

/-- a state name that ends in `.Running` -/
def Running (state : String) : Prop := ".Running".toList <:+ state.toList

/-- what happens to a host state monitor -/
inductive HostEvent where
  | start
  | stop
  | signal (msg : HostMsg)

def HostMonitor.event (m : HostMonitor) : HostEvent → HostMonitor
  | .start => m.startMonitoring
  | .stop => m.stopMonitoring
  | .signal msg => m.signal msg

/-- the host state in a message -/
def stateIn (msg : HostMsg) : Option String := msg.bind (fun v => v.find? "CurrentHostState")

/-- The host states reported while the monitor listens (`on`: it listens at the beginning). -/
def heardStates (on : Bool) : List HostEvent → List String
  | [] => []
  | .start :: es => heardStates true es
  | .stop :: es => heardStates false es
  | .signal msg :: es => (if on then (stateIn msg).toList else []) ++ heardStates on es

end Verif
