import Verif.Base.Basic

/-!
# What makes the daemon reload its configuration

Model of dbus/dbusconfiguration.cpp:75-82, 179-283 (match rules, `eventHandler`) and of the SIGHUP half of
main.cpp:273-303 (`signalHandler`).  Both arm a `boost::asio::steady_timer` and ask for a restart when it expires.
The restart itself is Model/Lifecycle.lean, where a request may come at any moment.
-/

namespace Verif

/-- A signal on the bus, as far as the match rules and the handler look at it.  `arg0` is the first argument as text:
the interface for PropertiesChanged, the object path for InterfacesAdded and InterfacesRemoved.  `ifaces` are the keys
of the second argument of InterfacesAdded.  The values are read but not used
(dbus/dbusconfiguration.cpp:195-201, 216-227: only printed). -/
structure BusSignal where
  member : String
  arg0 : String
  ifaces : List String
deriving DecidableEq, Repr

/-- A match rule: `member` and either `arg0namespace` or `arg0path`. -/
inductive MatchRule where
  | arg0namespace (member ns : String)
  | arg0path (member path : String)

/-- `arg0namespace` of the D-Bus specification: the argument is the namespace or lies below it. -/
def underNamespace (ns s : String) : Bool := decide (s = ns) || (ns ++ ".").toList.isPrefixOf s.toList

/-- `arg0path` of the D-Bus specification: equal, or one ends in '/' and is a prefix of the other. -/
def pathMatches (p s : String) : Bool :=
  decide (s = p) || (decide (p.toList.getLast? = some '/') && p.toList.isPrefixOf s.toList) ||
    (decide (s.toList.getLast? = some '/') && s.toList.isPrefixOf p.toList)

def MatchRule.accepts : MatchRule → BusSignal → Bool
  | .arg0namespace mem ns, s => decide (s.member = mem) && underNamespace ns s.arg0
  | .arg0path mem p, s => decide (s.member = mem) && pathMatches p s.arg0

/-- The rules installed by `createMatches` (dbus/dbusconfiguration.cpp:255-282). -/
def reloadRules : List MatchRule :=
  [.arg0namespace "PropertiesChanged" "xyz.openbmc_project.Control.ThermalMode",
   .arg0namespace "PropertiesChanged" "xyz.openbmc_project.Configuration.Pid",
   .arg0namespace "PropertiesChanged" "xyz.openbmc_project.Configuration.Pid.Zone",
   .arg0namespace "PropertiesChanged" "xyz.openbmc_project.Configuration.Stepwise",
   .arg0path "InterfacesAdded" "/xyz/openbmc_project/sensors/",
   .arg0path "InterfacesRemoved" "/xyz/openbmc_project/sensors/"]

/-- `skipList` (dbus/dbusconfiguration.cpp:187-190). -/
def skipList : List String := ["xyz.openbmc_project.Association", "xyz.openbmc_project.Association.Definitions"]

/-- The loop over `skipList` (dbus/dbusconfiguration.cpp:203-214): true when the handler returns early.  The keys of
an `unordered_map` are distinct, so that `erase` removes all occurrences. -/
def skipLoop : List String → List String → Bool
  | [], _ => false
  | s :: ss, data =>
    if s ∈ data then
      if data.filter (fun d => d ≠ s) = [] then true else skipLoop ss (data.filter (fun d => d ≠ s))
    else skipLoop ss data

/-- Does `eventHandler` arm the timer (dbus/dbusconfiguration.cpp:179-248)?  The null checks on context and message
are left out: the rules pass the timer. -/
def handlerArms (s : BusSignal) : Bool := if s.member = "InterfacesAdded" then !skipLoop skipList s.ifaces else true

/-- A signal reaches the handler when some rule accepts it.  The handler returns 1, which makes sd-bus stop offering
the message to further rules, so it runs at most once per message. -/
def armsReload (s : BusSignal) : Bool := (reloadRules.any fun r => r.accepts s) && handlerArms s

/-- A `steady_timer` used to wait for a quiet moment: the deadline of the pending wait, and the completion handlers
that are ready to run (true: expired; false: aborted by a later `expires_after`). -/
structure Quiet where
  now : Int
  pending : Option Int
  ready : List Bool

/-- What happens: something asks for a reload, or `tryRestartControlLoops` is called. -/
inductive QuietEv where
  | trigger
  | restart
deriving DecidableEq, Repr

/-- Steps of such a timer with the given delay in milliseconds, and the event each produces.
* `trigger`: `expires_after` then `async_wait` (dbus/dbusconfiguration.cpp:235-245, main.cpp:289-299); a wait that is
  still pending is aborted, one whose handler is already queued is not.
* `expire`: the deadline has passed.
* `drop`, `fire`: a queued handler runs (dbus/dbusconfiguration.cpp:236-245, main.cpp:290-299).
* `tick`: time passes.  -/
inductive QuietStep (delay : Int) : Quiet → Option QuietEv → Quiet → Prop
  | trigger (s : Quiet) : QuietStep delay s (some .trigger)
      { now := s.now
        pending := some (s.now + delay)
        ready := s.ready ++ if s.pending.isSome then [false] else [] }
  | expire (s : Quiet) (d : Int) : s.pending = some d → d ≤ s.now →
      QuietStep delay s none { now := s.now, pending := none, ready := s.ready ++ [true] }
  | drop (s : Quiet) (rest : List Bool) : s.ready = false :: rest →
      QuietStep delay s none { now := s.now, pending := s.pending, ready := rest }
  | fire (s : Quiet) (rest : List Bool) : s.ready = true :: rest →
      QuietStep delay s (some .restart) { now := s.now, pending := s.pending, ready := rest }
  | tick (s : Quiet) (t : Int) : s.now ≤ t →
      QuietStep delay s none { now := t, pending := s.pending, ready := s.ready }

/-- Delay of `eventHandler` (dbus/dbusconfiguration.cpp:235). -/
def busDelay : Int := 2000
/-- Delay of the SIGHUP handler (main.cpp:289). -/
def hupDelay : Int := 1000

end Verif
