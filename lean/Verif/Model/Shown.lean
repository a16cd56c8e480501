import Verif.Model.Daemon

/-!
# What loops show for diagnosis

The D-Bus object of a thermal loop (pid/zone.hpp:38-43) has, besides its switch, properties that are only there to be looked
at: set point, class, leader, input and output. The daemon stores into them (pid/zone.cpp:601-617 and 660-672). The bindings
are generated: anyone on the bus who may write to the object stores into them too, unless the interface forbids it.
-/

namespace Verif
variable [F : FloatModel]

/-- Somebody stores other values into what the loop shows; a loop without an object shows nothing (pid/zone.hpp:38-43). -/
def ZoneData.scribble (z : ZoneData) (loop : String) (obj : ProcObj) : ZoneData :=
  match z.procs.find? loop with
  | some p => { z with procs := z.procs.insert loop { obj with enabled := p.enabled } }
  | none => z

/-- What happens to the daemon, with writes to what its loops show -/
inductive ShownEvent where
  /-- an event of Model/Daemon.lean -/
  | event (e : DEvent)
  /-- all properties of a loop but its switch are overwritten -/
  | scribble (zone : Int) (loop : String) (obj : ProcObj)

/-- One event or write. -/
def Daemon.stepShown (o : Opts) (d : Daemon) : ShownEvent → Res Daemon
  | .event e => d.step o e
  | .scribble i loop obj => .ok (d.onZone i (fun z => z.scribble loop obj))

/-- A sequence of events and writes. -/
def Daemon.runShown (o : Opts) : Daemon → List ShownEvent → Res Daemon
  | d, [] => .ok d
  | d, e :: es => do
    let d ← d.stepShown o e
    Daemon.runShown o d es

end Verif
