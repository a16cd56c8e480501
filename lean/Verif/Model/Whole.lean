import Verif.Model.Remote
import Verif.Model.Startup
import Verif.Model.Util

/-!
# The whole life of the daemon

Models `restartControlLoops` (main.cpp:127-186) with what it does to loops that are running, so that starts, reloads, retries
and the running daemon (Model/Daemon.lean) are one execution. Simplifications: stopping is complete (when it is not is the
subject of Model/Lifecycle.lean), zones are destroyed and started in the order of their numbers (a hash order in the code), time
stands still during a reload, and when a reload happens is left open. Zones thrown away because another could not be built leave
no trace (their fan loops are destroyed too), and zones that do not run take no D-Bus calls.
-/

namespace Verif
variable [F : FloatModel]

/-- The state between events, main.cpp:60-71: the sensors and the zones whose loops run (`d`), zones that were built but
whose loops do not run, the paths of the host sensors on the bus, and whether the timer for another attempt is armed
(main.cpp:204-209 and 222-225). -/
structure Whole where
  d : Daemon
  idle : List Zone
  hosts : List String
  again : Bool

/-- before the first attempt -/
def Whole.init (w : World) : Whole := ⟨⟨{ w with sensors := {} }, {}⟩, [], [], false⟩

/-- `state::zones.clear()`, main.cpp:123, with the destructors of the fan loops (pid/fancontroller.cpp:222-252). Members of a
zone are destroyed in reverse order; the destructors use only members declared before `_fans` (pid/zone.hpp:225-262). -/
def destroyZones (o : Opts) : World → List Zone → Res World
  | w, [] => .ok w
  | w, z :: zs => do
    let r ← Zone.destroyFans o w z.d z.fans
    destroyZones o r.1 zs

/-- `stopControlLoops`, main.cpp:109-125 -/
def Whole.stop (o : Opts) (s : Whole) : Res World :=
  destroyZones o s.d.w (s.d.zones.entries.map (fun e => e.2.1) ++ s.idle)

/-- What a reload finds. `refuses` tells whether the bus refuses a second object at the same path; the objects of the old host
sensors are still there when the new ones are made, because the old manager is replaced afterwards (main.cpp:163). -/
structure Found [FloatModel] where
  conf : String
  files : StartFiles
  objects : ConfBus
  order : HashOrder
  bus : BuildBus
  now : Int
  refuses : Bool

/-- What reading the configuration comes to, main.cpp:131-161. -/
inductive ConfigRead [FloatModel] where
  | got (c : Config)
  | wait
  | again (why : String)
  | ended (why : String)
  | undefined (why : String)

/-- main.cpp:131-161 -/
def Found.read (r : Found) : ConfigRead :=
  let path := if r.conf ≠ "" then r.conf else searchConfigurationPath r.files
  if r.files.exists path then
    match configFromFile r.files path with
    | .ok c => .got c
    | .error (.exc why) => .ended why
    | .error (.ub why) => .undefined why
  else
    match busInit r.objects r.order with
    | .ok (true, c) => .got ⟨c.sensors, c.pids, c.zones⟩
    | .ok (false, _) => .wait
    | .error (.exc why) => .again why
    | .error (.ub why) => .undefined why

/-- The loop that starts the zones, main.cpp:178-185, up to the first exception: the zones that run, those that do not, and the
exception. Simplification: of a pass that throws, only `initializeCache` has an effect. -/
def startSome (o : Opts) (w : World) : OMap Int (Zone × Nat) → List (Int × Zone) → OMap Int (Zone × Nat) × List Zone × Option Err
  | acc, [] => (acc, [], none)
  | acc, (i, z) :: rest =>
    match z.start o w with
    | .ok z' => startSome o w (acc.insert i (z', 0)) rest
    | .error e => (acc, { z with d := z.d.initializeCache } :: rest.map Prod.snd, some e)

/-- the sensors could not be made: the old manager stays -/
def Whole.halted (s : Whole) (w : World) (again : Bool) : Whole := ⟨⟨w, {}⟩, [], s.hosts, again⟩

/-- The zones are built and started, main.cpp:164-185. An exception leads to another attempt (main.cpp:204-209); an error here is
the end of the process. -/
def startBuilt (o : Opts) (c : Config) (w : World) : Res Whole :=
  let hosts := (hostObjects c.sensors).map Prod.fst
  match buildZones c.pids c.zones with
  | .error (.exc _) => .ok ⟨⟨w, {}⟩, [], hosts, true⟩
  | .error (.ub why) => .error (.ub why)
  | .ok zones =>
    if zones.isEmpty then .error (.exc "No zones defined, exiting.")
    else
      match startSome o w {} zones.entries with
      | (zs, _, none) => .ok ⟨⟨w, zs⟩, [], hosts, false⟩
      | (zs, rest, some (.exc _)) => .ok ⟨⟨w, zs⟩, rest, hosts, true⟩
      | (_, _, some (.ub why)) => .error (.ub why)

/-- Everything is built and started, main.cpp:163-185; `w` is the world after the old zones are gone. -/
def Whole.rebuild (o : Opts) (r : Found) (s : Whole) (w : World) (c : Config) : Res Whole :=
  if r.refuses && ((hostObjects c.sensors).map Prod.fst).any (s.hosts.contains ·) then .ok (s.halted w true)
  else
    match buildSensors o r.bus r.now c.sensors with
    | .error (.exc _) => .ok (s.halted w true)
    | .error (.ub why) => .error (.ub why)
    | .ok m => startBuilt o c { w with sensors := m.sensors }

/-- `restartControlLoops`, main.cpp:127-186, within `tryRestartControlLoops`, 199-210. An exception in a destructor ends the
process. -/
def Whole.reload (o : Opts) (r : Found) (s : Whole) : Res Whole := do
  let w ← s.stop o
  match r.read with
  | .got c => s.rebuild o r w c
  | .wait => .ok (s.halted w false)
  | .again _ => .ok (s.halted w true)
  | .ended why => .error (.exc why)
  | .undefined why => .error (.ub why)

/-- what happens to the daemon during its life -/
inductive WEvent where
  | event (e : DEvent)
  | reload (r : Found)

/-- One event. -/
def Whole.step (o : Opts) (s : Whole) : WEvent → Res Whole
  | .event e => do
    let d ← s.d.step o e
    .ok { s with
      d := d }
  | .reload r => s.reload o r

/-- A life. -/
def Whole.run (o : Opts) : Whole → List WEvent → Res Whole
  | s, [] => .ok s
  | s, e :: es => do
    let s ← s.step o e
    Whole.run o s es

/-- `tryTerminateControlLoops` once stopping succeeds, main.cpp:235-251: what the fans were told until the end -/
def Whole.terminate (o : Opts) (s : Whole) : Res World := s.stop o

end Verif
