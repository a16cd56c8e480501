import Verif.Model.DbusInit

/-!
# Configuration over D-Bus: collecting the objects

Models the first part of `dbus_configuration::init` (dbus/dbusconfiguration.cpp:466-567), up to the objects `dbusInit` starts
from, and `getSelectedProfiles`. What the mapper and the services answer is a parameter. Hash maps are kept as ordered maps;
the order in which they are iterated over is a parameter (`HashOrder`). A call that fails throws.
-/

namespace Verif
variable [F : FloatModel]

/-- dbus/dbusconfiguration.cpp:77-78 -/
def objectManagerInterface : String := "org.freedesktop.DBus.ObjectManager"

/-- the order in which entries of a hash map come -/
structure HashOrder where
  order : {α : Type} → List α → List α
  perm : ∀ {α : Type} (l : List α), (order l).Perm l

/-- An answer to `GetSubTree`: for every path, the owners of objects there with their interfaces,
dbus/dbusconfiguration.cpp:474-476. Any order of the hash maps is a list. -/
abbrev SubTree := List (String × List (String × List String))

/-- one interface of an object noted for its owner, dbus/dbusconfiguration.cpp:504-513 -/
def noteInterface (path : String) (owner : Bool × String) (interface : String) : Bool × String :=
  (owner.1 || interface = pidInterface || interface = zoneInterface || interface = stepwiseInterface,
    if interface = objectManagerInterface then path else owner.2)

/-- the objects at one path noted for their owners, dbus/dbusconfiguration.cpp:499-526 -/
def noteOwners (path : String) (owners : OMap String (Bool × String)) (l : List (String × List String)) :
    OMap String (Bool × String) :=
  l.foldl (fun m o => m.insert o.1 (o.2.foldl (noteInterface path) ((m.find? o.1).getD (false, "")))) owners

/-- the map of owners, dbus/dbusconfiguration.cpp:494 and 497-527 -/
def ownersOf (reply : SubTree) : OMap String (Bool × String) := reply.foldl (fun m p => noteOwners p.1 m p.2) {}

/-- dbus/dbusconfiguration.cpp:554-559 -/
def hasConfiguration (o : ConfObj) : Bool :=
  o.contains pidInterface || o.contains zoneInterface || o.contains stepwiseInterface

/-- the configurations of one service, dbus/dbusconfiguration.cpp:552-563: `emplace` keeps what is there -/
def addConfigurations (m : OMap String ConfObj) (l : List (String × ConfObj)) : OMap String ConfObj :=
  l.foldl (fun m o => if hasConfiguration o.2 && !m.contains o.1 then m.insert o.1 o.2 else m) m

/-- the configurations of all services, dbus/dbusconfiguration.cpp:528-564. `managed service path` is the answer to
`GetManagedObjects`. -/
def collectFrom (managed : String → String → Option (List (String × ConfObj))) :
    OMap String ConfObj → List (String × Bool × String) → Res (OMap String ConfObj)
  | m, [] => .ok m
  | m, (service, has, path) :: rest =>
    if has then
      match managed service path with
      | none => .error (.exc "Error getting managed objects")
      | some l => collectFrom managed (addConfigurations m l) rest
    else collectFrom managed m rest

/-- the modes at one path, dbus/dbusconfiguration.cpp:144-165: of every owner in turn. `get` is the answer to `Get`; a value
that is not a string leaves the default of the variant, the empty string. -/
def modesOf (get : String → String → Option (Option String)) (path : String) : List String → Res (List String)
  | [] => .ok []
  | owner :: rest =>
    match get owner path with
    | none => .error (.exc "Failure getting profile")
    | some v => do
      let modes ← modesOf get path rest
      .ok (v.getD "" :: modes)

/-- dbus/dbusconfiguration.cpp:142-166 -/
def modesOfAll (get : String → String → Option (Option String)) : SubTree → Res (List String)
  | [] => .ok []
  | (path, owners) :: rest => do
    let modes ← modesOf get path (owners.map Prod.fst)
    let more ← modesOfAll get rest
    .ok (modes ++ more)

/-- `getSelectedProfiles`, dbus/dbusconfiguration.cpp:110-173: `reply` is the answer of the mapper for the interface of thermal
modes -/
def getSelectedProfiles (reply : Option SubTree) (get : String → String → Option (Option String)) : Res (List String) :=
  match reply with
  | none => .error (.exc "ObjectMapper Call Failure")
  | some r => modesOfAll get r

/-- What the bus answers while a configuration is read. `subTree` is the answer for the interfaces at
dbus/dbusconfiguration.cpp:468-473; regular expressions and thresholds are as in `BusView`. -/
structure ConfBus [FloatModel] where
  handleMissing : Bool
  subTree : Option SubTree
  managed : String → String → Option (List (String × ConfObj))
  modes : Option SubTree
  mode : String → String → Option (Option String)
  regex : String → Option (String → Bool)
  threshold : String → String → String → Res Dbl

/-- what `dbusInit` sees of the bus -/
def ConfBus.view (b : ConfBus) (h : HashOrder) (reply : SubTree) : BusView :=
  ⟨b.handleMissing, h.order (sensorsOfReply (reply.map (fun p => (p.1, p.2.flatMap Prod.snd)))).entries, b.regex, b.threshold⟩

/-- `init`, dbus/dbusconfiguration.cpp:454-1278 -/
def busInit (b : ConfBus) (h : HashOrder) : Res (Bool × DbusCfg) :=
  match b.subTree with
  | none => .error (.exc "ObjectMapper Call Failure")
  | some [] => .error (.exc "No configuration data available from Mapper")
  | some reply => do
    let configurations ← collectFrom b.managed {} (h.order (ownersOf reply).entries)
    let selected ← getSelectedProfiles b.modes b.mode
    dbusInit (b.view h reply) selected ((h.order configurations.entries).map Prod.snd)

end Verif
