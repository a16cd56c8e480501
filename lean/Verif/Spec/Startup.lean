import Verif.Model.Startup
import Verif.Spec.Daemon
import Verif.Spec.Collect
import Verif.Spec.Json

/-! # Specification of starting the daemon -/

namespace Verif
variable [F : FloatModel]

/-- Where the configuration comes from: a file, or the bus (`none`). -/
inductive Source (conf : String) (f : StartFiles) : Option String → Prop
  /-- the file given, if it exists -/
  | given : conf ≠ "" → f.exists conf = true → Source conf f (some conf)
  /-- the file in the first directory that has one -/
  | found {before after dir} : conf = "" → [f.cwd, "/var/lib/swampd", "/usr/share/swampd"] = before ++ dir :: after →
      (∀ d ∈ before, f.exists (entryPath d "config.json") = false) → f.exists (entryPath dir "config.json") = true →
      Source conf f (some (entryPath dir "config.json"))
  | bus : (conf ≠ "" → f.exists conf = false) →
      (conf = "" → ∀ d ∈ [f.cwd, "/var/lib/swampd", "/usr/share/swampd"], f.exists (entryPath d "config.json") = false) →
      Source conf f none

/-- A configuration file that can be used. -/
structure WellFormed (data : Json) : Prop where
  acceptable : Acceptable data
  sensors : ∀ s es, Member data "sensors" s → Entries s es → ∀ e ∈ es, ∃ n c, Named e n ∧ SensorEntry e c
  zones : ∀ z es, Member data "zones" z → Entries z es → ∀ e ∈ es, (∃ i, Numbering e i) ∧ (∃ c, ZoneEntry e c) ∧
    ∀ p ls, Member e "pids" p → Entries p ls → ∀ l ∈ ls, ∃ n c, Named l n ∧ LoopEntry l c

/-- `c` is what is written in the file. -/
structure FileConfig (f : StartFiles) (path : String) (c : Config) : Prop where
  text : ∃ data sensors zones ss zs, f.json path = some data ∧ Acceptable data ∧ Member data "sensors" sensors ∧
    Entries sensors ss ∧ Member data "zones" zones ∧ Entries zones zs ∧
    (∀ n s, c.sensors.find? n = some s ↔ LastNamed Named SensorEntry ss n s) ∧
    (∀ i z, c.zones.find? i = some z ↔ LastNamed Numbering ZoneEntry zs i z) ∧
    (∀ i conf, c.pids.find? i = some conf → LastNamed Numbering LoopsEntry zs i conf) ∧
    (∀ i, (∃ conf, c.pids.find? i = some conf) ↔ ∃ z, c.zones.find? i = some z)
  sensorsWf : c.sensors.WF
  pidsWf : c.pids.WF
  loopsWf : ∀ i conf, c.pids.find? i = some conf → conf.WF

/-- The configuration on the bus makes sense with these profiles selected: zones have different names, loops are for zones
that are there, margins are numbers, and sensors are where sensors should be. -/
structure BusSuits (objs : List BusObject) (sel : List String) : Prop where
  distinct : DistinctZones sel (objs.map BusObject.interfaces)
  zones : ∀ o ∈ objs, ∀ p, o.interfaces.find? "xyz.openbmc_project.Configuration.Pid" = some p ∨
      o.interfaces.find? "xyz.openbmc_project.Configuration.Stepwise" = some p → Selected sel p →
    ∀ zones zone, Attr p "Zones" NamesValue zones → zone ∈ zones → ∃ o' ∈ objs, ∃ z,
      o'.interfaces.find? "xyz.openbmc_project.Configuration.Pid.Zone" = some z ∧ Selected sel z ∧ Attr z "Name" TextValue zone
  margins : ∀ o ∈ objs, ∀ p, o.interfaces.find? "xyz.openbmc_project.Configuration.Pid" = some p ∨
      o.interfaces.find? "xyz.openbmc_project.Configuration.Stepwise" = some p → Selected sel p →
    ∀ l, Attr p "TempToMargin" NumbersValue l → ∀ d ∈ l, d.isFinite = true
  paths : ∀ o ∈ objs, ∀ i, o.Serves i → ReadKind o.path .dbusPassive

end Verif
