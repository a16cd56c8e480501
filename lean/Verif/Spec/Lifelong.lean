import Verif.Spec.Ending
import Verif.Spec.Ranges
import Verif.Spec.BusWritten

/-! # Specification for what holds during the whole life of the process -/

namespace Verif
variable [F : FloatModel]
open Dbl

/-- every name and number stands once in the tables of the configuration -/
def Config.Tables (c : Config) : Prop := c.sensors.WF ∧ c.pids.WF ∧ ∀ e ∈ c.pids.entries, OMap.WF e.2

/-- As far as the path is concerned the configuration is safe: either one fan has it for itself, with these limits, and the zones
with this fan keep to percentages; or no fan has it. -/
inductive Config.SafeAt (dirs : Dirs) (path : String) (lo hi : Int) (c : Config) : Prop
  | fan {n : String} {s : SensorConfig} : FanOn dirs c.sensors n s path → 0 < s.max → s.min = lo → s.max = hi →
      (∀ j conf z, c.pids.find? j = some conf → c.zones.find? j = some z → SafeFor n z conf.entries) → c.SafeAt dirs path lo hi
  | nobody : (∀ n s, c.sensors.find? n = some s → s.type = "fan" → ¬ WritePath dirs s path) → c.SafeAt dirs path lo hi

/-- whatever configuration is found, it is safe in this sense -/
def Found.SafeAt (path : String) (lo hi : Int) (r : Found) : Prop :=
  ∀ c, r.read = .got c → c.Tables ∧ c.SafeAt r.bus.dirs path lo hi

/-- There is a file, and, unless it cannot be read, it has the fan with these limits and percentages in the zones with the fan. -/
def Found.FileSafeAt (path : String) (lo hi : Int) (r : Found) : Prop :=
  ∃ file, Source r.conf r.files (some file) ∧ ∀ data, r.files.json file = some data →
    ∃ n, FileFan r.bus.dirs data n path lo hi ∧ ∀ j zone, Chosen data "zones" Numbering j zone → SafeEntryFor n zone

/-- The configurations for the zone called `zone` have percentages: the limits of its fan loops and all failsafe percentages. -/
structure SafeZone (A : String → ConfProps → Prop) (zone : String) : Prop where
  fans : ∀ base cf, ForZone A "xyz.openbmc_project.Configuration.Pid" zone base → Attr base "Class" TextValue "fan" →
    PidSettings base cf → FanLimits cf.pidInfo
  loops : ∀ base p, ForZone A "xyz.openbmc_project.Configuration.Pid" zone base → Attr base "FailSafePercent" PercentValue p →
    Percentage p
  zone : ∀ zp p, ZoneCalled A zone zp → Attr zp "FailSafePercent" PercentValue p → Percentage p

/-- There is no file, and on the bus is a zone that has the fan controlled through `path` for itself, with percentages. -/
def Found.BusSafeAt (path : String) (r : Found) : Prop :=
  Source r.conf r.files none ∧ ∃ objs reply sel zone zp fan, OnTheBus objs r.objects reply sel ∧
    ZoneCalled (Active sel (confsOf objs)) zone zp ∧ Tidy (Active sel (confsOf objs)) zone ∧
    FanFor (r.objects.view r.order reply) sel (confsOf objs) zone fan path ∧ SafeZone (Active sel (confsOf objs)) zone

end Verif
