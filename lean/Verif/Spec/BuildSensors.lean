import Verif.Model.BuildSensors

/-! # Specification of built sensors -/

namespace Verif

/-- What is documented about paths. -/
inductive ReadKind : String → IOType → Prop
  | none {p} : p = "" ∨ p = "None" → ReadKind p .none
  | external {p} : "/xyz/openbmc_project/extsensors/".toList <:+: p.toList → ReadKind p .external
  | dbus {p} : "/xyz/openbmc_project/".toList <:+: p.toList → ¬ "/xyz/openbmc_project/extsensors/".toList <:+: p.toList →
      ReadKind p .dbusPassive
  | sysfs {p} : "/sys/".toList <:+: p.toList → ¬ "/xyz/openbmc_project/".toList <:+: p.toList → ReadKind p .sysfs
  | unknown {p} : p ≠ "" → p ≠ "None" → ¬ "/sys/".toList <:+: p.toList → ¬ "/xyz/openbmc_project/".toList <:+: p.toList →
      ReadKind p .unknown

/-- The same for write paths. -/
inductive WriteKind : String → IOType → Prop
  | none {p} : p = "" ∨ p = "None" → WriteKind p .none
  | sysfs {p} : "/sys/".toList <:+: p.toList → WriteKind p .sysfs
  | dbus {p} : "/xyz/openbmc_project/".toList <:+: p.toList → ¬ "/sys/".toList <:+: p.toList → WriteKind p .dbusActive
  | unknown {p} : p ≠ "" → p ≠ "None" → ¬ "/sys/".toList <:+: p.toList → ¬ "/xyz/openbmc_project/".toList <:+: p.toList →
      WriteKind p .unknown

/-- the path of an entry of a directory -/
def entryPath (dir name : String) : String := if dir.toList.getLast? = some '/' then dir ++ name else dir ++ "/" ++ name

/-- What a path stands for: with `**` in it, a path through the first entry of the directory before (the path itself if the
directory is empty). -/
inductive Stands (dirs : Dirs) : String → String → Prop
  | plain {p} : ¬ "**".toList <:+: p.toList → Stands dirs p p
  | entry {a b d rest} : ¬ "**".toList <:+: (a ++ "*").toList → dirs a = some (d :: rest) →
      Stands dirs (a ++ "**" ++ b) (entryPath a d ++ b)
  | empty {a b} : ¬ "**".toList <:+: (a ++ "*").toList → dirs a = some [] → Stands dirs (a ++ "**" ++ b) (a ++ "**" ++ b)

/-- the conditions under which the build makes a host sensor -/
def ExternalSensor (c : SensorConfig) : Prop :=
  c.type ∈ ["temp", "margin", "power", "powersum"] ∧ "/xyz/openbmc_project/extsensors/".toList <:+: c.readPath.toList

section
variable [F : FloatModel]

/-- What a fan with this configuration is written through: raw values unless a maximum is configured. -/
inductive WritesTo (dirs : Dirs) (c : SensorConfig) : Writer → Prop
  | sysfsPercent {p} : WriteKind c.writePath .sysfs → Stands dirs c.writePath p → 0 < c.max →
      WritesTo dirs c (.sysfsPercent p c.min c.max)
  | sysfsRaw {p} : WriteKind c.writePath .sysfs → Stands dirs c.writePath p → c.max ≤ 0 → WritesTo dirs c (.sysfsRaw p)
  | dbusPercent : WriteKind c.writePath .dbusActive → 0 < c.max → WritesTo dirs c (.dbusPercent c.writePath c.min c.max (-1))
  | dbusRaw : WriteKind c.writePath .dbusActive → c.max ≤ 0 → WritesTo dirs c (.dbusRaw c.writePath (-1))
  | nothing : WriteKind c.writePath .none ∨ WriteKind c.writePath .unknown → WritesTo dirs c .readOnlyNoExcept

/-- The D-Bus sensor made for this configuration; only fans look at redundancy groups. -/
def DbusSensor (o : Opts) (bus : BuildBus) (now : Int) (name : String) (c : SensorConfig) : Option Passive :=
  createDbusPassive o now c.type name c.readPath c.ignoreDbusMinMax c.unavailableAsFailed (decide (c.type = "fan"))
    (bus.passive name)

/-- What a sensor with this configuration is read through. -/
inductive ReadsFrom (o : Opts) (bus : BuildBus) (now : Int) (name : String) (c : SensorConfig) : Reader → Prop
  | dbus {p} : ReadKind c.readPath .dbusPassive → DbusSensor o bus now name c = some p → ReadsFrom o bus now name c (.passive p)
  | sysfs {q} : ReadKind c.readPath .sysfs → Stands bus.dirs c.readPath q → ReadsFrom o bus now name c (.sysfs q)
  | external : ReadKind c.readPath .external → ReadsFrom o bus now name c .null
  | nothing : ReadKind c.readPath .none ∨ ReadKind c.readPath .unknown → ReadsFrom o bus now name c .writeOnly

/-- `s` is the sensor described by the configuration. -/
inductive MadeFrom (o : Opts) (bus : BuildBus) (now : Int) (name : String) (c : SensorConfig) : Sensor → Prop
  | fan {r wr} : c.type = "fan" → ReadsFrom o bus now name c r → WritesTo bus.dirs c wr →
      MadeFrom o bus now name c ⟨name, c.timeout, c.ignoreFailIfHostOff, .pluggable r wr⟩
  | external : ExternalSensor c → MadeFrom o bus now name c ⟨name, c.timeout, false, .host 0 now⟩
  | thermal {r} : c.type ∈ ["temp", "margin", "power", "powersum"] → ¬ ExternalSensor c → ReadsFrom o bus now name c r →
      MadeFrom o bus now name c ⟨name, c.timeout, c.ignoreFailIfHostOff, .pluggable r .readOnlyNoExcept⟩

/-- Nothing stands in the way of building this sensor: if it is on the bus it can be read there, if it is a fan written over
the bus its control has an owner, and directories named before `**` in paths of files exist. -/
def CanMake (o : Opts) (bus : BuildBus) (now : Int) (name : String) (c : SensorConfig) : Prop :=
  (ReadKind c.readPath .dbusPassive → ∃ p, DbusSensor o bus now name c = some p) ∧
  (ReadKind c.readPath .sysfs → ∃ q, Stands bus.dirs c.readPath q) ∧
  (c.type = "fan" → WriteKind c.writePath .dbusActive → bus.writeService c.writePath = true) ∧
  (c.type = "fan" → WriteKind c.writePath .sysfs → ∃ q, Stands bus.dirs c.writePath q)

end
end Verif
