import Verif.Spec.Daemon
import Verif.Spec.Writers

/-! # Specification of what the fans are told -/

namespace Verif
variable [F : FloatModel]
open Dbl

/-- The path of the D-Bus object or file through which a fan with this configuration is written. -/
inductive WritePath (dirs : Dirs) (c : SensorConfig) : String → Prop
  | dbus : WriteKind c.writePath .dbusActive → WritePath dirs c c.writePath
  | sysfs {p} : WriteKind c.writePath .sysfs → Stands dirs c.writePath p → WritePath dirs c p

/-- What is at `path` after some effects, if it was `v` before: the number of the last write that succeeded. -/
def valueFrom (path : String) : Option Int → List Effect → Option Int
  | v, [] => v
  | v, .dbusSet p x ok :: es => valueFrom path (if p = path ∧ ok = true then some x else v) es
  | v, .sysfsWrite p x :: es => valueFrom path (if p = path then some x else v) es

/-- What the daemon has written to `path`, if anything. -/
def valueAt (path : String) (w : World) : Option Int := valueFrom path none w.trace

/-- The limits between which a configuration converts percentages. -/
def limitsOf (c : SensorConfig) : Option (Int × Int) := if 0 < c.max then some (c.min, c.max) else none

/-- Limits that are exact doubles and in order. -/
def LimitsOk (c : SensorConfig) : Prop := 0 < c.max → 0 ≤ c.min ∧ c.min ≤ c.max ∧ c.max ≤ 2 ^ 53

/-- An event after which writes to `path` succeed. -/
def BusWorks (path : String) : DEvent → Prop
  | .outside _ _ _ _ _ busOk => busOk path = true
  | _ => True

/-- Fan `n` is the only one written through `path`. -/
def OnlyFan (dirs : Dirs) (sensors : OMap String SensorConfig) (n path : String) : Prop :=
  ∀ m c, m ≠ n → sensors.find? m = some c → c.type = "fan" → ¬ WritePath dirs c path

/-- `n` is a fan with configuration `c` that has `path` for itself. -/
structure FanOn (dirs : Dirs) (sensors : OMap String SensorConfig) (n : String) (c : SensorConfig) (path : String) : Prop where
  configured : sensors.find? n = some c
  fan : c.type = "fan"
  limits : LimitsOk c
  written : WritePath dirs c path
  only : OnlyFan dirs sensors n path

/-- The fan behind `path` was last told at least what the configuration `c` makes of the fraction `v`. -/
def ToldAtLeast (c : SensorConfig) (path : String) (v : Dbl) (w : World) : Prop :=
  ∃ u r, valueAt path w = some u ∧ rawCommand (limitsOf c) v = some r ∧ r ≤ u

end Verif
