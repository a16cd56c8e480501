import Verif.Spec.Shared
import Verif.Spec.Helper
import Verif.Spec.Whole

/-! # Specification of an alarm that holds a fan during the whole life of the process -/

namespace Verif
variable [F : FloatModel]

/-- In the configuration the sensor `s` is read over D-Bus and counts as failed when it is not available, whether the host is on or
not, and its object shows an alarm when the sensor is made. -/
def AlarmAtStart (o : Opts) (bus : BuildBus) (sensors : OMap String SensorConfig) (s : String) : Prop :=
  ∃ sc b own, sensors.find? s = some sc ∧ KnownType sc.type ∧ ReadKind sc.readPath .dbusPassive ∧ sc.unavailableAsFailed = true ∧
    sc.ignoreFailIfHostOff = false ∧ bus.passive s = SensorBus.answers o b ∧ FirstOwner b own ∧ AlarmIs o (b.object own) true

/-- One fan has the path for itself, with the limits of `fc`, and every zone that turns it cannot do without the sensor `s` and has
no failsafe percentage below `v`. -/
def Config.Ties (dirs : Dirs) (path : String) (fc : SensorConfig) (s : String) (v : Dbl) (c : Config) : Prop :=
  ∃ n sc, FanOn dirs c.sensors n sc path ∧ limitsOf sc = limitsOf fc ∧
    ∀ i conf, c.pids.find? i = some conf → Turns conf.entries n → MustRead conf.entries s ∧
      (∀ e ∈ conf.entries, e.2.failSafePercent ≠ .nan) ∧ ∀ zc, c.zones.find? i = some zc → SafeFrom v zc conf.entries

/-- Whatever a reload finds: if it is a configuration at all, it ties the fan to the sensor, and the sensor shows the alarm. -/
def Found.Ties (o : Opts) (path : String) (fc : SensorConfig) (s : String) (v : Dbl) (r : Found) : Prop :=
  ∀ c, r.read = .got c → AlarmAtStart o r.bus c.sensors s ∧ c.Ties r.bus.dirs path fc s v

/-- The sensor does not withdraw the alarm, no zone is put into manual mode, and writes to the fan work. -/
def Mild (o : Opts) (path s : String) : DEvent → Prop
  | .signal n t m => n = s → alarmIn o (t, m) ≠ some false
  | .manual _ b => b = false
  | .outside _ _ _ _ _ busOk => busOk path = true
  | _ => True

/-- the same for what happens in the life of the process -/
def WEvent.Ties (o : Opts) (path : String) (fc : SensorConfig) (s : String) (v : Dbl) : WEvent → Prop
  | .event e => Mild o path s e
  | .reload r => r.Ties o path fc s v

/-- After every event either all zones run or none. -/
def AllOrNone (o : Opts) (s : Whole) (es : List WEvent) : Prop :=
  ∀ pre post x, es = pre ++ post → s.run o pre = .ok x → x.AllRun ∨ x.NoneRuns

end Verif
