import Verif.Spec.Whole
import Verif.Spec.NeverStops

/-! # Specification of a life without breakdown -/

namespace Verif
variable [F : FloatModel]
open Dbl

/-- A configuration the daemon never breaks down with: the sensors suit the zones, the limits of the fans are in order, and the
zones are bounded. With the option to leave the fans at their failsafe percentages, they are controlled over D-Bus. -/
structure Config.Sound (o : Opts) (c : Config) : Prop where
  suits : Suits c.sensors c.pids c.zones
  limits : ∀ n s, c.sensors.find? n = some s → s.type = "fan" → LimitsOk s
  zones : ∀ i conf z, c.pids.find? i = some conf → c.zones.find? i = some z → BoundedZone z conf.entries
  offline : o.offlineFailsafePwm = true → ∀ i conf, c.pids.find? i = some conf → ∀ e ∈ conf.entries, IsFan e → ∀ x ∈ e.2.inputs,
    ∃ s, c.sensors.find? x.name = some s ∧ s.type = "fan" ∧ WriteKind s.writePath .dbusActive

/-- A reload finds such a configuration, or none yet, or it fails in a way that leads to another attempt. -/
inductive Found.Sound (o : Opts) (r : Found) : Prop
  | got {c : Config} : r.read = .got c → c.Sound o → r.Sound o
  | wait : r.read = .wait → r.Sound o
  | again {why : String} : r.read = .again why → r.Sound o

/-- `c` is the configuration found by `r`, the last reload. -/
def InForce (es : List WEvent) (r : Found) (c : Config) : Prop :=
  ∃ (pre : List WEvent) (post : List DEvent), es = pre ++ .reload r :: post.map .event ∧ r.read = .got c

/-- The world treats the daemon well: whatever reloads find is sound, the files of the sensors can be read, messages have
properties of the right types, and no fan claims to turn faster than about a million. -/
structure Kindly (o : Opts) (w0 : World) (es : List WEvent) : Prop where
  found : ∀ r, WEvent.reload r ∈ es → r.Sound o
  files : ∀ pre r post s c, es = pre ++ .reload r :: post → (Whole.init w0).run o pre = .ok s → r.read = .got c →
    FilesOk o r.bus.dirs c.sensors s.d.w.files
  events : ∀ pre e post, es = pre ++ .event e :: post → WellTyped e ∧ ∀ r c, InForce pre r c → EventOk o r.bus.dirs c.sensors e
  speeds : ∀ pre i post s r c conf, es = pre ++ .event (.tick i) :: post → (Whole.init w0).run o pre = .ok s → InForce pre r c →
    InAutomatic s.d i → c.pids.find? i = some conf → ∀ f ∈ conf.entries, IsFan f → ∀ v, FanSees s.d.w f.2 v → Moderate v

end Verif
