import Verif.Spec.BusWritten

/-! # Specification of configurations over D-Bus whose order does not matter -/

namespace Verif
variable [F : FloatModel]

/-- The loop configuration `base` of kind `i` reads sensor `n` at `path` as a sensor of type `type`. -/
inductive ReadsAs (b : BusView) (i : String) (base : ConfProps) (n type path : String) : Prop
  | mk {inputs name interface} : (i = "xyz.openbmc_project.Configuration.Pid" ∧ Attr base "Class" TextValue type ∧ type ≠ "fan") ∨
        (i = "xyz.openbmc_project.Configuration.Stepwise" ∧ type = "temp") →
      Attr base "Inputs" NamesValue inputs → name ∈ inputs → (path, interface) ∈ Matching b name → LastPart path n →
      ReadsAs b i base n type path

/-- The loop configurations `base` of kind `i` and `base'` of kind `i'` do not contradict each other: in one zone they have
different names (with underscores for spaces), and they say the same about the sensors and fans of both. -/
structure LoopsAgree (b : BusView) (i : String) (base : ConfProps) (i' : String) (base' : ConfProps) : Prop where
  named : ∀ zones zones' zone n n' t, Attr base "Zones" NamesValue zones → Attr base' "Zones" NamesValue zones' →
    zone ∈ zones → zone ∈ zones' → Attr base "Name" TextValue n → Attr base' "Name" TextValue n' →
    Underscored n t → ¬ Underscored n' t
  sensors : ∀ n type path type' path', ReadsAs b i base n type path → ReadsAs b i' base' n type' path' →
    type = type' ∧ path = path' ∧ ∀ u h, FailureOptions base u h ↔ FailureOptions base' u h
  fans : ∀ fan pwm fan' pwm' n, FanPair b base fan pwm → FanPair b base' fan' pwm' → FanNamed fan pwm n →
    FanNamed fan' pwm' n → fan = fan' ∧ pwm = pwm'
  fan : ∀ fan pwm n type path, FanPair b base fan pwm → FanNamed fan pwm n → ¬ ReadsAs b i' base' n type path
  nofan : ∀ fan pwm n type path, FanPair b base' fan pwm → FanNamed fan pwm n → ¬ ReadsAs b i base n type path

/-- The zone configuration gives the zone the number `k`. -/
def GivesNumber (zone : ConfProps) (k : Int) : Prop :=
  ∃ q h, zone.find? "ZoneIndex" = some (.dbl (.fin q h)) ∧ Truncates q k

/-- Every zone has a name and a number of its own. Loops are for zones that are configured; different objects do not contradict
each other; no loop is split up by a threshold; and no name stands for several sensors. -/
structure Unambiguous (b : BusView) (sel : List String) (objs : List ConfObj) : Prop where
  numbered : ∀ z, Active sel objs "xyz.openbmc_project.Configuration.Pid.Zone" z → ∃ k, GivesNumber z k
  zones : objs.Pairwise (fun o o' => ∀ z z', o.find? "xyz.openbmc_project.Configuration.Pid.Zone" = some z → Selected sel z →
    o'.find? "xyz.openbmc_project.Configuration.Pid.Zone" = some z' → Selected sel z' →
    (∀ n, Attr z "Name" TextValue n → ¬ Attr z' "Name" TextValue n) ∧ ∀ k, GivesNumber z k → ¬ GivesNumber z' k)
  known : ∀ i ∈ loopInterfaces, ∀ zone base, ForZone (Active sel objs) i zone base → ∃ zp, ZoneCalled (Active sel objs) zone zp
  loops : objs.Pairwise (fun o o' => ∀ i ∈ loopInterfaces, ∀ i' ∈ loopInterfaces, ∀ base base', o.find? i = some base →
    Selected sel base → o'.find? i' = some base' → Selected sel base' → LoopsAgree b i base i' base')
  plain : ∀ base, Active sel objs "xyz.openbmc_project.Configuration.Pid" base → base.find? "SetPointOffset" = none
  single : ∀ i ∈ loopInterfaces, ∀ base, Active sel objs i base → ∀ k ∈ ["Inputs", "Outputs", "MissingIsAcceptable"], ∀ names,
    Attr base k NamesValue names → ∀ n ∈ names, (Matching b n).length ≤ 1

/-- No path is both a sensor to be read and a control of fans. -/
def OneRole (objs : List BusObject) : Prop :=
  ∀ o ∈ objs, ∀ o' ∈ objs, ∀ i i', o.path = o'.path → o.Serves i → o'.Serves i' → i = i'

/-- The mapper and the object managers tell of the objects. Support for missing objects is not compiled in. -/
structure Tells (objs : List BusObject) (b : ConfBus) (reply : SubTree) : Prop where
  subTree : b.subTree = some reply
  mapper : MapperKnows objs reply
  managers : ManagersAnswer objs b.managed
  arranged : Arranged objs
  configured : ∃ o ∈ objs, o.Configures
  sorted : ∀ o ∈ objs, OMap.WF o.interfaces
  missing : b.handleMissing = false

/-- The buses answer the same about regular expressions, thresholds and profiles. -/
structure SameElse (b b' : ConfBus) : Prop where
  missing : b.handleMissing = b'.handleMissing
  modes : b.modes = b'.modes
  mode : b.mode = b'.mode
  regex : b.regex = b'.regex
  threshold : b.threshold = b'.threshold

end Verif
