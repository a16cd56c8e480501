import Verif.Spec.Collect

/-! # Specification of which configurations on the bus can be read -/

namespace Verif
variable [F : FloatModel]
open Dbl

/-- the name can be searched for: it is a regular expression -/
def ValidName (b : BusView) (n : String) : Prop := ∃ p, b.regex ("/" ++ sensorNameToDbusName n ++ "$") = some p

/-- the names can be searched for one after the other: without support for missing objects the search ends at the first one
that is not found -/
def Searchable (b : BusView) (names : List String) : Prop :=
  ∀ before n after, names = before ++ n :: after →
    b.handleMissing = true ∨ (∀ m ∈ before, Matching b m ≠ []) → ValidName b n

/-- all sensors found for the names are of the kind `interface` -/
def AllOf (b : BusView) (interface : String) (names : List String) : Prop :=
  ∀ n ∈ names, ∀ s ∈ Matching b n, s.2 = interface

/-- a zone configuration with everything it needs -/
structure CompleteZone (z : ConfProps) : Prop where
  name : ∃ n, Attr z "Name" TextValue n
  settings : ∃ c, ZoneSettings z c
  index : ∀ d, z.find? "ZoneIndex" = some (.dbl d) →
    ∃ q h k, d = .fin q h ∧ Truncates q k ∧ -(2 ^ 63) ≤ k ∧ k ≤ 2 ^ 63 - 1

/-- the options for the sensors are yes or no -/
structure FlagsOk (base : ConfProps) : Prop where
  unavailable : ∃ u, AttrOr base "InputUnavailableAsFailed" FlagValue true u
  hostOff : ∃ i, AttrOr base "IgnoreFailIfHostOff" FlagValue false i

/-- the inputs of a PID configuration can be looked for, and those found are of the right kind -/
structure PidInputsOk (b : BusView) (base : ConfProps) : Prop where
  inputs : ∃ inputs, Attr base "Inputs" NamesValue inputs ∧ (∀ n ∈ inputs, ValidName b n) ∧
    AllOf b "xyz.openbmc_project.Sensor.Value" inputs
  acceptable : ∃ acceptable, AttrOr base "MissingIsAcceptable" NamesValue [] acceptable ∧
    (∀ n ∈ acceptable, ValidName b n) ∧ AllOf b "xyz.openbmc_project.Sensor.Value" acceptable
  flags : FlagsOk base
  outputs : Attr base "Class" TextValue "fan" → ∀ inputs, Attr base "Inputs" NamesValue inputs →
    ∃ outputs pairs, Attr base "Outputs" NamesValue outputs ∧ (∀ n ∈ outputs, ValidName b n) ∧
      Pairs (inputs.flatMap (Matching b)) (outputs.flatMap (Matching b)) pairs ∧
      ∀ p ∈ pairs, p.2.2 = "xyz.openbmc_project.Control.FanPwm"

/-- a PID configuration with everything it needs. The inputs matter if it is for any zone, the settings if there are any
inputs. -/
structure CompletePid (b : BusView) (base : ConfProps) : Prop where
  name : ∃ n, Attr base "Name" TextValue n
  cls : ∃ c, Attr base "Class" TextValue c
  zones : ∃ zs, Attr base "Zones" NamesValue zs ∧ (zs ≠ [] → PidInputsOk b base ∧ ∀ names, PidNames b base names → names ≠ [] →
    (∃ info x, PidSettings base info ∧ SetPointAttr base x) ∧ (∃ l, AttrOr base "TempToMargin" NumbersValue [] l) ∧
    (base.find? "SetPointOffset" = none ∨ ∃ t, Attr base "SetPointOffset" TextValue t ∧
      t ∈ ["CriticalLow", "CriticalHigh", "WarningLow", "WarningHigh"]))

/-- a stepwise configuration with everything it needs. The inputs matter if it is for any zone, the settings if there are any
inputs. -/
structure CompleteStep (b : BusView) (base : ConfProps) : Prop where
  name : ∃ n, Attr base "Name" TextValue n
  zones : ∃ zs, Attr base "Zones" NamesValue zs ∧ (zs ≠ [] → FlagsOk base ∧ ∃ inputs acceptable,
    Attr base "Inputs" NamesValue inputs ∧ AttrOr base "MissingIsAcceptable" NamesValue [] acceptable ∧
    Searchable b inputs ∧ (stepNames b acceptable inputs ≠ [] → Searchable b acceptable ∧
      (∃ l, AttrOr base "TempToMargin" NumbersValue [] l) ∧ (∃ c, Attr base "Class" TextValue c) ∧
      (∃ x, AttrOr base "PositiveHysteresis" NumberValue 0 x) ∧ (∃ x, AttrOr base "NegativeHysteresis" NumberValue 0 x) ∧
      ∃ rs os, Attr base "Reading" NumbersValue rs ∧ Attr base "Output" NumbersValue os ∧ 1 ≤ rs.length ∧ rs.length ≤ 20 ∧
        rs.length = os.length))

/-- everything that applies is complete -/
structure Complete (b : BusView) (sel : List String) (objs : List ConfObj) : Prop where
  profiles : sel = [] ∨ ∀ o ∈ objs, ∀ e ∈ o.entries, e.2.find? "Profiles" = none ∨ ∃ l, Attr e.2 "Profiles" NamesValue l
  zones : ∀ z, Active sel objs "xyz.openbmc_project.Configuration.Pid.Zone" z → CompleteZone z
  pids : ∀ p, Active sel objs "xyz.openbmc_project.Configuration.Pid" p → CompletePid b p
  steps : ∀ p, Active sel objs "xyz.openbmc_project.Configuration.Stepwise" p → CompleteStep b p

/-- the thresholds that are to be added to set points can be asked for -/
def ThresholdsKnown (b : BusView) (sel : List String) (objs : List ConfObj) : Prop :=
  ∀ p t, Active sel objs "xyz.openbmc_project.Configuration.Pid" p → Attr p "SetPointOffset" TextValue t →
    ∀ n c, SensorFits b n c → ∃ y, b.threshold (thresholdInterface t) c.readPath t = .ok y

/-- how many zones a list property names, at most -/
def namedZones (p : Option ConfProps) : Nat :=
  match p with
  | none => 0
  | some p => match p.find? "Zones" with
    | some (.strs l) => l.length
    | _ => 0

/-- how many zones are named in an object, at most -/
def zonesNamed (o : ConfObj) : Nat :=
  1 + namedZones (o.find? "xyz.openbmc_project.Configuration.Pid") +
    namedZones (o.find? "xyz.openbmc_project.Configuration.Stepwise")

/-- There are fewer than 2 ^ 62 names of zones, and the numbers configured for zones are below 2 ^ 62. -/
structure FewZones (sel : List String) (objs : List ConfObj) : Prop where
  few : (objs.map zonesNamed).sum < 2 ^ 62
  small : ∀ n k, WantsIndex sel objs n k → k < 2 ^ 62

/-- the same bus, with its sensors listed in another order -/
structure SameBus (b b' : BusView) : Prop where
  missing : b'.handleMissing = b.handleMissing
  regex : b'.regex = b.regex
  threshold : b'.threshold = b.threshold
  sensors : b'.sensors.Perm b.sensors

/-- the configurations on the bus -/
def confsOf (objs : List BusObject) : List ConfObj := (objs.filter (fun o => o.Configures)).map BusObject.interfaces

end Verif
