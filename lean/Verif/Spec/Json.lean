import Verif.Model.Json

/-! # Specification of configuration files

The entries of a configuration file as relations between the parsed file and the settings, key by key. -/

namespace Verif
variable [F : FloatModel]
open Dbl

/-- `j` is an object with member `k` of value `v` -/
def Member (j : Json) (k : String) (v : Json) : Prop :=
  ∃ pre post, j = .obj (pre ++ (k, v) :: post) ∧ ∀ e ∈ pre, e.1 ≠ k

/-- `j` has no member `k` -/
def Lacks (j : Json) (k : String) : Prop := ∀ v, ¬ Member j k v

/-- the required setting `k` has the value `x` -/
def Setting {α : Type} (j : Json) (k : String) (R : Json → α → Prop) (x : α) : Prop := ∃ v, Member j k v ∧ R v x

/-- the setting `k` has the value `x`, the default `d` if it is not given -/
def SettingOr {α : Type} (j : Json) (k : String) (R : Json → α → Prop) (d x : α) : Prop :=
  Setting j k R x ∨ (Lacks j k ∧ x = d)

/-! Values -/

def IsText (j : Json) (s : String) : Prop := j = .str s
def IsFlag (j : Json) (b : Bool) : Prop := j = .bool b
def IsNumber (j : Json) (d : Dbl) : Prop := (∃ i, j = .int i ∧ d = Dbl.ofInt i) ∨ j = .float d

/-- `n` is `q` without its fraction -/
def Truncates (q : Rat) (n : Int) : Prop := |(n : Rat)| ≤ |q| ∧ |q| < |(n : Rat)| + 1 ∧ 0 ≤ (n : Rat) * q

/-- the value as an integer of the range `[lo, lo + 2 ^ bits)`: integers wrap, fractions are dropped -/
def IsWhole (lo : Int) (bits : Nat) (j : Json) (n : Int) : Prop :=
  lo ≤ n ∧ n < lo + 2 ^ bits ∧
    ((∃ i, j = .int i ∧ (2 ^ bits : Int) ∣ i - n) ∨ (∃ q h, j = .float (.fin q h) ∧ Truncates q n))

/-- the same, or a truth value -/
def IsWholeOrFlag (lo : Int) (bits : Nat) (j : Json) (n : Int) : Prop :=
  IsWhole lo bits j n ∨ (j = .bool true ∧ n = 1) ∨ (j = .bool false ∧ n = 0)

abbrev IsInt64 [FloatModel] : Json → Int → Prop := IsWhole (-(2 ^ 63)) 64
abbrev IsInt32 [FloatModel] : Json → Int → Prop := IsWholeOrFlag (-(2 ^ 31)) 32

/-- a list of values -/
def IsList {α : Type} (R : Json → α → Prop) (j : Json) (l : List α) : Prop := ∃ xs, j = .arr xs ∧ List.Forall₂ R xs l

/-- the entries of a section: the elements of a list or the values of an object; a single value is its only entry -/
inductive Entries : Json → List Json → Prop
  | null : Entries .null []
  | arr (xs) : Entries (.arr xs) xs
  | obj (l) : Entries (.obj l) (l.map Prod.snd)
  | bool (b) : Entries (.bool b) [.bool b]
  | int (i) : Entries (.int i) [.int i]
  | float (d) : Entries (.float d) [.float d]
  | str (s) : Entries (.str s) [.str s]

/-- A configuration file that is accepted. -/
def Acceptable (data : Json) : Prop :=
  (∃ s, Member data "sensors" s ∧ ¬ Entries s []) ∧
  (∃ z, Member data "zones" z ∧
    ∀ zs, Entries z zs → ∀ zone ∈ zs, ∃ p, Member zone "pids" p ∧ ¬ Entries p [])

/-- `j` is a sensor entry for the settings `c`. -/
structure SensorEntry (j : Json) (c : SensorConfig) : Prop where
  type : Setting j "type" IsText c.type
  readPath : Setting j "readPath" IsText c.readPath
  writePath : SettingOr j "writePath" IsText "" c.writePath
  ignoreDbusMinMax : SettingOr j "ignoreDbusMinMax" IsFlag false c.ignoreDbusMinMax
  unavailableAsFailed : SettingOr j "unavailableAsFailed" IsFlag true c.unavailableAsFailed
  ignoreFailIfHostOff : SettingOr j "ignoreFailIfHostOff" IsFlag false c.ignoreFailIfHostOff
  /-- the range of a fan; other sensors have none -/
  min : if c.type = "fan" then SettingOr j "min" IsInt64 0 c.min else c.min = 0
  max : if c.type = "fan" then SettingOr j "max" IsInt64 0 c.max else c.max = 0
  /-- fans do not time out, other sensors after two seconds -/
  timeout : SettingOr j "timeout" IsInt64 (if c.type = "fan" then 0 else 2) c.timeout

/-- the point `i` of a stepwise table, in an object with the numbers of the points as keys -/
def PointEntry (p : Json) (table : String) (i : Fin maxStepwisePoints) (d : Dbl) : Prop :=
  (∃ r, Member p table r ∧ SettingOr r (toString i.val) IsNumber nan d) ∨ (Lacks p table ∧ d = nan)

/-- the settings of a loop other than stepwise -/
structure PidEntry (p : Json) (c : PidConf) : Prop where
  ts : Setting p "samplePeriod" IsNumber c.ts
  proportionalCoeff : Setting p "proportionalCoeff" IsNumber c.proportionalCoeff
  integralCoeff : Setting p "integralCoeff" IsNumber c.integralCoeff
  feedFwdOffset : Setting p "feedFwdOffsetCoeff" IsNumber c.feedFwdOffset
  feedFwdGain : Setting p "feedFwdGainCoeff" IsNumber c.feedFwdGain
  integralMin : Setting p "integralLimit_min" IsNumber c.integralLimit.min
  integralMax : Setting p "integralLimit_max" IsNumber c.integralLimit.max
  outMin : Setting p "outLim_min" IsNumber c.outLim.min
  outMax : Setting p "outLim_max" IsNumber c.outLim.max
  slewNeg : Setting p "slewNeg" IsNumber c.slewNeg
  slewPos : Setting p "slewPos" IsNumber c.slewPos
  derivativeCoeff : SettingOr p "derivativeCoeff" IsNumber 0 c.derivativeCoeff
  positiveHysteresis : SettingOr p "positiveHysteresis" IsNumber 0 c.positiveHysteresis
  negativeHysteresis : SettingOr p "negativeHysteresis" IsNumber 0 c.negativeHysteresis
  checkHysterWithSetpt : SettingOr p "checkHysteresisWithSetpoint" IsFlag false c.checkHysterWithSetpt

/-- the settings of a stepwise loop -/
structure StepEntry (p : Json) (c : StepwiseInfo) : Prop where
  ts : Setting p "samplePeriod" IsNumber c.ts
  isCeiling : Setting p "isCeiling" IsFlag c.isCeiling
  reading : ∀ i, PointEntry p "reading" i (c.reading i)
  output : ∀ i, PointEntry p "output" i (c.output i)
  positiveHysteresis : SettingOr p "positiveHysteresis" IsNumber 0 c.positiveHysteresis
  negativeHysteresis : SettingOr p "negativeHysteresis" IsNumber 0 c.negativeHysteresis
  /-- settings a stepwise loop has no use for must still be of the right type -/
  derivativeCoeff : ∃ d, SettingOr p "derivativeCoeff" IsNumber 0 d
  checkHysterWithSetpt : ∃ b, SettingOr p "checkHysteresisWithSetpoint" IsFlag false b

/-- the inputs of a loop: name, margin and leniency of each -/
def InputsEntry (j : Json) (inputs : List SensorInput) : Prop :=
  ∃ names margins missing,
    Setting j "inputs" (IsList IsText) names ∧ SettingOr j "tempToMargin" (IsList IsNumber) [] margins ∧
    SettingOr j "missingIsAcceptable" (IsList IsText) [] missing ∧
    inputs.map SensorInput.name = names ∧
    ∀ i (x : SensorInput), inputs[i]? = some x →
      x.convertTempToMargin = decide (i < margins.length) ∧ x.convertMarginZero = margins.getD i nan ∧
      x.missingIsAcceptable = decide (x.name ∈ missing)

/-- `j` is a loop entry for the settings `c`. -/
structure LoopEntry (j : Json) (c : ControllerInfo) : Prop where
  type : Setting j "type" IsText c.type
  inputs : InputsEntry j c.inputs
  setpoint : Setting j "setpoint" IsNumber c.setpoint
  /-- a whole number -/
  failSafePercent : ∃ n, SettingOr j "FailSafePercent" IsInt32 0 n ∧ c.failSafePercent = Dbl.ofInt n
  pid : ∃ p, Member j "pid" p ∧
    if c.type = "stepwise" then StepEntry p c.stepwiseInfo ∧ c.pidInfo = PidConf.zero
    else PidEntry p c.pidInfo ∧ c.stepwiseInfo = StepwiseInfo.zero

/-- a cycle time: a whole number of at least one, the default otherwise -/
def CycleEntry (zone : Json) (k : String) (d n : Nat) : Prop :=
  ∃ m, SettingOr zone k (IsWhole 0 64) 0 m ∧ n = if 1 ≤ m then m.toNat else d

/-- The settings found under a name in a list of entries: of entries with the same name the last one counts. -/
def LastNamed {α κ : Type} (N : Json → κ → Prop) (E : Json → α → Prop) (es : List Json) (n : κ) (c : α) : Prop :=
  ∃ pre e post, es = pre ++ e :: post ∧ N e n ∧ E e c ∧ ∀ e' ∈ post, ¬ N e' n

/-- an entry has the name `n` -/
def Named (e : Json) (n : String) : Prop := Setting e "name" IsText n

/-- a zone has the number `n` -/
def Numbering (e : Json) (n : Int) : Prop := Setting e "id" IsInt64 n

/-- The loops of a zone entry: each one listed by its name. -/
def LoopsEntry (zone : Json) (conf : PIDConf) : Prop :=
  ∃ p es, Member zone "pids" p ∧ Entries p es ∧ (∀ e ∈ es, ∃ n c, Named e n ∧ LoopEntry e c) ∧
    ∀ n c, conf.find? n = some c ↔ LastNamed Named LoopEntry es n c

/-- `zone` is a zone entry for the settings `c`. -/
structure ZoneEntry (zone : Json) (c : ZoneConfig) : Prop where
  minThermalOutput : Setting zone "minThermalOutput" IsNumber c.minThermalOutput
  failsafePercent : Setting zone "failsafePercent" IsNumber c.failsafePercent
  cycle : CycleEntry zone "cycleIntervalTimeMS" 100 c.cycleTime.cycleIntervalTimeMS
  thermals : CycleEntry zone "updateThermalsTimeMS" 1000 c.cycleTime.updateThermalsTimeMS
  accumulateSetPoint : SettingOr zone "accumulateSetPoint" IsFlag false c.accumulateSetPoint

end Verif
