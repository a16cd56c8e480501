import Verif.Spec.Startup
import Verif.Spec.Timed

/-! # Specification of a running daemon in terms of its configuration file -/

namespace Verif
variable [F : FloatModel]
open Dbl

/-- In section `s` of `j`, entry `e` is the one that counts as `k`: the last one called so. -/
def Chosen {κ : Type} (j : Json) (s : String) (N : Json → κ → Prop) (k : κ) (e : Json) : Prop :=
  ∃ v es pre post, Member j s v ∧ Entries v es ∧ es = pre ++ e :: post ∧ N e k ∧ ∀ e' ∈ post, ¬ N e' k

/-- The list `key` of the entry has `n` in it. -/
def Lists (e : Json) (key n : String) : Prop := ∃ names, Setting e key (IsList IsText) names ∧ n ∈ names

/-- `l` is a loop of the zone entry `zone`, of type `type`. -/
def LoopIn (zone : Json) (type : String) (l : Json) : Prop :=
  (∃ name, Chosen zone "pids" Named name l) ∧ Setting l "type" IsText type

/-- the types of loops that compute a set point -/
def heatTypes : List String := ["temp", "margin", "power", "powersum", "stepwise"]

/-- The zone cannot do without sensor `n`: a loop that computes a set point uses it, and no loop accepts it missing. -/
def NeededIn (zone : Json) (n : String) : Prop :=
  (∃ type ∈ heatTypes, ∃ l, LoopIn zone type l ∧ Lists l "inputs" n) ∧
  ∀ type l, LoopIn zone type l → Lists l "inputs" n → ¬ Lists l "missingIsAcceptable" n

/-- The file has the sensor `n` on the bus. -/
structure BusSensor (data : Json) (n : String) (e : Json) : Prop where
  entry : Chosen data "sensors" Named n e
  type : ∃ t, Setting e "type" IsText t ∧ KnownType t
  path : ∃ p, Setting e "readPath" IsText p ∧ ReadKind p .dbusPassive

/-- The file has the fan `m`, which is written through `path` with numbers from `lo` to `hi`; no other entry has this
path. -/
structure FileFan (dirs : Dirs) (data : Json) (m path : String) (lo hi : Int) : Prop where
  entry : ∃ e, Chosen data "sensors" Named m e ∧ Setting e "type" IsText "fan" ∧
    (∃ p, Setting e "writePath" IsText p ∧ (WriteKind p .dbusActive ∧ p = path ∨ WriteKind p .sysfs ∧ Stands dirs p path)) ∧
    Member e "min" (.int lo) ∧ Member e "max" (.int hi)
  limits : 0 ≤ lo ∧ lo ≤ hi ∧ 0 < hi ∧ hi ≤ 2 ^ 53
  only : ∀ m' e', m' ≠ m → Chosen data "sensors" Named m' e' → ∀ p, Setting e' "writePath" IsText p →
    p ≠ path ∧ ¬ Stands dirs p path

/-- Of all zones in the file only zone `i` has fan `m`. -/
def OnlyIn (data : Json) (i : Int) (m : String) : Prop :=
  ∀ j zone, j ≠ i → Chosen data "zones" Numbering j zone → ∀ l, LoopIn zone "fan" l → ¬ Lists l "inputs" m

/-- All failsafe percentages of the loops of the zone entry are at least zero. -/
def PercentsOk (zone : Json) : Prop :=
  ∀ type l, LoopIn zone type l → ∀ v, Setting l "FailSafePercent" IsInt32 v → 0 ≤ v

/-- The failsafe percentage `p` is required for sensor `n`: a loop that uses the sensor has it, or no such loop has any
and the zone has it. -/
inductive Demanded (zone : Json) (n : String) : Dbl → Prop
  | loop {type l v} : type ∈ "fan" :: heatTypes → LoopIn zone type l → Lists l "inputs" n →
      Setting l "FailSafePercent" IsInt32 v → 0 < v → Demanded zone n (Dbl.ofInt v)
  | zone {p} : (∀ type l, LoopIn zone type l → Lists l "inputs" n → Lacks l "FailSafePercent") →
      Setting zone "failsafePercent" IsNumber p → Demanded zone n p

/-- The number last written to `path` is at least what stands for the fraction `v` between `lo` and `hi`. -/
def WrittenAtLeast (lo hi : Int) (path : String) (v : Dbl) (w : World) : Prop :=
  ∃ u r, valueAt path w = some u ∧ rawCommand (some (lo, hi)) v = some r ∧ r ≤ u

/-- The daemon `d` with its timers as they are set at the start: that of zone `i` at `started i`. -/
structure WithTimers (data : Json) (started : Int → Int) (d : Daemon) (td : Timed) : Prop where
  daemon : td.d = d
  timers : ∀ i zone n, Chosen data "zones" Numbering i zone → CycleEntry zone "cycleIntervalTimeMS" 100 n →
    td.timers.find? i = some (started i + ms n, true)
  others : ∀ i, (∀ zone, ¬ Chosen data "zones" Numbering i zone) → td.timers.find? i = none
  sorted : td.timers.WF

/-- `conf` has the loops of the zone entry `zone` -/
structure LoopsMatch (zone : Json) (conf : PIDConf) : Prop where
  entry : ∀ n l, Chosen zone "pids" Named n l → ∃ c, (n, c) ∈ conf.entries ∧ LoopEntry l c
  listed : ∀ x ∈ conf.entries, ∃ l, Chosen zone "pids" Named x.1 l ∧ LoopEntry l x.2

end Verif
