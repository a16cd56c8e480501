import Verif.Model.Zone
import Mathlib.Data.List.Infix

/-! # Specifications used in the controller and zone properties -/

namespace Verif
variable [F : FloatModel]
open Dbl

/-- `m` is the largest double with property `S`. -/
def Largest (S : Dbl → Prop) (m : Dbl) : Prop := S m ∧ ∀ x, S x → x ≤ m

/-- `m` is the smallest double with property `S`. -/
def Smallest (S : Dbl → Prop) (m : Dbl) : Prop := S m ∧ ∀ x, S x → m ≤ x

/-- `x` is the cached (scaled) reading of sensor `name`. -/
def Reads (z : ZoneData) (name : String) (x : Dbl) : Prop :=
  ∃ e, z.cachedValuesByName.find? name = some e ∧ e.scaled = x

/-- `x` is the cached raw (unscaled) reading of sensor `name`. -/
def ReadsRaw (z : ZoneData) (name : String) (x : Dbl) : Prop :=
  ∃ e, z.cachedValuesByName.find? name = some e ∧ e.unscaled = x

/-- The value an input contributes to its loop for a reading: nothing for a NaN or infinite reading; the distance to
`convertMarginZero` (Tjmax) for a converted input of a margin loop; the reading itself otherwise. -/
def contribution (type : ThermalType) (i : SensorInput) (reading : Dbl) : Option Dbl :=
  match reading with
  | fin _ _ => some (if type = .margin ∧ i.convertTempToMargin = true then i.convertMarginZero - reading else reading)
  | _ => none

/-- input `i` contributes the value `x` to loop `c` -/
def Contributes (c : ThermalPid) (z : ZoneData) (i : SensorInput) (x : Dbl) : Prop :=
  i ∈ c.inputs ∧ ∃ r, Reads z i.name r ∧ contribution c.type i r = some x

/-- What construction guarantees for a thermal loop inside its zone: it has inputs, all of them are cached, its D-Bus
object exists, and conversions have a finite Tjmax. -/
structure ThermalReady (c : ThermalPid) (z : ZoneData) : Prop where
  nonempty : c.inputs ≠ []
  cached : ∀ i ∈ c.inputs, ∃ x, Reads z i.name x
  proc : ∃ p, z.procs.find? c.id = some p
  tjmax : c.type = .margin → ∀ i ∈ c.inputs, i.convertTempToMargin = true → i.convertMarginZero.isFinite = true

/-- What a thermal controller submits to its zone in one cycle. -/
inductive Submission where
  /-- a set point under the loop's name -/
  | setPoint (name : String) (value : Dbl)
  /-- a ceiling -/
  | ceiling (value : Dbl)

/-- One submission through the zone's interface. -/
def submit (z : ZoneData) : Submission → Res ZoneData
  | .setPoint name v => z.addSetPoint v name
  | .ceiling v => .ok (z.addRPMCeiling v)

/-- Submissions one after the other. -/
def submitAll : ZoneData → List Submission → Res ZoneData
  | z, [] => .ok z
  | z, s :: ss => do submitAll (← submit z s) ss

/-- One arbitration round: clear, submit, determine the maximum. -/
def arbitrate (o : Opts) (w : World) (ids : List String) (z : ZoneData) (subs : List Submission) : Res ZoneData := do
  (← submitAll z.clearSetPoints.clearRPMCeilings subs).determineMaxSetPointRequest o w ids

/-- The control process of loop `name` exists and is enabled. -/
def Enabled (z : ZoneData) (name : String) : Prop := ∃ p, z.procs.find? name = some p ∧ p.enabled = true

/-- `x` is the value of an enabled request among the submissions -/
def Requested (z : ZoneData) (subs : List Submission) (x : Dbl) : Prop :=
  ∃ n, Submission.setPoint n x ∈ subs ∧ Enabled z n

/-- `x` is one of the submitted ceilings -/
def CeilingOf (subs : List Submission) (x : Dbl) : Prop := Submission.ceiling x ∈ subs

/-- The arbitration rule: the largest enabled request (at least 0), capped by the lowest ceiling, and not below the
configured minimum; NaN requests, ceilings and minima do not count. -/
def ArbitratedTo (z : ZoneData) (subs : List Submission) (m : Dbl) : Prop :=
  ∃ req cap, Largest (fun x => x = 0 ∨ (x ≠ nan ∧ Requested z subs x)) req ∧
    Smallest (fun x => x = req ∨ (x ≠ nan ∧ CeilingOf subs x)) cap ∧
    Largest (fun x => x = cap ∨ (x ≠ nan ∧ x = z.minThermalOutputSetPt)) m

/-- `p` is the profile of loop `name`: the part after the first underscore, or the whole name if there is none. -/
def IsProfile (name p : String) : Prop :=
  (∃ a : List Char, '_' ∉ a ∧ name.toList = a ++ '_' :: p.toList) ∨ ('_' ∉ name.toList ∧ p = name)

open Classical in
/-- The enabled requests of one profile, in order of submission. -/
noncomputable def profileValues (z : ZoneData) (subs : List Submission) (p : String) : List Dbl :=
  subs.filterMap fun
    | .setPoint n v => if Enabled z n ∧ IsProfile n p then some v else none
    | .ceiling _ => none

/-- the sum of a list, added from left to right -/
def sumUp (l : List Dbl) : Dbl := l.foldl (· + ·) 0

/-- `x` is the sum of a profile's enabled requests at some point during the submissions -/
def RunningSum (z : ZoneData) (subs : List Submission) (x : Dbl) : Prop :=
  ∃ pre p, pre <+: subs ∧ profileValues z pre p ≠ [] ∧ x = sumUp (profileValues z pre p)

/-- names joined with " + " -/
def joinPlus : List String → String
  | [] => ""
  | [a] => a
  | a :: b :: l => a ++ (" + " ++ joinPlus (b :: l))

/-- the controllers whose name contains `p`, joined with " + " -/
def namesWith (p : String) (ids : List String) : String :=
  joinPlus (ids.filter (fun id => p.toList <:+: id.toList))

/-- The override a set point file asks for: an integer above 100, clamped to the range of `int`. -/
def overrideOf : FileContent → Option Dbl
  | .number v => if 100 < v then some (Dbl.ofInt (if v ≤ 2 ^ 31 - 1 then v else 2 ^ 31 - 1)) else none
  | _ => none

/-- What construction guarantees for a controller inside its zone. -/
def CtlReady (z : ZoneData) : ThermalCtl → Prop
  | .pid c => ThermalReady c z
  | .stepwise c => (∀ n ∈ c.inputs, ∃ x, Reads z n x) ∧ (c.info.isCeiling = false → ∃ p, z.procs.find? c.id = some p)

/-- Given the zone's cached readings, controller `c` computes submission `s` and becomes `c'`. -/
def Submits (z : ZoneData) : ThermalCtl → Submission × ThermalCtl → Prop
  | .pid c, r => ∃ z' input, c.inputProc z = .ok (z', input) ∧
      r = (.setPoint c.id (pidStep c.ctl c.setpoint input).1, .pid { c with ctl := (pidStep c.ctl c.setpoint input).2 })
  | .stepwise c, r => ∃ input, StepwiseCtl.inputLoop z lowest c.inputs = .ok input ∧
      r = (if c.info.isCeiling then .ceiling (stepwiseStep c.info c.st input).1
            else .setPoint c.id (stepwiseStep c.info c.st input).1,
          .stepwise { c with st := (stepwiseStep c.info c.st input).2 })

/-- Every sensor of the list is written once, in order, with the same value and force flag. -/
inductive Commanded (value : Dbl) (force : Bool) : World → List String → World → Prop
  | nil (w) : Commanded value force w [] w
  | cons {w w1 w2 name rest n wr} : w.writeSensor name value force = .ok (w1, n, wr) →
      Commanded value force w1 rest w2 → Commanded value force w (name :: rest) w2

end Verif
