import Verif.Spec.Zone
import Verif.Model.Loop

/-! # Histories of a zone -/

namespace Verif
variable [F : FloatModel]
open Dbl

/-- Zones as the builder leaves them: constructed, then filled with inputs, processes and failsafe percentages. -/
inductive Built : ZoneData → Prop
  | ctor (zone : Int) (minThermalOutput failSafePercent : Dbl) (cycleTime : CycleTime) (acc : Bool) :
      Built (ZoneData.ctor zone minThermalOutput failSafePercent cycleTime acc)
  | fanInput {z} (name : String) (missingAcceptable : Bool) : Built z → Built (z.addFanInput name missingAcceptable)
  | thermalInput {z} (name : String) (missingAcceptable : Bool) : Built z → Built (z.addThermalInput name missingAcceptable)
  | process {z} (name type : String) (setpoint : Dbl) : Built z → Built (z.addPidControlProcess name type setpoint)
  | failSafePercent {z} (inputs : List String) (percent : Dbl) : Built z → Built (z.addPidFailSafePercent inputs percent)

/-- One polling pass over `names` at time `now`. -/
structure Poll where
  w : World
  now : Int
  names : List String

/-- The polling passes of one tick: none in manual mode; otherwise the fans and, when the thermal loops are due, the
thermal inputs. -/
def tickPolls (z : Zone) (cnt : Nat) (w : World) : List Poll :=
  if z.d.manualMode = true then []
  else ⟨w, w.nowFans, z.d.fanInputs⟩ ::
    (if z.d.cycleTime.updateThermalsTimeMS ≤ cnt then [⟨w, w.nowThermals, z.d.thermalInputs⟩] else [])

/-- `Hist o d0 z cnt log`: a zone built as `d0` was started and, after some ticks, mode switches and loop switches, is
`z` with cycle counter `cnt`; `log` lists its polling passes, oldest first. The world may change arbitrarily between
ticks. -/
inductive Hist (o : Opts) (d0 : ZoneData) : Zone → Nat → List Poll → Prop
  | start {z z' : Zone} (w : World) : Built d0 → z.d = d0 → z.start o w = .ok z' →
      Hist o d0 z' 0 [⟨w, w.nowThermals, d0.thermalInputs⟩]
  | manual {z cnt log} (b : Bool) : Hist o d0 z cnt log → Hist o d0 { z with d := z.d.setManualMode b } cnt log
  | enable {z cnt log} (name : String) (b : Bool) : Hist o d0 z cnt log →
      Hist o d0 { z with d := z.d.setEnabled name b } cnt log
  | tick {z cnt log} (w : World) {w' z' cnt'} : Hist o d0 z cnt log → z.tick o w cnt = .ok (w', z', cnt') →
      Hist o d0 z' cnt' (log ++ tickPolls z cnt w)

/-- The last polling pass that covers sensor `n`. -/
def lastPoll (log : List Poll) (n : String) : Option Poll := (log.filter (fun p => n ∈ p.names)).getLast?

/-- An update `age` nanoseconds ago is too old for a timeout in seconds: 0 means never, and ages count in whole seconds
(rounded towards zero). -/
def Stale (timeout age : Int) : Prop :=
  (0 < timeout ∧ timeout * 1000000000 ≤ age) ∨ (timeout < 0 ∧ (timeout - 1) * 1000000000 < age)

/-- Sensor `n` reports failure, or its last update is too old, at time `now`. -/
def FailsAt (w : World) (now : Int) (n : String) : Prop :=
  ∃ s, w.sensors.find? n = some s ∧
    (s.getFailed w = .ok true ∨ ∃ r, s.read w now = .ok r ∧ Stale s.timeout (now - r.updated))

/-- Sensor `n` is listed as failed. -/
def Failed (z : ZoneData) (n : String) : Prop := ∃ e, z.failSafeSensors.find? n = some e

/-- `n` is an input of the zone that may not be missing. -/
def Required (z : ZoneData) (n : String) : Prop := (n ∈ z.fanInputs ∨ n ∈ z.thermalInputs) ∧ n ∉ z.missingAcceptable

/-- The failsafe percentage a sensor stands for: its own if it has a nonzero one, otherwise the zone's. -/
def percentOf (z : ZoneData) (n : String) : Dbl :=
  match z.sensorFailSafePercent.find? n with
  | some p => if p = 0 then z.zoneFailSafePercent else p
  | none => z.zoneFailSafePercent

end Verif
