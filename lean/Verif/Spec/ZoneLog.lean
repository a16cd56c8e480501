import Verif.Model.ZoneLog
import Verif.Spec.Loop
import Verif.Spec.Writers

/-! # Specifications for the log file of a zone -/

namespace Verif
variable [F : FloatModel]
open Dbl

/-- Text that fits into a cell: no comma and no line break. -/
def Plain (s : List Char) : Prop := ',' ∉ s ∧ '\n' ∉ s

/-- Numbers are printed without commas and line breaks. -/
def LogFmt.Ok (f : LogFmt) : Prop := (∀ x, Plain (f.dbl x)) ∧ ∀ i, Plain (f.int i)

/-- Reading a text as a table: every line is terminated, and commas separate the cells of a line. -/
def IsTable (text : List Char) (rows : List (List (List Char))) : Prop :=
  ∃ lines, text.splitOn '\n' = lines ++ [[]] ∧ rows = lines.map (·.splitOn ',')

/-- The titles of the columns. -/
def headerRow (d : ZoneData) : List (List Char) :=
  (["epoch_ms", "setpt", "requester"] ++ d.fanInputs.flatMap (fun n => [n, n ++ "_raw", n ++ "_pwm", n ++ "_pwm_raw"]) ++
    d.thermalInputs.flatMap (fun n => [n, n ++ "_raw"]) ++ ["failsafe"]).map String.toList

/-- One automatic tick: the zone before, its polling passes so far, the world, and the world and zone after. -/
structure AutoTick [FloatModel] where
  z : Zone
  polls : List Poll
  w : World
  w' : World
  z' : Zone

/-- What sensor `n` read in polling pass `p`. -/
def ReadIn (p : Poll) (n : String) (r : ReadReturn) : Prop := ∃ s, p.w.sensors.find? n = some s ∧ s.read p.w p.now = .ok r

/-- The cells of one fan: its reading in this tick, and the output the zone remembers from before. -/
def FanCells (f : LogFmt) (e : AutoTick) (n : String) (cs : List (List Char)) : Prop :=
  ∃ r out, ReadIn ⟨e.w, e.w.nowFans, e.z.d.fanInputs⟩ n r ∧ e.z.d.cachedFanOutputs.find? n = some out ∧
    cs = [f.dbl r.value, f.dbl r.unscaled, f.dbl out.scaled, f.dbl out.unscaled]

/-- The cells of one thermal input: its last reading. An input that is also a fan has just been polled with the fans. -/
def ThermalCells (f : LogFmt) (e : AutoTick) (n : String) (cs : List (List Char)) : Prop :=
  ∃ p r, lastPoll (e.polls ++ [⟨e.w, e.w.nowFans, e.z.d.fanInputs⟩]) n = some p ∧ ReadIn p n r ∧
    cs = [f.dbl r.value, f.dbl r.unscaled]

/-- The row a tick should leave: time in milliseconds, the set point in force and who asked for it, the fans, the thermal
inputs, and whether the zone is in failsafe mode after the tick. -/
def RowOf (f : LogFmt) (e : AutoTick) (row : List (List Char)) : Prop :=
  ∃ fans thermals : List (List (List Char)),
    List.Forall₂ (FanCells f e) e.z.d.fanInputs fans ∧ List.Forall₂ (ThermalCells f e) e.z.d.thermalInputs thermals ∧
    ∃ failsafe : List Char, ((∃ n, Failed e.z'.d n) → failsafe = ['1']) ∧ ((∀ n, ¬ Failed e.z'.d n) → failsafe = ['0']) ∧
      row = [f.int (e.w.nowFans.tdiv 1000000), f.dbl e.z.d.maximumSetPoint, e.z.d.maximumSetPointName.toList] ++
        fans.flatten ++ thermals.flatten ++ [failsafe]

/-- `Logged f o z0 z cnt polls ticks text`: the zone built as `z0` runs with logging and is now `z` with cycle counter `cnt`;
`polls` are its polling passes, `ticks` its automatic ticks, `text` its log file. The world may change arbitrarily between
ticks. -/
inductive Logged (f : LogFmt) (o : Opts) (z0 : Zone) : Zone → Nat → List Poll → List AutoTick → List Char → Prop
  | start {z text} (w : World) : Built z0.d → z0.startLog o w = .ok (z, text) →
      Logged f o z0 z 0 [⟨w, w.nowThermals, z0.d.thermalInputs⟩] [] text
  | manual {z cnt polls ticks text} (b : Bool) : Logged f o z0 z cnt polls ticks text →
      Logged f o z0 { z with d := z.d.setManualMode b } cnt polls ticks text
  | enable {z cnt polls ticks text} (name : String) (b : Bool) : Logged f o z0 z cnt polls ticks text →
      Logged f o z0 { z with d := z.d.setEnabled name b } cnt polls ticks text
  | idle {z cnt polls ticks text} (w : World) {w' z' cnt' more} : Logged f o z0 z cnt polls ticks text →
      z.d.manualMode = true → z.tickLog f o w cnt = .ok (w', z', cnt', more) →
      Logged f o z0 z' cnt' polls ticks (text ++ more)
  | auto {z cnt polls ticks text} (w : World) {w' z' cnt' more} : Logged f o z0 z cnt polls ticks text →
      z.d.manualMode = false → z.tickLog f o w cnt = .ok (w', z', cnt', more) →
      Logged f o z0 z' cnt' (polls ++ tickPolls z cnt w) (ticks ++ [⟨z, polls, w, w', z'⟩]) (text ++ more)

/-- Sensors are listed under their own names, as the sensor manager does. -/
def OwnNames (w : World) : Prop := ∀ n s, w.sensors.find? n = some s → s.name = n

/-- The raw value remembered for fan `n` when it is commanded `v`: what a D-Bus fan is told, -1 for all others. -/
def RawOf (w : World) (n : String) (v : Dbl) (raw : Int) : Prop :=
  ∃ s rd wr, w.sensors.find? n = some s ∧ s.impl = .pluggable rd wr ∧
    match wr with
    | .dbusPercent _ min max _ => rawCommand (some (min, max)) v = some raw
    | .dbusRaw _ _ => rawCommand none v = some raw
    | _ => raw = -1

/-- The last of the loops that drive fan `n`, with the value it commands. -/
def lastDrive (l : List (FanPid × Dbl)) (n : String) : Option Dbl :=
  ((l.filter (fun x => n ∈ x.1.inputs)).getLast?).map Prod.snd

end Verif
