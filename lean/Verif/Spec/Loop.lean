import Verif.Spec.History

/-! # Specifications for the control loop -/

namespace Verif
variable [F : FloatModel]
open Dbl

/-- The path a writer writes to, if it writes at all. -/
def Writer.target : Writer → Option String
  | .dbusPercent path _ _ _ => some path
  | .dbusRaw path _ => some path
  | .sysfsPercent path _ _ => some path
  | .sysfsRaw path => some path
  | .readOnlyNoExcept => none
  | .null => none

/-- The path an effect goes to. -/
def Effect.path : Effect → String
  | .dbusSet path _ _ => path
  | .sysfsWrite path _ => path

/-- The path sensor `n` is written through. -/
def targetOf (w : World) (n : String) : Option String :=
  match w.sensors.find? n with
  | some s => match s.impl with
    | .pluggable _ wr => wr.target
    | .host _ _ => none
  | none => none

/-- Every fan loop writes all its fans, in order, with its own value. -/
inductive Drives (force : Bool) : World → List (FanPid × Dbl) → World → Prop
  | nil (w) : Drives force w [] w
  | cons {w w1 w2 c v rest} : Commanded v force w c.inputs w1 → Drives force w1 rest w2 →
      Drives force w ((c, v) :: rest) w2

/-- A history with its automatic ticks counted: after the start of `z0` there were `n` of them. Mode and loop switches
and ticks in manual mode may come in between, and the world may change arbitrarily between ticks. -/
inductive Ticks (o : Opts) (z0 : Zone) : Nat → Zone → Nat → Prop
  | start : Ticks o z0 0 z0 0
  | manual {n z cnt} (b : Bool) : Ticks o z0 n z cnt → Ticks o z0 n { z with d := z.d.setManualMode b } cnt
  | enable {n z cnt} (name : String) (b : Bool) : Ticks o z0 n z cnt →
      Ticks o z0 n { z with d := z.d.setEnabled name b } cnt
  | idle {n z cnt} (w : World) {w' z' cnt'} : Ticks o z0 n z cnt → z.d.manualMode = true →
      z.tick o w cnt = .ok (w', z', cnt') → Ticks o z0 n z' cnt'
  | auto {n z cnt} (w : World) {w' z' cnt'} : Ticks o z0 n z cnt → z.d.manualMode = false →
      z.tick o w cnt = .ok (w', z', cnt') → Ticks o z0 (n + 1) z' cnt'

/-- Thermal passes due within the first `n` automatic ticks: floor((n-1)*F/T). -/
def passesDue (fanMS thermalMS n : Nat) : Nat := (n - 1) * fanMS / thermalMS

/-- An automatic tick without a thermal pass: the fans are polled and driven. -/
def FanTick (o : Opts) (w : World) (z : Zone) (w' : World) (z' : Zone) : Prop :=
  ∃ d, z.d.updateFanTelemetry w = .ok d ∧ Zone.processFans o w { z with d := d } = .ok (w', z')

/-- An automatic tick with a thermal pass: the fans are polled, the thermal loops run, the fans are driven. -/
def ThermalTick (o : Opts) (w : World) (z : Zone) (w' : World) (z' : Zone) : Prop :=
  ∃ d zt, z.d.updateFanTelemetry w = .ok d ∧ Zone.processThermals o w { z with d := d } = .ok zt ∧
    zt.processFans o w = .ok (w', z')

/-- A running control loop started at time `t0`: `k` handlers have run since, each at an arbitrary time. -/
inductive Runs (o : Opts) (z0 : Zone) (t0 : Int) : Nat → Loop → Prop
  | start {expiry waiting l} (w : World) : pidControlLoop o w t0 false true ⟨z0, 0, expiry, waiting⟩ = .ok l →
      Runs o z0 t0 0 l
  | manual {k l} (b : Bool) : Runs o z0 t0 k l →
      Runs o z0 t0 k { l with zone := { l.zone with d := l.zone.d.setManualMode b } }
  | enable {k l} (name : String) (b : Bool) : Runs o z0 t0 k l →
      Runs o z0 t0 k { l with zone := { l.zone with d := l.zone.d.setEnabled name b } }
  | handler {k l} (w : World) (now : Int) {w' l'} : Runs o z0 t0 k l → l.handler o w now false false = .ok (w', l') →
      Runs o z0 t0 (k + 1) l'

/-- A running control loop with its automatic handlers counted: since the start of `z0` there were `n` of them. -/
inductive AutoRuns (o : Opts) (z0 : Zone) : Nat → Loop → Prop
  | start {expiry waiting l} (w : World) (t0 : Int) :
      pidControlLoop o w t0 false true ⟨z0, 0, expiry, waiting⟩ = .ok l → AutoRuns o z0 0 l
  | manual {n l} (b : Bool) : AutoRuns o z0 n l →
      AutoRuns o z0 n { l with zone := { l.zone with d := l.zone.d.setManualMode b } }
  | enable {n l} (name : String) (b : Bool) : AutoRuns o z0 n l →
      AutoRuns o z0 n { l with zone := { l.zone with d := l.zone.d.setEnabled name b } }
  | idle {n l} (w : World) (now : Int) {w' l'} : AutoRuns o z0 n l → l.zone.d.manualMode = true →
      l.handler o w now false false = .ok (w', l') → AutoRuns o z0 n l'
  | auto {n l} (w : World) (now : Int) {w' l'} : AutoRuns o z0 n l → l.zone.d.manualMode = false →
      l.handler o w now false false = .ok (w', l') → AutoRuns o z0 (n + 1) l'

/-- One handler of a loop runs; this needs a pending wait. `cancel` is the value of the cancellation flag then. -/
def HandlerRuns (o : Opts) (cancel : Bool) (l l' : Loop) : Prop :=
  l.waiting = true ∧ ∃ w now aborted w', l.handler o w now cancel aborted = .ok (w', l')

/-- `ForcedHist o z b`: zone `z` arises from a newly built zone by ticks and switches, and `b` says that manual mode was
switched off after the last automatic tick. -/
inductive ForcedHist (o : Opts) : Zone → Bool → Prop
  | start {z z' : Zone} (w : World) : Built z.d → z.start o w = .ok z' → ForcedHist o z' false
  | manual {z b} : ForcedHist o z b → ForcedHist o { z with d := z.d.setManualMode true } b
  | automatic {z b} : ForcedHist o z b → ForcedHist o { z with d := z.d.setManualMode false } true
  | enable {z b} (name : String) (e : Bool) : ForcedHist o z b → ForcedHist o { z with d := z.d.setEnabled name e } b
  | idle {z b} (w : World) {cnt w' z' cnt'} : ForcedHist o z b → z.d.manualMode = true →
      z.tick o w cnt = .ok (w', z', cnt') → ForcedHist o z' b
  | auto {z b} (w : World) {cnt w' z' cnt'} : ForcedHist o z b → z.d.manualMode = false →
      z.tick o w cnt = .ok (w', z', cnt') → ForcedHist o z' false

/-- `Failing o s z0 cnt0 n z cnt`: starting from zone `z0` with cycle counter `cnt0` there were `n` automatic ticks, in all
of which sensor `s` failed; anything else may have happened in between. -/
inductive Failing (o : Opts) (s : String) (z0 : Zone) (cnt0 : Nat) : Nat → Zone → Nat → Prop
  | start : Failing o s z0 cnt0 0 z0 cnt0
  | manual {n z cnt} (b : Bool) : Failing o s z0 cnt0 n z cnt →
      Failing o s z0 cnt0 n { z with d := z.d.setManualMode b } cnt
  | enable {n z cnt} (name : String) (b : Bool) : Failing o s z0 cnt0 n z cnt →
      Failing o s z0 cnt0 n { z with d := z.d.setEnabled name b } cnt
  | idle {n z cnt} (w : World) {w' z' cnt'} : Failing o s z0 cnt0 n z cnt → z.d.manualMode = true →
      z.tick o w cnt = .ok (w', z', cnt') → Failing o s z0 cnt0 n z' cnt'
  | auto {n z cnt} (w : World) {w' z' cnt'} : Failing o s z0 cnt0 n z cnt → z.d.manualMode = false →
      FailsAt w w.nowFans s → FailsAt w w.nowThermals s →
      z.tick o w cnt = .ok (w', z', cnt') → Failing o s z0 cnt0 (n + 1) z' cnt'

/-- A zone as the configuration should build it: no fan loop is a null pointer, loops only use sensors the zone polls,
every PID loop has inputs, loops have their D-Bus objects, and margin conversions have a finite Tjmax. -/
structure ZoneOk (z : Zone) : Prop where
  fans : ∀ c ∈ z.fans, ∃ f, c = some f ∧ ∀ n ∈ f.inputs, n ∈ z.d.fanInputs
  pids : ∀ c, ThermalCtl.pid c ∈ z.thermals → c.inputs ≠ [] ∧
    (∀ i ∈ c.inputs, i.name ∈ z.d.fanInputs ∨ i.name ∈ z.d.thermalInputs) ∧
    (∃ p, z.d.procs.find? c.id = some p) ∧
    (c.type = .margin → ∀ i ∈ c.inputs, i.convertTempToMargin = true → i.convertMarginZero.isFinite = true)
  steps : ∀ c, ThermalCtl.stepwise c ∈ z.thermals → (∀ n ∈ c.inputs, n ∈ z.d.fanInputs ∨ n ∈ z.d.thermalInputs) ∧
    (c.info.isCeiling = false → ∃ p, z.d.procs.find? c.id = some p)

/-- A world the zone can work with: all its inputs are known and can be read, and the inputs of its fan loops have
writers. With tuning enabled the override files must not be blank. -/
structure WorldOk (o : Opts) (w : World) (z : Zone) : Prop where
  fans : ∀ n ∈ z.d.fanInputs, ∃ s r, w.sensors.find? n = some s ∧ s.read w w.nowFans = .ok r
  thermals : ∀ n ∈ z.d.thermalInputs, ∃ s r, w.sensors.find? n = some s ∧ s.read w w.nowThermals = .ok r
  writers : ∀ f, some f ∈ z.fans → ∀ n ∈ f.inputs, ∃ s rd wr, w.sensors.find? n = some s ∧
    s.impl = .pluggable rd wr ∧ wr ≠ .null
  files : o.tuningEnabled = true → ∀ path, w.files path ≠ .blank

/-- Zones reached from `z0` by switches and by ticks in usable worlds. -/
inductive OkTicks (o : Opts) (z0 : Zone) : Zone → Prop
  | start : OkTicks o z0 z0
  | manual {z} (b : Bool) : OkTicks o z0 z → OkTicks o z0 { z with d := z.d.setManualMode b }
  | enable {z} (name : String) (b : Bool) : OkTicks o z0 z → OkTicks o z0 { z with d := z.d.setEnabled name b }
  | tick {z} (w : World) {cnt w' z' cnt'} : OkTicks o z0 z → WorldOk o w z → z.tick o w cnt = .ok (w', z', cnt') →
      OkTicks o z0 z'

end Verif
