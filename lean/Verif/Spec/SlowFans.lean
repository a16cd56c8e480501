import Verif.Spec.Integral
import Verif.Spec.Quiet

/-! # Specification of fans that are too slow -/

namespace Verif
variable [F : FloatModel]
open Dbl

/-- the speeds of the fans that turn -/
def turning (rs : List Dbl) : List Dbl := rs.filter (fun r => r.isFinite ∧ 0 < r)

/-- The speed a fan loop goes by: that of the slowest fan that turns, 0 if none does. -/
inductive SlowestOf (rs : List Dbl) : Dbl → Prop
  | still : turning rs = [] → SlowestOf rs 0
  | slowest {v : Dbl} : v ∈ turning rs → (∀ u ∈ turning rs, v ≤ u) → SlowestOf rs v

/-- Fan `n` turns at speed `r`: its reading before any scaling. -/
def TurnsAt (w : World) (n : String) (r : Dbl) : Prop :=
  ∃ s rr, w.sensors.find? n = some s ∧ s.read w w.nowFans = .ok rr ∧ rr.unscaled = r

/-- The fan loop goes by the speed `v`. -/
def FanSees (w : World) (f : ControllerInfo) (v : Dbl) : Prop :=
  ∃ rs, List.Forall₂ (fun i r => TurnsAt w (SensorInput.name i) r) f.inputs rs ∧ SlowestOf rs v

/-- Zone `i` hands the set point `s` to its fan loops. -/
def SetPointOf (d : Daemon) (i : Int) (s : Dbl) : Prop :=
  ∃ z cnt, d.zones.find? i = some (z, cnt) ∧ z.d.maximumSetPoint = s

/-- Zone `i` is in automatic mode. -/
def InAutomatic (d : Daemon) (i : Int) : Prop := ∃ z cnt, d.zones.find? i = some (z, cnt) ∧ z.d.manualMode = false

/-- Whenever the timer of zone `i` expires in automatic mode while the events happen, the set point of the zone has property
`P` then. -/
def SetPoints (o : Opts) (i : Int) (P : Dbl → Prop) (d : Daemon) (es : List DEvent) : Prop :=
  ∀ es1 es2 d1 d2, es = es1 ++ .tick i :: es2 → d.run o es1 = .ok d1 → InAutomatic d1 i → d1.step o (.tick i) = .ok d2 →
    ∀ s, SetPointOf d2 i s → P s

/-- Whenever the timer of zone `i` expires in automatic mode while the events happen, the speed the fan loop goes by has
property `P`. -/
def Speeds (o : Opts) (i : Int) (f : ControllerInfo) (P : Dbl → Prop) (d : Daemon) (es : List DEvent) : Prop :=
  ∀ es1 es2 d1, es = es1 ++ .tick i :: es2 → d.run o es1 = .ok d1 → InAutomatic d1 i → ∀ v, FanSees d1.w f v → P v

/-- A fan loop with an integral part: the slower the fans and the higher the set point, the larger the output. -/
structure Driving (c : PidConf) : Prop where
  integrating : Integrating c
  signs : 0 ≤ c.proportionalCoeff ∧ 0 ≤ c.integralCoeff ∧ 0 ≤ c.feedFwdGain

/-- Whatever it reads, loop `e` asks for no more than `y`: because of its table or because of its limits. -/
inductive Capped (e : Entry) (y : Dbl) : Prop
  | table (type : e.2.type = "stepwise") (outputs : ∀ k, e.2.stepwiseInfo.output k = nan ∨ e.2.stepwiseInfo.output k ≤ y)
  | limits (type : e.2.type ≠ "stepwise") (slew : SaneSlew e.2.pidInfo)
      (bounds : e.2.pidInfo.outLim.min ≤ y ∧ e.2.pidInfo.outLim.max ≤ y)

/-- Between `w` and `w'` every fan loop of the configuration commanded its fans, in order, and loop `f` commanded a fraction
of at least `v`. -/
def LoopAtLeast (conf : List Entry) (f : Entry) (v : Dbl) (w w' : World) : Prop :=
  ∃ (l : List (FanPid × Dbl)) (b : Bool),
    List.Forall₂ (fun e x => x.1.inputs = e.2.inputs.map SensorInput.name ∧ (e = f → v ≤ x.2)) (conf.filter IsFan) l ∧
    Drives b w l w'

end Verif
