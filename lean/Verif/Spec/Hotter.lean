import Verif.Spec.Integral
import Verif.Spec.Slew

/-! # Specification of two runs, one hotter than the other -/

namespace Verif
variable [F : FloatModel]
open Dbl

/-- Events that concern zone `i` itself: its mode, the switches of its loops, its timer. -/
def Concerns (i : Int) : DEvent → Bool
  | .manual j _ => j == i
  | .enable j _ _ => j == i
  | .tick j => j == i
  | _ => false

/-- What happens to zone `i` itself, in order. -/
def orders (i : Int) (es : List DEvent) : List DEvent := es.filter (Concerns i)

/-- The input of a loop. That of a stepwise loop is its largest reading that is a number; if there is none, the lowest
finite number. -/
inductive LoopInput (w : World) (e : ControllerInfo) : Dbl → Prop
  | pid {v : Dbl} : IsPid e.type → Sees w e v → LoopInput w e v
  | stepwise {rs : List Dbl} {v : Dbl} : e.type = "stepwise" →
      List.Forall₂ (fun i r => GivesReading w (SensorInput.name i) r) e.inputs rs →
      Largest (fun x => x = lowest ∨ (x ∈ rs ∧ x ≠ nan)) v → LoopInput w e v

/-- A loop that asks for more when its input has been hotter: a stepwise loop with a rising table and without hysteresis, or a
PID with a proportional part and slew rates, or with proportional and integral part, whose coefficients face the heat. -/
inductive RisesWithHeat (e : ControllerInfo) : Prop
  | table {n : Nat} : e.type = "stepwise" → RisingTable e.stepwiseInfo n →
      e.stepwiseInfo.positiveHysteresis = 0 → e.stepwiseInfo.negativeHysteresis = 0 → RisesWithHeat e
  | slewing : IsPid e.type → Slewing e.pidInfo → FacesHeat e.type e.pidInfo.proportionalCoeff → Moderate e.setpoint →
      RisesWithHeat e
  | integrating : IsPid e.type → Integrating e.pidInfo → FacesHeat e.type e.pidInfo.proportionalCoeff →
      FacesHeat e.type e.pidInfo.integralCoeff → Moderate e.setpoint → RisesWithHeat e

/-- The input `v'` of a loop is hotter than `v`, or as hot. Only the loops `S` may have different inputs, and these have to be of
moderate size for PIDs. -/
inductive Warmer (S : ControllerInfo → Prop) (e : ControllerInfo) (v v' : Dbl) : Prop
  | hotter : S e → AsHot e.type v v' → (IsPid e.type → Moderate v ∧ Moderate v') → Warmer S e v v'
  | same : ¬ S e → v = v' → Warmer S e v v'

/-- The world `w'` is hotter for the loops of a zone than `w`: no input is cooler, and what fails in `w` fails in `w'`. Only the
loops `S` may have different inputs. -/
structure HotterAt (S : ControllerInfo → Prop) (conf : List Entry) (w w' : World) : Prop where
  inputs : ∀ e ∈ conf, IsHeat e → ∀ v v', LoopInput w e.2 v → LoopInput w' e.2 v' → Warmer S e.2 v v'
  thermals : ∀ e ∈ conf, IsHeat e → ∀ j ∈ e.2.inputs, FailsAt w w.nowThermals j.name → FailsAt w' w'.nowThermals j.name
  fans : ∀ e ∈ conf, IsFan e → ∀ j ∈ e.2.inputs, FailsAt w w.nowFans j.name → FailsAt w' w'.nowFans j.name

/-- Whenever the timer of zone `i` expires in the two runs, for the same time, the second world is hotter. -/
def HotterThroughout (S : ControllerInfo → Prop) (o : Opts) (i : Int) (conf : List Entry) (d d' : Daemon) (es es' : List DEvent) : Prop :=
  ∀ a b a' b' d1 d1', es = a ++ .tick i :: b → es' = a' ++ .tick i :: b' → orders i a = orders i a' →
    d.run o a = .ok d1 → d'.run o a' = .ok d1' → HotterAt S conf d1.w d1'.w

/-- In both runs every fan loop of the configuration commanded its fans, in order, and in the second one no smaller fraction
than in the first, as far as the loop can write any fan. -/
def FansFaster (conf : List Entry) (w1 w2 w1' w2' : World) : Prop :=
  ∃ (l l' : List (FanPid × Dbl)) (b b' : Bool),
    l.map (fun x => x.1.inputs) = (conf.filter IsFan).map (fun e => e.2.inputs.map SensorInput.name) ∧
    l'.map (fun x => x.1.inputs) = (conf.filter IsFan).map (fun e => e.2.inputs.map SensorInput.name) ∧
    Drives b w1 l w2 ∧ Drives b' w1' l' w2' ∧
    List.Forall₂ (fun x x' => (∃ m ∈ x.1.inputs, targetOf w1 m ≠ none) → (∃ m ∈ x'.1.inputs, targetOf w1' m ≠ none) →
      x.2 ≤ x'.2) l l'

/-- Reading `r'` of an input means more heat than `r`, or as much: less of a margin, more of anything else. -/
def HotterReading (type : String) (i : SensorInput) (r r' : Dbl) : Prop :=
  if type = "margin" ∧ i.convertTempToMargin = false then r' ≤ r else r ≤ r'

/-- Every sensor of a loop has finite readings, in `w'` a hotter one than in `w`, or as hot. Powers that are added up are not
negative, and margins are counted from a number. -/
structure HotterReadings (e : ControllerInfo) (w w' : World) : Prop where
  readings : ∀ i ∈ e.inputs, ∀ r r', GivesReading w i.name r → GivesReading w' i.name r' →
    r.isFinite = true ∧ r'.isFinite = true ∧ HotterReading e.type i r r'
  powers : e.type = "powersum" → ∀ i ∈ e.inputs, ∀ r, GivesReading w i.name r → 0 ≤ r
  margins : e.type = "margin" → ∀ i ∈ e.inputs, i.convertTempToMargin = true → i.convertMarginZero ≠ nan

/-- Every sensor of a loop reads the same in `w` and `w'`. -/
def SameReadings (e : ControllerInfo) (w w' : World) : Prop :=
  ∀ i ∈ e.inputs, ∀ r r', GivesReading w i.name r → GivesReading w' i.name r' → r = r'

/-- Fan `n` is listed by one fan loop only. -/
def OneLoop (conf : List Entry) (n : String) : Prop :=
  ((conf.filter IsFan).map (fun e => e.2.inputs.map SensorInput.name)).Pairwise (fun a b => n ∉ a ∨ n ∉ b)

end Verif
