import Verif.Spec.Demand

/-! # Specification of the input of a loop and of heat that lasts -/

namespace Verif
variable [F : FloatModel]
open Dbl

/-- The types of loops that compute a PID over their inputs. -/
def IsPid (type : String) : Prop := type = "temp" ∨ type = "power" ∨ type = "margin" ∨ type = "powersum"

/-- What counts of the readings of the inputs of a loop: NaN and infinite readings do not; a converted input of a margin loop
counts with its distance to Tjmax, every other input with its reading. -/
def counted (type : String) : List SensorInput → List Dbl → List Dbl
  | i :: is, r :: rs =>
    if r.isFinite then (if type = "margin" ∧ i.convertTempToMargin = true then i.convertMarginZero - r else r) :: counted type is rs
    else counted type is rs
  | _, _ => []

/-- The input of a loop over the counted values: the set point if nothing counts, otherwise the largest value for temperatures
and powers, the smallest for margins (the largest finite number if all margins overflow), and the sum for sums of powers. -/
inductive InputOver (type : String) (setpoint : Dbl) : List Dbl → Dbl → Prop
  | nothing : InputOver type setpoint [] setpoint
  | largest {l : List Dbl} {v : Dbl} : type = "temp" ∨ type = "power" → v ∈ l → (∀ u ∈ l, u ≤ v) → InputOver type setpoint l v
  | smallest {l : List Dbl} {v : Dbl} : type = "margin" → l ≠ [] → v ∈ dblMax :: l → (∀ u ∈ dblMax :: l, v ≤ u) →
      InputOver type setpoint l v
  | sum {l : List Dbl} : type = "powersum" → l ≠ [] → InputOver type setpoint l (l.foldl (· + ·) 0)

/-- Sensor `n` reads `r`. -/
def GivesReading (w : World) (n : String) (r : Dbl) : Prop :=
  ∃ s rr, w.sensors.find? n = some s ∧ s.read w w.nowThermals = .ok rr ∧ rr.value = r

/-- The loop sees the input `v`. -/
def Sees (w : World) (e : ControllerInfo) (v : Dbl) : Prop :=
  ∃ rs, List.Forall₂ (fun i r => GivesReading w (SensorInput.name i) r) e.inputs rs ∧
    InputOver e.type e.setpoint (counted e.type e.inputs rs) v

/-- `v` means as much heat as `x` or more: margins shrink, everything else grows. -/
def AsHot (type : String) (x v : Dbl) : Prop := if type = "margin" then v ≤ x else x ≤ v

/-- A coefficient with which more heat means a larger output. -/
def FacesHeat (type : String) (k : Dbl) : Prop := if type = "margin" then 0 ≤ k else k ≤ 0

/-- While the events happen, and after them, the input of the loop is of moderate size. -/
def ModerateInput (o : Opts) (e : ControllerInfo) (d : Daemon) (es : List DEvent) : Prop :=
  ∀ es1 es2 d1, es = es1 ++ es2 → d.run o es1 = .ok d1 → ∀ v, Sees d1.w e v → Moderate v

/-- Whenever the timer of zone `i` expires while the events happen, the input of the loop is at least as hot as `x`. -/
def HotInput (o : Opts) (i : Int) (e : ControllerInfo) (x : Dbl) (d : Daemon) (es : List DEvent) : Prop :=
  ∀ es1 es2 d1, es = es1 ++ .tick i :: es2 → d.run o es1 = .ok d1 → ∀ v, Sees d1.w e v → AsHot e.type x v

/-- `n` millionths, more precisely `n` times 2^-20 -/
def millionths (n : Int) : Dbl := ofRat (n / 2 ^ 20)

end Verif
