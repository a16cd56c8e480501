import Verif.Props.Sensors

/-! # Messages that arrive while a D-Bus sensor is being created: C92 -/

namespace Verif
open Dbl
section
variable [F : FloatModel]

/-- The sensor object exists and listens, but the answers of the bus have not been stored yet. -/
inductive HeardEarly (o : Opts) (st : Setup) : Signals → Passive → Prop
  | start : HeardEarly o st [] (Passive.ctor st.type st.path st.hasRedundancy st.missing)
  | signal {h p p'} (t : Int) (m : PropMsg) : HeardEarly o st h p → handleSensorValue o p t m = .ok p' →
      HeardEarly o st (h ++ [(t, m)]) p'

/-- The sensor received the messages `early` before and `late` after the answers of the bus were stored. -/
inductive HeardBoth (o : Opts) (st : Setup) : Signals → Signals → Passive → Prop
  | create {early p} : HeardEarly o st early p → HeardBoth o st early [] (p.initFromSettings st.created st.props st.alarm)
  | signal {early late p p'} (t : Int) (m : PropMsg) : HeardBoth o st early late p → handleSensorValue o p t m = .ok p' →
      HeardBoth o st early (late ++ [(t, m)]) p'

/-- the members the messages never look at -/
def Passive.mark (p : Passive) (functional overridden : Bool) : Passive :=
  { p with
    functional := functional
    availableOverridden := overridden }

theorem updateValue_mark (p : Passive) (f v : Bool) (t : Int) (x : Dbl) (b : Bool) :
    (p.mark f v).updateValue t x b = (p.updateValue t x b).mark f v := by
  unfold Passive.updateValue
  by_cases h : (!x.isFinite && !b) = true
  · rw [if_pos h, if_pos h]; rfl
  · rw [if_neg h, if_neg h]; rfl

theorem handle_mark (o : Opts) (p : Passive) (f v : Bool) (t : Int) (m : PropMsg) :
    handleSensorValue o (p.mark f v) t m =
      (handleSensorValue o p t m).map (fun q => q.mark ((functionalIn m).getD f) (v || (availIn m).isSome)) := by
  by_cases h1 : m.iface = ifSensorValue
  · have e1 : functionalIn m = none := boolProp_other (by rw [h1]; decide)
    have e2 : availIn m = none := boolProp_other (by rw [h1]; decide)
    simp only [handleSensorValue, if_pos h1, e1, e2]
    cases m.props.find? "Value" with
    | none => simp [Except.map]
    | some x => simp [Except.map, updateValue_mark]
  by_cases h2 : m.iface = ifCritical
  · have e1 : functionalIn m = none := boolProp_other (by rw [h2]; decide)
    have e2 : availIn m = none := boolProp_other (by rw [h2]; decide)
    simp only [handleSensorValue, if_neg h1, if_pos h2, e1, e2]
    rcases m.props.find? "CriticalAlarmLow" with _ | (_ | _ | (_ | _)) <;>
      rcases m.props.find? "CriticalAlarmHigh" with _ | (_ | _ | _) <;>
      simp [Except.map, Variant.getBool, Passive.setFailed, Passive.mark, bind, Except.bind]
  by_cases h3 : (o.uncFailsafe && m.iface = ifWarning) = true
  · have h3' : m.iface = ifWarning := by simp at h3; exact h3.2
    have e1 : functionalIn m = none := boolProp_other (by rw [h3']; decide)
    have e2 : availIn m = none := boolProp_other (by rw [h3']; decide)
    simp only [handleSensorValue, if_neg h1, if_neg h2, if_pos h3, e1, e2]
    rcases m.props.find? "WarningAlarmHigh" with _ | (_ | _ | _) <;>
      simp [Except.map, Variant.getBool, Passive.setFailed, Passive.mark, bind, Except.bind]
  by_cases h4 : m.iface = ifAvailability
  · have e1 : functionalIn m = none := boolProp_other (by rw [h4]; decide)
    have e2 : availIn m = _ := boolProp_same h4
    simp only [handleSensorValue, if_neg h1, if_neg h2, if_neg h3, if_pos h4, e1]
    rw [e2]
    rcases m.props.find? "Available" with _ | (_ | _ | (_ | _)) <;>
      simp [Except.map, Variant.getBool, Passive.setAvailable, Passive.mark, bind, Except.bind, Passive.updateValue]
  by_cases h5 : m.iface = ifOperational
  · have e1 : functionalIn m = _ := boolProp_same h5
    have e2 : availIn m = none := boolProp_other (by rw [h5]; decide)
    simp only [handleSensorValue, if_neg h1, if_neg h2, if_neg h3, if_neg h4, if_pos h5, e2]
    rw [e1]
    rcases m.props.find? "Functional" with _ | (_ | _ | _) <;>
      simp [Except.map, Variant.getBool, Passive.setFunctional, Passive.mark, bind, Except.bind]
  have e1 : functionalIn m = none := boolProp_other h5
  have e2 : availIn m = none := boolProp_other h4
  simp only [handleSensorValue, if_neg h1, if_neg h2, if_neg h3, if_neg h4, if_neg h5, e1, e2]
  simp [Except.map]

/-- what early messages leave behind that survives the answers of the bus -/
structure EarlyInv (st : Setup) (h : Signals) (p : Passive) : Prop where
  margin : p.typeMargin = decide (st.type = "margin")
  fan : p.typeFan = decide (st.type = "fan")
  path : p.path = st.path
  red : p.hasRedundancy = st.hasRedundancy
  missing : p.objectMissing = st.missing
  hot : p.typeMargin = false → p.marginHot = false
  func : p.functional = lastOf (fun s => functionalIn s.2) true h
  avail : (if p.availableOverridden then p.available else st.props.available) =
    lastOf (fun s => availIn s.2) st.props.available h

theorem EarlyInv.value {st : Setup} {h : Signals} {p : Passive} (i : EarlyInv st h p) (t : Int) (x : Dbl) (b : Bool) :
    EarlyInv st h (p.updateValue t x b) := by
  unfold Passive.updateValue
  by_cases hv : (!x.isFinite && !b) = true
  · rw [if_pos hv]
    exact ⟨i.margin, i.fan, i.path, i.red, i.missing, i.hot, i.func, i.avail⟩
  · rw [if_neg hv]
    refine ⟨i.margin, i.fan, i.path, i.red, i.missing, fun hm => ?_, i.func, i.avail⟩
    have hm : p.typeMargin = false := hm
    simp [hm, i.hot hm]

theorem EarlyInv.skip {st : Setup} {h : Signals} {p : Passive} (i : EarlyInv st h p) {s : Int × PropMsg}
    (h2 : availIn s.2 = none) (h3 : functionalIn s.2 = none) : EarlyInv st (h ++ [s]) p := by
  refine ⟨i.margin, i.fan, i.path, i.red, i.missing, i.hot, ?_, ?_⟩
  · rw [lastOf_snoc, h3]; exact i.func
  · rw [lastOf_snoc, h2]; exact i.avail

theorem EarlyInv.failed {st : Setup} {h : Signals} {p : Passive} (i : EarlyInv st h p) (b : Bool) :
    EarlyInv st h (p.setFailed b) :=
  ⟨i.margin, i.fan, i.path, i.red, i.missing, i.hot, i.func, i.avail⟩

theorem EarlyInv.signal {o : Opts} {st : Setup} {h : Signals} {p p' : Passive} (i : EarlyInv st h p) {t : Int} {m : PropMsg}
    (hs : handleSensorValue o p t m = .ok p') : EarlyInv st (h ++ [(t, m)]) p' := by
  unfold handleSensorValue at hs
  by_cases h1 : m.iface = ifSensorValue
  · have e1 : functionalIn m = none := boolProp_other (by rw [h1]; decide)
    have e2 : availIn m = none := boolProp_other (by rw [h1]; decide)
    rw [if_pos h1] at hs
    cases hf : m.props.find? "Value" with
    | none => rw [hf] at hs; cases hs; exact i.skip e2 e1
    | some x => rw [hf] at hs; cases hs; exact (i.value _ _ _).skip e2 e1
  rw [if_neg h1] at hs
  by_cases h2 : m.iface = ifCritical
  · have e1 : functionalIn m = none := boolProp_other (by rw [h2]; decide)
    have e2 : availIn m = none := boolProp_other (by rw [h2]; decide)
    rw [if_pos h2] at hs
    refine EarlyInv.skip ?_ e2 e1
    rcases hf : m.props.find? "CriticalAlarmLow" with _ | (_ | _ | (_ | _)) <;>
      rcases hg : m.props.find? "CriticalAlarmHigh" with _ | (_ | _ | _) <;>
      rw [hf, hg] at hs <;> simp [Variant.getBool, bind, Except.bind] at hs <;> subst hs <;>
      first | exact i | exact i.failed _
  rw [if_neg h2] at hs
  by_cases h3 : (o.uncFailsafe && m.iface = ifWarning) = true
  · have h3' : m.iface = ifWarning := by simp at h3; exact h3.2
    have e1 : functionalIn m = none := boolProp_other (by rw [h3']; decide)
    have e2 : availIn m = none := boolProp_other (by rw [h3']; decide)
    rw [if_pos h3] at hs
    refine EarlyInv.skip ?_ e2 e1
    rcases hf : m.props.find? "WarningAlarmHigh" with _ | (_ | _ | _) <;>
      rw [hf] at hs <;> simp [Variant.getBool, bind, Except.bind] at hs <;> subst hs <;> first | exact i | exact i.failed _
  rw [if_neg h3] at hs
  by_cases h4 : m.iface = ifAvailability
  · have e1 : functionalIn m = none := boolProp_other (by rw [h4]; decide)
    have e2 : availIn m = _ := boolProp_same h4
    rw [if_pos h4] at hs
    have key : ∀ b, availIn m = some b → EarlyInv st (h ++ [(t, m)]) (p.setAvailable b) := by
      intro b hb
      refine ⟨i.margin, i.fan, i.path, i.red, i.missing, i.hot, ?_, ?_⟩
      · rw [lastOf_snoc, e1]; exact i.func
      · rw [lastOf_snoc, hb]; rfl
    rcases hf : m.props.find? "Available" with _ | (_ | _ | b) <;> rw [hf] at hs e2
    · cases hs; exact i.skip e2 e1
    · cases hs
    · cases hs
    · cases b
      · cases hs
        rw [if_neg (by decide)]
        exact (key false e2).value _ _ _
      · cases hs; exact key true e2
  rw [if_neg h4] at hs
  by_cases h5 : m.iface = ifOperational
  · have e1 : functionalIn m = _ := boolProp_same h5
    have e2 : availIn m = none := boolProp_other (by rw [h5]; decide)
    rw [if_pos h5] at hs
    rcases hf : m.props.find? "Functional" with _ | (_ | _ | b) <;> rw [hf] at hs e1
    · cases hs; exact i.skip e2 e1
    · cases hs
    · cases hs
    · cases hs
      refine ⟨i.margin, i.fan, i.path, i.red, i.missing, i.hot, ?_, ?_⟩
      · rw [lastOf_snoc, e1]; rfl
      · rw [lastOf_snoc, e2]; exact i.avail
  rw [if_neg h5] at hs
  cases hs
  exact i.skip (boolProp_other h4) (boolProp_other h5)

theorem HeardEarly.inv {o : Opts} {st : Setup} {h : Signals} {p : Passive} (hh : HeardEarly o st h p) : EarlyInv st h p := by
  induction hh with
  | start => exact ⟨rfl, rfl, rfl, rfl, rfl, fun _ => rfl, rfl, rfl⟩
  | signal t m _ hs ih => exact ih.signal hs

/-- the setup as if the bus had answered with the availability last signalled -/
def Setup.afterEarly (st : Setup) (early : Signals) : Setup :=
  { st with
    props := { st.props with available := lastOf (fun s => availIn s.2) st.props.available early } }

theorem EarlyInv.create {st : Setup} {h : Signals} {p : Passive} (i : EarlyInv st h p) :
    ∃ v, p.initFromSettings st.created st.props st.alarm =
      ((st.afterEarly h).sensor).mark (lastOf (fun s => functionalIn s.2) true h) v := by
  refine ⟨p.availableOverridden, ?_⟩
  have ha := i.avail
  have hf := i.func
  have hm := i.margin
  have hh := i.hot
  have h1 := i.fan
  have h2 := i.path
  have h3 := i.red
  have h4 := i.missing
  cases p with
  | mk tm tf path hr om sc va un ma mi fa fu av ao uaf br mh up =>
  simp only at *
  subst hf hm h1 h2 h3 h4
  simp only [Passive.initFromSettings, Setup.sensor, Setup.afterEarly, Passive.mark, Passive.updateValue,
    Passive.setAvailableFromProperty, Passive.ctor, Bool.not_true, Bool.and_false, Bool.false_eq_true, if_false]
  rw [← ha]
  by_cases hmg : st.type = "margin"
  · cases ao <;> simp only [hmg, decide_true, if_true, if_false, Bool.false_eq_true]
  · have := hh (decide_eq_false hmg)
    subst this
    cases ao <;> simp only [hmg, decide_false, if_true, if_false, Bool.false_eq_true] <;> rfl

theorem HeardBoth.split {o : Opts} {st : Setup} {early late : Signals} {p : Passive} (hh : HeardBoth o st early late p) :
    ∃ q v, Heard o (st.afterEarly early) late q ∧ p = q.mark (lastOf (fun s => functionalIn s.2) true (early ++ late)) v := by
  induction hh with
  | create he =>
    obtain ⟨v, hv⟩ := he.inv.create
    exact ⟨_, v, .start, by rw [hv, List.append_nil]⟩
  | @signal late p p' t m _ hs ih =>
    obtain ⟨q, v, h1, rfl⟩ := ih
    rw [handle_mark] at hs
    cases hq : handleSensorValue o q t m with
    | error e => rw [hq] at hs; cases hs
    | ok q' =>
      rw [hq] at hs
      cases hs
      refine ⟨q', v || (availIn m).isSome, h1.signal t m hq, ?_⟩
      rw [← List.append_assoc, lastOf_snoc]

/-- **C92.** Availability and operational status count from the first message on, even if it arrives before the answers of the
bus: the last message wins over the property. The reading and the alarm are those of the answer and of the messages after
it. -/
theorem C92_decision {o : Opts} {st : Setup} {early late : Signals} {p : Passive} (hh : HeardBoth o st early late p)
    (redundant : List String) :
    p.getFailed redundant = true ↔ ((st.hasRedundancy = true ∧ st.path ∈ redundant) ∨ st.missing = true ∨
      (¬ st.Excused (early ++ late) ∧
        (st.Bad late ∨ st.Hot late ∨ st.Alarm o late ∨ st.Unavailable (early ++ late) ∨ st.Broken (early ++ late)))) := by
  obtain ⟨q, v, h1, rfl⟩ := hh.split
  have i := heard_tracks h1
  have b1 : q.badReading = true ↔ st.Bad late := by rw [i.bad]; simp [Setup.Bad, Setup.afterEarly]
  have b2 : q.failed = true ↔ st.Alarm o late := by rw [i.alarm]; rfl
  have b3 : q.available = false ↔ st.Unavailable (early ++ late) := by rw [i.avail, Setup.Unavailable, lastOf_append]; rfl
  have b5 : (q.typeFan = false ∧ q.available = false ∧ q.unavailableAsFailed = false) ↔ st.Excused (early ++ late) := by
    rw [Setup.Excused, ← b3, i.fan, i.uaf, decide_eq_false_iff_not]; rfl
  have b6 : q.marginHot = true ↔ st.Hot late := i.hot
  rw [← b1, ← b2, ← b3, ← b5, ← b6, show st.hasRedundancy = q.hasRedundancy from i.red.symm,
    show st.path = q.path from i.path.symm, show st.missing = q.objectMissing from i.missing.symm, Setup.Broken]
  unfold Passive.getFailed Passive.mark
  have hc : (q.hasRedundancy && redundant.contains q.path) = true ↔ (q.hasRedundancy = true ∧ q.path ∈ redundant) := by
    simp
  rw [← hc]
  dsimp only
  generalize (q.hasRedundancy && redundant.contains q.path) = r
  generalize lastOf (fun s : Int × PropMsg => functionalIn s.2) true (early ++ late) = g
  cases r <;> cases q.objectMissing <;> cases q.typeFan <;> cases q.available <;> cases q.unavailableAsFailed <;>
    cases q.badReading <;> cases q.marginHot <;> cases q.failed <;> cases g <;> simp

/-- **C92**, the reading -/
theorem C92_reading {o : Opts} {st : Setup} {early late : Signals} {p : Passive} (hh : HeardBoth o st early late p) :
    p.read = ⟨scaleSensorReading (st.props.min * Dbl.pow10 st.props.scale) (st.props.max * Dbl.pow10 st.props.scale)
        ((st.reading late).2 * Dbl.pow10 st.props.scale), (st.reading late).1, (st.reading late).2 * Dbl.pow10 st.props.scale⟩ := by
  obtain ⟨q, v, h1, rfl⟩ := hh.split
  have i := heard_tracks h1
  show (⟨q.value, q.updated, q.unscaled⟩ : ReadReturn) = _
  rw [i.value, i.updated, i.unscaled, i.min, i.max]
  rfl

/-- nothing early: the sensor of C48 to C52 -/
theorem C92_nothing_early {o : Opts} {st : Setup} {late : Signals} {p : Passive} :
    HeardBoth o st [] late p ↔ Heard o st late p := by
  constructor
  · intro h
    generalize he : ([] : Signals) = early at h
    induction h with
    | create he' =>
      cases he' with
      | start => exact .start
      | signal => simp at he
    | signal t m _ hs ih => exact ih.signal t m hs
  · intro h
    induction h with
    | start => exact .create .start
    | signal t m _ hs ih => exact ih.signal t m hs

end

section
attribute [local instance] binary64

theorem hearAll_early {o : Opts} {st : Setup} : ∀ {h : Signals} {h0 : Signals} {p p' : Passive}, HeardEarly o st h0 p →
    hearAll o p h = .ok p' → HeardEarly o st (h0 ++ h) p'
  | [], h0, p, p', hh, hr => by cases hr; simpa using hh
  | (t, m) :: h, h0, p, p', hh, hr => by
    obtain ⟨q, h1, hr⟩ := bind_eq_ok.1 hr
    have := hearAll_early (hh.signal t m h1) hr
    simpa using this

theorem early_of_any {o : Opts} {st : Setup} {h : Signals} {P : Passive → Bool}
    (hr : (hearAll { uncFailsafe := o.uncFailsafe } (Passive.ctor st.type st.path st.hasRedundancy st.missing) h).toOption.any
      (fun p => P (p.initFromSettings st.created st.props st.alarm)) = true) :
    ∃ p, HeardBoth o st h [] p ∧ P p = true := by
  rw [← hearAll_opts] at hr
  obtain ⟨p, h1, h2⟩ := Ex.ok_of_any hr
  exact ⟨_, .create (by simpa using hearAll_early .start h1), h2⟩

def earlySetup : Setup :=
  { exSetup with
    props := { exSetup.props with unavailableAsFailed := true } }

/-- C92: the bus answers "available", but a message in between said "not available" -/
example (o : Opts) : ∃ p, HeardBoth o earlySetup [(50, mAvail false)] [] p ∧ p.getFailed [] = true ∧
    p.getFailReason = "Sensor unavailable" ∧ p.read.value = 40 := by
  obtain ⟨p, h1, h2⟩ := early_of_any (o := o) (st := earlySetup) (h := [(50, mAvail false)])
    (P := fun p => decide (p.getFailed [] = true ∧ p.getFailReason = "Sensor unavailable" ∧ p.read.value = 40))
    (by cases o.uncFailsafe <;> decide +kernel)
  exact ⟨p, h1, of_decide_eq_true h2⟩

/-- **C92: alarms and values signalled early are forgotten.** A critical alarm and a value signalled before the answers of the
bus are stored have no effect: the sensor is good and shows the older value. -/
theorem C92_alarm_overwritten (o : Opts) : ∃ p, HeardBoth o exSetup [(50, mHigh true), (60, mValue 99)] [] p ∧
    p.getFailed [] = false ∧ p.read.value = 40 := by
  obtain ⟨p, h1, h2⟩ := early_of_any (o := o) (st := exSetup) (h := [(50, mHigh true), (60, mValue 99)])
    (P := fun p => decide (p.getFailed [] = false ∧ p.read.value = 40)) (by cases o.uncFailsafe <;> decide +kernel)
  exact ⟨p, h1, of_decide_eq_true h2⟩

end
end Verif
