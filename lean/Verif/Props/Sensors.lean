import Verif.Spec.Sensors
import Verif.Lemmas.OMap
import Verif.Lemmas.Num
import Verif.Lemmas.Fold
import Verif.Spec.Example
import Verif.Base.Binary64

/-! # D-Bus sensors: C48 to C53 -/

namespace Verif
open Dbl
section
variable [F : FloatModel]

theorem lastOf_nil {α : Type} (f : Int × PropMsg → Option α) (init : α) : lastOf f init [] = init := rfl

theorem lastOf_snoc {α : Type} (f : Int × PropMsg → Option α) (init : α) (h : Signals) (s : Int × PropMsg) :
    lastOf f init (h ++ [s]) = (f s).getD (lastOf f init h) := by
  simp [lastOf]

theorem lastOf_append {α : Type} (f : Int × PropMsg → Option α) (init : α) (h h' : Signals) :
    lastOf f init (h ++ h') = lastOf f (lastOf f init h) h' := by
  simp [lastOf]

theorem lastOf_none {α : Type} {f : Int × PropMsg → Option α} {init : α} : ∀ {h : Signals}, (∀ s ∈ h, f s = none) →
    lastOf f init h = init
  | [], _ => rfl
  | s :: h, hn => by
    have : lastOf f init (s :: h) = lastOf f ((f s).getD init) h := rfl
    rw [this, hn s List.mem_cons_self]
    exact lastOf_none (fun x hx => hn x (List.mem_cons_of_mem _ hx))

/-- the parts of a sensor that never change -/
structure Fixed (st : Setup) (p : Passive) : Prop where
  margin : p.typeMargin = decide (st.type = "margin")
  fan : p.typeFan = decide (st.type = "fan")
  path : p.path = st.path
  red : p.hasRedundancy = st.hasRedundancy
  missing : p.objectMissing = st.missing
  scale : p.scale = st.props.scale
  min : p.min = st.props.min * Dbl.pow10 st.props.scale
  max : p.max = st.props.max * Dbl.pow10 st.props.scale
  uaf : p.unavailableAsFailed = st.props.unavailableAsFailed

/-- the conditions of a sensor, as functions of the messages -/
structure Tracks (o : Opts) (st : Setup) (h : Signals) (p : Passive) : Prop extends Fixed st p where
  value : p.value = scaleSensorReading p.min p.max ((st.reading h).2 * Dbl.pow10 st.props.scale)
  unscaled : p.unscaled = (st.reading h).2 * Dbl.pow10 st.props.scale
  updated : p.updated = (st.reading h).1
  bad : p.badReading = !(lastOf seenIn st.props.value h).isFinite
  hot : p.marginHot = true ↔ st.Hot h
  alarm : p.failed = lastOf (alarmIn o) st.alarm h
  avail : p.available = lastOf (fun s => availIn s.2) st.props.available h
  func : p.functional = lastOf (fun s => functionalIn s.2) true h

theorem tracks_start (o : Opts) (st : Setup) : Tracks o st [] st.sensor := by
  have e : st.sensor = ((({ Passive.ctor st.type st.path st.hasRedundancy st.missing with
      failed := st.alarm, scale := st.props.scale, min := st.props.min * Dbl.pow10 st.props.scale,
      max := st.props.max * Dbl.pow10 st.props.scale, unavailableAsFailed := st.props.unavailableAsFailed,
      available := st.props.available } : Passive)).updateValue st.created st.props.value true) := rfl
  rw [e]
  unfold Passive.updateValue
  simp only [Bool.not_true, Bool.and_false, Bool.false_eq_true, if_false]
  refine ⟨⟨rfl, rfl, rfl, rfl, rfl, rfl, rfl, rfl, rfl⟩, rfl, rfl, rfl, rfl, ?_, rfl, rfl, rfl⟩
  simp only [Passive.ctor, Setup.Hot, Setup.reading, lastOf_nil]
  by_cases hm : st.type = "margin" <;> simp [hm]

theorem boolProp_other {iface name : String} {m : PropMsg} (h : m.iface ≠ iface) : boolProp iface name m = none := by
  rw [boolProp, if_neg h]

theorem boolProp_same {iface name : String} {m : PropMsg} (h : m.iface = iface) :
    boolProp iface name m = match m.props.find? name with | some (.bool b) => some b | _ => none := by
  rw [boolProp, if_pos h]
  rcases m.props.find? name with _ | (_ | _ | _) <;> rfl

theorem getBool_ok {v : Variant} {b : Bool} (h : v.getBool = .ok b) : v = .bool b := by
  cases v with
  | bool b' => cases h; rfl
  | _ => cases h

/-- a message that says nothing changes nothing -/
theorem Tracks.skip {o : Opts} {st : Setup} {h : Signals} {p : Passive} (i : Tracks o st h p) {s : Int × PropMsg}
    (h1 : valueIn s.2 = none) (h2 : availIn s.2 = none) (h3 : functionalIn s.2 = none) (h4 : alarmIn o s = none) :
    Tracks o st (h ++ [s]) p := by
  have e1 : st.reading (h ++ [s]) = st.reading h := by
    simp [Setup.reading, lastOf_snoc, readingIn, h1, h2]
  refine ⟨i.toFixed, ?_, ?_, ?_, ?_, ?_, ?_, ?_, ?_⟩
  · rw [e1]; exact i.value
  · rw [e1]; exact i.unscaled
  · rw [e1]; exact i.updated
  · rw [lastOf_snoc]; simp only [seenIn, h1, h2]; exact i.bad
  · simp only [Setup.Hot, e1]; exact i.hot
  · rw [lastOf_snoc, h4]; exact i.alarm
  · rw [lastOf_snoc, h2]; exact i.avail
  · rw [lastOf_snoc, h3]; exact i.func

theorem Tracks.setValue {o : Opts} {st : Setup} {h : Signals} {p : Passive} (i : Tracks o st h p) {s : Int × PropMsg}
    {v : Dbl} (hr : readingIn s = some (s.1, v)) (hs : seenIn s = some v)
    (h2 : (availIn s.2).getD p.available = p.available)
    (h3 : functionalIn s.2 = none) (h4 : alarmIn o s = none) :
    Tracks o st (h ++ [s]) (p.updateValue s.1 v true) := by
  have e1 : st.reading (h ++ [s]) = (s.1, v) := by
    simp [Setup.reading, lastOf_snoc, hr]
  unfold Passive.updateValue
  simp only [Bool.not_true, Bool.and_false, Bool.false_eq_true, if_false, i.scale]
  refine ⟨⟨i.margin, i.fan, i.path, i.red, i.missing, rfl, i.min, i.max, i.uaf⟩, ?_, ?_, ?_, ?_, ?_, ?_, ?_, ?_⟩
  · rw [e1]
  · rw [e1]
  · rw [e1]
  · rw [lastOf_snoc, hs]; rfl
  · simp only [Setup.Hot, e1, i.margin]
    by_cases hm : st.type = "margin"
    · simp [hm]
    · have := i.hot
      simp only [Setup.Hot, hm, false_and, iff_false] at this
      simp [hm, this]
  · rw [lastOf_snoc, h4]; exact i.alarm
  · rw [lastOf_snoc, ← i.avail]; exact h2.symm
  · rw [lastOf_snoc, h3]; exact i.func

theorem tracks_signal {o : Opts} {st : Setup} {h : Signals} {p p' : Passive} (i : Tracks o st h p) {t : Int} {m : PropMsg}
    (hs : handleSensorValue o p t m = .ok p') : Tracks o st (h ++ [(t, m)]) p' := by
  unfold handleSensorValue at hs
  by_cases i1 : m.iface = ifSensorValue
  · have a2 : availIn m = none := boolProp_other (by rw [i1]; decide)
    have a3 : functionalIn m = none := boolProp_other (by rw [i1]; decide)
    have a4 : critLowIn m = none := boolProp_other (by rw [i1]; decide)
    have a5 : critHighIn m = none := boolProp_other (by rw [i1]; decide)
    have a6 : warnHighIn m = none := boolProp_other (by rw [i1]; decide)
    have a7 : alarmIn o (t, m) = none := by simp [alarmIn, a4, a5, a6]
    rw [if_pos i1] at hs
    have hv : valueIn m = (m.props.find? "Value").map Variant.toDbl := if_pos i1
    cases hf : m.props.find? "Value" with
    | none =>
      rw [hf] at hs hv
      cases hs
      exact i.skip hv a2 a3 a7
    | some v =>
      rw [hf] at hs hv
      simp only at hs
      cases hs
      simp only [Option.map_some] at hv
      by_cases hfin : v.toDbl.isFinite = true
      · have : p.updateValue t v.toDbl false = p.updateValue t v.toDbl true := by
          simp [Passive.updateValue, hfin]
        rw [this]
        exact i.setValue (s := (t, m)) (by simp [readingIn, hv, hfin]) (by simp [seenIn, hv]) (by simp [a2]) a3 a7
      · have hfin' : v.toDbl.isFinite = false := by simpa using hfin
        have : p.updateValue t v.toDbl false = { p with badReading := true } := by
          simp [Passive.updateValue, hfin']
        rw [this]
        have e1 : st.reading (h ++ [(t, m)]) = st.reading h := by
          simp [Setup.reading, lastOf_snoc, readingIn, hv, hfin']
        refine ⟨⟨i.margin, i.fan, i.path, i.red, i.missing, i.scale, i.min, i.max, i.uaf⟩, ?_, ?_, ?_, ?_, ?_, ?_, ?_, ?_⟩
        · rw [e1]; exact i.value
        · rw [e1]; exact i.unscaled
        · rw [e1]; exact i.updated
        · rw [lastOf_snoc]; simp [seenIn, hv, hfin']
        · simp only [Setup.Hot, e1]; exact i.hot
        · rw [lastOf_snoc, a7]; exact i.alarm
        · rw [lastOf_snoc, a2]; exact i.avail
        · rw [lastOf_snoc, a3]; exact i.func
  rw [if_neg i1] at hs
  have v0 : valueIn m = none := if_neg i1
  by_cases i2 : m.iface = ifCritical
  · have a2 : availIn m = none := boolProp_other (by rw [i2]; decide)
    have a3 : functionalIn m = none := boolProp_other (by rw [i2]; decide)
    have a6 : warnHighIn m = none := boolProp_other (by rw [i2]; decide)
    rw [if_pos i2] at hs
    have a4 : critLowIn m = match m.props.find? "CriticalAlarmLow" with | some (.bool b) => some b | _ => none := 
      boolProp_same i2
    have a5 : critHighIn m = match m.props.find? "CriticalAlarmHigh" with | some (.bool b) => some b | _ => none := 
      boolProp_same i2
    have done : ∀ b, p' = p.setFailed b → alarmIn o (t, m) = some b → Tracks o st (h ++ [(t, m)]) p' := by
      rintro b rfl hb
      have e1 : st.reading (h ++ [(t, m)]) = st.reading h := by
        simp [Setup.reading, lastOf_snoc, readingIn, v0, a2]
      refine ⟨⟨i.margin, i.fan, i.path, i.red, i.missing, i.scale, i.min, i.max, i.uaf⟩, ?_, ?_, ?_, ?_, ?_, ?_, ?_, ?_⟩
      · rw [e1]; exact i.value
      · rw [e1]; exact i.unscaled
      · rw [e1]; exact i.updated
      · rw [lastOf_snoc]; simp only [seenIn, v0, a2]; exact i.bad
      · simp only [Setup.Hot, e1]; exact i.hot
      · rw [lastOf_snoc, hb]; rfl
      · rw [lastOf_snoc, a2]; exact i.avail
      · rw [lastOf_snoc, a3]; exact i.func
    rcases hl : m.props.find? "CriticalAlarmLow" with _ | (_ | _ | bl) <;>
      rcases hh : m.props.find? "CriticalAlarmHigh" with _ | (_ | _ | bh) <;>
      simp only [hl, hh] at hs a4 a5 <;> try (cases hs; done)
    · cases hs
      exact i.skip v0 a2 a3 (by simp [alarmIn, a4, a5, a6])
    · cases hs
      exact done bh rfl (by cases bh <;> simp [alarmIn, a4, a5])
    · cases bl <;> cases hs <;> exact done _ rfl (by simp [alarmIn, a4, a5])
    · cases bl <;> cases hs; exact done _ rfl (by simp [alarmIn, a4, a5])
    · cases bl <;> cases hs; exact done _ rfl (by simp [alarmIn, a4, a5])
    · cases bl <;> cases bh <;> cases hs <;> exact done _ rfl (by simp [alarmIn, a4, a5])
  rw [if_neg i2] at hs
  have c1 : critLowIn m = none := boolProp_other i2
  have c2 : critHighIn m = none := boolProp_other i2
  by_cases i3 : (o.uncFailsafe && m.iface = ifWarning) = true
  · rw [if_pos i3] at hs
    simp only [Bool.and_eq_true, decide_eq_true_eq] at i3
    have a2 : availIn m = none := boolProp_other (by rw [i3.2]; decide)
    have a3 : functionalIn m = none := boolProp_other (by rw [i3.2]; decide)
    have a6 : warnHighIn m = match m.props.find? "WarningAlarmHigh" with | some (.bool b) => some b | _ => none := 
      boolProp_same i3.2
    cases hf : m.props.find? "WarningAlarmHigh" with
    | none =>
      rw [hf] at hs a6
      cases hs
      exact i.skip v0 a2 a3 (by simp [alarmIn, c1, c2, a6])
    | some v =>
      rw [hf] at hs a6
      simp only at hs
      obtain ⟨b, h1, hs⟩ := bind_eq_ok.1 hs
      cases hs
      rw [getBool_ok h1] at a6
      simp only at a6
      have hb : alarmIn o (t, m) = some b := by simp [alarmIn, c1, c2, a6, i3.1]
      have e1 : st.reading (h ++ [(t, m)]) = st.reading h := by
        simp [Setup.reading, lastOf_snoc, readingIn, v0, a2]
      refine ⟨⟨i.margin, i.fan, i.path, i.red, i.missing, i.scale, i.min, i.max, i.uaf⟩, ?_, ?_, ?_, ?_, ?_, ?_, ?_, ?_⟩
      · rw [e1]; exact i.value
      · rw [e1]; exact i.unscaled
      · rw [e1]; exact i.updated
      · rw [lastOf_snoc]; simp only [seenIn, v0, a2]; exact i.bad
      · simp only [Setup.Hot, e1]; exact i.hot
      · rw [lastOf_snoc, hb]; rfl
      · rw [lastOf_snoc, a2]; exact i.avail
      · rw [lastOf_snoc, a3]; exact i.func
  rw [if_neg i3] at hs
  have a7 : alarmIn o (t, m) = none := by
    simp only [alarmIn, c1, c2]
    by_cases hu : o.uncFailsafe = true
    · rw [if_pos hu]
      exact boolProp_other (fun e => i3 (by simp [hu]; exact e))
    · rw [if_neg hu]
  by_cases i4 : m.iface = ifAvailability
  · rw [if_pos i4] at hs
    have a3 : functionalIn m = none := boolProp_other (by rw [i4]; decide)
    have a2 : availIn m = match m.props.find? "Available" with | some (.bool b) => some b | _ => none := 
      boolProp_same i4
    cases hf : m.props.find? "Available" with
    | none =>
      rw [hf] at hs a2
      cases hs
      exact i.skip v0 a2 a3 a7
    | some v =>
      rw [hf] at hs a2
      simp only at hs
      obtain ⟨b, h1, hs⟩ := bind_eq_ok.1 hs
      rw [getBool_ok h1] at a2
      simp only at a2
      cases b with
      | true =>
        simp only [if_true] at hs
        cases hs
        have e1 : st.reading (h ++ [(t, m)]) = st.reading h := by
          simp [Setup.reading, lastOf_snoc, readingIn, v0, a2]
        refine ⟨⟨i.margin, i.fan, i.path, i.red, i.missing, i.scale, i.min, i.max, i.uaf⟩, ?_, ?_, ?_, ?_, ?_, ?_, ?_, ?_⟩
        · rw [e1]; exact i.value
        · rw [e1]; exact i.unscaled
        · rw [e1]; exact i.updated
        · rw [lastOf_snoc]; simp only [seenIn, v0, a2]; exact i.bad
        · simp only [Setup.Hot, e1]; exact i.hot
        · rw [lastOf_snoc, a7]; exact i.alarm
        · rw [lastOf_snoc, a2]; rfl
        · rw [lastOf_snoc, a3]; exact i.func
      | false =>
        simp only [Bool.false_eq_true, if_false] at hs
        cases hs
        have e1 : st.reading (h ++ [(t, m)]) = (t, nan) := by
          simp [Setup.reading, lastOf_snoc, readingIn, v0, a2]
        unfold Passive.updateValue Passive.setAvailable
        simp only [Bool.not_true, Bool.and_false, Bool.false_eq_true, if_false, i.scale]
        refine ⟨⟨i.margin, i.fan, i.path, i.red, i.missing, rfl, i.min, i.max, i.uaf⟩, ?_, ?_, ?_, ?_, ?_, ?_, ?_, ?_⟩
        · rw [e1]
        · rw [e1]
        · rw [e1]
        · rw [lastOf_snoc]; simp [seenIn, v0, a2]
        · simp only [Setup.Hot, e1, i.margin]
          by_cases hm : st.type = "margin"
          · simp [hm]
          · have := i.hot
            simp only [Setup.Hot, hm, false_and, iff_false] at this
            simp [hm, this]
        · rw [lastOf_snoc, a7]; exact i.alarm
        · rw [lastOf_snoc, a2]; rfl
        · rw [lastOf_snoc, a3]; exact i.func
  rw [if_neg i4] at hs
  have a2 : availIn m = none := boolProp_other i4
  by_cases i5 : m.iface = ifOperational
  · rw [if_pos i5] at hs
    have a3 : functionalIn m = match m.props.find? "Functional" with | some (.bool b) => some b | _ => none := 
      boolProp_same i5
    cases hf : m.props.find? "Functional" with
    | none =>
      rw [hf] at hs a3
      cases hs
      exact i.skip v0 a2 a3 a7
    | some v =>
      rw [hf] at hs a3
      simp only at hs
      obtain ⟨b, h1, hs⟩ := bind_eq_ok.1 hs
      cases hs
      rw [getBool_ok h1] at a3
      simp only at a3
      have e1 : st.reading (h ++ [(t, m)]) = st.reading h := by
        simp [Setup.reading, lastOf_snoc, readingIn, v0, a2]
      refine ⟨⟨i.margin, i.fan, i.path, i.red, i.missing, i.scale, i.min, i.max, i.uaf⟩, ?_, ?_, ?_, ?_, ?_, ?_, ?_, ?_⟩
      · rw [e1]; exact i.value
      · rw [e1]; exact i.unscaled
      · rw [e1]; exact i.updated
      · rw [lastOf_snoc]; simp only [seenIn, v0, a2]; exact i.bad
      · simp only [Setup.Hot, e1]; exact i.hot
      · rw [lastOf_snoc, a7]; exact i.alarm
      · rw [lastOf_snoc, a2]; exact i.avail
      · rw [lastOf_snoc, a3]; rfl
  rw [if_neg i5] at hs
  cases hs
  exact i.skip v0 a2 (boolProp_other i5) a7

theorem heard_tracks {o : Opts} {st : Setup} {h : Signals} {p : Passive} (hh : Heard o st h p) : Tracks o st h p := by
  induction hh with
  | start => exact tracks_start o st
  | signal t m _ hs ih => exact tracks_signal ih hs

/-- every sensor the daemon creates starts from some setup -/
theorem created_setup {o : Opts} {now : Int} {type id readPath : String} {ign uaf red : Bool} {a : PassiveAnswers}
    {p : Passive} (h : createDbusPassive o now type id readPath ign uaf red a = some p) :
    ∃ st : Setup, p = st.sensor ∧ st.type = type ∧ st.hasRedundancy = red ∧ st.created = now ∧
      st.path = (if readPath = "" then getSensorPath type id else readPath) ∧
      (st.missing = true → a.service = false ∧ st.props.unavailableAsFailed = true) ∧
      (st.missing = false → st.props.unavailableAsFailed = uaf ∧ ∃ s f, a.props = some (s, f) ∧ st.alarm = f ∧
        st.props.value = s.value ∧ st.props.scale = s.scale ∧ st.props.available = s.available ∧
        (if ign then st.props.min = 0 ∧ st.props.max = 0 else st.props.min = s.min ∧ st.props.max = s.max)) := by
  unfold createDbusPassive at h
  by_cases h1 : (!validType type) = true
  · rw [if_pos h1] at h; cases h
  rw [if_neg h1] at h
  generalize hpath : (if readPath = "" then getSensorPath type id else readPath) = path at h ⊢
  by_cases h2 : (!a.service) = true
  · rw [if_pos h2] at h
    by_cases h3 : (!o.handleMissingObjectPaths) = true
    · rw [if_pos h3] at h; cases h
    · rw [if_neg h3] at h
      cases h
      exact ⟨⟨type, path, red, true, _, true, now⟩, rfl, rfl, rfl, rfl, rfl, fun _ => ⟨by simpa using h2, rfl⟩,
        fun e => by cases e⟩
  · rw [if_neg h2] at h
    cases hp : a.props with
    | none => rw [hp] at h; cases h
    | some sf =>
      rw [hp] at h
      obtain ⟨s, f⟩ := sf
      cases h
      refine ⟨⟨type, path, red, false, _, f, now⟩, rfl, rfl, rfl, rfl, rfl, fun e => (by cases e),
        fun _ => ⟨rfl, s, f, rfl, rfl, ?_⟩⟩
      cases ign <;> simp

/-! ## C48 -/

/-- **C48.** After any messages the sensor's reading is the latest finite value (NaN if availability was lost after it,
the initial value if there was none), scaled, with its arrival time. -/
theorem C48_reading {o : Opts} {st : Setup} {h : Signals} {p : Passive} (hh : Heard o st h p) :
    let (t, v) := lastOf readingIn (st.created, st.props.value) h
    let x := v * Dbl.pow10 st.props.scale
    p.read.updated = t ∧ p.read.unscaled = x ∧
      p.read.value = scaleSensorReading (st.props.min * Dbl.pow10 st.props.scale) (st.props.max * Dbl.pow10 st.props.scale) x := by
  have i := heard_tracks hh
  refine ⟨i.updated, i.unscaled, ?_⟩
  rw [← i.min, ← i.max]
  exact i.value

theorem reading_append {st : Setup} {h₁ h₂ : Signals} {s : Int × PropMsg} {r : Int × Dbl} (hr : readingIn s = some r)
    (h : ∀ s' ∈ h₂, readingIn s' = none) : st.reading (h₁ ++ s :: h₂) = r := by
  have : h₁ ++ s :: h₂ = (h₁ ++ [s]) ++ h₂ := by simp
  rw [Setup.reading, this, lastOf_append, lastOf_none h, lastOf_snoc, hr]
  rfl

/-- **C48.** Messages after the last finite value that carry no finite value and no loss of availability leave the
reading as that value made it. -/
theorem C48_last_finite {o : Opts} {st : Setup} {h₁ h₂ : Signals} {t : Int} {m : PropMsg} {v : Dbl} {p : Passive}
    (hh : Heard o st (h₁ ++ (t, m) :: h₂) p) (hv : valueIn m = some v) (hf : v.isFinite = true)
    (h : ∀ s ∈ h₂, (∀ w, valueIn s.2 = some w → w.isFinite = false) ∧ availIn s.2 ≠ some false) :
    p.read.updated = t ∧ p.read.unscaled = v * Dbl.pow10 st.props.scale := by
  have i := heard_tracks hh
  have e : st.reading (h₁ ++ (t, m) :: h₂) = (t, v) := by
    refine reading_append (by simp [readingIn, hv, hf]) (fun s hs => ?_)
    obtain ⟨a, b⟩ := h s hs
    unfold readingIn
    cases hw : valueIn s.2 with
    | none => simp [b]
    | some w => simp [a w hw]
  refine ⟨?_, ?_⟩
  · have := i.updated; rw [e] at this; exact this
  · have := i.unscaled; rw [e] at this; exact this

/-- **C48.** A message with a value that is not finite only marks the sensor bad. -/
theorem C48_bad_only {o : Opts} {p p' : Passive} {t : Int} {m : PropMsg} {v : Dbl}
    (hs : handleSensorValue o p t m = .ok p') (hv : valueIn m = some v) (hf : v.isFinite = false) :
    p' = { p with badReading := true } := by
  unfold valueIn at hv
  split_ifs at hv with hi
  have hi' : m.iface = ifSensorValue := hi
  unfold handleSensorValue at hs
  rw [if_pos hi'] at hs
  cases hp : m.props.find? "Value" with
  | none => rw [hp] at hv; cases hv
  | some x =>
    rw [hp] at hs hv
    cases hv
    cases hs
    simp [Passive.updateValue, hf]

/-- **C48.** After a loss of availability the reading is NaN until a finite value arrives. -/
theorem C48_unavailable {o : Opts} {st : Setup} {h₁ h₂ : Signals} {t : Int} {m : PropMsg} {p : Passive}
    (hh : Heard o st (h₁ ++ (t, m) :: h₂) p) (hm : availIn m = some false)
    (h : ∀ s ∈ h₂, ∀ w, valueIn s.2 = some w → w.isFinite = false) :
    p.read.value = nan ∧ p.read.unscaled = nan := by
  have i := heard_tracks hh
  have key : (st.reading (h₁ ++ (t, m) :: h₂)).2 = nan := by
    have hv : valueIn m = none := by
      unfold availIn boolProp at hm
      split_ifs at hm with hi
      exact if_neg (by rw [hi]; decide)
    have e : h₁ ++ (t, m) :: h₂ = (h₁ ++ [(t, m)]) ++ h₂ := by simp
    have gen : ∀ (l : Signals) (r : Int × Dbl), r.2 = nan → (∀ s ∈ l, ∀ w, valueIn s.2 = some w → w.isFinite = false) →
        (lastOf readingIn r l).2 = nan := by
      intro l
      induction l with
      | nil => intro r hr _; exact hr
      | cons s l ih =>
        intro r hr hl
        refine ih _ ?_ (fun x hx => hl x (List.mem_cons_of_mem _ hx))
        cases hw : valueIn s.2 with
        | some w => simp [readingIn, hw, hl s List.mem_cons_self w hw, hr]
        | none =>
          by_cases ha : availIn s.2 = some false
          · simp [readingIn, hw, ha]
          · simp [readingIn, hw, ha, hr]
    rw [Setup.reading, e, lastOf_append]
    refine gen _ _ ?_ h
    rw [lastOf_snoc]
    simp [readingIn, hv, hm]
  refine ⟨?_, ?_⟩
  · change p.value = nan
    rw [i.value, key, nan_mul]
    unfold scaleSensorReading
    split_ifs <;> simp
  · change p.unscaled = nan
    rw [i.unscaled, key, nan_mul]

/-! ## C49 -/

theorem Tracks.decision {o : Opts} {st : Setup} {h : Signals} {p : Passive} (i : Tracks o st h p) (redundant : List String) :
    p.getFailed redundant = true ↔ st.ShouldFail o h redundant := by
  have b1 : p.badReading = true ↔ st.Bad h := by rw [i.bad]; simp [Setup.Bad]
  have b2 : p.failed = true ↔ st.Alarm o h := by rw [i.alarm]; rfl
  have b3 : p.available = false ↔ st.Unavailable h := by rw [i.avail]; rfl
  have b4 : p.functional = false ↔ st.Broken h := by rw [i.func]; rfl
  have b5 : (p.typeFan = false ∧ p.available = false ∧ p.unavailableAsFailed = false) ↔ st.Excused h := by
    rw [Setup.Excused, ← b3, i.fan, i.uaf]; simp
  unfold Setup.ShouldFail
  rw [← b1, ← b2, ← b3, ← b4, ← b5, ← i.hot, ← i.red, ← i.path, ← i.missing]
  unfold Passive.getFailed
  have hc : (p.hasRedundancy && redundant.contains p.path) = true ↔ (p.hasRedundancy = true ∧ p.path ∈ redundant) := by
    simp
  rw [← hc]
  generalize (p.hasRedundancy && redundant.contains p.path) = r
  cases r <;> cases p.objectMissing <;> cases p.typeFan <;> cases p.available <;> cases p.unavailableAsFailed <;>
    cases p.badReading <;> cases p.marginHot <;> cases p.failed <;> cases p.functional <;> decide

/-- **C49.** After any messages a D-Bus sensor is failed exactly by the documented precedence. -/
theorem C49_decision {o : Opts} {st : Setup} {h : Signals} {p : Passive} (hh : Heard o st h p) (redundant : List String) :
    p.getFailed redundant = true ↔ st.ShouldFail o h redundant := (heard_tracks hh).decision redundant

/-! ## C50 -/

/-- C50 in full: a sensor without an alarm at creation is failed while a critical alarm is asserted (unless its
unavailability excuses it). The code does not satisfy this. -/
def C50_statement (o : Opts) : Prop :=
  ∀ (st : Setup) (h : Signals) (p : Passive) (redundant : List String), Heard o st h p → ¬ st.Excused h →
    CriticalAsserted h → p.getFailed redundant = true

/-- **C50**, the part that holds: if every message about critical alarms reports both of them and warning alarms are not
used. Missing: alarms reported in separate messages (`C50_violated`), and the warning option (`C50_warning_clears`). -/
theorem C50_both_reported_partial {o : Opts} (ho : o.uncFailsafe = false) {st : Setup} {h : Signals} {p : Passive}
    {redundant : List String} (hh : Heard o st h p) (he : ¬ st.Excused h)
    (hboth : ∀ s ∈ h, (critLowIn s.2 = none ↔ critHighIn s.2 = none)) (ha : CriticalAsserted h) :
    p.getFailed redundant = true := by
  refine (C49_decision hh redundant).2 (.inr (.inr ⟨he, .inr (.inr (.inl ?_))⟩))
  have gen : ∀ (l : Signals) (a x y : Bool), (a = false → x = false ∧ y = false) →
      (∀ s ∈ l, (critLowIn s.2 = none ↔ critHighIn s.2 = none)) →
      (lastOf (alarmIn o) a l = false → lastOf (fun s => critLowIn s.2) x l = false ∧
        lastOf (fun s => critHighIn s.2) y l = false) := by
    intro l
    induction l with
    | nil => intro a x y h _; exact h
    | cons s l ih =>
      intro a x y hxy hl
      refine ih ((alarmIn o s).getD a) ((critLowIn s.2).getD x) ((critHighIn s.2).getD y) ?_
        (fun q hq => hl q (List.mem_cons_of_mem _ hq))
      have hs := hl s List.mem_cons_self
      unfold alarmIn
      cases h1 : critLowIn s.2 with
      | none => rw [hs.1 h1]; simpa [ho] using hxy
      | some b =>
        cases h2 : critHighIn s.2 with
        | none => rw [hs.2 h2] at h1; cases h1
        | some b' => cases b <;> cases b' <;> simp
  by_contra hc
  have hc' : lastOf (alarmIn o) st.alarm h = false := by simpa [Setup.Alarm] using hc
  obtain ⟨h1, h2⟩ := gen h st.alarm false false (fun _ => ⟨rfl, rfl⟩) hboth hc'
  rcases ha with ha | ha
  · rw [h1] at ha; cases ha
  · rw [h2] at ha; cases ha

/-! ## C51 -/

/-- **C51.** Once a sensor lost its availability it is failed until a finite value arrives, also after it became available
again (unless it is unavailable in a way that is not a failure). -/
theorem C51_sticky {o : Opts} {st : Setup} {h₁ h₂ : Signals} {t : Int} {m : PropMsg} {p : Passive} {redundant : List String}
    (hh : Heard o st (h₁ ++ (t, m) :: h₂) p) (hm : availIn m = some false)
    (h : ∀ s ∈ h₂, ∀ w, valueIn s.2 = some w → w.isFinite = false) (he : ¬ st.Excused (h₁ ++ (t, m) :: h₂)) :
    p.getFailed redundant = true := by
  refine (C49_decision hh redundant).2 (.inr (.inr ⟨he, .inl ?_⟩))
  have hv : valueIn m = none := by
    unfold availIn boolProp at hm
    split_ifs at hm with hi
    exact if_neg (by rw [hi]; decide)
  have e : h₁ ++ (t, m) :: h₂ = (h₁ ++ [(t, m)]) ++ h₂ := by simp
  have gen : ∀ (l : Signals) (r : Dbl), r.isFinite = false → (∀ s ∈ l, ∀ w, valueIn s.2 = some w → w.isFinite = false) →
      (lastOf seenIn r l).isFinite = false := by
    intro l
    induction l with
    | nil => intro r hr _; exact hr
    | cons s l ih =>
      intro r hr hl
      refine ih _ ?_ (fun x hx => hl x (List.mem_cons_of_mem _ hx))
      cases hw : valueIn s.2 with
      | some w => simpa [seenIn, hw] using hl s List.mem_cons_self w hw
      | none =>
        by_cases ha : availIn s.2 = some false
        · simp [seenIn, hw, ha, isFinite]
        · simpa [seenIn, hw, ha] using hr
  unfold Setup.Bad
  rw [e, lastOf_append]
  refine gen _ _ ?_ h
  rw [lastOf_snoc]
  simp [seenIn, hv, hm, isFinite]

/-- **C51.** A finite value while available ends it: with no other condition the sensor is good again. -/
theorem C51_recovers {o : Opts} {st : Setup} {h : Signals} {t : Int} {m : PropMsg} {v : Dbl} {p : Passive} {redundant : List String}
    (hh : Heard o st (h ++ [(t, m)]) p) (hv : valueIn m = some v) (hf : v.isFinite = true)
    (hr : ¬ (st.hasRedundancy = true ∧ st.path ∈ redundant)) (hmiss : st.missing = false)
    (hhot : ¬ st.Hot (h ++ [(t, m)])) (ha : ¬ st.Alarm o h) (hu : ¬ st.Unavailable h) (hb : ¬ st.Broken h) :
    p.getFailed redundant = false := by
  by_contra hc
  have hi : m.iface = ifSensorValue := by
    unfold valueIn at hv
    split_ifs at hv with hi
    exact hi
  have a2 : availIn m = none := boolProp_other (by rw [hi]; decide)
  have a3 : functionalIn m = none := boolProp_other (by rw [hi]; decide)
  have a4 : critLowIn m = none := boolProp_other (by rw [hi]; decide)
  have a5 : critHighIn m = none := boolProp_other (by rw [hi]; decide)
  have a6 : warnHighIn m = none := boolProp_other (by rw [hi]; decide)
  rcases (C49_decision hh redundant).1 (by simpa using hc) with h1 | h1 | ⟨_, h1 | h1 | h1 | h1 | h1⟩
  · exact hr h1
  · rw [hmiss] at h1; cases h1
  · simp [Setup.Bad, lastOf_snoc, seenIn, hv, hf] at h1
  · exact hhot h1
  · exact ha (by simpa [Setup.Alarm, lastOf_snoc, alarmIn, a4, a5, a6] using h1)
  · exact hu (by simpa [Setup.Unavailable, lastOf_snoc, a2] using h1)
  · exact hb (by simpa [Setup.Broken, lastOf_snoc, a3] using h1)

/-! ## C52 -/

/-- **C52.** A sensor failed by something else than redundancy gives as reason the first condition that holds, in the
documented order. -/
theorem C52_truthful {o : Opts} {st : Setup} {h : Signals} {p : Passive} {redundant : List String} (hh : Heard o st h p)
    (hf : p.getFailed redundant = true) (hr : ¬ (st.hasRedundancy = true ∧ st.path ∈ redundant)) :
    FirstReason (st.reasons o h) p.getFailReason := by
  have i := heard_tracks hh
  have b0 : p.objectMissing = true ↔ st.missing = true := by rw [i.missing]
  have b1 : p.badReading = true ↔ st.Bad h := by rw [i.bad]; simp [Setup.Bad]
  have b2 : p.failed = true ↔ st.Alarm o h := by rw [i.alarm]; rfl
  have b3 : p.available = false ↔ st.Unavailable h := by rw [i.avail]; rfl
  have b4 : p.functional = false ↔ st.Broken h := by rw [i.func]; rfl
  have hs := (C49_decision hh redundant).1 hf
  unfold Setup.reasons
  simp only [FirstReason]
  unfold Setup.ShouldFail at hs
  rw [← b0, ← b1, ← b2, ← b3, ← b4, ← i.hot] at *
  have hs' : p.objectMissing = true ∨ p.badReading = true ∨ p.marginHot = true ∨ p.failed = true ∨ p.available = false ∨
      p.functional = false := by
    rcases hs with h1 | h1 | ⟨_, h1⟩
    · exact absurd h1 hr
    · exact .inl h1
    · exact .inr h1
  clear hs b0 b1 b2 b3 b4
  unfold Passive.getFailReason
  revert hs'
  cases p.objectMissing <;> cases p.badReading <;> cases p.marginHot <;> cases p.failed <;> cases p.available <;>
    cases p.functional <;> simp

/-! ## C53 -/

/-- **C53.** Without usable limits a reading is not rescaled. -/
theorem C53_unscaled {min max : Dbl} (h : max ≤ 0 ∨ max ≤ min) (x : Dbl) : scaleSensorReading min max x = x :=
  if_pos h

theorem sub_pos_of_lt {a b : Dbl} (h : a < b) (ha : a.isFinite = true) (hb : b.isFinite = true) : 0 < b - a := by
  cases a with
  | fin p hp =>
    cases b with
    | fin q hq =>
      rw [fin_sub_fin, zero_eq]
      rcases ofRat_cases (q - p) with e | e | ⟨r, hr, e⟩
      · have := ofRat_mono (F := F) (p := 0) (q := q - p) (by have := fin_lt_fin.1 h; linarith)
        rw [ofRat_rep FloatModel.rep_zero, e] at this; simp at this
      · rw [e]; simp
      · rw [e]
        have hpos := F.rnd_sub_pos hp hq (fin_lt_fin.1 h)
        unfold ofRat at e
        split_ifs at e
        cases e
        exact fin_lt_fin.2 hpos
    | _ => cases hb
  | _ => cases ha

theorem div_self_of {d : Dbl} (h : 0 < d) (hf : d.isFinite = true) : d / d = 1 := by
  cases d with
  | fin q hq =>
    rw [zero_eq, fin_lt_fin] at h
    rw [fin_div_fin h.ne', div_self h.ne', one_eq, ofRat_rep]
  | _ => cases hf

theorem zero_div_of {d : Dbl} (h : 0 < d) : (0 : Dbl) / d = 0 := by
  cases d with
  | fin q hq =>
    rw [zero_eq, fin_lt_fin] at h
    rw [zero_eq, fin_div_fin h.ne', zero_div, ofRat_rep]
  | pinf => rw [zero_eq]; rfl
  | nan => simp at h
  | ninf => rw [zero_eq] at h; simp at h

theorem scale_eq {min max : Dbl} (h0 : 0 < max) (h1 : min < max) (x : Dbl) : scaleSensorReading min max x = (x - min) / (max - min) := by
  refine if_neg ?_
  rintro (h | h)
  · exact not_le_of_lt h0 h
  · exact not_le_of_lt h1 h

section
variable {min max : Dbl} (hmin : min.isFinite = true) (hmax : max.isFinite = true) (h0 : 0 < max) (h1 : min < max)
include h0 h1 hmin hmax

/-- **C53.** The minimum maps to 0; the maximum maps to 1 (if the width of the range does not overflow). -/
theorem C53_ends : scaleSensorReading min max min = 0 ∧
    ((max - min).isFinite = true → scaleSensorReading min max max = 1) := by
  have hp := sub_pos_of_lt h1 hmin hmax
  refine ⟨?_, fun hf => ?_⟩
  · rw [scale_eq h0 h1]
    cases min with
    | fin q hq => rw [sub_self_fin, zero_div_of hp]
    | _ => cases hmin
  · rw [scale_eq h0 h1, div_self_of hp hf]

/-- **C53.** The order of readings is preserved, whatever the rounding. -/
theorem C53_monotone {x y : Dbl} (hxy : x ≤ y) (hx : scaleSensorReading min max x ≠ nan) (hy : scaleSensorReading min max y ≠ nan) :
    scaleSensorReading min max x ≤ scaleSensorReading min max y := by
  rw [scale_eq h0 h1] at hx hy ⊢
  rw [scale_eq h0 h1]
  have hmn : min ≠ nan := by rintro rfl; cases hmin
  exact div_le_div_of_pos (sub_pos_of_lt h1 hmin hmax)
    (sub_le_sub hxy (Dbl.le_refl hmn) (div_ne_nan_left hx) (div_ne_nan_left hy)) hx hy

/-- **C53.** Readings between the limits stay between 0 and 1. -/
theorem C53_unit (hf : (max - min).isFinite = true) {x : Dbl} (hx0 : min ≤ x) (hx1 : x ≤ max) :
    0 ≤ scaleSensorReading min max x ∧ scaleSensorReading min max x ≤ 1 := by
  have hp := sub_pos_of_lt h1 hmin hmax
  have hxf : x.isFinite = true := by
    cases min <;> cases max <;> cases x <;> simp_all [isFinite]
  have hn : scaleSensorReading min max x ≠ nan := by
    rw [scale_eq h0 h1]
    cases x with
    | fin q hq =>
      cases min with
      | fin m hm =>
        rw [fin_sub_fin]
        cases hd : max - fin m hm with
        | fin d hd' =>
          rw [hd, zero_eq, fin_lt_fin] at hp
          rcases ofRat_cases (F := F) (q - m) with e | e | ⟨r, hr, e⟩
          · have := ofRat_mono (F := F) (p := 0) (q := q - m) (by have := fin_le_fin.1 hx0; linarith)
            rw [ofRat_rep FloatModel.rep_zero, e] at this; simp at this
          · have hmax' : max ≠ nan := by rintro rfl; cases hmax
            have := sub_le_sub hx1 (Dbl.le_refl (a := fin m hm) (by simp)) (by rw [fin_sub_fin]; exact ofRat_ne_nan _)
              (by rw [hd]; simp)
            rw [fin_sub_fin, e, hd] at this; simp at this
          · rw [e, fin_div_fin hp.ne']; exact ofRat_ne_nan _
        | _ => rw [hd] at hf; cases hf
      | _ => cases hmin
    | _ => cases hxf
  obtain ⟨e0, e1⟩ := C53_ends hmin hmax h0 h1
  refine ⟨?_, ?_⟩
  · have := C53_monotone hmin hmax h0 h1 hx0 (by rw [e0]; simp) hn
    rwa [e0] at this
  · have := C53_monotone hmin hmax h0 h1 hx1 hn (by rw [e1 hf]; simp)
    rwa [e1 hf] at this

end

/-! ## Running a sensor on a list of messages -/

def hearAll (o : Opts) (p : Passive) : Signals → Res Passive
  | [] => .ok p
  | (t, m) :: h => do
    let p' ← handleSensorValue o p t m
    hearAll o p' h

theorem hearAll_heard {o : Opts} {st : Setup} : ∀ {h : Signals} {h0 : Signals} {p p' : Passive}, Heard o st h0 p →
    hearAll o p h = .ok p' → Heard o st (h0 ++ h) p'
  | [], h0, p, p', hh, hr => by cases hr; simpa using hh
  | (t, m) :: h, h0, p, p', hh, hr => by
    obtain ⟨q, h1, hr⟩ := bind_eq_ok.1 hr
    have := hearAll_heard (hh.signal t m h1) hr
    simpa using this

/-- a message with one property -/
def msg1 (iface name : String) (v : Variant) : PropMsg := ⟨iface, ({} : OMap String Variant).insert name v⟩

end

section
attribute [local instance] binary64

def exSetup : Setup := ⟨"temp", "/xyz/openbmc_project/sensors/temperature/cpu", false, false, { value := 40, available := true }, false, 100⟩
def mValue (v : Dbl) : PropMsg := msg1 "xyz.openbmc_project.Sensor.Value" "Value" (.dbl v)
def mAvail (b : Bool) : PropMsg := msg1 "xyz.openbmc_project.State.Decorator.Availability" "Available" (.bool b)
def mLow (b : Bool) : PropMsg := msg1 "xyz.openbmc_project.Sensor.Threshold.Critical" "CriticalAlarmLow" (.bool b)
def mHigh (b : Bool) : PropMsg := msg1 "xyz.openbmc_project.Sensor.Threshold.Critical" "CriticalAlarmHigh" (.bool b)
def mWarn (b : Bool) : PropMsg := msg1 "xyz.openbmc_project.Sensor.Threshold.Warning" "WarningAlarmHigh" (.bool b)
def mBoth (b c : Bool) : PropMsg :=
  ⟨"xyz.openbmc_project.Sensor.Threshold.Critical",
    (({} : OMap String Variant).insert "CriticalAlarmLow" (.bool b)).insert "CriticalAlarmHigh" (.bool c)⟩

theorem hearAll_opts {o : Opts} : ∀ {h : Signals} {p : Passive}, hearAll o p h = hearAll { uncFailsafe := o.uncFailsafe } p h
  | [], _ => rfl
  | (t, m) :: h, p => by
    change (handleSensorValue o p t m >>= fun q => hearAll o q h) = _
    rw [show (fun q => hearAll o q h) = fun q => hearAll { uncFailsafe := o.uncFailsafe } q h from funext fun q => hearAll_opts]
    rfl

theorem heard_of_any {o : Opts} {st : Setup} {h : Signals} {P : Passive → Bool}
    (hr : (hearAll { uncFailsafe := o.uncFailsafe } st.sensor h).toOption.any P = true) : ∃ p, Heard o st h p ∧ P p = true := by
  rw [← hearAll_opts] at hr
  obtain ⟨p, h1, h2⟩ := Ex.ok_of_any hr
  exact ⟨p, by simpa using hearAll_heard .start h1, h2⟩

/-- **C50** does not hold as stated: with the high alarm asserted, a message that only de-asserts the low alarm makes the
sensor good. -/
theorem C50_violated (o : Opts) : ¬ C50_statement o := by
  intro hc
  obtain ⟨p, h1, h2⟩ := heard_of_any (o := o) (st := exSetup) (h := [(200, mHigh true), (300, mLow false)])
    (P := fun p => !p.getFailed []) (by cases o.uncFailsafe <;> decide +kernel)
  have := hc exSetup _ p [] h1 (by rintro ⟨_, h, _⟩; unfold Setup.Unavailable at h; revert h; decide +kernel) (.inr (by decide +kernel))
  rw [this] at h2
  cases h2

/-- **C50**, second defect: with the option that warnings are failures, a warning that ends makes a sensor good whose
critical alarm is asserted, although every message about critical alarms reported both of them. -/
theorem C50_warning_clears {o : Opts} (ho : o.uncFailsafe = true) : ∃ st h p, Heard o st h p ∧ ¬ st.Excused h ∧
    (∀ s ∈ h, (critLowIn s.2 = none ↔ critHighIn s.2 = none)) ∧ CriticalAsserted h ∧ p.getFailed [] = false := by
  obtain ⟨p, h1, h2⟩ := heard_of_any (o := o) (st := exSetup) (h := [(200, mBoth false true), (300, mWarn false)])
    (P := fun p => !p.getFailed []) (by rw [ho]; decide +kernel)
  exact ⟨exSetup, _, p, h1, by rintro ⟨_, h, _⟩; unfold Setup.Unavailable at h; revert h; decide +kernel, by decide +kernel, .inr (by decide +kernel),
    by simpa using h2⟩

/-- the partial theorem's hypotheses are met by a sensor whose alarms arrive together -/
example (o : Opts) : ∃ p, Heard o exSetup [(200, mBoth false true), (300, mValue 50)] p ∧ p.getFailed [] = true ∧
    CriticalAsserted [(200, mBoth false true), (300, mValue 50)] ∧
    (∀ s ∈ [((200 : Int), mBoth false true), (300, mValue 50)], (critLowIn s.2 = none ↔ critHighIn s.2 = none)) := by
  obtain ⟨p, h1, h2⟩ := heard_of_any (o := o) (st := exSetup) (h := [(200, mBoth false true), (300, mValue 50)])
    (P := fun p => p.getFailed []) (by cases o.uncFailsafe <;> decide +kernel)
  exact ⟨p, h1, h2, .inr (by decide +kernel), by decide +kernel⟩

/-- C48, C49, C52: NaN after 55 leaves the reading 55 of time 200 and marks the sensor bad -/
example (o : Opts) : ∃ p, Heard o exSetup [(200, mValue 55), (300, mValue nan)] p ∧ p.read = ⟨55, 200, 55⟩ ∧
    p.getFailed [] = true ∧ p.getFailReason = "Sensor reading bad" := by
  obtain ⟨p, h1, h2⟩ := heard_of_any (o := o) (st := exSetup) (h := [(200, mValue 55), (300, mValue nan)])
    (P := fun p => decide (p.read.updated = 200 ∧ p.read.value = 55 ∧ p.read.unscaled = 55 ∧ p.getFailed [] = true ∧
      p.getFailReason = "Sensor reading bad")) (by cases o.uncFailsafe <;> decide +kernel)
  simp only [decide_eq_true_eq] at h2
  obtain ⟨a, b, c, d, e⟩ := h2
  refine ⟨p, h1, ?_, d, e⟩
  cases hr : p.read
  rw [hr] at a b c
  cases a; cases b; cases c; rfl

/-- C51: unavailable, then available again: still failed; a finite value ends it -/
example (o : Opts) : ∃ p, Heard o exSetup [(200, mAvail false), (300, mAvail true)] p ∧ p.getFailed [] = true ∧
    p.read.value = nan := by
  obtain ⟨p, h1, h2⟩ := heard_of_any (o := o) (st := exSetup) (h := [(200, mAvail false), (300, mAvail true)])
    (P := fun p => decide (p.getFailed [] = true ∧ p.read.value = nan)) (by cases o.uncFailsafe <;> decide +kernel)
  simp only [decide_eq_true_eq] at h2
  exact ⟨p, h1, h2⟩
example (o : Opts) : ∃ p, Heard o exSetup ([(200, mAvail false), (300, mAvail true)] ++ [(400, mValue 41)]) p ∧
    p.getFailed [] = false ∧ p.read.value = 41 := by
  obtain ⟨p, h1, h2⟩ := heard_of_any (o := o) (st := exSetup) (h := [(200, mAvail false), (300, mAvail true)] ++ [(400, mValue 41)])
    (P := fun p => decide (p.getFailed [] = false ∧ p.read.value = 41)) (by cases o.uncFailsafe <;> decide +kernel)
  simp only [decide_eq_true_eq] at h2
  exact ⟨p, h1, h2⟩

/-- C53: 2500 rpm in 500..10500 is 0.2 -/
example : scaleSensorReading 500 10500 2500 = 1 / 5 ∧ scaleSensorReading 500 10500 10500 = 1 ∧
    (500 : Dbl).isFinite = true ∧ (0 : Dbl) < 10500 ∧ (500 : Dbl) < 10500 ∧ ((10500 : Dbl) - 500).isFinite = true := by
  decide +kernel
/-- the precondition on the width is needed: with a range wider than the largest double the maximum maps to NaN -/
theorem C53_wide_range : ∃ min max : Dbl, min.isFinite = true ∧ max.isFinite = true ∧ 0 < max ∧ min < max ∧
    scaleSensorReading min max max = nan :=
  ⟨lowest, -lowest, by decide +kernel⟩
/-- limits that are NaN pass the test of the code and turn every reading into NaN -/
theorem C53_nan_limits : scaleSensorReading nan nan 40 = nan := by decide +kernel

end
end Verif
