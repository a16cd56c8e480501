import Verif.Base.Binary64
import Verif.Spec.Zone

/-! # A concrete zone on IEEE doubles, used to show that the hypotheses of the theorems can be met -/

namespace Verif.Ex
open Dbl

theorem ok_of_any {α : Type} {x : Res α} {P : α → Bool} (h : x.toOption.any P = true) : ∃ a, x = .ok a ∧ P a = true := by
  cases x with
  | error e => simp [Except.toOption] at h
  | ok a => exact ⟨a, rfl, by simpa [Except.toOption] using h⟩

/-- computable form of `CtlReady` -/
def readyB [FloatModel] (z : ZoneData) : ThermalCtl → Bool
  | .pid c => !c.inputs.isEmpty && c.inputs.all (fun i => (z.cachedValuesByName.find? i.name).isSome) &&
      (z.procs.find? c.id).isSome &&
      (c.type != .margin || c.inputs.all (fun i => !i.convertTempToMargin || i.convertMarginZero.isFinite))
  | .stepwise c => c.inputs.all (fun n => (z.cachedValuesByName.find? n).isSome) &&
      (c.info.isCeiling || (z.procs.find? c.id).isSome)

theorem ready_of_readyB [FloatModel] {z : ZoneData} {c : ThermalCtl} (h : readyB z c = true) : CtlReady z c := by
  have hr : ∀ n, (z.cachedValuesByName.find? n).isSome = true → ∃ x, Reads z n x := by
    intro n hn
    obtain ⟨e, he⟩ := Option.isSome_iff_exists.1 hn
    exact ⟨e.scaled, e, he, rfl⟩
  cases c with
  | pid c =>
    simp only [readyB, Bool.and_eq_true, Bool.or_eq_true, List.all_eq_true, bne_iff_ne, ne_eq, Bool.not_eq_true'] at h
    obtain ⟨⟨⟨h1, h2⟩, h3⟩, h4⟩ := h
    refine ⟨by simpa using h1, fun i hi => hr _ (h2 i hi), Option.isSome_iff_exists.1 h3, fun ht i hi hc => ?_⟩
    rcases h4 with h4 | h4
    · exact absurd ht h4
    · rcases h4 i hi with h5 | h5
      · rw [hc] at h5; cases h5
      · exact h5
  | stepwise c =>
    simp only [readyB, Bool.and_eq_true, Bool.or_eq_true, List.all_eq_true] at h
    refine ⟨fun n hn => hr _ (h.1 n hn), fun hc => ?_⟩
    rcases h.2 with h2 | h2
    · rw [hc] at h2; cases h2
    · exact Option.isSome_iff_exists.1 h2

attribute [local instance] binary64

/-- a temperature sensor -/
def cpu : Passive :=
  { Passive.ctor "temp" "/cpu" false false with value := 80, unscaled := 80, updated := 5000000000 }
/-- a temperature sensor whose reading is not available -/
def dimm : Passive :=
  { Passive.ctor "temp" "/dimm" false false with value := nan, unscaled := nan, badReading := true, updated := 5000000000 }
/-- a tachometer -/
def tach : Passive :=
  { Passive.ctor "fan" "/fan0" false false with value := 3000, unscaled := 3000, updated := 5000000000 }

def sensors : OMap String Sensor :=
  ((((({} : OMap String Sensor).insert "cpu" ⟨"cpu", 2, false, .pluggable (.passive cpu) .readOnlyNoExcept⟩).insert
    "dimm" ⟨"dimm", 2, false, .pluggable (.passive dimm) .readOnlyNoExcept⟩).insert
    "fan0" ⟨"fan0", 2, false, .pluggable (.passive tach) (.dbusPercent "/fan0" 0 255 (-1))⟩).insert
    "fan1" ⟨"fan1", 2, false, .pluggable (.passive tach) (.dbusPercent "/fan1" 0 255 (-1))⟩)

def world : World :=
  { nowFans := 6000000000, nowThermals := 6000000000, hostOn := true, redundancyFailed := [],
    files := fun _ => .missing, busOk := fun _ => true, sensors := sensors, trace := [] }

def conf : PidConf :=
  { checkHysterWithSetpt := false, ts := 1, proportionalCoeff := -2, integralCoeff := 0, derivativeCoeff := 0,
    feedFwdOffset := 0, feedFwdGain := 0, integralLimit := ⟨0, 100⟩, outLim := ⟨0, 10000⟩, slewNeg := 0, slewPos := 0,
    positiveHysteresis := 0, negativeHysteresis := 0 }

def fanConf : PidConf :=
  { conf with proportionalCoeff := 0, feedFwdGain := 1, outLim := ⟨10, 100⟩ }

def thermal : ThermalPid :=
  { id := "cpu_pid", inputs := [{ name := "cpu" }, { name := "dimm" }], type := .absolute, setpoint := 60,
    ctl := { info := initializePIDStruct conf, lastInput := nan } }

def margin : ThermalPid :=
  { id := "cpu_pid", inputs := [{ name := "cpu", convertMarginZero := 95, convertTempToMargin := true }, { name := "dimm" }],
    type := .margin, setpoint := 10, ctl := { info := initializePIDStruct conf, lastInput := nan } }

def table : StepwiseInfo :=
  { ts := 1,
    reading := fun i => if i.val = 0 then 30 else if i.val = 1 then 50 else if i.val = 2 then 70 else nan,
    output := fun i => if i.val = 0 then 20 else if i.val = 1 then 40 else if i.val = 2 then 80 else nan,
    positiveHysteresis := 2, negativeHysteresis := 2, isCeiling := false }

def step : StepwiseCtl := { id := "cpu_step", inputs := ["cpu", "dimm"], info := table, st := StepState.init }
def ceil : StepwiseCtl := { step with id := "cpu_ceil", info := { table with isCeiling := true } }

def fan : FanPid :=
  { id := "fans", inputs := ["fan0", "fan1"], setpoint := 0, direction := .neutral,
    ctl := { info := initializePIDStruct fanConf, lastInput := nan } }

/-- the zone before its first cycle -/
def data0 : ZoneData :=
  let z := ZoneData.ctor 1 30 75 {} false
  let z := (z.addFanInput "fan0" false).addFanInput "fan1" false
  let z := (z.addThermalInput "cpu" false).addThermalInput "dimm" true
  let z := z.addPidControlProcess "cpu_pid" "temp" 60
  let z := z.addPidControlProcess "cpu_step" "temp" 60
  z

/-- the zone after its sensors have been polled -/
def data : ZoneData :=
  { data0 with
    cachedValuesByName :=
      ((((({} : OMap String CacheEntry).insert "cpu" ⟨80, 80⟩).insert "dimm" ⟨nan, nan⟩).insert "fan0" ⟨3000, 3000⟩).insert
        "fan1" ⟨0, 0⟩) }

def zone : Zone := { d := data0, fans := [some fan], thermals := [.pid thermal, .stepwise step, .stepwise ceil] }

end Verif.Ex
