import Verif.Lemmas.FromFile
import Verif.Props.BusWritten

/-! # C138: configurations written as files -/

namespace Verif
open Dbl
section
variable [F : FloatModel]

/-- **C138** A configuration that can be expressed can be written down, and a file with it is read back as exactly that: the
same sensors, the same loops, and the same settings of the zones that have loops. -/
theorem C138_written {c : Config} (hc : c.Expressible) : c.asFile.Real ∧
    ∀ (f : StartFiles) (path : String), f.json path = some c.asFile →
      ∃ zs, configFromFile f path = .ok ⟨c.sensors, c.pids, zs⟩ ∧
        ∀ i, zs.find? i = if (c.pids.find? i).isSome then c.zones.find? i else none :=
  ⟨hc.real, fun _ _ hf => ⟨_, asFile_back hc hf, fun i => usedZones_find c i (fun _ hp => by
    obtain ⟨-, -, -, z, hz, -⟩ := hc.zone _ _ hp; exact ⟨z, hz⟩)⟩⟩

theorem usedZones_same {c : Config} (hc : c.Expressible) (hz : ∀ i, (c.zones.find? i).isSome = (c.pids.find? i).isSome) :
    c.usedZones = c.zones := by
  refine omap_same ?_ hc.tables.2.2 fun i => ?_
  · show (c.pids.entries.map _).Pairwise _
    rw [List.pairwise_map]
    exact hc.tables.2.1
  · rw [usedZones_find c i (fun _ hp => by obtain ⟨-, -, -, z, hz, -⟩ := hc.zone _ _ hp; exact ⟨z, hz⟩), ← hz i]
    cases c.zones.find? i <;> rfl

/-- **C138** What can be configured in a file is exactly what can be expressed, with the zones that have loops. -/
theorem C138_exactly (hF : HoldsInts) (c : Config) :
    (∃ j : Json, j.Real ∧ ∀ (f : StartFiles) (path : String), f.json path = some j → configFromFile f path = .ok c) ↔
      c.Expressible ∧ ∀ i, (c.zones.find? i).isSome = (c.pids.find? i).isSome := by
  constructor
  · rintro ⟨j, hj, h⟩
    exact file_expressible hF hj rfl (h ⟨"", fun _ => false, fun _ => some j, rfl⟩ "" rfl)
  · rintro ⟨hc, hz⟩
    refine ⟨c.asFile, hc.real, fun f path hf => ?_⟩
    rw [asFile_back hc hf, usedZones_same hc hz]

/-- **C138** Whatever a file says, writing down what was read gives a file that says the same. -/
theorem C138_again (hF : HoldsInts) {f f' : StartFiles} {path path' : String} {j : Json} (hj : j.Real) (hf : f.json path = some j)
    {c : Config} (h : configFromFile f path = .ok c) (hf' : f'.json path' = some c.asFile) :
    configFromFile f' path' = .ok c := by
  obtain ⟨hc, hz⟩ := file_expressible hF hj hf h
  rw [asFile_back hc hf', usedZones_same hc hz]

/-- **C138** A configuration found on the bus that can be expressed can be kept in a file instead: every attempt to start from that
file ends as the attempt from the bus does, with the same daemon. -/
theorem C138_same {b : ConfBus} {h : HashOrder} {c : DbusCfg} (hb : busInit b h = .ok (true, c))
    (hc : (⟨c.sensors, c.pids, c.zones⟩ : Config).Expressible) {conf conf' path : String} {f f' : StartFiles}
    (hs : Source conf f (some path)) (hj : f.json path = some (Config.asFile ⟨c.sensors, c.pids, c.zones⟩))
    (hs' : Source conf' f' none) (o : Opts) (b' : ConfBus) (h' : HashOrder) (bus : BuildBus) (now : Int) (w : World) :
    attempt o conf f b' h' bus now w = attempt o conf' f' b h bus now w := by
  rw [attempt_file hs, attempt_bus hs', hb, asFile_back hc hj]
  exact launched_used hc

/-- **C138** No file configures a zone without loops. -/
theorem C138_loops (hF : HoldsInts) {f : StartFiles} {path : String} {j : Json} (hj : j.Real) (hf : f.json path = some j)
    {c : Config} (h : configFromFile f path = .ok c) {i : Int} {p : PIDConf} (hp : c.pids.find? i = some p) :
    ∃ n l, p.find? n = some l := by
  obtain ⟨-, hw, hne, -⟩ := (file_expressible hF hj hf h).1.zone i p hp
  obtain ⟨e, he⟩ := List.exists_mem_of_ne_nil _ hne
  exact ⟨e.1, e.2, (OMap.mem_entries_iff hw _ _).1 he⟩

end

namespace Ex
section
attribute [local instance] binary64

/-- the doubles of the machine hold the integers of JSON -/
theorem holdsInts : HoldsInts := by
  intro i h1 h2
  have hr : binary64.rnd ((2 : Rat) ^ 64) = 2 ^ 64 := by decide +kernel
  have hm : (2 : Rat) ^ 64 ≤ binary64.maxFin := by decide +kernel
  have hi1 : (-(2 ^ 64) : Rat) ≤ (i : Rat) := by
    have : (-(2 ^ 64) : Int) ≤ i := by omega
    exact_mod_cast this
  have hi2 : (i : Rat) ≤ 2 ^ 64 := by exact_mod_cast h2.le
  have a := binary64.rnd_mono hi2
  have b := binary64.rnd_mono hi1
  rw [binary64.rnd_neg, hr] at b
  rw [hr] at a
  have g1 : ¬ binary64.maxFin < binary64.rnd (i : Rat) := not_lt.2 (le_trans a hm)
  have g2 : ¬ binary64.rnd (i : Rat) < -binary64.maxFin := not_lt.2 (le_trans (neg_le_neg hm) b)
  unfold Dbl.ofInt Dbl.ofRat
  rw [dif_neg g1, dif_neg g2]
  rfl

/-! A checker for examples -/

def fits138 (i : Int) : Bool := decide (-(2 ^ 63) ≤ i ∧ i < 2 ^ 63)

def sensor138 (s : SensorConfig) : Bool :=
  fits138 s.min && fits138 s.max && fits138 s.timeout && (decide (s.type = "fan") || decide (s.min = 0 ∧ s.max = 0))

def pid138 (p : PidConf) : Bool :=
  [p.ts, p.proportionalCoeff, p.integralCoeff, p.derivativeCoeff, p.feedFwdOffset, p.feedFwdGain, p.integralLimit.min,
    p.integralLimit.max, p.outLim.min, p.outLim.max, p.slewNeg, p.slewPos, p.positiveHysteresis, p.negativeHysteresis].all
    Dbl.isFinite

def step138 (s : StepwiseInfo) : Bool :=
  s.ts.isFinite && decide (∀ i, s.reading i = .nan ∨ (s.reading i).isFinite = true) &&
    decide (∀ i, s.output i = .nan ∨ (s.output i).isFinite = true) && s.positiveHysteresis.isFinite && s.negativeHysteresis.isFinite

def noStep138 (s : StepwiseInfo) : Bool :=
  decide (s.ts = 0 ∧ (∀ i, s.reading i = 0) ∧ (∀ i, s.output i = 0) ∧ s.positiveHysteresis = 0 ∧ s.negativeHysteresis = 0 ∧
    s.isCeiling = false)

def noPid138 (p : PidConf) : Bool :=
  decide (p.checkHysterWithSetpt = false ∧ p.ts = 0 ∧ p.proportionalCoeff = 0 ∧ p.integralCoeff = 0 ∧ p.derivativeCoeff = 0 ∧
    p.feedFwdOffset = 0 ∧ p.feedFwdGain = 0 ∧ (p.integralLimit.min = 0 ∧ p.integralLimit.max = 0) ∧
    (p.outLim.min = 0 ∧ p.outLim.max = 0) ∧ p.slewNeg = 0 ∧ p.slewPos = 0 ∧ p.positiveHysteresis = 0 ∧ p.negativeHysteresis = 0)

def loop138 (percents : List Int) (c : ControllerInfo) : Bool :=
  c.setpoint.isFinite && percents.any (fun i => decide (-(2 ^ 31) ≤ i ∧ i < 2 ^ 31 ∧ c.failSafePercent = Dbl.ofInt i)) &&
    c.inputs.all (fun i => decide (i.convertTempToMargin = false ∧ i.convertMarginZero = .nan ∧ i.missingIsAcceptable = false)) &&
    (if c.type = "stepwise" then step138 c.stepwiseInfo && noPid138 c.pidInfo else pid138 c.pidInfo && noStep138 c.stepwiseInfo)

def zone138 (z : ZoneConfig) : Bool :=
  z.minThermalOutput.isFinite && z.failsafePercent.isFinite &&
    decide ((1 ≤ z.cycleTime.cycleIntervalTimeMS ∧ z.cycleTime.cycleIntervalTimeMS < 2 ^ 64) ∧
      (1 ≤ z.cycleTime.updateThermalsTimeMS ∧ z.cycleTime.updateThermalsTimeMS < 2 ^ 64))

def check138 (percents : List Int) (c : Config) : Bool :=
  decide (c.sensors.entries.Pairwise (fun a b => a.1 < b.1)) && decide (c.pids.entries.Pairwise (fun a b => a.1 < b.1)) &&
    decide (c.zones.entries.Pairwise (fun a b => a.1 < b.1)) && !c.sensors.entries.isEmpty &&
    c.sensors.entries.all (fun e => sensor138 e.2) &&
    c.pids.entries.all (fun e => fits138 e.1 && decide (e.2.entries.Pairwise (fun a b => a.1 < b.1)) && !e.2.entries.isEmpty &&
      e.2.entries.all (fun l => loop138 percents l.2) && (c.zones.find? e.1).any zone138)

theorem loop_of {ps : List Int} {c : ControllerInfo} (h : loop138 ps c = true) : c.Expressible := by
  simp only [loop138, Bool.and_eq_true, List.any_eq_true, decide_eq_true_eq, List.all_eq_true] at h
  obtain ⟨⟨⟨h1, i, -, h2⟩, h3⟩, h4⟩ := h
  refine ⟨h1, ⟨i, h2.1, h2.2.1, h2.2.2⟩, ?_, fun a ha b hb _ => by rw [(h3 a ha).2.2, (h3 b hb).2.2], fun ht => ?_, fun ht => ?_⟩
  · cases hi : c.inputs with
    | nil => trivial
    | cons a l => exact .inr fun j hj => ⟨(h3 j (by rw [hi]; exact hj)).1, (h3 j (by rw [hi]; exact hj)).2.1⟩
  · rw [if_neg ht] at h4
    simp only [Bool.and_eq_true, pid138, List.all_cons, List.all_nil, noStep138, decide_eq_true_eq] at h4
    obtain ⟨⟨a1, a2, a3, a4, a5, a6, a7, a8, a9, a10, a11, a12, a13, a14, -⟩, b1, b2, b3, b4, b5, b6⟩ := h4
    refine ⟨⟨a1, a2, a3, a4, a5, a6, a7, a8, a9, a10, a11, a12, a13, a14⟩, ?_⟩
    generalize c.stepwiseInfo = s at *
    obtain ⟨ts, r, o, x, y, z⟩ := s
    simp only at b1 b2 b3 b4 b5 b6
    subst b1 b4 b5 b6
    rw [funext b2, funext b3]
  · rw [if_pos ht] at h4
    simp only [Bool.and_eq_true, step138, noPid138, decide_eq_true_eq] at h4
    obtain ⟨⟨⟨⟨⟨a1, a2⟩, a3⟩, a4⟩, a5⟩, b⟩ := h4
    refine ⟨⟨a1, a2, a3, a4, a5⟩, ?_⟩
    generalize c.pidInfo = p at *
    obtain ⟨c0, c1, c2, c3, c4, c5, c6, ⟨d1, d2⟩, ⟨d3, d4⟩, e1, e2, e3, e4⟩ := p
    simp only at b
    obtain ⟨rfl, rfl, rfl, rfl, rfl, rfl, rfl, ⟨rfl, rfl⟩, ⟨rfl, rfl⟩, rfl, rfl, rfl, rfl⟩ := b
    rfl

theorem check_of {ps : List Int} {c : Config} (h : check138 ps c = true) : c.Expressible := by
  simp only [check138, Bool.and_eq_true, decide_eq_true_eq, List.all_eq_true, Bool.not_eq_true', List.isEmpty_eq_false_iff] at h
  obtain ⟨⟨⟨⟨⟨w1, w2⟩, w3⟩, h1⟩, h2⟩, h3⟩ := h
  have w1 : c.sensors.WF := w1
  have w2 : c.pids.WF := w2
  refine ⟨⟨w1, w2, w3⟩, h1, fun n s hs => ?_, fun i p hp => ?_, fun i p hp n l hl => ?_⟩
  · have := h2 _ ((OMap.mem_entries_iff w1 _ _).2 hs)
    simp only [sensor138, fits138, Bool.and_eq_true, Bool.or_eq_true, decide_eq_true_eq] at this
    obtain ⟨⟨⟨a1, a2⟩, a3⟩, a4⟩ := this
    exact ⟨a1, a2, a3, fun ht => a4.resolve_left ht⟩
  · have := h3 _ ((OMap.mem_entries_iff w2 _ _).2 hp)
    simp only [fits138, decide_eq_true_eq] at this
    obtain ⟨⟨⟨⟨a1, a2⟩, a3⟩, -⟩, a5⟩ := this
    obtain ⟨z, hz, hz'⟩ := (Option.any_eq_true _ _).1 a5
    simp only [zone138, Bool.and_eq_true, decide_eq_true_eq] at hz'
    exact ⟨a1, a2, a3, z, hz, ⟨hz'.1.1, hz'.1.2, hz'.2.1, hz'.2.2⟩⟩
  · have := h3 _ ((OMap.mem_entries_iff w2 _ _).2 hp)
    obtain ⟨⟨⟨⟨-, a2⟩, -⟩, a4⟩, -⟩ := this
    have a2 : p.WF := a2
    exact loop_of (a4 _ ((OMap.mem_entries_iff a2 _ _).2 hl))

/-- a place with one file -/
def at138 (j : Json) : StartFiles := ⟨"/root", fun p => p == "/c", fun _ => some j, by decide +kernel⟩

/-- C138: the zone of C115 with its fan, its table and its temperature loop, kept in a file -/
theorem C138_kept : ∃ c, busInit conf115 asListed = .ok (true, c) ∧
    ∀ o b' h' bus now w, attempt o "/c" (at138 (Config.asFile ⟨c.sensors, c.pids, c.zones⟩)) b' h' bus now w =
      attempt o "" nofiles108 conf115 asListed bus now w := by
  obtain ⟨⟨r, c⟩, hc, hP⟩ := ok_of_any (x := busInit conf115 asListed)
    (P := fun x : Bool × DbusCfg => x.1 && check138 [0, 75, 100] ⟨x.2.sensors, x.2.pids, x.2.zones⟩) (by decide +kernel)
  simp only [Bool.and_eq_true] at hP
  obtain ⟨rfl, hP⟩ := hP
  exact ⟨c, hc, fun o b' h' bus now w => C138_same hc (check_of hP) (.given (by decide) rfl) rfl nofiles108_source o b' h' bus
    now w⟩

/-- the same zone where only the fan is there -/
def objs138 : List BusObject :=
  [plain107 "em" "/inventory" ["org.freedesktop.DBus.ObjectManager"],
   ⟨"em", "/inventory/board/Zone", ⟨[(zoneInterface, zone115)]⟩⟩,
   ⟨"em", "/inventory/board/Heat", ⟨[(pidInterface, heat115)]⟩⟩,
   plain107 "hwmon" "/xyz/openbmc_project/sensors/fan_tach/Fan_1" [valueInterface]]

/-- **C138**, finding: on the bus a zone whose loops find none of their inputs is configured without loops, and then runs without
controlling anything; no file configures such a zone. -/
theorem C138_bare_zone : ∃ c, busInit (busOf107 objs138 [] (fun _ _ => none)) asListed = .ok (true, c) ∧
    ranZones (attempt {} "" nofiles108 (busOf107 objs138 [] (fun _ _ => none)) asListed bus98 0 world113) = some [3] ∧
    ∀ (f : StartFiles) (path : String) (j : Json) (c' : Config), j.Real → f.json path = some j →
      configFromFile f path = .ok c' → c'.pids ≠ c.pids := by
  obtain ⟨⟨r, c⟩, hc, hP⟩ := ok_of_any (x := busInit (busOf107 objs138 [] (fun _ _ => none)) asListed)
    (P := fun x : Bool × DbusCfg => x.1 && (x.2.pids.find? 3).any (fun p => p.entries.isEmpty)) (by decide +kernel)
  simp only [Bool.and_eq_true] at hP
  obtain ⟨rfl, hP⟩ := hP
  refine ⟨c, hc, by decide +kernel, fun f path j c' hj hf h e => ?_⟩
  obtain ⟨p, hp, hpe⟩ := (Option.any_eq_true _ _).1 hP
  obtain ⟨n, l, hl⟩ := C138_loops holdsInts hj hf h (by rw [e]; exact hp)
  rw [List.isEmpty_iff] at hpe
  simp only [OMap.find?, hpe, OMap.lookupL] at hl
  cases hl

end
end Ex
end Verif
