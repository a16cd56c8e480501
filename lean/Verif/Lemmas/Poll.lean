import Verif.Lemmas.Cycle
import Verif.Spec.History

/-! # Helper lemmas about polling passes and what a tick leaves alone -/

namespace Verif
variable [F : FloatModel]
open Dbl

theorem eqb_zero (x : Dbl) : eqb x 0 = true ↔ x = 0 := by
  rw [eqb_iff]
  exact ⟨fun h => h.1, fun h => ⟨h, h ▸ Dbl.zero_ne_nan⟩⟩

omit F in
theorem stale_iff (t a : Int) : (t ≠ 0 ∧ t ≤ Int.tdiv a 1000000000) ↔ Stale t a := by
  unfold Stale
  rcases Int.lt_trichotomy t 0 with h | rfl | h
  · have h1 : ¬ 0 < t := by omega
    simp only [h1, false_and, false_or, h, true_and, h.ne, ne_eq, not_false_eq_true]
    rcases Int.le_total 0 a with ha | ha
    · have := Int.tdiv_nonneg ha (show (0 : Int) ≤ 1000000000 by omega)
      constructor <;> intro _ <;> omega
    · obtain ⟨b, rfl⟩ : ∃ b, a = -b := ⟨-a, by omega⟩
      rw [Int.neg_tdiv, Int.tdiv_eq_ediv_of_nonneg (by omega)]
      omega
  · simp
  · have h1 : ¬ t < 0 := by omega
    simp only [h1, false_and, or_false, h, true_and, h.ne', ne_eq, not_false_eq_true]
    rcases Int.le_total 0 a with ha | ha
    · rw [Int.tdiv_eq_ediv_of_nonneg ha]
      omega
    · obtain ⟨b, rfl⟩ : ∃ b, a = -b := ⟨-a, by omega⟩
      rw [Int.neg_tdiv, Int.tdiv_eq_ediv_of_nonneg (by omega)]
      omega

/-! ## Percentages -/

theorem percentOf_congr {z z' : ZoneData} (h1 : z'.sensorFailSafePercent = z.sensorFailSafePercent)
    (h2 : z'.zoneFailSafePercent = z.zoneFailSafePercent) (n : String) : percentOf z' n = percentOf z n := by
  unfold percentOf; rw [h1, h2]

/-- a polling pass only changes these -/
structure PollFrame (z z' : ZoneData) : Prop where
  eq : z' = { z with
    cachedValuesByName := z'.cachedValuesByName, failSafeSensors := z'.failSafeSensors,
    sensorFailSafePercent := z'.sensorFailSafePercent }
  percent : ∀ n, percentOf z' n = percentOf z n
  wf : z.failSafeSensors.WF → z'.failSafeSensors.WF

theorem PollFrame.refl (z : ZoneData) : PollFrame z z := ⟨rfl, fun _ => rfl, id⟩

theorem PollFrame.trans {a b c : ZoneData} (h : PollFrame a b) (h' : PollFrame b c) : PollFrame a c := by
  refine ⟨?_, fun n => (h'.percent n).trans (h.percent n), fun hw => h'.wf (h.wf hw)⟩
  have e1 := h.eq
  have e2 := h'.eq
  rw [e2, e1]

theorem markMissing_skip {z : ZoneData} {n : String} (h : n ∈ z.missingAcceptable) (r : String) :
    z.markSensorMissing n r = z := by
  have : z.missingAcceptable.contains n = true := by simpa using h
  simp [ZoneData.markSensorMissing, h]

theorem markMissing_spec {z : ZoneData} {n : String} (h : n ∉ z.missingAcceptable) (r : String) :
    PollFrame z (z.markSensorMissing n r) ∧
      (z.markSensorMissing n r).failSafeSensors = z.failSafeSensors.insert n (r, percentOf z n) ∧
      (z.markSensorMissing n r).cachedValuesByName = z.cachedValuesByName := by
  have hc : z.missingAcceptable.contains n = false := by simpa using h
  have hp : (if eqb ((z.sensorFailSafePercent.find? n).getD 0) 0 = true then z.zoneFailSafePercent
      else (z.sensorFailSafePercent.find? n).getD 0) = percentOf z n := by
    simp only [eqb_zero, percentOf]
    cases z.sensorFailSafePercent.find? n <;> simp
  have hfs : (z.markSensorMissing n r).failSafeSensors = z.failSafeSensors.insert n (r, percentOf z n) := by
    simp only [ZoneData.markSensorMissing, hc, Bool.false_eq_true, if_false, hp]
  refine ⟨⟨?_, ?_, fun hw => hfs ▸ OMap.wf_insert hw _ _⟩, hfs, ?_⟩
  · simp only [ZoneData.markSensorMissing, hc]; rfl
  · intro m
    have ht : (z.markSensorMissing n r).sensorFailSafePercent = if z.sensorFailSafePercent.contains n = true then
        z.sensorFailSafePercent else z.sensorFailSafePercent.insert n 0 := by
      simp only [ZoneData.markSensorMissing, hc, Bool.false_eq_true, if_false]
    have hz : (z.markSensorMissing n r).zoneFailSafePercent = z.zoneFailSafePercent := by
      simp only [ZoneData.markSensorMissing, hc, Bool.false_eq_true, if_false]
    unfold percentOf
    rw [ht, hz]
    by_cases hn : z.sensorFailSafePercent.contains n = true
    · rw [if_pos hn]
    · rw [if_neg hn, OMap.find?_insert]
      by_cases e : m = n
      · subst e
        rw [if_pos rfl, (OMap.contains_false_iff _ _).1 (by simpa using hn)]; simp
      · rw [if_neg e]
  · simp only [ZoneData.markSensorMissing, hc, Bool.false_eq_true, if_false]

/-- what one poll of sensor `n` does -/
structure Polled (w : World) (now : Int) (n : String) (z z' : ZoneData) : Prop where
  frame : PollFrame z z'
  other : ∀ m, m ≠ n → z'.failSafeSensors.find? m = z.failSafeSensors.find? m ∧
    z'.cachedValuesByName.find? m = z.cachedValuesByName.find? m
  sensor : ∃ s r f, w.sensors.find? n = some s ∧ s.read w now = .ok r ∧ s.getFailed w = .ok f ∧
    z'.cachedValuesByName.find? n = some ⟨r.value, r.unscaled⟩
  fails : FailsAt w now n → n ∉ z.missingAcceptable →
    ∃ reason, z'.failSafeSensors.find? n = some (reason, percentOf z n) ∧
      ∃ s, w.sensors.find? n = some s ∧ ((s.getFailed w = .ok true ∧ s.getFailReason = .ok reason) ∨
        (s.getFailed w = .ok false ∧ reason = "Sensor timeout"))
  skipped : FailsAt w now n → n ∈ z.missingAcceptable → z'.failSafeSensors = z.failSafeSensors
  works : ¬ FailsAt w now n → z'.failSafeSensors.find? n = none

theorem poll_spec {w : World} {now : Int} {z z' : ZoneData} {n : String}
    (h : z.processSensorInput w now n = .ok z') : Polled w now n z z' := by
  unfold ZoneData.processSensorInput at h
  obtain ⟨s, hs, h⟩ := bind_eq_ok.1 h
  have hs : w.sensors.find? n = some s := (OMap.atKey_ok_iff _ _ _).1 hs
  obtain ⟨r, hr, h⟩ := bind_eq_ok.1 h
  obtain ⟨f, hf, h⟩ := bind_eq_ok.1 h
  set z1 : ZoneData := { z with cachedValuesByName := z.cachedValuesByName.insert n ⟨r.value, r.unscaled⟩ } with hz1
  have f1 : PollFrame z z1 := ⟨rfl, fun _ => rfl, id⟩
  have p1 : percentOf z1 n = percentOf z n := rfl
  have o1 : ∀ m, m ≠ n → z1.cachedValuesByName.find? m = z.cachedValuesByName.find? m :=
    fun m hm => OMap.find?_insert_ne _ hm _
  have c1 : z1.cachedValuesByName.find? n = some ⟨r.value, r.unscaled⟩ := OMap.find?_insert_self _ _ _
  have hFails : FailsAt w now n ↔ (f = true ∨ Stale s.timeout (now - r.updated)) := by
    constructor
    · rintro ⟨s', h1, h2⟩
      rw [hs] at h1; cases h1
      rcases h2 with h2 | ⟨r', h2, h3⟩
      · rw [hf] at h2; cases h2; exact .inl rfl
      · rw [hr] at h2; cases h2; exact .inr h3
    · rintro (rfl | h2)
      · exact ⟨s, hs, .inl hf⟩
      · exact ⟨s, hs, .inr ⟨r, hr, h2⟩⟩
  have marked : ∀ reason, z' = z1.markSensorMissing n reason → FailsAt w now n →
      ((s.getFailed w = .ok true ∧ s.getFailReason = .ok reason) ∨
        (s.getFailed w = .ok false ∧ reason = "Sensor timeout")) → Polled w now n z z' := by
    rintro reason rfl hF hreason
    by_cases hm : n ∈ z1.missingAcceptable
    · rw [markMissing_skip hm]
      exact ⟨f1, fun m hm => ⟨rfl, o1 m hm⟩, ⟨s, r, f, hs, hr, hf, c1⟩, fun _ h => absurd hm h, fun _ _ => rfl,
        fun h => absurd hF h⟩
    · obtain ⟨h2, h3, h4⟩ := markMissing_spec hm reason
      refine ⟨f1.trans h2, fun m hm => ⟨?_, ?_⟩, ⟨s, r, f, hs, hr, hf, ?_⟩, fun _ _ => ⟨reason, ?_, s, hs, hreason⟩,
        fun _ h => absurd h hm, fun h => absurd hF h⟩
      · rw [h3, OMap.find?_insert_ne _ hm]
      · rw [h4, o1 m hm]
      · rw [h4, c1]
      · rw [h3, OMap.find?_insert_self, p1]
  cases hff : f with
  | true =>
    rw [hff] at h
    simp only [if_true] at h
    obtain ⟨reason, h5, h6⟩ := bind_eq_ok.1 h
    cases h6
    exact marked reason rfl (hFails.2 (.inl hff)) (.inl ⟨hff ▸ hf, h5⟩)
  | false =>
    rw [hff] at h
    simp only [Bool.false_eq_true, if_false] at h
    split_ifs at h with ht
    · cases h
      exact marked "Sensor timeout" rfl (hFails.2 (.inr ((stale_iff _ _).1 ht))) (.inr ⟨hff ▸ hf, rfl⟩)
    · cases h
      have hno : ¬ FailsAt w now n := by
        rw [hFails]
        rintro (h1 | h1)
        · rw [hff] at h1; cases h1
        · exact ht ((stale_iff _ _).2 h1)
      refine ⟨⟨rfl, fun _ => rfl, fun hw => OMap.wf_erase hw _⟩, fun m hm => ⟨?_, o1 m hm⟩, ⟨s, r, f, hs, hr, hf, c1⟩, fun h => absurd h hno,
        fun h => absurd h hno, fun _ => ?_⟩
      · simp [OMap.find?_erase, hm, hz1]
      · simp [OMap.find?_erase]

/-- what a polling pass does -/
structure PolledAll (w : World) (now : Int) (names : List String) (z z' : ZoneData) : Prop where
  frame : PollFrame z z'
  other : ∀ m, m ∉ names → z'.failSafeSensors.find? m = z.failSafeSensors.find? m ∧
    z'.cachedValuesByName.find? m = z.cachedValuesByName.find? m
  sensor : ∀ n ∈ names, ∃ s r f, w.sensors.find? n = some s ∧ s.read w now = .ok r ∧ s.getFailed w = .ok f ∧
    z'.cachedValuesByName.find? n = some ⟨r.value, r.unscaled⟩
  fails : ∀ n ∈ names, FailsAt w now n → n ∉ z.missingAcceptable →
    ∃ reason, z'.failSafeSensors.find? n = some (reason, percentOf z n) ∧
      ∃ s, w.sensors.find? n = some s ∧ ((s.getFailed w = .ok true ∧ s.getFailReason = .ok reason) ∨
        (s.getFailed w = .ok false ∧ reason = "Sensor timeout"))
  skipped : ∀ n ∈ names, FailsAt w now n → n ∈ z.missingAcceptable →
    z'.failSafeSensors.find? n = z.failSafeSensors.find? n
  works : ∀ n ∈ names, ¬ FailsAt w now n → z'.failSafeSensors.find? n = none

theorem PollFrame.missing {z z' : ZoneData} (h : PollFrame z z') : z'.missingAcceptable = z.missingAcceptable := by
  rw [h.eq]

theorem pollAll_spec {w : World} {now : Int} : ∀ {names : List String} {z z' : ZoneData},
    z.processSensorInputs w now names = .ok z' → PolledAll w now names z z'
  | [], z, z', h => by
    cases h
    exact ⟨PollFrame.refl z, fun _ _ => ⟨rfl, rfl⟩, by simp, by simp, by simp, by simp⟩
  | n :: names, z, z', h => by
    obtain ⟨z1, h1, h2⟩ := bind_eq_ok.1 h
    have a := poll_spec h1
    have b := pollAll_spec h2
    have hmiss := a.frame.missing
    refine ⟨a.frame.trans b.frame, fun m hm => ?_, fun m hm => ?_, fun m hm hF hq => ?_, fun m hm hF hq => ?_,
      fun m hm hF => ?_⟩
    · simp only [List.mem_cons, not_or] at hm
      exact ⟨(b.other m hm.2).1.trans (a.other m hm.1).1, (b.other m hm.2).2.trans (a.other m hm.1).2⟩
    · by_cases hin : m ∈ names
      · exact b.sensor m hin
      · obtain rfl : m = n := (List.mem_cons.1 hm).resolve_right hin
        obtain ⟨s, r, f, q1, q2, q3, q4⟩ := a.sensor
        exact ⟨s, r, f, q1, q2, q3, (b.other m hin).2.trans q4⟩
    · by_cases hin : m ∈ names
      · have := b.fails m hin hF (hmiss ▸ hq)
        rwa [a.frame.percent] at this
      · obtain rfl : m = n := (List.mem_cons.1 hm).resolve_right hin
        obtain ⟨reason, q1, q2⟩ := a.fails hF hq
        exact ⟨reason, (b.other m hin).1.trans q1, q2⟩
    · by_cases hin : m ∈ names
      · rw [b.skipped m hin hF (hmiss ▸ hq)]
        by_cases e : m = n
        · subst e; rw [a.skipped hF hq]
        · exact (a.other m e).1
      · obtain rfl : m = n := (List.mem_cons.1 hm).resolve_right hin
        rw [(b.other m hin).1, a.skipped hF hq]
    · by_cases hin : m ∈ names
      · exact b.works m hin hF
      · obtain rfl : m = n := (List.mem_cons.1 hm).resolve_right hin
        rw [(b.other m hin).1, a.works hF]

/-! ## What the other steps leave alone -/

/-- only set points, ceilings, D-Bus objects, fan outputs, mode and the force flag change -/
def Rest (z z' : ZoneData) : Prop :=
  z' = { z with
    maximumSetPoint := z'.maximumSetPoint, maximumSetPointName := z'.maximumSetPointName,
    maximumSetPointNamePrev := z'.maximumSetPointNamePrev, setPoints := z'.setPoints, rpmCeilings := z'.rpmCeilings,
    procs := z'.procs, cachedFanOutputs := z'.cachedFanOutputs, redundantWrite := z'.redundantWrite,
    manualMode := z'.manualMode }

omit F in
theorem Rest.refl [F : FloatModel] (z : ZoneData) : Rest z z := rfl

theorem Rest.trans {a b c : ZoneData} (h : Rest a b) (h' : Rest b c) : Rest a c := by
  unfold Rest at *
  rw [h', h]

theorem Rest.percent {z z' : ZoneData} (h : Rest z z') (n : String) : percentOf z' n = percentOf z n := by
  rw [h]; rfl

theorem Rest.failed {z z' : ZoneData} (h : Rest z z') : z'.failSafeSensors = z.failSafeSensors := by rw [h]
theorem Rest.cache {z z' : ZoneData} (h : Rest z z') : z'.cachedValuesByName = z.cachedValuesByName := by rw [h]

/-- only set points, ceilings and D-Bus objects change -/
def RestT (z z' : ZoneData) : Prop :=
  z' = { z with
    maximumSetPoint := z'.maximumSetPoint, maximumSetPointName := z'.maximumSetPointName,
    maximumSetPointNamePrev := z'.maximumSetPointNamePrev, setPoints := z'.setPoints, rpmCeilings := z'.rpmCeilings,
    procs := z'.procs }

theorem RestT.trans {a b c : ZoneData} (h : RestT a b) (h' : RestT b c) : RestT a c := by
  unfold RestT at *
  rw [h', h]

theorem RestT.rest {z z' : ZoneData} (h : RestT z z') : Rest z z' := by
  unfold Rest
  rw [h]

theorem addSetPoint_rest {z z' : ZoneData} {v : Dbl} {n : String} (h : z.addSetPoint v n = .ok z') : RestT z z' := by
  obtain ⟨p, _, rfl⟩ := addSetPoint_ok h
  split_ifs
  · rfl
  · rfl

theorem updateDebug_rest {z z' : ZoneData} {id l : String} {i v : Dbl}
    (h : z.updateThermalPowerDebugInterface id l i v = .ok z') : RestT z z' := by
  unfold ZoneData.updateThermalPowerDebugInterface at h
  cases hp : z.procs.find? id with
  | none => simp [hp] at h
  | some p =>
    simp only [hp] at h
    split_ifs at h <;> (cases h; rfl)

theorem inputOne_rest {c : ThermalPid} {z z' : ZoneData} {v v' : Dbl} {a a' : Bool} {i : SensorInput}
    (h : c.inputOne z v a i = .ok (z', v', a')) : RestT z z' := by
  unfold ThermalPid.inputOne at h
  obtain ⟨e, _, h⟩ := bind_eq_ok.1 h
  dsimp only at h
  have tail : ∀ x : Dbl, (if (!v.eqb x) = true then do
        let z ← z.updateThermalPowerDebugInterface c.id i.name x 0
        Except.ok (z, x, true)
      else Except.ok (z, x, true)) = .ok (z', v', a') → RestT z z' := by
    intro x h
    split_ifs at h with h2
    · obtain ⟨z1, h3, h4⟩ := bind_eq_ok.1 h
      cases h4
      exact updateDebug_rest h3
    · cases h; rfl
  split_ifs at h with h1 h2 h3
  · cases h; rfl
  · cases h
  · exact tail _ h
  · exact tail _ h

theorem inputLoop_rest {c : ThermalPid} : ∀ {is : List SensorInput} {z z' : ZoneData} {v v' : Dbl} {a a' : Bool},
    c.inputLoop z v a is = .ok (z', v', a') → RestT z z'
  | [], _, _, _, _, _, _, h => by cases h; rfl
  | i :: is, z, z', v, v', a, a', h => by
    unfold ThermalPid.inputLoop at h
    obtain ⟨⟨z1, v1, a1⟩, h1, h2⟩ := bind_eq_ok.1 h
    exact (inputOne_rest h1).trans (inputLoop_rest h2)

theorem ctlProcess_rest {z z' : ZoneData} {c c' : ThermalCtl} (h : c.process z = .ok (z', c')) : RestT z z' := by
  cases c with
  | pid c =>
    simp only [ThermalCtl.process] at h
    obtain ⟨⟨z1, c1⟩, h1, h2⟩ := bind_eq_ok.1 h
    cases h2
    unfold ThermalPid.process at h1
    obtain ⟨⟨z2, x⟩, h3, h4⟩ := bind_eq_ok.1 h1
    unfold ThermalPid.inputProc at h3
    split_ifs at h3
    obtain ⟨⟨z3, y, b⟩, h5, h6⟩ := bind_eq_ok.1 h3
    cases h6
    obtain ⟨z4, h7, h8⟩ := bind_eq_ok.1 h4
    obtain ⟨z5, h9, h10⟩ := bind_eq_ok.1 h8
    cases h10
    exact ((inputLoop_rest h5).trans (addSetPoint_rest h7)).trans (updateDebug_rest h9)
  | stepwise c =>
    simp only [ThermalCtl.process] at h
    obtain ⟨⟨z1, c1⟩, h1, h2⟩ := bind_eq_ok.1 h
    cases h2
    unfold StepwiseCtl.process at h1
    obtain ⟨x, _, h4⟩ := bind_eq_ok.1 h1
    dsimp only at h4
    split_ifs at h4
    · cases h4; rfl
    · obtain ⟨z4, h7, h8⟩ := bind_eq_ok.1 h4
      cases h8
      exact addSetPoint_rest h7

theorem thermalList_rest : ∀ {cs cs' : List ThermalCtl} {z z' : ZoneData},
    processThermalList z cs = .ok (z', cs') → RestT z z'
  | [], _, _, _, h => by cases h; rfl
  | c :: cs, _, z, z', h => by
    unfold processThermalList at h
    obtain ⟨⟨z1, c1⟩, h1, h2⟩ := bind_eq_ok.1 h
    obtain ⟨⟨z2, cs2⟩, h3, h4⟩ := bind_eq_ok.1 h2
    cases h4
    exact (ctlProcess_rest h1).trans (thermalList_rest h3)

theorem determine_rest {o : Opts} {w : World} {ids : List String} {z z' : ZoneData}
    (h : z.determineMaxSetPointRequest o w ids = .ok z') : RestT z z' := by
  rw [determine_eq] at h
  split_ifs at h
  · obtain ⟨r, _, h⟩ := bind_eq_ok.1 h
    obtain ⟨r, _, h⟩ := bind_eq_ok.1 h
    cases h; rfl
  · cases h; rfl

theorem processThermals_restT {o : Opts} {w : World} {z z' : Zone} (h : z.processThermals o w = .ok z') :
    ∃ d, z.d.updateSensors w = .ok d ∧ RestT d z'.d := by
  unfold Zone.processThermals at h
  obtain ⟨d, h1, h⟩ := bind_eq_ok.1 h
  obtain ⟨⟨d1, ts⟩, h2, h⟩ := bind_eq_ok.1 h
  obtain ⟨d2, h3, h⟩ := bind_eq_ok.1 h
  cases h
  refine ⟨d, h1, ?_⟩
  have a : RestT d (d.clearSetPoints.clearRPMCeilings) := rfl
  exact (a.trans (thermalList_rest h2)).trans (determine_rest h3)

theorem processThermals_rest {o : Opts} {w : World} {z z' : Zone} (h : z.processThermals o w = .ok z') :
    ∃ d, z.d.updateSensors w = .ok d ∧ Rest d z'.d := by
  obtain ⟨d, h1, h2⟩ := processThermals_restT h
  exact ⟨d, h1, h2.rest⟩

theorem writeFans_rest {raw0 : Res Int} {pc : Dbl} : ∀ {ns : List String} {w w' : World} {z z' : ZoneData},
    writeFans raw0 pc w z ns = .ok (w', z') → Rest z z'
  | [], _, _, _, _, h => by cases h; rfl
  | n :: ns, w, w', z, z', h => by
    unfold writeFans at h
    obtain ⟨⟨w1, sn, wr⟩, _, h⟩ := bind_eq_ok.1 h
    obtain ⟨raw, _, h⟩ := bind_eq_ok.1 h
    have a : Rest z (z.setOutputCache sn ⟨pc, Dbl.ofInt raw⟩) := rfl
    exact a.trans (writeFans_rest h)

theorem fanProcess_rest {o : Opts} {w w' : World} {z z' : ZoneData} {c c' : FanPid}
    (h : c.process o w z = .ok (w', z', c')) : Rest z z' := by
  unfold FanPid.process at h
  obtain ⟨x, _, h⟩ := bind_eq_ok.1 h
  obtain ⟨⟨w1, z1⟩, h1, h⟩ := bind_eq_ok.1 h
  cases h
  exact writeFans_rest h1

theorem fanList_rest {o : Opts} : ∀ {cs cs' : List (Option FanPid)} {w w' : World} {z z' : ZoneData},
    processFanList o w z cs = .ok (w', z', cs') → Rest z z'
  | [], _, _, _, _, _, h => by cases h; rfl
  | none :: _, _, _, _, _, _, h => by cases h
  | some c :: cs, _, w, w', z, z', h => by
    unfold processFanList at h
    obtain ⟨⟨w1, z1, c1⟩, h1, h⟩ := bind_eq_ok.1 h
    obtain ⟨⟨w2, z2, cs2⟩, h2, h⟩ := bind_eq_ok.1 h
    cases h
    exact (fanProcess_rest h1).trans (fanList_rest h2)

theorem processFans_rest {o : Opts} {w w' : World} {z z' : Zone} (h : z.processFans o w = .ok (w', z')) :
    Rest z.d z'.d ∧ z'.thermals = z.thermals := by
  unfold Zone.processFans at h
  obtain ⟨⟨w1, d1, fs⟩, h1, h⟩ := bind_eq_ok.1 h
  cases h
  have a : Rest d1 { d1 with redundantWrite := false } := rfl
  exact ⟨(fanList_rest h1).trans a, rfl⟩

theorem setManual_rest (z : ZoneData) (b : Bool) : Rest z (z.setManualMode b) := rfl

theorem setEnabled_rest (z : ZoneData) (n : String) (b : Bool) : Rest z (z.setEnabled n b) := by
  unfold ZoneData.setEnabled
  cases z.procs.find? n <;> rfl

end Verif
