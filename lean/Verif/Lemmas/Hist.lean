import Verif.Lemmas.Poll

/-! # Helper lemmas about histories of a zone -/

namespace Verif
variable [F : FloatModel]
open Dbl

theorem lastPoll_append (log : List Poll) (p : Poll) (n : String) :
    lastPoll (log ++ [p]) n = if n ∈ p.names then some p else lastPoll log n := by
  unfold lastPoll
  rw [List.filter_append]
  by_cases h : n ∈ p.names <;> simp [h, List.filter_cons]

theorem lastPoll_nil (n : String) : lastPoll [] n = none := rfl

theorem built_failed {z : ZoneData} (h : Built z) : z.failSafeSensors = {} := by
  have add : ∀ (is : List String) (p : Dbl) (z : ZoneData),
      (z.addPidFailSafePercent is p).failSafeSensors = z.failSafeSensors := by
    intro is
    induction is with
    | nil => intros; rfl
    | cons s is ih => intro p z; simp only [ZoneData.addPidFailSafePercent]; rw [ih]
  induction h with
  | ctor => rfl
  | fanInput n b _ ih => exact ih
  | thermalInput n b _ ih => exact ih
  | process n t s _ ih => exact ih
  | failSafePercent is p _ ih => rw [add, ih]

/-! ## Start -/

/-- one fan in `initializeCache` -/
def initFan (z : ZoneData) (f : String) : ZoneData :=
  ({ z with
      cachedValuesByName := z.cachedValuesByName.insert f ⟨.nan, .nan⟩,
      cachedFanOutputs := z.cachedFanOutputs.insert f ⟨.nan, .nan⟩ } : ZoneData).markSensorMissing f ""

/-- one thermal input in `initializeCache` -/
def initThermal (z : ZoneData) (t : String) : ZoneData :=
  ({ z with cachedValuesByName := z.cachedValuesByName.insert t ⟨.nan, .nan⟩ } : ZoneData).markSensorMissing t ""

theorem initializeCache_eq (z : ZoneData) :
    z.initializeCache = z.thermalInputs.foldl initThermal (z.fanInputs.foldl initFan z) := by
  have h : ∀ (l : List String) (z : ZoneData), (l.foldl initFan z).thermalInputs = z.thermalInputs := by
    intro l
    induction l with
    | nil => intros; rfl
    | cons a l ih =>
      intro z
      rw [List.foldl_cons, ih]
      simp only [initFan, ZoneData.markSensorMissing]
      split <;> rfl
  unfold ZoneData.initializeCache
  change ((z.fanInputs.foldl initFan z).thermalInputs).foldl initThermal (z.fanInputs.foldl initFan z) = _
  rw [h]

/-- what starting the inputs `names` in failsafe does -/
structure Inited (names : List String) (z z' : ZoneData) : Prop where
  eq : z' = { z with
    cachedValuesByName := z'.cachedValuesByName, failSafeSensors := z'.failSafeSensors,
    sensorFailSafePercent := z'.sensorFailSafePercent, cachedFanOutputs := z'.cachedFanOutputs }
  percent : ∀ n, percentOf z' n = percentOf z n
  wf : z.failSafeSensors.WF → z'.failSafeSensors.WF
  failed : ∀ n, z'.failSafeSensors.find? n = if n ∈ names ∧ n ∉ z.missingAcceptable then some ("", percentOf z n)
    else z.failSafeSensors.find? n
  cache : ∀ n, z'.cachedValuesByName.find? n = if n ∈ names then some ⟨nan, nan⟩ else z.cachedValuesByName.find? n

theorem inited_one {z : ZoneData} (z1 : ZoneData) {f : String}
    (h1 : z1 = { z with cachedValuesByName := z.cachedValuesByName.insert f ⟨nan, nan⟩,
                        cachedFanOutputs := z1.cachedFanOutputs }) :
    Inited [f] z (z1.markSensorMissing f "") := by
  have hm1 : z1.missingAcceptable = z.missingAcceptable := by rw [h1]
  have hp1 : ∀ n, percentOf z1 n = percentOf z n := by intro n; rw [h1]; rfl
  have hc1 : ∀ n, z1.cachedValuesByName.find? n = if n ∈ [f] then some ⟨nan, nan⟩ else z.cachedValuesByName.find? n := by
    intro n
    have : z1.cachedValuesByName = z.cachedValuesByName.insert f ⟨nan, nan⟩ := by rw [h1]
    rw [this, OMap.find?_insert]; simp
  have hf1 : z1.failSafeSensors = z.failSafeSensors := by rw [h1]
  by_cases hm : f ∈ z1.missingAcceptable
  · rw [markMissing_skip hm]
    refine ⟨?_, hp1, fun h => hf1 ▸ h, fun n => ?_, hc1⟩
    · rw [h1]
    · rw [if_neg, hf1]
      rintro ⟨h2, h3⟩
      rw [List.mem_singleton.1 h2] at h3
      exact h3 (hm1 ▸ hm)
  · obtain ⟨a, b, c⟩ := markMissing_spec hm ""
    refine ⟨?_, fun n => (a.percent n).trans (hp1 n), fun h => a.wf (hf1 ▸ h), fun n => ?_, fun n => by rw [c]; exact hc1 n⟩
    · have := a.eq
      rw [this, h1]
    · rw [b, OMap.find?_insert, hf1, hp1]
      by_cases e : n = f
      · subst e; rw [if_pos rfl, if_pos ⟨by simp, hm1 ▸ hm⟩]
      · rw [if_neg e, if_neg]; simp [e]

theorem inited_foldl {g : ZoneData → String → ZoneData} (hg : ∀ z f, Inited [f] z (g z f)) :
    ∀ (l : List String) (z : ZoneData), Inited l z (l.foldl g z)
  | [], z => ⟨rfl, fun _ => rfl, id, by simp, by simp⟩
  | f :: l, z => by
    have a := hg z f
    have b := inited_foldl hg l (g z f)
    have hm : (g z f).missingAcceptable = z.missingAcceptable := by rw [a.eq]
    refine ⟨?_, fun n => (b.percent n).trans (a.percent n), fun h => b.wf (a.wf h), fun n => ?_, fun n => ?_⟩
    · have e1 := a.eq
      have e2 := b.eq
      rw [List.foldl_cons]
      rw [e2, e1]
    · rw [List.foldl_cons, b.failed, hm, a.failed, a.percent]
      by_cases h1 : n ∈ l <;> by_cases h2 : n = f <;> by_cases h3 : n ∈ z.missingAcceptable <;> simp [h1, h2, h3]
      all_goals (subst h2; simp_all)
    · rw [List.foldl_cons, b.cache, a.cache]
      by_cases h1 : n ∈ l <;> by_cases h2 : n = f <;> simp [h1, h2]

theorem initFan_inited (z : ZoneData) (f : String) : Inited [f] z (initFan z f) := inited_one _ rfl
theorem initThermal_inited (z : ZoneData) (f : String) : Inited [f] z (initThermal z f) := inited_one _ rfl

theorem initializeCache_spec (z : ZoneData) : Inited (z.fanInputs ++ z.thermalInputs) z z.initializeCache := by
  rw [initializeCache_eq]
  have a := inited_foldl initFan_inited z.fanInputs z
  have b := inited_foldl initThermal_inited z.thermalInputs (z.fanInputs.foldl initFan z)
  have hm : (z.fanInputs.foldl initFan z).missingAcceptable = z.missingAcceptable := by rw [a.eq]
  refine ⟨?_, fun n => (b.percent n).trans (a.percent n), fun h => b.wf (a.wf h), fun n => ?_, fun n => ?_⟩
  · have e1 := a.eq
    have e2 := b.eq
    rw [e2, e1]
  · rw [b.failed, hm, a.failed, a.percent]
    by_cases h1 : n ∈ z.fanInputs <;> by_cases h2 : n ∈ z.thermalInputs <;> by_cases h3 : n ∈ z.missingAcceptable <;>
      simp [h1, h2, h3]
  · rw [b.cache, a.cache]
    by_cases h1 : n ∈ z.fanInputs <;> by_cases h2 : n ∈ z.thermalInputs <;> simp [h1, h2]

/-! ## Ticks -/

theorem tick_manual {o : Opts} {w : World} {z : Zone} {cnt : Nat} (h : z.d.manualMode = true) :
    z.tick o w cnt = .ok (w, z, cnt) := by
  simp [Zone.tick, h]

theorem tick_auto {o : Opts} {w w' : World} {z z' : Zone} {cnt cnt' : Nat} (hm : z.d.manualMode = false)
    (h : z.tick o w cnt = .ok (w', z', cnt')) :
    ∃ d, z.d.updateFanTelemetry w = .ok d ∧
      ((z.d.cycleTime.updateThermalsTimeMS ≤ cnt ∧ ∃ zt, Zone.processThermals o w { z with d := d } = .ok zt ∧
          zt.processFans o w = .ok (w', z') ∧
          cnt' = cnt - z.d.cycleTime.updateThermalsTimeMS + z.d.cycleTime.cycleIntervalTimeMS) ∨
        (¬ z.d.cycleTime.updateThermalsTimeMS ≤ cnt ∧ Zone.processFans o w { z with d := d } = .ok (w', z') ∧
          cnt' = cnt + z.d.cycleTime.cycleIntervalTimeMS)) := by
  unfold Zone.tick at h
  rw [if_neg (by simp [hm])] at h
  obtain ⟨d, h1, h⟩ := bind_eq_ok.1 h
  have hd : d.cycleTime = z.d.cycleTime := by rw [(pollAll_spec h1).frame.eq]
  refine ⟨d, h1, ?_⟩
  dsimp only at h
  rw [hd] at h
  by_cases ht : z.d.cycleTime.updateThermalsTimeMS ≤ cnt
  · rw [if_pos ht] at h
    obtain ⟨zt, h4, h⟩ := bind_eq_ok.1 h
    rw [ok_bind] at h
    obtain ⟨⟨w1, z1⟩, h3, h⟩ := bind_eq_ok.1 h
    cases h
    refine .inl ⟨ht, zt, h4, h3, ?_⟩
    obtain ⟨d2, h6, h7⟩ := processThermals_rest h4
    have e2 : d2.cycleTime = d.cycleTime := by rw [(pollAll_spec h6).frame.eq]
    have e3 : zt.d.cycleTime = d2.cycleTime := by rw [h7]
    have e4 : z1.d.cycleTime = zt.d.cycleTime := by rw [(processFans_rest h3).1]
    rw [e4, e3, e2, hd]
  · rw [if_neg ht, ok_bind] at h
    obtain ⟨⟨w1, z1⟩, h3, h⟩ := bind_eq_ok.1 h
    cases h
    refine .inr ⟨ht, h3, ?_⟩
    have e4 : z1.d.cycleTime = d.cycleTime := by rw [(processFans_rest h3).1]
    rw [e4, hd]

/-! ## The invariant of a history -/

structure HistInv (d0 z : ZoneData) (log : List Poll) : Prop where
  same : z.fanInputs = d0.fanInputs ∧ z.thermalInputs = d0.thermalInputs ∧ z.missingAcceptable = d0.missingAcceptable ∧
    z.cycleTime = d0.cycleTime ∧ z.zoneFailSafePercent = d0.zoneFailSafePercent ∧
    z.accumulateSetPoint = d0.accumulateSetPoint ∧ z.minThermalOutputSetPt = d0.minThermalOutputSetPt ∧
    z.zoneId = d0.zoneId
  percent : ∀ n, percentOf z n = percentOf d0 n
  wf : z.failSafeSensors.WF
  entries : ∀ n e, z.failSafeSensors.find? n = some e → e.2 = percentOf d0 n
  failed : ∀ n, Failed z n ↔ Required d0 n ∧ ∀ p, lastPoll log n = some p → FailsAt p.w p.now n
  covered : ∀ p ∈ log, ∀ n ∈ p.names, n ∈ d0.fanInputs ∨ n ∈ d0.thermalInputs

theorem HistInv.rest {d0 z z' : ZoneData} {log : List Poll} (h : HistInv d0 z log) (hr : Rest z z') :
    HistInv d0 z' log := by
  refine ⟨?_, fun n => (hr.percent n).trans (h.percent n), ?_, ?_, fun n => ?_, h.covered⟩
  · rw [hr]; exact h.same
  · rw [hr.failed]; exact h.wf
  · rw [hr.failed]; exact h.entries
  · unfold Failed; rw [hr.failed]; exact h.failed n

theorem HistInv.poll {d0 z z' : ZoneData} {log : List Poll} (h : HistInv d0 z log) {w : World} {now : Int}
    {names : List String} (hn : ∀ n ∈ names, n ∈ d0.fanInputs ∨ n ∈ d0.thermalInputs)
    (hp : z.processSensorInputs w now names = .ok z') : HistInv d0 z' (log ++ [⟨w, now, names⟩]) := by
  have a := pollAll_spec hp
  have hm : z.missingAcceptable = d0.missingAcceptable := h.same.2.2.1
  have hacc : ∀ n ∈ d0.missingAcceptable, z.failSafeSensors.find? n = none := by
    intro n hn
    cases e : z.failSafeSensors.find? n with
    | none => rfl
    | some x => exact absurd hn (((h.failed n).1 ⟨x, e⟩).1).2
  refine ⟨?_, fun n => (a.frame.percent n).trans (h.percent n), a.frame.wf h.wf, fun n e he => ?_, fun n => ?_, ?_⟩
  · rw [a.frame.eq]; exact h.same
  · by_cases hin : n ∈ names
    · by_cases hF : FailsAt w now n
      · by_cases hq : n ∈ z.missingAcceptable
        · rw [a.skipped n hin hF hq] at he
          exact h.entries n e he
        · obtain ⟨r, h1, _⟩ := a.fails n hin hF hq
          rw [h1] at he; cases he
          exact h.percent n
      · rw [a.works n hin hF] at he; cases he
    · rw [(a.other n hin).1] at he
      exact h.entries n e he
  · rw [lastPoll_append]
    by_cases hin : n ∈ names
    · simp only [hin, if_true, Option.some.injEq, forall_eq']
      by_cases hF : FailsAt w now n
      · by_cases hq : n ∈ z.missingAcceptable
        · have e := a.skipped n hin hF hq
          rw [hacc n (hm ▸ hq)] at e
          simp only [Failed, e, Required]
          have : n ∈ d0.missingAcceptable := hm ▸ hq
          simp [this]
        · obtain ⟨r, h1, _⟩ := a.fails n hin hF hq
          exact ⟨fun _ => ⟨⟨hn n hin, hm ▸ hq⟩, hF⟩, fun _ => ⟨_, h1⟩⟩
      · have e := a.works n hin hF
        simp only [Failed, e, hF, and_false]
        simp
    · simp only [hin, if_false]
      unfold Failed
      rw [(a.other n hin).1]
      exact h.failed n
  · intro p hp' n hin
    rcases List.mem_append.1 hp' with h1 | h1
    · exact h.covered p h1 n hin
    · rw [List.mem_singleton.1 h1] at hin
      exact hn n hin

theorem HistInv.thermals {o : Opts} {w : World} {d0 : ZoneData} {z z' : Zone} {log : List Poll} (h : HistInv d0 z.d log)
    (hp : z.processThermals o w = .ok z') : HistInv d0 z'.d (log ++ [⟨w, w.nowThermals, z.d.thermalInputs⟩]) := by
  obtain ⟨d, h1, h2⟩ := processThermals_rest hp
  have hs := h.same.2.1
  exact (h.poll (fun n hn => .inr (hs ▸ hn)) h1).rest h2

theorem Hist.inv {o : Opts} {d0 : ZoneData} {z : Zone} {cnt : Nat} {log : List Poll} (h : Hist o d0 z cnt log) :
    HistInv d0 z.d log := by
  induction h with
  | @start z z' w hb hz hs =>
    subst hz
    have a := initializeCache_spec z.d
    have h0 : HistInv z.d z.d.initializeCache [] := by
      refine ⟨?_, a.percent, a.wf ?_, fun n e he => ?_, fun n => ?_, by simp⟩
      · rw [a.eq]; simp
      · rw [built_failed hb]; exact OMap.wf_empty
      · rw [a.failed, built_failed hb] at he
        split_ifs at he
        · cases he; rfl
        · cases he
      · simp only [Failed, a.failed, built_failed hb, lastPoll_nil, Required, List.mem_append]
        constructor
        · rintro ⟨e, he⟩
          split_ifs at he with h1
          · exact ⟨h1, by simp⟩
          · cases he
        · rintro ⟨h1, _⟩
          exact ⟨_, by rw [if_pos h1]⟩
    have ht : z.d.initializeCache.thermalInputs = z.d.thermalInputs := by rw [a.eq]
    have := HistInv.thermals (z := { z with d := z.d.initializeCache }) h0 hs
    simpa [ht] using this
  | manual b _ ih => exact ih.rest (setManual_rest _ b)
  | enable n b _ ih => exact ih.rest (setEnabled_rest _ n b)
  | @tick z cnt log w w' z' cnt' _ ht ih =>
    by_cases hm : z.d.manualMode = true
    · rw [tick_manual hm] at ht
      cases ht
      simpa [tickPolls, hm] using ih
    · have hm' : z.d.manualMode = false := by simpa using hm
      obtain ⟨d, h1, h2⟩ := tick_auto hm' ht
      have hs := ih.same
      have i1 := ih.poll (fun n hn => .inl (hs.1 ▸ hn)) h1
      have hti : d.thermalInputs = z.d.thermalInputs := by rw [(pollAll_spec h1).frame.eq]
      rcases h2 with ⟨hT, zt, h3, h4, _⟩ | ⟨hT, h3, _⟩
      · have i2 := HistInv.thermals (z := { z with d := d }) i1 h3
        have i3 := i2.rest (processFans_rest h4).1
        simpa [tickPolls, hm', hT, hti] using i3
      · have i3 := i1.rest (processFans_rest h3).1
        simpa [tickPolls, hm', hT] using i3

end Verif
