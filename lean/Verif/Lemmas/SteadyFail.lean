import Verif.Spec.SteadyFail
import Verif.Props.Recovery

/-! # A zone in which the same inputs fail all the time -/

namespace Verif
open Dbl
variable [F : FloatModel]

/-- once listed rightly, or once a thermal pass is due, a sensor is listed rightly when the fans are driven -/
theorem stable_after {d0 : ZoneData} {z : Zone} {d : ZoneData} {cnt : Nat} {log : List Poll} {w : World} {s : String} {b : Prop}
    (hi : HistInv d0 z.d log) (hi' : HistInv d0 d (log ++ tickPolls z cnt w)) (hm : z.d.manualMode = false)
    (hq : Required d0 s) (hf : FailsAt w w.nowFans s ↔ b) (ht : FailsAt w w.nowThermals s ↔ b)
    (h : (Failed z.d s ↔ b) ∨ d0.cycleTime.updateThermalsTimeMS ≤ cnt) : Failed d s ↔ b := by
  rw [hi'.failed s, and_iff_right hq]
  obtain ⟨e1, e2, _, e3, _⟩ := hi.same
  simp only [tickPolls, hm, Bool.false_eq_true, if_false, e1, e2, e3]
  by_cases hT : d0.cycleTime.updateThermalsTimeMS ≤ cnt
  · rw [if_pos hT]
    have e : log ++ [⟨w, w.nowFans, d0.fanInputs⟩, ⟨w, w.nowThermals, d0.thermalInputs⟩] =
        (log ++ [⟨w, w.nowFans, d0.fanInputs⟩]) ++ [⟨w, w.nowThermals, d0.thermalInputs⟩] := by simp
    rw [e]
    simp only [lastPoll_append]
    by_cases h1 : s ∈ d0.thermalInputs
    · rw [if_pos h1, ← ht]
      exact ⟨fun h => h _ rfl, fun h p hp => by cases hp; exact h⟩
    · have h2 : s ∈ d0.fanInputs := hq.1.resolve_right h1
      rw [if_neg h1, if_pos h2, ← hf]
      exact ⟨fun h => h _ rfl, fun h p hp => by cases hp; exact h⟩
  · rw [if_neg hT]
    simp only [lastPoll_append]
    by_cases h1 : s ∈ d0.fanInputs
    · rw [if_pos h1, ← hf]
      exact ⟨fun h => h _ rfl, fun h p hp => by cases hp; exact h⟩
    · rw [if_neg h1, ← h.resolve_right hT, hi.failed s, and_iff_right hq]

theorem Stable.hist {o : Opts} {d0 : ZoneData} {broken : String → Prop} {z0 z : Zone} {cnt0 n cnt : Nat} {log : List Poll}
    (h0 : Hist o d0 z0 cnt0 log) (h : Stable o d0 broken z0 cnt0 n z cnt) :
    (∃ log', Hist o d0 z cnt log') ∧
      ∀ s, Required d0 s → (Failed z.d s ↔ broken s) ∨ n * d0.cycleTime.cycleIntervalTimeMS ≤ cnt := by
  induction h with
  | start => exact ⟨⟨_, h0⟩, fun _ _ => .inr (by simp)⟩
  | manual b _ ih =>
    obtain ⟨⟨log', a⟩, b'⟩ := ih
    exact ⟨⟨_, .manual b a⟩, b'⟩
  | @enable n z cnt name b _ ih =>
    obtain ⟨⟨log', a⟩, b'⟩ := ih
    refine ⟨⟨_, .enable name b a⟩, fun s hs => (b' s hs).imp_left ?_⟩
    intro hf
    unfold Failed
    rw [(setEnabled_rest z.d name b).failed]; exact hf
  | idle w _ hm ht ih => rw [tick_manual hm] at ht; cases ht; exact ih
  | @auto n z cnt w w' z' cnt' _ hm hf ht ih =>
    obtain ⟨⟨log', a⟩, b'⟩ := ih
    have hh := a.tick w ht
    refine ⟨⟨_, hh⟩, fun s hs => ?_⟩
    by_cases hc : (Failed z.d s ↔ broken s) ∨ d0.cycleTime.updateThermalsTimeMS ≤ cnt
    · exact .inl (stable_after a.inv hh.inv hm hs (hf s hs).1 (hf s hs).2 hc)
    · right
      rw [not_or] at hc
      have hle := (b' s hs).resolve_left hc.1
      obtain ⟨d, _, h2⟩ := tick_auto hm ht
      have e3 := a.inv.same.2.2.2.1
      rw [e3] at h2
      rcases h2 with ⟨hT, _⟩ | ⟨_, _, rfl⟩
      · exact absurd hT hc.2
      · rw [Nat.add_mul]; omega

/-- after ceil(T/F) such ticks the failed sensors are exactly the broken ones, and every fan loop commands what its PID
computation gives, with the failsafe percentage taken into account -/
theorem stable_zone {o : Opts} {d0 : ZoneData} {broken : String → Prop} {z0 z z' : Zone} {cnt0 n cnt cnt' : Nat} {log : List Poll}
    {w w' : World} (h0 : Hist o d0 z0 cnt0 log) (h : Stable o d0 broken z0 cnt0 n z cnt)
    (hF : 1 ≤ d0.cycleTime.cycleIntervalTimeMS)
    (hn : (d0.cycleTime.updateThermalsTimeMS + d0.cycleTime.cycleIntervalTimeMS - 1) / d0.cycleTime.cycleIntervalTimeMS ≤ n)
    (hm : z.d.manualMode = false)
    (hf : ∀ s, Required d0 s → (FailsAt w w.nowFans s ↔ broken s) ∧ (FailsAt w w.nowThermals s ↔ broken s))
    (ht : z.tick o w cnt = .ok (w', z', cnt')) :
    ∃ zt : Zone, (∀ s, Failed zt.d s ↔ Required d0 s ∧ broken s) ∧ (∃ log', HistInv d0 zt.d log') ∧
      ∃ (l : List (FanPid × Dbl)) (b : Bool), z.fans = l.map (fun x => some x.1) ∧ Drives b w l w' ∧
        ∀ x ∈ l, ∃ input, x.1.inputProc z'.d = .ok input ∧
          x.2 = fanPercent o zt.d (pidStep x.1.ctl z'.d.maximumSetPoint input).1 / 100 := by
  obtain ⟨⟨log', hh⟩, hc⟩ := h.hist h0
  obtain ⟨zt, h1, h2, h3, h4⟩ := tick_inv hh.inv hm ht
  refine ⟨zt, fun s => ?_, ⟨_, h2⟩, ?_⟩
  · by_cases hs : Required d0 s
    · rw [and_iff_right hs]
      refine stable_after hh.inv h2 hm hs (hf s hs).1 (hf s hs).2 ((hc s hs).imp_right (fun hle => ?_))
      refine Nat.le_trans ?_ hle
      generalize d0.cycleTime.cycleIntervalTimeMS = fm at *
      generalize d0.cycleTime.updateThermalsTimeMS = tm at *
      have h5 := Nat.lt_mul_div_succ (tm + fm - 1) (show 0 < fm by omega)
      have h6 : fm * ((tm + fm - 1) / fm + 1) ≤ fm * (n + 1) := Nat.mul_le_mul_left _ (by omega)
      have h7 : fm * (n + 1) = n * fm + fm := by ring
      omega
    · exact ⟨fun hfa => absurd ((h2.failed s).1 hfa).1 hs, fun hfa => absurd hfa.1 hs⟩
  · obtain ⟨l, a1, _, a2, a3, a4, _⟩ := processFans_spec h1
    have hms : z'.d.maximumSetPoint = zt.d.maximumSetPoint := by rw [a4]
    have hcv : z'.d.cachedValuesByName = zt.d.cachedValuesByName := by rw [a4]
    refine ⟨l.map (fun x => (x.1, x.2.1)), _, ?_, a2, ?_⟩
    · rw [← h3, a1, List.map_map]; rfl
    · intro x hx
      obtain ⟨y, hy, rfl⟩ := List.mem_map.1 hx
      obtain ⟨⟨i, hi, hv, _⟩, _⟩ := a3 y hy
      refine ⟨i, by rw [fanInput_congr hcv]; exact hi, ?_⟩
      rw [hms]
      exact hv

theorem stable_run {o : Opts} {i : Int} {d0 : ZoneData} {conf : List Entry} {broken : String → Prop}
    (hreq : ∀ n, Required d0 n → NeededBy conf n) :
    ∀ {es : List DEvent} {d d' : Daemon} {z0 z : Zone} {cnt0 cnt k : Nat},
    d.run o es = .ok d' → d.zones.find? i = some (z, cnt) → Stable o d0 broken z0 cnt0 k z cnt →
    BrokenThroughout o i conf broken d es →
    ∃ z' cnt', d'.zones.find? i = some (z', cnt') ∧ Stable o d0 broken z0 cnt0 (k + autoTicks i z.d.manualMode es) z' cnt'
  | [], d, d', z0, z, cnt0, cnt, k, h, hz, hf, _ => by
    cases h
    exact ⟨z, cnt, hz, hf⟩
  | e :: es, d, d', z0, z, cnt0, cnt, k, h, hz, hf, hft => by
    obtain ⟨d1, h1, h2⟩ := bind_eq_ok.1 h
    have hft' : BrokenThroughout o i conf broken d1 es := by
      intro es1 es2 d2 he hr
      refine hft (e :: es1) es2 d2 (by rw [he]; rfl) ?_
      unfold Daemon.run
      rw [h1, ok_bind]
      exact hr
    obtain ⟨z1, cnt1, hz1, hst⟩ := step_zone h1 hz
    cases hst with
    | manual b =>
      have := stable_run hreq h2 hz1 (hf.manual b) hft'
      simpa [autoTicks, ZoneData.setManualMode] using this
    | enable l b =>
      have := stable_run hreq h2 hz1 (hf.enable l b) hft'
      rw [setEnabled_manual] at this
      exact this
    | tick ht =>
      obtain ⟨hm, _⟩ := tick_flags ht
      have f := hft [] es d rfl rfl
      by_cases hmm : z.d.manualMode = true
      · have := stable_run hreq h2 hz1 (hf.idle _ hmm ht) hft'
        rw [hm] at this
        simpa [autoTicks, hmm] using this
      · have := stable_run hreq h2 hz1 (hf.auto _ (by simpa using hmm) (fun s hs => f s (hreq s hs)) ht) hft'
        rw [hm] at this
        simpa [autoTicks, hmm, Nat.add_assoc] using this
    | other q1 q2 q3 =>
      have := stable_run hreq h2 hz1 hf hft'
      cases e with
      | manual j b =>
        have hj : j ≠ i := fun hj => q1 b (by rw [hj])
        simpa [autoTicks, hj] using this
      | tick j =>
        have hj : j ≠ i := fun hj => q3 (by rw [hj])
        simpa [autoTicks, hj] using this
      | outside | signal | hostWrite | enable => exact this

end Verif
