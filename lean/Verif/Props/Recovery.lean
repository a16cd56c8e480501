import Verif.Spec.Recovery
import Verif.Props.Daemon

/-! # C102: recovery from failures -/

namespace Verif
open Dbl

section
variable [F : FloatModel]

/-- once unlisted, or once a thermal pass is due, a sensor that works is not listed when the fans are driven -/
theorem working_after {d0 : ZoneData} {z : Zone} {d : ZoneData} {cnt : Nat} {log : List Poll} {w : World} {s : String}
    (hi : HistInv d0 z.d log) (hi' : HistInv d0 d (log ++ tickPolls z cnt w)) (hm : z.d.manualMode = false)
    (hq : Required d0 s) (hf : ¬ FailsAt w w.nowFans s) (ht : ¬ FailsAt w w.nowThermals s)
    (h : ¬ Failed z.d s ∨ d0.cycleTime.updateThermalsTimeMS ≤ cnt) : ¬ Failed d s := by
  rw [hi'.failed s]
  rintro ⟨-, hp⟩
  obtain ⟨e1, e2, _, e3, _⟩ := hi.same
  simp only [tickPolls, hm, Bool.false_eq_true, if_false, e1, e2, e3] at hp
  by_cases hT : d0.cycleTime.updateThermalsTimeMS ≤ cnt
  · rw [if_pos hT] at hp
    have e : log ++ [⟨w, w.nowFans, d0.fanInputs⟩, ⟨w, w.nowThermals, d0.thermalInputs⟩] =
        (log ++ [⟨w, w.nowFans, d0.fanInputs⟩]) ++ [⟨w, w.nowThermals, d0.thermalInputs⟩] := by simp
    rw [e] at hp
    simp only [lastPoll_append] at hp
    by_cases h1 : s ∈ d0.thermalInputs
    · exact ht (hp ⟨w, w.nowThermals, d0.thermalInputs⟩ (by rw [if_pos h1]))
    · have h2 : s ∈ d0.fanInputs := hq.1.resolve_right h1
      exact hf (hp ⟨w, w.nowFans, d0.fanInputs⟩ (by rw [if_neg h1, if_pos h2]))
  · rw [if_neg hT] at hp
    simp only [lastPoll_append] at hp
    by_cases h1 : s ∈ d0.fanInputs
    · exact hf (hp ⟨w, w.nowFans, d0.fanInputs⟩ (by rw [if_pos h1]))
    · refine h.resolve_right hT ((hi.failed s).2 ⟨hq, fun p hp' => hp p ?_⟩)
      rw [if_neg h1]; exact hp'

theorem Working.hist {o : Opts} {d0 : ZoneData} {z0 z : Zone} {cnt0 n cnt : Nat} {log : List Poll}
    (h0 : Hist o d0 z0 cnt0 log) (h : Working o d0 z0 cnt0 n z cnt) :
    (∃ log', Hist o d0 z cnt log') ∧
      ∀ s, Required d0 s → ¬ Failed z.d s ∨ n * d0.cycleTime.cycleIntervalTimeMS ≤ cnt := by
  induction h with
  | start => exact ⟨⟨_, h0⟩, fun _ _ => .inr (by simp)⟩
  | manual b _ ih =>
    obtain ⟨⟨log', a⟩, b'⟩ := ih
    exact ⟨⟨_, .manual b a⟩, b'⟩
  | @enable n z cnt name b _ ih =>
    obtain ⟨⟨log', a⟩, b'⟩ := ih
    refine ⟨⟨_, .enable name b a⟩, fun s hs => (b' s hs).imp_left ?_⟩
    intro hf
    unfold Failed
    rw [(setEnabled_rest z.d name b).failed]; exact hf
  | idle w _ hm ht ih => rw [tick_manual hm] at ht; cases ht; exact ih
  | @auto n z cnt w w' z' cnt' _ hm hf ht ih =>
    obtain ⟨⟨log', a⟩, b'⟩ := ih
    have hh := a.tick w ht
    refine ⟨⟨_, hh⟩, fun s hs => ?_⟩
    by_cases hc : ¬ Failed z.d s ∨ d0.cycleTime.updateThermalsTimeMS ≤ cnt
    · exact .inl (working_after a.inv hh.inv hm hs (hf s hs).1 (hf s hs).2 hc)
    · right
      rw [not_or] at hc
      have hle := (b' s hs).resolve_left hc.1
      obtain ⟨d, _, h2⟩ := tick_auto hm ht
      have e3 := a.inv.same.2.2.2.1
      rw [e3] at h2
      rcases h2 with ⟨hT, _⟩ | ⟨_, _, rfl⟩
      · exact absurd hT hc.2
      · rw [Nat.add_mul]; omega

/-- The zone level of C102: whatever the zone's history, if from then on no input that has to be there fails in any
automatic tick, then after ceil(T/F) of them every further one leaves failsafe mode off, and commands every fan loop
exactly what its PID computation gives. -/
theorem C102_zone {o : Opts} {d0 : ZoneData} {z0 z z' : Zone} {cnt0 n cnt cnt' : Nat} {log : List Poll} {w w' : World}
    (h0 : Hist o d0 z0 cnt0 log) (h : Working o d0 z0 cnt0 n z cnt) (hF : 1 ≤ d0.cycleTime.cycleIntervalTimeMS)
    (hn : (d0.cycleTime.updateThermalsTimeMS + d0.cycleTime.cycleIntervalTimeMS - 1) / d0.cycleTime.cycleIntervalTimeMS ≤ n)
    (hm : z.d.manualMode = false)
    (hf : ∀ s, Required d0 s → ¬ FailsAt w w.nowFans s ∧ ¬ FailsAt w w.nowThermals s)
    (ht : z.tick o w cnt = .ok (w', z', cnt')) :
    z'.d.getFailSafeMode = false ∧
      ∃ (l : List (FanPid × Dbl)) (b : Bool), z.fans = l.map (fun x => some x.1) ∧ Drives b w l w' ∧
        ∀ x ∈ l, ∃ input, x.1.inputProc z'.d = .ok input ∧
          x.2 = (pidStep x.1.ctl z'.d.maximumSetPoint input).1 / 100 := by
  obtain ⟨⟨log', hh⟩, hc⟩ := h.hist h0
  obtain ⟨zt, h1, h2, h3, h4⟩ := tick_inv hh.inv hm ht
  have hgood : ∀ s, ¬ Failed zt.d s := by
    intro s hfail
    have hs := ((h2.failed s).1 hfail).1
    refine working_after hh.inv h2 hm hs (hf s hs).1 (hf s hs).2 ((hc s hs).imp_right (fun hle => ?_)) hfail
    refine Nat.le_trans ?_ hle
    generalize d0.cycleTime.cycleIntervalTimeMS = fm at *
    generalize d0.cycleTime.updateThermalsTimeMS = tm at *
    have h5 := Nat.lt_mul_div_succ (tm + fm - 1) (show 0 < fm by omega)
    have h6 : fm * ((tm + fm - 1) / fm + 1) ≤ fm * (n + 1) := Nat.mul_le_mul_left _ (by omega)
    have h7 : fm * (n + 1) = n * fm + fm := by ring
    omega
  have hmode : zt.d.getFailSafeMode = false := by
    by_contra hne
    rw [Bool.not_eq_false] at hne
    simp only [ZoneData.getFailSafeMode, Bool.not_eq_true'] at hne
    obtain ⟨s, e, he⟩ := (OMap.isEmpty_false_iff _).1 hne
    exact hgood s ⟨e, he⟩
  obtain ⟨l, a1, _, a2, a3, a4, _⟩ := processFans_spec h1
  have hfs : z'.d.failSafeSensors = zt.d.failSafeSensors := by rw [a4]
  have hms : z'.d.maximumSetPoint = zt.d.maximumSetPoint := by rw [a4]
  have hcv : z'.d.cachedValuesByName = zt.d.cachedValuesByName := by rw [a4]
  refine ⟨by unfold ZoneData.getFailSafeMode at hmode ⊢; rw [hfs]; exact hmode, l.map (fun x => (x.1, x.2.1)), _, ?_, a2, ?_⟩
  · rw [← h3, a1, List.map_map]; rfl
  · intro x hx
    obtain ⟨y, hy, rfl⟩ := List.mem_map.1 hx
    obtain ⟨⟨i, hi, hv, _⟩, _⟩ := a3 y hy
    refine ⟨i, by rw [fanInput_congr hcv]; exact hi, ?_⟩
    rw [hms]
    change y.2.1 = _
    rw [hv]
    unfold fanPercent
    rw [hmode]
    simp

theorem working_run {o : Opts} {i : Int} {d0 : ZoneData} {conf : List Entry} (hreq : ∀ n, Required d0 n → NeededBy conf n) :
    ∀ {es : List DEvent} {d d' : Daemon} {z0 z : Zone} {cnt0 cnt k : Nat},
    d.run o es = .ok d' → d.zones.find? i = some (z, cnt) → Working o d0 z0 cnt0 k z cnt → WorkThroughout o i conf d es →
    ∃ z' cnt', d'.zones.find? i = some (z', cnt') ∧ Working o d0 z0 cnt0 (k + autoTicks i z.d.manualMode es) z' cnt'
  | [], d, d', z0, z, cnt0, cnt, k, h, hz, hf, _ => by
    cases h
    exact ⟨z, cnt, hz, hf⟩
  | e :: es, d, d', z0, z, cnt0, cnt, k, h, hz, hf, hft => by
    obtain ⟨d1, h1, h2⟩ := bind_eq_ok.1 h
    have hft' : WorkThroughout o i conf d1 es := by
      intro es1 es2 d2 he hr
      refine hft (e :: es1) es2 d2 (by rw [he]; rfl) ?_
      unfold Daemon.run
      rw [h1, ok_bind]
      exact hr
    obtain ⟨z1, cnt1, hz1, hst⟩ := step_zone h1 hz
    cases hst with
    | manual b =>
      have := working_run hreq h2 hz1 (hf.manual b) hft'
      simpa [autoTicks, ZoneData.setManualMode] using this
    | enable l b =>
      have := working_run hreq h2 hz1 (hf.enable l b) hft'
      rw [setEnabled_manual] at this
      exact this
    | tick ht =>
      obtain ⟨hm, _⟩ := tick_flags ht
      have f := hft [] es d rfl rfl
      by_cases hmm : z.d.manualMode = true
      · have := working_run hreq h2 hz1 (hf.idle _ hmm ht) hft'
        rw [hm] at this
        simpa [autoTicks, hmm] using this
      · have := working_run hreq h2 hz1 (hf.auto _ (by simpa using hmm) (fun s hs => f s (hreq s hs)) ht) hft'
        rw [hm] at this
        simpa [autoTicks, hmm, Nat.add_assoc] using this
    | other q1 q2 q3 =>
      have := working_run hreq h2 hz1 hf hft'
      cases e with
      | manual j b =>
        have hj : j ≠ i := fun hj => q1 b (by rw [hj])
        simpa [autoTicks, hj] using this
      | tick j =>
        have hj : j ≠ i := fun hj => q3 (by rw [hj])
        simpa [autoTicks, hj] using this
      | outside | signal | hostWrite | enable => exact this

/-- the inputs a new zone requires are those its configuration needs -/
theorem required_new {id : Int} {c : ZoneConfig} {conf : List Entry} {z : Zone} (h : NewZone id c conf z) (n : String) :
    Required z.d n ↔ NeededBy conf n := by
  unfold Required NeededBy
  rw [h.fanInputs, h.thermalInputs_mem, h.missing, List.mem_flatMap]
  constructor
  · rintro ⟨h1, h2⟩
    refine ⟨?_, ?_⟩
    · rcases h1 with ⟨e, he, hi⟩ | ⟨e, he, hh, hi⟩
      · obtain ⟨a, b⟩ := List.mem_filter.1 he
        obtain ⟨x, hx, rfl⟩ := List.mem_map.1 hi
        exact ⟨e, a, .inl (by simpa using b), x, hx, rfl⟩
      · exact ⟨e, he, .inr hh, hi⟩
    · intro e he hl x hx hxn
      by_contra hne
      exact h2 ⟨e, he, hl, x, hx, hxn, by simpa using hne⟩
  · rintro ⟨⟨e, he, hl, x, hx, rfl⟩, h2⟩
    refine ⟨?_, ?_⟩
    · rcases hl with hl | hl
      · exact .inl ⟨e, List.mem_filter.2 ⟨he, by simpa using hl⟩, List.mem_map.2 ⟨x, hx, rfl⟩⟩
      · exact .inr ⟨e, he, hl, x, hx, rfl⟩
    · rintro ⟨e', he', hl', y, hy, hyn, hb⟩
      rw [h2 e' he' hl' y hy hyn] at hb
      cases hb

/-- **C102** Recovery: in a launched daemon, let none of the inputs of a zone that have to be there fail whenever the
zone's timer expires, from some point on. Then, after ceil(T/F) automatic cycles of the zone and whatever else happens to
the daemon, every automatic cycle finds the zone out of failsafe mode and commands all fan loops exactly what they
compute. -/
theorem C102_recovery {o : Opts} {bus : BuildBus} {now : Int} {w : World}
    {sensors : OMap String SensorConfig} {pids : OMap Int PIDConf} {configs : OMap Int ZoneConfig} (hw : pids.WF)
    (hc : ∀ e ∈ pids.entries, OMap.WF e.2) {d0 : Daemon} (hl : Daemon.launch o bus now w sensors pids configs = .ok d0)
    {i : Int} {conf : PIDConf} {c : ZoneConfig} (hp : pids.find? i = some conf) (hcc : configs.find? i = some c)
    (hF : 1 ≤ c.cycleTime.cycleIntervalTimeMS) {pre post : List DEvent} {d1 d2 d3 : Daemon}
    (hr1 : d0.run o pre = .ok d1) (hr2 : d1.run o post = .ok d2)
    (hft : WorkThroughout o i conf.entries d1 (post ++ [.tick i]))
    (hn : (c.cycleTime.updateThermalsTimeMS + c.cycleTime.cycleIntervalTimeMS - 1) / c.cycleTime.cycleIntervalTimeMS ≤
      autoTicks i (modeAfter i false pre) post)
    (hm : modeAfter i false (pre ++ post) = false) (ht : d2.step o (.tick i) = .ok d3) :
    ∃ z cnt, d3.zones.find? i = some (z, cnt) ∧ z.d.getFailSafeMode = false ∧ FansAsComputed conf.entries z.d d2.w d3.w := by
  obtain ⟨m, zones, hL⟩ := launch_spec hl
  obtain ⟨zb, c', hzb, hc', hN⟩ := (C64_zones hw hc hL.built i).1 conf hp
  rw [hcc] at hc'
  cases hc'
  obtain ⟨z0, hz0, hf0⟩ := hL.started i zb hzb
  have hh0 := C80_hist hw hL.built hzb hz0
  obtain ⟨hm0, hfa0⟩ := start_flags hz0
  rw [hN.manualMode] at hm0
  obtain ⟨z1, cnt1, log1, hz1, hh1, hm1, hfa1⟩ := mode_run hr1 hf0 hh0
  rw [hm0] at hm1
  obtain ⟨z2', cnt2', log2, hz2', hh2, hm2, hfa2⟩ := mode_run hr2 hz1 hh1
  obtain ⟨z2, cnt2, hz2, hfl⟩ := working_run (fun n => (required_new hN n).1) hr2 hz1 .start
    (fun es1 es2 d he hr => hft es1 (es2 ++ [.tick i]) d (by rw [he]; simp) hr)
  rw [hz2'] at hz2
  cases hz2
  have hmode : z2'.d.manualMode = false := by
    rw [hm2, hm1]
    have : ∀ (es es' : List DEvent) (b : Bool), modeAfter i b (es ++ es') = modeAfter i (modeAfter i b es) es' := by
      intro es
      induction es with
      | nil => exact fun _ _ => rfl
      | cons e es ih => intro es' b; cases e <;> exact ih _ _
    rw [← this]; exact hm
  simp only [Daemon.step, hz2'] at ht
  obtain ⟨⟨w', z3, cnt3⟩, htk, ht⟩ := bind_eq_ok.1 ht
  cases ht
  have f := hft post [] d2 rfl hr2
  rw [hm1, Nat.zero_add] at hfl
  obtain ⟨g0, l, b, g1, g2, g3⟩ := C102_zone hh1 hfl (by rw [hN.cycleTime]; exact hF) (by rw [hN.cycleTime]; exact hn) hmode
    (fun s hs => f s ((required_new hN s).1 hs)) htk
  refine ⟨z3, cnt3, by simp [OMap.find?_insert_self], g0, l, b, fans_as_configured ?_ g1, g2, g3⟩
  rw [hfa2, hfa1, hfa0, hN.fans]

end

namespace Ex
section
attribute [local instance] binary64

/-- a computation of `FailsAt` -/
def failsB (w : World) (now : Int) (n : String) : Bool :=
  match w.sensors.find? n with
  | none => false
  | some s =>
    (match s.getFailed w with | .ok b => b | .error _ => false) ||
    (match s.read w now with
      | .ok r => decide ((0 < s.timeout ∧ s.timeout * 1000000000 ≤ now - r.updated) ∨
          (s.timeout < 0 ∧ (s.timeout - 1) * 1000000000 < now - r.updated))
      | .error _ => false)

theorem failsB_of {w : World} {now : Int} {n : String} (h : FailsAt w now n) : failsB w now n = true := by
  obtain ⟨s, hs, h⟩ := h
  unfold failsB
  rw [hs]
  rcases h with h | ⟨r, hr, h⟩
  · simp [h]
  · simp only [hr, Bool.or_eq_true, decide_eq_true_eq]
    exact .inr h

def worksB (i : Int) (names : List String) : Daemon → List DEvent → Bool
  | _, [] => true
  | d, e :: es =>
    (match e with
      | .tick j => decide (j ≠ i) || names.all (fun n => !failsB d.w d.w.nowFans n && !failsB d.w d.w.nowThermals n)
      | _ => true) &&
    (match d.step {} e with
      | .ok d' => worksB i names d' es
      | .error _ => true)

theorem works_of {i : Int} {names : List String} {conf : List Entry} (hn : ∀ n, NeededBy conf n → n ∈ names) :
    ∀ {es : List DEvent} {d : Daemon}, worksB i names d es = true → WorkThroughout {} i conf d es
  | [], d, _ => by
    intro es1 es2 d1 h
    cases es1 <;> cases h
  | e :: es, d, hb => by
    intro es1 es2 d1 h hr n hne
    simp only [worksB, Bool.and_eq_true] at hb
    cases es1 with
    | nil =>
      cases h
      cases hr
      have := hb.1
      simp only [ne_eq, not_true_eq_false, decide_false, Bool.false_or, List.all_eq_true, Bool.and_eq_true,
        Bool.not_eq_true'] at this
      obtain ⟨a, b⟩ := this n (hn n hne)
      exact ⟨fun hf => (by rw [failsB_of hf] at a; cases a), fun hf => (by rw [failsB_of hf] at b; cases b)⟩
    | cons e' es1 =>
      cases h
      obtain ⟨d2, h1, h2⟩ := bind_eq_ok.1 hr
      have hb2 := hb.2
      rw [h1] at hb2
      exact works_of hn hb2 es1 es2 d1 rfl h2 n hne

/-- the alarm is raised, the fans speed up, then the alarm is withdrawn -/
def pre102 : List DEvent := events99 ++ [.tick 1, .signal "cpu" 6 (alarm99 false)]

/-- C102: the last write before the alarm is withdrawn is 229 of 255; two cycles later the fans get 51 again … -/
example : ∃ d, run99 (pre102 ++ [.tick 1, .tick 1, .tick 1]) = .ok d ∧
    decide (d.w.trace.getLast? = some (.sysfsWrite "/sys/class/hwmon/pwm1" 51) ∧
      .sysfsWrite "/sys/class/hwmon/pwm1" 229 ∈ d.w.trace) = true :=
  ok_of_any (P := fun d : Daemon => decide (d.w.trace.getLast? = some (.sysfsWrite "/sys/class/hwmon/pwm1" 51) ∧
    .sysfsWrite "/sys/class/hwmon/pwm1" 229 ∈ d.w.trace)) (by decide +kernel)

/-- … and all hypotheses of the theorem hold -/
example : ∃ d2 d3 z cnt, run99 (pre102 ++ [.tick 1, .tick 1]) = .ok d2 ∧ d2.step {} (.tick 1) = .ok d3 ∧
    d3.zones.find? 1 = some (z, cnt) ∧ z.d.getFailSafeMode = false ∧ FansAsComputed loops99.entries z.d d2.w d3.w := by
  obtain ⟨d3, h, _⟩ := ok_of_any (x := run99 ((pre102 ++ [.tick 1, .tick 1]) ++ [.tick 1])) (P := fun _ : Daemon => true)
    (by decide +kernel)
  obtain ⟨d1', hp, hb⟩ := ok_of_any (x := run99 pre102)
    (P := fun d : Daemon => worksB 1 ["fan0", "cpu"] d ([.tick 1, .tick 1] ++ [.tick 1])) (by decide +kernel)
  obtain ⟨d0, hl, h⟩ := bind_eq_ok.1 h
  obtain ⟨d2, hr, h⟩ := run_append.1 h
  obtain ⟨d3', ht, h⟩ := bind_eq_ok.1 h
  cases h
  obtain ⟨d1, hr1, hr2⟩ := run_append.1 hr
  obtain ⟨d0', hl', hp⟩ := bind_eq_ok.1 hp
  rw [hl] at hl'
  cases hl'
  rw [hr1] at hp
  cases hp
  have hneed : ∀ n, NeededBy loops99.entries n → n ∈ ["fan0", "cpu"] := by
    rintro n ⟨⟨e, he, _, x, hx, rfl⟩, _⟩
    have key : ∀ e ∈ loops99.entries, ∀ x ∈ e.2.inputs, x.name ∈ ["fan0", "cpu"] := by decide +kernel
    exact key e he x hx
  obtain ⟨z, cnt, g⟩ := C102_recovery (o := {}) pids99_wf
    (fun e he => by rw [(pids99_find ((OMap.mem_entries_iff pids99_wf e.1 e.2).1 he)).2]; exact loops99_wf) hl
    (i := 1) (conf := loops99) (c := zone99) (by unfold pids99; rw [OMap.find?_insert_self])
    (by unfold zones99; rw [OMap.find?_insert_self]) (by decide) hr1 hr2 (works_of hneed hb) (by decide) rfl ht
  refine ⟨d2, d3, z, cnt, ?_, ht, g⟩
  show (Daemon.launch {} bus98 0 world99 sensors99 pids99 zones99 >>= _) = _
  rw [hl, ok_bind]
  exact hr

end
end Ex
end Verif
