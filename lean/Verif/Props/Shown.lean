import Verif.Lemmas.Shown
import Verif.Lemmas.ShownTruth
import Verif.Props.Demand

/-!
# C122: What loops show for diagnosis

Every thermal loop has an object on the bus that shows its set point, class, leader, input and output.
-/

namespace Verif
open Dbl

section
variable [F : FloatModel]

/-- **C122** What is shown has no influence: whatever anybody stores into the objects of the loops, at any time and any number of
times, the daemon does with its fans exactly what it would do otherwise. It also stops with an error exactly if it would otherwise. -/
theorem C122_free (o : Opts) (d : Daemon) (es : List ShownEvent) : SameOutcome (d.runShown o es) (d.run o (withoutWrites es)) :=
  sameOutcome_of_rel (rel_runShown o es (SameButShown.refl d))

/-- the object of a configured loop at any time -/
theorem shown_at {o : Opts} {bus : BuildBus} {now : Int} {w : World} {sensors : OMap String SensorConfig}
    {pids : OMap Int PIDConf} {configs : OMap Int ZoneConfig} (hw : pids.WF) (hc : ∀ e ∈ pids.entries, OMap.WF e.2) {d d' : Daemon}
    (hl : Daemon.launch o bus now w sensors pids configs = .ok d) {es : List DEvent} (hr : d.run o es = .ok d') {i : Int}
    {conf : PIDConf} (hp : pids.find? i = some conf) {e : Entry} (he : e ∈ conf.entries) (hh : IsHeat e) :
    ∃ (z : Zone) (cnt : Nat) (c : ThermalCtl) (p : ProcObj), d'.zones.find? i = some (z, cnt) ∧ c ∈ z.thermals ∧ LoopOf e c ∧
      z.d.procs.find? e.1 = some p ∧ p.setpoint = e.2.setpoint ∧ p.classType = className e.2.type ∧ LoopShows z.d c := by
  obtain ⟨zb, c, z, _, hn, hz, hd, _⟩ := diagnosed_launch hw hc hl hp
  obtain ⟨z', cnt', hz', hd', _⟩ := diagnosed_run hr hz hd
  obtain ⟨x, hx, hlo⟩ := forall₂_left hd'.shows.loops (List.mem_filter.2 ⟨he, by simpa using hh⟩)
  have hs := hd'.shows.shows x hx
  have hlab := hd'.shows.labels e.1
  have hpb := (hn.processes e.1 _).2 ⟨e, he, hh, rfl, rfl⟩
  unfold labelOf at hlab
  rw [hpb] at hlab
  cases hq : z'.d.procs.find? e.1 with
  | none => rw [hq] at hlab; cases hlab
  | some p =>
    rw [hq] at hlab
    simp only [Option.map_some, Option.some.injEq, Prod.mk.injEq] at hlab
    exact ⟨z', cnt', x, p, hz', hx, hlo, hq, hlab.1, hlab.2, hs⟩

/-- **C122** At any time the object of a PID loop shows its configured set point and class, as output the last output the loop
computed, and as leader one of the inputs of the loop (or nothing so far). -/
theorem C122_output {o : Opts} {bus : BuildBus} {now : Int} {w : World} {sensors : OMap String SensorConfig}
    {pids : OMap Int PIDConf} {configs : OMap Int ZoneConfig} (hw : pids.WF) (hc : ∀ e ∈ pids.entries, OMap.WF e.2) {d d' : Daemon}
    (hl : Daemon.launch o bus now w sensors pids configs = .ok d) {es : List DEvent} (hr : d.run o es = .ok d') {i : Int}
    {conf : PIDConf} (hp : pids.find? i = some conf) {e : Entry} (he : e ∈ conf.entries) (ht : IsPid e.2.type) :
    ∃ (z : Zone) (cnt : Nat) (c : ThermalPid) (p : ProcObj), d'.zones.find? i = some (z, cnt) ∧ ThermalCtl.pid c ∈ z.thermals ∧
      c.id = e.1 ∧ z.d.procs.find? e.1 = some p ∧ p.setpoint = e.2.setpoint ∧ p.classType = className e.2.type ∧
      p.output = c.ctl.info.lastOutput ∧ (p.leader = "" ∨ ∃ x ∈ e.2.inputs, p.leader = x.name) := by
  have hh : IsHeat e := by
    unfold IsHeat
    rcases ht with h | h | h | h <;> rw [h] <;> decide
  obtain ⟨z, cnt, x, p, h1, h2, h3, h4, h5, h6, h7⟩ := shown_at hw hc hl hr hp he hh
  cases x with
  | pid x =>
    obtain ⟨q, hq, h8, h9⟩ := h7
    rw [h3.2.1, h4] at hq
    cases hq
    rw [h3.2.2.1] at h9
    exact ⟨z, cnt, x, p, h1, h2, h3.2.1, h4, h5, h6, h8, h9⟩
  | stepwise x =>
    have hs : e.2.type = "stepwise" := h3.1
    rcases ht with h | h | h | h <;> rw [h] at hs <;> exact absurd hs (by decide)

/-- **C122** (finding) The object of a stepwise loop shows no output, no input and no leader at any time, whatever the loop asks
for. -/
theorem C122_stepwise {o : Opts} {bus : BuildBus} {now : Int} {w : World} {sensors : OMap String SensorConfig}
    {pids : OMap Int PIDConf} {configs : OMap Int ZoneConfig} (hw : pids.WF) (hc : ∀ e ∈ pids.entries, OMap.WF e.2) {d d' : Daemon}
    (hl : Daemon.launch o bus now w sensors pids configs = .ok d) {es : List DEvent} (hr : d.run o es = .ok d') {i : Int}
    {conf : PIDConf} (hp : pids.find? i = some conf) {e : Entry} (he : e ∈ conf.entries) (ht : e.2.type = "stepwise") :
    ∃ (z : Zone) (cnt : Nat) (p : ProcObj), d'.zones.find? i = some (z, cnt) ∧ z.d.procs.find? e.1 = some p ∧
      p.output = 0 ∧ p.input = 0 ∧ p.leader = "" := by
  have hh : IsHeat e := by unfold IsHeat; rw [ht]; decide
  obtain ⟨z, cnt, x, p, h1, _, h3, h4, _, _, h7⟩ := shown_at hw hc hl hr hp he hh
  cases x with
  | pid x => rcases h3.1 with h | h | h | h <;> rw [h] at ht <;> exact absurd ht (by decide)
  | stepwise x =>
    obtain ⟨q, hq, h8, h9⟩ := h7
    rw [h3.2, h4] at hq
    cases hq
    exact ⟨z, cnt, p, h1, h4, h8, h9⟩

/-- **C122** The set point of a zone of PID loops can be told from what the loops show: it is the largest of the outputs shown by
the loops that are on, the configured minimum and zero. This holds again as soon as the thermal loops have run after a switch was
changed, which takes at most one cycle more than there are cycles between two passes. -/
theorem C122_explains {o : Opts} (ho : o.tuningEnabled = false) {bus : BuildBus} {now : Int} {w : World}
    {sensors : OMap String SensorConfig} {pids : OMap Int PIDConf} {configs : OMap Int ZoneConfig} (hw : pids.WF)
    (hc : ∀ e ∈ pids.entries, OMap.WF e.2) {d0 d1 d2 : Daemon} (hl : Daemon.launch o bus now w sensors pids configs = .ok d0)
    {i : Int} {conf : PIDConf} {c : ZoneConfig} (hp : pids.find? i = some conf) (hcc : configs.find? i = some c)
    (hacc : c.accumulateSetPoint = false) (hpid : ∀ e ∈ conf.entries, e.2.type ≠ "stepwise")
    (hF : 1 ≤ c.cycleTime.cycleIntervalTimeMS) {pre post : List DEvent} (hr1 : d0.run o pre = .ok d1) (hr2 : d1.run o post = .ok d2)
    (hsw : ∀ l b, DEvent.enable i l b ∉ post)
    (hn : (c.cycleTime.updateThermalsTimeMS + c.cycleTime.cycleIntervalTimeMS - 1) / c.cycleTime.cycleIntervalTimeMS <
      autoTicks i (modeAfter i false pre) post) :
    ∃ (z : Zone) (cnt : Nat), d2.zones.find? i = some (z, cnt) ∧ ToldByShown c.minThermalOutput z.d := by
  obtain ⟨zb, c', z, hcc', hn', hz, hd, hm, _⟩ := diagnosed_launch hw hc hl hp
  rw [hcc] at hcc'
  cases hcc'
  obtain ⟨z1, cnt1, hz1, hd1, hm1⟩ := diagnosed_run hr1 hz hd
  obtain ⟨z2, cnt2, hz2, h2⟩ := explained_run hacc (fun e he => hpid e (List.mem_filter.1 he).1) (fun k hk => labels_known hn' hk) ho
    (k := 0) hr2 hz1 hd1 hsw (.inr ⟨by simp, .inl rfl⟩)
  refine ⟨z2, cnt2, hz2, h2.resolve_right ?_⟩
  rw [hm1, hm]
  rintro ⟨b1, b2⟩
  rw [Nat.zero_add] at b1 b2
  rcases b2 with b2 | b2
  · rw [b2] at hn; exact absurd hn (Nat.not_lt_zero _)
  · obtain ⟨n, hn2⟩ := Nat.exists_eq_succ_of_ne_zero (n := autoTicks i (modeAfter i false pre) post) (Nat.ne_of_gt (Nat.zero_lt_of_lt hn))
    rw [hn2] at hn b1
    rw [Nat.succ_mul] at b1
    have := due_after (t := c.cycleTime.updateThermalsTimeMS) (n := n) (cnt := n * c.cycleTime.cycleIntervalTimeMS) hF
      (Nat.lt_succ_iff.1 hn) (Nat.le_refl _)
    omega

/-- **C122** If nobody changes a switch of the zone, its set point can be told from what the loops show at all times. -/
theorem C122_always {o : Opts} (ho : o.tuningEnabled = false) {bus : BuildBus} {now : Int} {w : World}
    {sensors : OMap String SensorConfig} {pids : OMap Int PIDConf} {configs : OMap Int ZoneConfig} (hw : pids.WF)
    (hc : ∀ e ∈ pids.entries, OMap.WF e.2) {d d' : Daemon} (hl : Daemon.launch o bus now w sensors pids configs = .ok d)
    {i : Int} {conf : PIDConf} {c : ZoneConfig} (hp : pids.find? i = some conf) (hcc : configs.find? i = some c)
    (hacc : c.accumulateSetPoint = false) (hpid : ∀ e ∈ conf.entries, e.2.type ≠ "stepwise") {es : List DEvent}
    (hr : d.run o es = .ok d') (hsw : ∀ l b, DEvent.enable i l b ∉ es) :
    ∃ (z : Zone) (cnt : Nat), d'.zones.find? i = some (z, cnt) ∧ ToldByShown c.minThermalOutput z.d := by
  obtain ⟨zb, c', z, hcc', hn', hz, hd, hm, hT⟩ := diagnosed_launch hw hc hl hp
  rw [hcc] at hcc'
  cases hcc'
  have key : ∀ {es : List DEvent} {d d' : Daemon} {z : Zone} {cnt : Nat}, d.run o es = .ok d' → d.zones.find? i = some (z, cnt) →
      Diagnosed (conf.entries.filter IsHeat) (labelOf zb.d) c z → (∀ l b, DEvent.enable i l b ∉ es) →
      ToldByShown c.minThermalOutput z.d →
      ∃ (z' : Zone) (cnt' : Nat), d'.zones.find? i = some (z', cnt') ∧ ToldByShown c.minThermalOutput z'.d := by
    intro es
    induction es with
    | nil => intro d d' z cnt h hz _ _ hT; cases h; exact ⟨z, cnt, hz, hT⟩
    | cons e es ih =>
      intro d d' z cnt h hz hd hsw hT
      obtain ⟨d1, h1, hr⟩ := bind_eq_ok.1 h
      obtain ⟨z1, c1, h2, h3⟩ := step_zone h1 hz
      refine ih hr h2 (hd.step h3) (fun l b hb => hsw l b (List.mem_cons_of_mem _ hb)) ?_
      cases h3 with
      | manual b => exact hT.congr rfl rfl
      | enable l b => exact absurd List.mem_cons_self (hsw l b)
      | tick ht =>
        by_cases hmm : z.d.manualMode = true
        · rw [tick_manual hmm] at ht; cases ht; exact hT
        · exact (explained_tick hacc (fun e he => hpid e (List.mem_filter.1 he).1) (fun k hk => labels_known hn' hk) ho hd
            (by simpa using hmm) ht).1 hT
      | other _ _ _ => exact hT
  exact key hr hz hd hsw (hT hacc hpid ho)

end

namespace Ex
section
attribute [local instance] binary64

/-- what a loop of zone 1 shows -/
def shown122 (loop : String) (d : Daemon) : Option (Bool × Dbl × String × String × Dbl × Dbl) :=
  (d.zones.find? 1).bind (fun z => (z.1.d.procs.find? loop).map
    (fun p => (p.enabled, p.setpoint, p.classType, p.leader, p.input, p.output)))

/-- C122: at 110 degrees, with a set point of 80 and -2 percent per degree, the loop shows an output of 60 -/
example : ∃ d, run104 (pre104 ++ [.tick 1, .tick 1, .tick 1]) = .ok d ∧
    decide (shown122 "temps" d = some (true, 80, "Temperature", "cpu", 110, 60)) = true :=
  ok_of_any (P := fun d : Daemon => decide (shown122 "temps" d = some (true, 80, "Temperature", "cpu", 110, 60)))
    (by decide +kernel)

/-- C122: that is the set point of the zone -/
example : ∃ d, run104 (pre104 ++ [.tick 1, .tick 1, .tick 1]) = .ok d ∧
    (d.zones.find? 1).any (fun z => decide (z.1.d.maximumSetPoint = 60)) = true :=
  ok_of_any (P := fun d : Daemon => (d.zones.find? 1).any (fun z => decide (z.1.d.maximumSetPoint = 60))) (by decide +kernel)

/-- C122: a stepwise loop that asks for 100 percent shows nothing -/
example : ∃ d, run103 (pre103 ++ [.tick 1, .tick 1, .tick 1]) = .ok d ∧
    decide (shown122 "steps" d = some (true, 80, "", "", 0, 0)) = true :=
  ok_of_any (P := fun d : Daemon => decide (shown122 "steps" d = some (true, 80, "", "", 0, 0))) (by decide +kernel)

/-- C122: all hypotheses hold for this run -/
example (d0 d1 : Daemon) (hl : Daemon.launch {} bus103 0 world99 sensors99 pids99 zones99 = .ok d0)
    (hr : d0.run {} (pre104 ++ [.tick 1, .tick 1, .tick 1]) = .ok d1) :
    ∃ (z : Zone) (cnt : Nat), d1.zones.find? 1 = some (z, cnt) ∧ ToldByShown 20 z.d :=
  C122_always (o := {}) rfl pids99_wf
    (fun e he => by rw [(pids99_find ((OMap.mem_entries_iff pids99_wf e.1 e.2).1 he)).2]; exact loops99_wf) hl
    (i := 1) (conf := loops99) (c := zone99) (by unfold pids99; rw [OMap.find?_insert_self])
    (by unfold zones99; rw [OMap.find?_insert_self]) rfl (by decide +kernel) hr
    (by intro l b h; simp [pre104] at h)

/-- C122: after the switch of the loop was turned off, three cycles are enough -/
example (d0 d1 d2 : Daemon) (hl : Daemon.launch {} bus103 0 world99 sensors99 pids99 zones99 = .ok d0)
    (hr1 : d0.run {} (pre104 ++ [.enable 1 "temps" false]) = .ok d1) (hr2 : d1.run {} [.tick 1, .tick 1, .tick 1] = .ok d2) :
    ∃ (z : Zone) (cnt : Nat), d2.zones.find? 1 = some (z, cnt) ∧ ToldByShown 20 z.d :=
  C122_explains (o := {}) rfl pids99_wf
    (fun e he => by rw [(pids99_find ((OMap.mem_entries_iff pids99_wf e.1 e.2).1 he)).2]; exact loops99_wf) hl
    (i := 1) (conf := loops99) (c := zone99) (by unfold pids99; rw [OMap.find?_insert_self])
    (by unfold zones99; rw [OMap.find?_insert_self]) rfl (by decide +kernel) (by decide) hr1 hr2
    (by intro l b h; simp at h) (by decide +kernel)

/-- C122: somebody makes the loop show nonsense: the next pass over the loops makes it right, and the fan gets what it would get
otherwise -/
example : ∃ d, (run104 pre104).bind (fun d => d.runShown {}
      [.event (.tick 1), .scribble 1 "temps" ⟨false, 3, "x", "y", 4, nan⟩, .event (.tick 1), .event (.tick 1)]) = .ok d ∧
    decide (shown122 "temps" d = some (true, 3, "x", "cpu", 110, 60) ∧
      d.w.trace.getLast? = some (.sysfsWrite "/sys/class/hwmon/pwm1" 153)) = true :=
  ok_of_any (P := fun d : Daemon => decide (shown122 "temps" d = some (true, 3, "x", "cpu", 110, 60) ∧
      d.w.trace.getLast? = some (.sysfsWrite "/sys/class/hwmon/pwm1" 153))) (by decide +kernel)

end
end Ex
end Verif
