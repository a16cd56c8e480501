import Verif.Props.WarmFan
import Verif.Props.SteadySum

/-!
# C154: heat in a zone that adds up set points

With accumulation the set points of the loops are added per profile and the largest sum counts (pid/zone.cpp:132-167).
A negative set point of another loop could then take away what a hot sensor asks for. With rising tables that have no outputs below
zero none can, also with the rounding of the sums.
-/

namespace Verif
open Dbl
section
variable [F : FloatModel]

/-- **C154** From a hot sensor to the fans of a zone that may add up set points: let all loops of the zone that compute set points be
stepwise loops with rising tables and without negative outputs, and let some sensor of one of them that is switched on have passed
the reading of a point of its table whenever the zone's timer expires, from some point on. Then, after ceil(T/F) automatic cycles of
the zone and whatever else happens to the daemon, every automatic cycle commands all fan loops of the zone at least the output of
the point. -/
theorem C154_hot_sensor {o : Opts} (ho : o.tuningEnabled = false) (hst : o.strictFailsafePwm = false) {bus : BuildBus}
    {now : Int} {w : World} {sensors : OMap String SensorConfig} {pids : OMap Int PIDConf} {configs : OMap Int ZoneConfig}
    (hw : pids.WF) (hc : ∀ e ∈ pids.entries, OMap.WF e.2) {d0 : Daemon}
    (hl : Daemon.launch o bus now w sensors pids configs = .ok d0) {i : Int} {conf : PIDConf} {c : ZoneConfig}
    (hp : pids.find? i = some conf) (hcc : configs.find? i = some c) (hpos : TablesOnly conf.entries) {e : Entry}
    (he : e ∈ conf.entries) (hes : e.2.type = "stepwise")
    (hceil : ∀ e ∈ conf.entries, e.2.type = "stepwise" → e.2.stepwiseInfo.isCeiling = false)
    {n k : Nat} (htab : RisingTable e.2.stepwiseInfo n) (hk : k < 20) (hkn : k < n)
    (hfan : ∀ f ∈ conf.entries, IsFan f → HandsOn f.2.pidInfo ∧ e.2.stepwiseInfo.output ⟨k, hk⟩ ≤ f.2.pidInfo.outLim.max)
    (hF : 1 ≤ c.cycleTime.cycleIntervalTimeMS) {pre post : List DEvent} {d1 d2 d3 : Daemon}
    (hr1 : d0.run o pre = .ok d1) (hr2 : d1.run o post = .ok d2)
    (hhot : ReadsThroughout o i (e.2.inputs.map SensorInput.name)
      (Passed e.2.stepwiseInfo.positiveHysteresis (e.2.stepwiseInfo.reading ⟨k, hk⟩)) d1 (post ++ [.tick i]))
    (hon : ∀ es1 es2, post = es1 ++ es2 → switchAfter i e.1 true (pre ++ es1) = true)
    (hn : (c.cycleTime.updateThermalsTimeMS + c.cycleTime.cycleIntervalTimeMS - 1) / c.cycleTime.cycleIntervalTimeMS ≤
      autoTicks i (modeAfter i false pre) post)
    (hm : modeAfter i false (pre ++ post) = false) (ht : d2.step o (.tick i) = .ok d3) :
    FansAtLeast conf.entries (e.2.stepwiseInfo.output ⟨k, hk⟩ / 100) d2.w d3.w := by
  obtain ⟨zb, zt, z3, cnt3, hN, _, g1, g2, g3⟩ := table_tick ho hw hc hl hp hcc (.inr hpos) he hes hceil htab hk hkn hF hr1 hr2 hhot
    hon hn hm ht
  exact fans_follow ho hst hN hfan g1 g2 g3

/-- **C154** The same from the first cycle on, if some sensor of the loop has already passed the point when the zones start. -/
theorem C154_warm {o : Opts} (ho : o.tuningEnabled = false) (hst : o.strictFailsafePwm = false) {bus : BuildBus}
    {now : Int} {w : World} {sensors : OMap String SensorConfig} {pids : OMap Int PIDConf} {configs : OMap Int ZoneConfig}
    (hw : pids.WF) (hc : ∀ e ∈ pids.entries, OMap.WF e.2) {d0 : Daemon}
    (hl : Daemon.launch o bus now w sensors pids configs = .ok d0) {i : Int} {conf : PIDConf} {c : ZoneConfig}
    (hp : pids.find? i = some conf) (hcc : configs.find? i = some c) (hpos : TablesOnly conf.entries) {e : Entry}
    (he : e ∈ conf.entries) (hes : e.2.type = "stepwise")
    (hceil : ∀ e ∈ conf.entries, e.2.type = "stepwise" → e.2.stepwiseInfo.isCeiling = false)
    {n k : Nat} (htab : RisingTable e.2.stepwiseInfo n) (hk : k < 20) (hkn : k < n)
    (hfan : ∀ f ∈ conf.entries, IsFan f → HandsOn f.2.pidInfo ∧ e.2.stepwiseInfo.output ⟨k, hk⟩ ≤ f.2.pidInfo.outLim.max)
    (hF : 1 ≤ c.cycleTime.cycleIntervalTimeMS) {es : List DEvent} {d1 d2 : Daemon} (hr : d0.run o es = .ok d1)
    (hhot0 : ReadsNow (e.2.inputs.map SensorInput.name)
      (Passed e.2.stepwiseInfo.positiveHysteresis (e.2.stepwiseInfo.reading ⟨k, hk⟩)) d0.w)
    (hhot : ReadsThroughout o i (e.2.inputs.map SensorInput.name)
      (Passed e.2.stepwiseInfo.positiveHysteresis (e.2.stepwiseInfo.reading ⟨k, hk⟩)) d0 (es ++ [.tick i]))
    (hon : ∀ es1 es2, es = es1 ++ es2 → switchAfter i e.1 true es1 = true)
    (hm : modeAfter i false es = false) (ht : d1.step o (.tick i) = .ok d2) :
    FansAtLeast conf.entries (e.2.stepwiseInfo.output ⟨k, hk⟩ / 100) d1.w d2.w :=
  warm_table ho hst hw hc hl hp hcc (.inr hpos) he hes hceil htab hk hkn hfan hF hr hhot0 hhot hon hm ht

end

namespace Ex
section
attribute [local instance] binary64

/-- two stepwise loops of one profile over the processor -/
def loops154 : PIDConf := ((({} : PIDConf).insert "fans" (loop99 "fan" "fan0" 0 1 0)).insert "a_one" steps103).insert "b_one" steps103
def pids154 : OMap Int PIDConf := ({} : OMap Int PIDConf).insert 1 loops154
def launch154 (bus : BuildBus) : Res Daemon := Daemon.launch {} bus 0 world99 sensors99 pids154 zones127
def run154 (bus : BuildBus) (es : List DEvent) : Res Daemon := do
  let d ← launch154 bus
  d.run {} es

/-- At 40 degrees each loop asks for 40 percent and the fans get 80 (204 of 255); at 72 degrees full speed. -/
example : ((run154 bus103 [.signal "cpu" 1 (temp103 40), .tick 1, .tick 1, .tick 1]).toOption.bind (·.w.trace.getLast?)) =
      some (.sysfsWrite "/sys/class/hwmon/pwm1" 204) ∧
    ((run154 bus149 [.tick 1]).toOption.map (·.w.trace)) = some [.sysfsWrite "/sys/class/hwmon/pwm1" 255] := by
  decide +kernel

/-- Without the condition on the outputs the claim fails: a loop before it that asks for -30 percent takes the fans from 100 percent
to 70 (178 of 255). -/
def cold154 : ControllerInfo := { steps103 with stepwiseInfo := { exTable with output := fun _ => Dbl.ofInt (-30) } }
def less154 : OMap Int PIDConf := ({} : OMap Int PIDConf).insert 1 (loops154.insert "a_one" cold154)
example : ((do let d ← Daemon.launch {} bus149 0 world99 sensors99 less154 zones127; d.run {} [.tick 1] : Res Daemon).toOption.map
    (·.w.trace)) = some [.sysfsWrite "/sys/class/hwmon/pwm1" 178] := by
  decide +kernel

theorem loops154_wf : loops154.WF := OMap.wf_insert (OMap.wf_insert (OMap.wf_insert OMap.wf_empty _ _) _ _) _ _
theorem pids154_wf : pids154.WF := OMap.wf_insert OMap.wf_empty _ _
theorem pids154_wfs : ∀ e ∈ pids154.entries, OMap.WF e.2 := fun e he => by
  have := (OMap.mem_entries_iff pids154_wf e.1 e.2).1 he
  unfold pids154 at this
  by_cases hi : e.1 = 1
  · rw [hi, OMap.find?_insert_self] at this
    rw [← Option.some.inj this]; exact loops154_wf
  · rw [OMap.find?_insert_ne _ hi, OMap.find?_empty] at this
    cases this

theorem loops154_mem {e : Entry} (h : e ∈ loops154.entries) :
    e = ("fans", loop99 "fan" "fan0" 0 1 0) ∨ e.2 = steps103 := by
  have h := (OMap.mem_entries_iff loops154_wf e.1 e.2).1 h
  obtain ⟨n, x⟩ := e
  unfold loops154 at h
  dsimp only at h
  rw [OMap.find?_insert, OMap.find?_insert, OMap.find?_insert, OMap.find?_empty] at h
  split_ifs at h with h1 h2 h3
  · cases h; exact .inr rfl
  · cases h; exact .inr rfl
  · cases h; rw [h3]; exact .inl rfl

theorem loops154_tables : TablesOnly loops154.entries := by
  intro e he hh
  rcases loops154_mem he with rfl | h
  · exact absurd hh (by unfold IsHeat; decide)
  · rw [h]; exact ⟨rfl, ⟨3, exTable_rising⟩, by decide +kernel⟩

theorem loops154_plain : ∀ e ∈ loops154.entries, e.2.type = "stepwise" → e.2.stepwiseInfo.isCeiling = false := by
  intro e he h
  rcases loops154_mem he with rfl | h
  · exact absurd h (by decide)
  · rw [h]; rfl

theorem loops154_fans {y : Dbl} (hy : y ≤ (loop99 "fan" "fan0" 0 1 0).pidInfo.outLim.max) :
    ∀ f ∈ loops154.entries, IsFan f → HandsOn f.2.pidInfo ∧ y ≤ f.2.pidInfo.outLim.max := by
  intro f hf hff
  rcases loops154_mem hf with rfl | h
  · exact ⟨⟨rfl, by decide +kernel, by decide +kernel, by decide +kernel⟩, hy⟩
  · unfold IsFan at hff; rw [h] at hff; exact absurd hff (by decide)

theorem loops154_has : ("a_one", steps103) ∈ loops154.entries :=
  (OMap.mem_entries_iff loops154_wf _ _).2 (by
    unfold loops154; rw [OMap.find?_insert_ne _ (by decide), OMap.find?_insert_self])

/-- C154_warm for the run at 72 degrees -/
example : ∃ d1 d2, run154 bus149 [] = .ok d1 ∧ d1.step {} (.tick 1) = .ok d2 ∧
    FansAtLeast loops154.entries (100 / 100) d1.w d2.w := by
  obtain ⟨d0, hl, hP⟩ := ok_of_any (x := launch154 bus149)
    (P := fun d : Daemon => nowB "cpu" (fun v => decide (Passed exTable.positiveHysteresis (exTable.reading 2) v)) d.w &&
      hotB 1 "cpu" (fun v => decide (Passed exTable.positiveHysteresis (exTable.reading 2) v)) d ([] ++ [.tick 1]) &&
      (d.step {} (.tick 1)).toOption.isSome) (by decide +kernel)
  simp only [Bool.and_eq_true] at hP
  cases hst : d0.step {} (.tick 1) with
  | error e => rw [hst] at hP; cases hP.2
  | ok d2 =>
  have g := C154_warm (o := {}) rfl rfl pids154_wf pids154_wfs hl
    (i := 1) (conf := loops154) (c := zone127) (by unfold pids154; rw [OMap.find?_insert_self])
    (by unfold zones127; rw [OMap.find?_insert_self]) loops154_tables (e := ("a_one", steps103)) loops154_has rfl loops154_plain
    (n := 3) (k := 2) exTable_rising (by decide) (by decide) (loops154_fans (by decide +kernel))
    (by decide) (es := []) rfl (now_of (n := "cpu") (by simp [steps103, loop99]) (fun v hv => of_decide_eq_true hv) hP.1.1)
    (hot_of (n := "cpu") (by simp [steps103, loop99]) (fun v hv => of_decide_eq_true hv) hP.1.2)
    (by
      intro es1 es2 h
      cases es1 with
      | nil => rfl
      | cons a es1 => cases h)
    rfl hst
  refine ⟨d0, d2, ?_, hst, g⟩
  show (launch154 bus149 >>= _) = _
  rw [hl, ok_bind]
  rfl

/-- what C150 asks of a zone holds for the zone above, which adds up set points -/
example : WarmZone zones127 100 1 loops154 ("a_one", steps103) 2 :=
  ⟨⟨zone127, by unfold zones127; rw [OMap.find?_insert_self], .inr loops154_tables, by decide⟩, ⟨loops154_has, rfl⟩, loops154_plain,
    ⟨3, exTable_rising, by decide⟩, loops154_fans (by decide +kernel), by decide +kernel⟩

/-- the processor gets hot -/
def pre154 : List DEvent := [.signal "cpu" 1 (temp103 40), .tick 1, .signal "cpu" 2 (temp103 72)]

/-- C154_hot_sensor for a run in which the processor gets hot -/
example : ∃ d2 d3, run154 bus103 (pre154 ++ [.tick 1, .tick 1]) = .ok d2 ∧ d2.step {} (.tick 1) = .ok d3 ∧
    FansAtLeast loops154.entries (100 / 100) d2.w d3.w := by
  obtain ⟨d3, h, _⟩ := ok_of_any (x := run154 bus103 ((pre154 ++ [.tick 1, .tick 1]) ++ [.tick 1])) (P := fun _ : Daemon => true)
    (by decide +kernel)
  obtain ⟨d1', hp, hb⟩ := ok_of_any (x := run154 bus103 pre154)
    (P := fun d : Daemon => hotB 1 "cpu" (fun v => decide (Passed exTable.positiveHysteresis (exTable.reading 2) v)) d
      ([.tick 1, .tick 1] ++ [.tick 1])) (by decide +kernel)
  obtain ⟨d0, hl, h⟩ := bind_eq_ok.1 h
  obtain ⟨d2, hr, h⟩ := run_append.1 h
  obtain ⟨d3', ht, h⟩ := bind_eq_ok.1 h
  cases h
  obtain ⟨d1, hr1, hr2⟩ := run_append.1 hr
  obtain ⟨d0', hl', hp⟩ := bind_eq_ok.1 hp
  rw [hl] at hl'
  cases hl'
  rw [hr1] at hp
  cases hp
  have g := C154_hot_sensor (o := {}) rfl rfl pids154_wf pids154_wfs hl
    (i := 1) (conf := loops154) (c := zone127) (by unfold pids154; rw [OMap.find?_insert_self])
    (by unfold zones127; rw [OMap.find?_insert_self]) loops154_tables (e := ("a_one", steps103)) loops154_has rfl loops154_plain
    (n := 3) (k := 2) exTable_rising (by decide) (by decide) (loops154_fans (by decide +kernel))
    (by decide) hr1 hr2 (hot_of (n := "cpu") (by simp [steps103, loop99]) (fun v hv => of_decide_eq_true hv) hb)
    (by
      intro es1 es2 h
      have h3 : es1 = [] ∨ es1 = [.tick 1] ∨ es1 = [.tick 1, .tick 1] := by
        cases es1 with
        | nil => exact .inl rfl
        | cons a es1 =>
          cases es1 with
          | nil => cases h; exact .inr (.inl rfl)
          | cons b es1 =>
            cases es1 with
            | nil => cases h; exact .inr (.inr rfl)
            | cons x es1 => cases h
      rcases h3 with rfl | rfl | rfl <;> rfl)
    (by decide) rfl ht
  exact ⟨d2, d3, by show (launch154 bus103 >>= _) = _; rw [hl]; exact hr, ht, g⟩

end
end Ex
end Verif
