import Verif.Lemmas.Integral

/-! # C117: heat that lasts -/

namespace Verif
open Dbl

section
variable [F : FloatModel]

/-- **C117** From heat that lasts to the fans, for a loop with an integral part: let its input be at least as hot as `x` at
every cycle, and let `N` steps at `x` be enough to bring the integral from its lower to its upper limit. The input is the
largest temperature or power, the smallest margin, or the sum of powers. The zone adds up no set points and has no ceilings;
its fan loops hand their set point on. Then, after (N+1) * max(1, ceil(T/F)) automatic cycles of the zone and whatever else
happens to the daemon, every automatic cycle commands all fan loops at least what the loop asks for at `x` with its integral
at the upper limit. The input and the settings of the loop are of moderate size. -/
theorem C117_hot_input {o : Opts} (ho : o.tuningEnabled = false) (hst : o.strictFailsafePwm = false) {bus : BuildBus}
    {now : Int} {w : World} {sensors : OMap String SensorConfig} {pids : OMap Int PIDConf} {configs : OMap Int ZoneConfig}
    (hw : pids.WF) (hc : ∀ e ∈ pids.entries, OMap.WF e.2) {d0 : Daemon}
    (hl : Daemon.launch o bus now w sensors pids configs = .ok d0) {i : Int} {conf : PIDConf} {c : ZoneConfig}
    (hp : pids.find? i = some conf) (hcc : configs.find? i = some c) (hacc : c.accumulateSetPoint = false) {e : Entry}
    (he : e ∈ conf.entries) (hes : IsPid e.2.type)
    (hceil : ∀ e ∈ conf.entries, e.2.type = "stepwise" → e.2.stepwiseInfo.isCeiling = false)
    (hint : Integrating e.2.pidInfo) (hkp : FacesHeat e.2.type e.2.pidInfo.proportionalCoeff)
    (hki : FacesHeat e.2.type e.2.pidInfo.integralCoeff) (hsp : Moderate e.2.setpoint) {x : Dbl} (hx : Moderate x) {N : Nat}
    (hwind : WindsUp e.2.pidInfo e.2.setpoint x N)
    (hfan : ∀ f ∈ conf.entries, IsFan f →
      HandsOn f.2.pidInfo ∧ woundUpAt e.2.pidInfo e.2.setpoint x ≤ f.2.pidInfo.outLim.max)
    (hF : 1 ≤ c.cycleTime.cycleIntervalTimeMS) {pre post : List DEvent} {d1 d2 d3 : Daemon}
    (hr1 : d0.run o pre = .ok d1) (hr2 : d1.run o post = .ok d2) (hmod : ModerateInput o e.2 d0 (pre ++ post))
    (hhot : HotInput o i e.2 x d1 (post ++ [.tick i]))
    (hon : ∀ es1 es2, post = es1 ++ es2 → switchAfter i e.1 true (pre ++ es1) = true)
    (hn : (N + 1) * max 1 ((c.cycleTime.updateThermalsTimeMS + c.cycleTime.cycleIntervalTimeMS - 1) /
      c.cycleTime.cycleIntervalTimeMS) ≤ autoTicks i (modeAfter i false pre) post)
    (hm : modeAfter i false (pre ++ post) = false) (ht : d2.step o (.tick i) = .ok d3) :
    FansAtLeast conf.entries (woundUpAt e.2.pidInfo e.2.setpoint x / 100) d2.w d3.w := by
  obtain ⟨low, step, w1, w2, w3, w4, w5, w6, w7⟩ := hwind
  exact passes_reach_fans ho hst hw hc hl hp hcc hacc he hes hceil (winding hint hkp hki hsp hx w1 w2 w3 w4 w5 w6 w7) hfan hF
    hr1 hr2 hmod hhot hon hn hm ht

/-- **C117** The time from heat that lasts to fast fans: once
((N+1) * max(1, ceil(T/F)) + 1) * F and the lateness have passed since the input of the loop became as hot as `x`, every fan
of the zone has been told at least what the loop asks for at `x` with its integral at the upper limit. -/
theorem C117_time {o : Opts} (ho : o.tuningEnabled = false) (hst : o.strictFailsafePwm = false) {bus : BuildBus} {now : Int}
    {started : Int → Int} {w : World} (htr : w.trace = []) {sensors : OMap String SensorConfig} (hws : sensors.WF)
    {pids : OMap Int PIDConf} {configs : OMap Int ZoneConfig} (hw : pids.WF) (hc : ∀ e ∈ pids.entries, OMap.WF e.2) {td : Timed}
    (hl : Timed.launch o bus now started w sensors pids configs = .ok td)
    {i : Int} {conf : PIDConf} {c : ZoneConfig} (hp : pids.find? i = some conf) (hcc : configs.find? i = some c)
    (hacc : c.accumulateSetPoint = false) {e : Entry} (he : e ∈ conf.entries) (hes : IsPid e.2.type)
    (hceil : ∀ e ∈ conf.entries, e.2.type = "stepwise" → e.2.stepwiseInfo.isCeiling = false)
    (hint : Integrating e.2.pidInfo) (hkp : FacesHeat e.2.type e.2.pidInfo.proportionalCoeff)
    (hki : FacesHeat e.2.type e.2.pidInfo.integralCoeff) (hsp : Moderate e.2.setpoint) {x : Dbl} (hx : Moderate x) {N : Nat}
    (hwind : WindsUp e.2.pidInfo e.2.setpoint x N) (hpos : 0 ≤ woundUpAt e.2.pidInfo e.2.setpoint x)
    (hfan : ∀ f ∈ conf.entries, IsFan f →
      HandsOn f.2.pidInfo ∧ woundUpAt e.2.pidInfo e.2.setpoint x ≤ f.2.pidInfo.outLim.max)
    (hF : 1 ≤ c.cycleTime.cycleIntervalTimeMS) {late t0 ta : Int} (h0 : started i ≤ t0) (h1 : t0 ≤ ta)
    {pre post : List TEvent} {t : Int} {e' : DEvent} {tda td1 : Timed} (hsv : Served o late t0 td (pre ++ post ++ [(t, e')]))
    (hra : td.run o pre = .ok tda) (hrb : tda.run o post = .ok td1) (hpre : ∀ x ∈ pre, x.1 ≤ ta)
    (hmod : ModerateInput o e.2 td.d (eventsOf pre ++ eventsOf post)) (hhot : HotInput o i e.2 x tda.d (eventsOf post))
    (hon : ∀ es1 es2, eventsOf post = es1 ++ es2 → switchAfter i e.1 true (eventsOf pre ++ es1) = true)
    (hauto : Automatic i (eventsOf pre) (eventsOf post))
    (ht : ta + (((N + 1) * max 1 ((c.cycleTime.updateThermalsTimeMS + c.cycleTime.cycleIntervalTimeMS - 1) /
      c.cycleTime.cycleIntervalTimeMS) + 1 : Nat) : Int) * ms c.cycleTime.cycleIntervalTimeMS + late < t) :
    ∀ f ∈ conf.entries, IsFan f → ∀ y ∈ f.2.inputs, ∀ fc path, FanOn bus.dirs sensors y.name fc path →
      OnlyZone pids i y.name → w.busOk path = true → (∀ e ∈ eventsOf (pre ++ post), BusWorks path e) →
      ToldAtLeast fc path (woundUpAt e.2.pidInfo e.2.setpoint x / 100) td1.d.w := by
  obtain ⟨low, step, w1, w2, w3, w4, w5, w6, w7⟩ := hwind
  exact passes_in_time ho hst htr hws hw hc hl hp hcc hacc he hes hceil (winding hint hkp hki hsp hx w1 w2 w3 w4 w5 w6 w7) hpos hfan
    hF h0 h1 hsv hra hrb hpre hmod hhot hon hauto ht

/-- **C117** A loop over temperatures or powers sees at least every finite reading of its sensors, and if the finite readings and
the set point are of moderate size, so is its input. -/
theorem C117_one_sensor {w : World} {e : ControllerInfo} {v : Dbl} (ht : e.type = "temp" ∨ e.type = "power") (h : Sees w e v) :
    (∀ i ∈ e.inputs, ∀ r, GivesReading w i.name r → r.isFinite = true → r ≤ v) ∧
      (Moderate e.setpoint → (∀ i ∈ e.inputs, ∀ r, GivesReading w i.name r → r.isFinite = true → Moderate r) → Moderate v) := by
  obtain ⟨rs, h1, h2⟩ := h
  have hne : e.type ≠ "margin" := by rcases ht with h | h <;> (rw [h]; decide)
  have hup : ∀ u ∈ counted e.type e.inputs rs, u ≤ v := by
    generalize counted e.type e.inputs rs = l at h2
    cases h2 with
    | nothing => exact fun u hu => by cases hu
    | largest _ _ h => exact h
    | smallest h => exact absurd h hne
    | sum h => rcases ht with h' | h' <;> (rw [h'] at h; exact absurd h (by decide))
  refine ⟨fun i hi r hr hf => hup r (reading_counted hne h1 hi hr hf), fun hs hm => ?_⟩
  generalize hl : counted e.type e.inputs rs = l at h2
  cases h2 with
  | nothing => exact hs
  | largest _ h _ =>
    rw [← hl] at h
    obtain ⟨i, hi, hg, hf⟩ := counted_reading hne h1 h
    exact hm i hi v hg hf
  | smallest h => exact absurd h hne
  | sum h => rcases ht with h' | h' <;> (rw [h'] at h; exact absurd h (by decide))

/-- **C117** A loop over margins sees at most the distance of every finite reading to Tjmax, or the reading itself for an
input that is not converted. -/
theorem C117_one_margin {w : World} {e : ControllerInfo} {v : Dbl} (ht : e.type = "margin") (h : Sees w e v) {i : SensorInput}
    (hi : i ∈ e.inputs) {r : Dbl} (hr : GivesReading w i.name r) (hf : r.isFinite = true) :
    v ≤ if i.convertTempToMargin = true then i.convertMarginZero - r else r := by
  obtain ⟨rs, h1, h2⟩ := h
  have hm := value_counted (type := e.type) h1 hi hr hf
  rw [ht] at hm
  simp only [true_and] at hm
  generalize hl : counted e.type e.inputs rs = l at h2
  rw [ht] at hl
  rw [hl] at hm
  cases h2 with
  | nothing => cases hm
  | largest h => rw [ht] at h; exact absurd h (by decide)
  | smallest _ _ _ h => exact h _ (List.mem_cons_of_mem _ hm)
  | sum h => rw [ht] at h; exact absurd h (by decide)

/-- **C117** A loop over a sum of powers, none of them negative, sees at least each of them. -/
theorem C117_one_power {w : World} {e : ControllerInfo} {v : Dbl} (ht : e.type = "powersum") (h : Sees w e v)
    (hnn : ∀ i ∈ e.inputs, ∀ r, GivesReading w i.name r → r.isFinite = true → 0 ≤ r) {i : SensorInput} (hi : i ∈ e.inputs) {r : Dbl}
    (hr : GivesReading w i.name r) (hf : r.isFinite = true) : r ≤ v := by
  obtain ⟨rs, h1, h2⟩ := h
  have hne : e.type ≠ "margin" := by rw [ht]; decide
  have hm := reading_counted hne h1 hi hr hf
  have hall : ∀ u ∈ counted e.type e.inputs rs, 0 ≤ u := by
    intro u hu
    obtain ⟨j, hj, hg, hf⟩ := counted_reading hne h1 hu
    exact hnn j hj u hg hf
  generalize counted e.type e.inputs rs = l at h2 hm hall
  cases h2 with
  | nothing => cases hm
  | largest h => rw [ht] at h; exact absurd h (by decide)
  | smallest h => exact absurd h hne
  | sum => exact (sum_ge hall (by rw [zero_eq]; simp) (Dbl.le_refl (by rw [zero_eq]; simp))).2 r hm

/-- **C117** … so it is enough that one of the sensors of a loop over temperatures or powers reads `x` or more at every cycle. -/
theorem C117_hot_sensor {o : Opts} (ho : o.tuningEnabled = false) (hst : o.strictFailsafePwm = false) {bus : BuildBus}
    {now : Int} {w : World} {sensors : OMap String SensorConfig} {pids : OMap Int PIDConf} {configs : OMap Int ZoneConfig}
    (hw : pids.WF) (hc : ∀ e ∈ pids.entries, OMap.WF e.2) {d0 : Daemon}
    (hl : Daemon.launch o bus now w sensors pids configs = .ok d0) {i : Int} {conf : PIDConf} {c : ZoneConfig}
    (hp : pids.find? i = some conf) (hcc : configs.find? i = some c) (hacc : c.accumulateSetPoint = false) {e : Entry}
    (he : e ∈ conf.entries) (hes : e.2.type = "temp" ∨ e.2.type = "power")
    (hceil : ∀ e ∈ conf.entries, e.2.type = "stepwise" → e.2.stepwiseInfo.isCeiling = false)
    (hint : Integrating e.2.pidInfo) (hkp : e.2.pidInfo.proportionalCoeff ≤ 0) (hki : e.2.pidInfo.integralCoeff ≤ 0)
    (hsp : Moderate e.2.setpoint) {x : Dbl} (hx : Moderate x) {N : Nat} (hwind : WindsUp e.2.pidInfo e.2.setpoint x N)
    (hfan : ∀ f ∈ conf.entries, IsFan f →
      HandsOn f.2.pidInfo ∧ woundUpAt e.2.pidInfo e.2.setpoint x ≤ f.2.pidInfo.outLim.max)
    (hF : 1 ≤ c.cycleTime.cycleIntervalTimeMS) {pre post : List DEvent} {d1 d2 d3 : Daemon}
    (hr1 : d0.run o pre = .ok d1) (hr2 : d1.run o post = .ok d2)
    (hmod : ModerateThroughout o (e.2.inputs.map SensorInput.name) d0 (pre ++ post))
    (hhot : ReadsThroughout o i (e.2.inputs.map SensorInput.name) (fun v => v.isFinite = true ∧ x ≤ v) d1 (post ++ [.tick i]))
    (hon : ∀ es1 es2, post = es1 ++ es2 → switchAfter i e.1 true (pre ++ es1) = true)
    (hn : (N + 1) * max 1 ((c.cycleTime.updateThermalsTimeMS + c.cycleTime.cycleIntervalTimeMS - 1) /
      c.cycleTime.cycleIntervalTimeMS) ≤ autoTicks i (modeAfter i false pre) post)
    (hm : modeAfter i false (pre ++ post) = false) (ht : d2.step o (.tick i) = .ok d3) :
    FansAtLeast conf.entries (woundUpAt e.2.pidInfo e.2.setpoint x / 100) d2.w d3.w := by
  have hne : e.2.type ≠ "margin" := by rcases hes with h | h <;> (rw [h]; decide)
  refine C117_hot_input ho hst hw hc hl hp hcc hacc he (hes.elim .inl (fun h => .inr (.inl h))) hceil hint
    (by unfold FacesHeat; rw [if_neg hne]; exact hkp) (by unfold FacesHeat; rw [if_neg hne]; exact hki) hsp hx hwind hfan hF hr1 hr2
    ?_ ?_ hon hn hm ht
  · rintro es1 es2 d h1 h2 v hv
    refine (C117_one_sensor hes hv).2 hsp ?_
    rintro j hj r ⟨s, rr, a1, a2, rfl⟩ hf
    exact hmod es1 es2 d h1 h2 j.name (List.mem_map.2 ⟨j, hj, rfl⟩) s rr a1 a2 hf
  · rintro es1 es2 d h1 h2 v hv
    unfold AsHot
    rw [if_neg hne]
    obtain ⟨n, hn, s, r, a1, a2, a3, a4⟩ := hhot es1 es2 d h1 h2
    obtain ⟨j, hj, rfl⟩ := List.mem_map.1 hn
    exact Dbl.le_trans a4 ((C117_one_sensor hes hv).1 j hj r.value ⟨s, r, a1, a2, rfl⟩ a3)

/-- **C117** A reading that makes a step add at least a millionth winds every such loop up, sooner or later. -/
theorem C117_sooner_or_later {c : PidConf} (hc : Integrating c) {s x : Dbl}
    (h : millionths 1 ≤ (s - x) * c.integralCoeff * c.ts) : WindsUp c s x (2 ^ 41) := by
  have h1 : (millionths (-(2 ^ 40)) : Dbl) = -1048576 := by
    rw [nat_eq (n := 1048576) (by norm_num), neg_def, Dbl.neg, millionths_fin (by norm_num) (by norm_num)]
    congr 1
    norm_num
  have h2 : (millionths (2 ^ 40) : Dbl) = 1048576 := by
    rw [nat_eq (n := 1048576) (by norm_num), millionths_fin (by norm_num) (by norm_num)]
    congr 1
    norm_num
  refine ⟨-(2 ^ 40), 1, by norm_num, by norm_num, by norm_num, by norm_num, ?_, h, ?_⟩
  · rw [h1]; exact hc.moderateLimits.1.1
  · have : (-(2 ^ 40) + ((2 ^ 41 : Nat) : Int) * 1 : Int) = 2 ^ 40 := by norm_num
    rw [this, h2]
    exact hc.moderateLimits.2.2

end

namespace Ex
section
attribute [local instance] binary64

/-- a loop over the processor: 2 percent for each degree above 80, and 1 percent for each degree and second, up to 40 -/
def temps117 : ControllerInfo :=
  let t := loop99 "temp" "cpu" (-2) 0 90
  { t with pidInfo := { t.pidInfo with integralCoeff := -1, integralLimit := ⟨0, 40⟩ } }
def loops117 : PIDConf := (({} : PIDConf).insert "fans" (loop99 "fan" "fan0" 0 1 0)).insert "temps" temps117
def pids117 : OMap Int PIDConf := ({} : OMap Int PIDConf).insert 1 loops117

theorem loops117_wf : loops117.WF := OMap.wf_insert (OMap.wf_insert OMap.wf_empty _ _) _ _
theorem pids117_wf : pids117.WF := OMap.wf_insert OMap.wf_empty _ _

theorem loops117_mem {e : Entry} (h : e ∈ loops117.entries) :
    e = ("fans", loop99 "fan" "fan0" 0 1 0) ∨ e = ("temps", temps117) := by
  have h := (OMap.mem_entries_iff loops117_wf e.1 e.2).1 h
  obtain ⟨n, x⟩ := e
  unfold loops117 at h
  dsimp only at h
  rw [OMap.find?_insert, OMap.find?_insert, OMap.find?_empty] at h
  split_ifs at h with h1 h2
  · cases h; rw [h1]; exact .inr rfl
  · cases h; rw [h2]; exact .inl rfl

def run117 (es : List DEvent) : Res Daemon := do
  let d ← Daemon.launch {} bus103 0 world99 sensors99 pids117 zones99
  d.run {} es

/-- the processor gets hot: 90 degrees -/
def pre117 : List DEvent := [.signal "cpu" 1 (temp103 40), .tick 1, .tick 1, .signal "cpu" 2 (temp103 90)]

theorem temps117_integrating : Integrating temps117.pidInfo :=
  ⟨⟨rfl, by decide +kernel⟩, by decide +kernel, by decide +kernel, by decide +kernel, by decide +kernel, by decide +kernel,
    by decide +kernel, ⟨1, FloatModel.rep_one, one_eq, by norm_num, by norm_num⟩⟩

/-- from 0 to 40 in steps of 10 -/
theorem temps117_winds : WindsUp temps117.pidInfo 80 90 4 :=
  ⟨0, 10485760, by decide, by decide, by decide, by decide, by decide +kernel, by decide +kernel, by decide +kernel⟩

/-- C117: at 90 degrees the loop first asks for 30 percent: 76 of 255 is written; four passes later for 60 percent: 153 -/
example : (∃ d, run117 (pre117 ++ [.tick 1]) = .ok d ∧
      decide (d.w.trace.getLast? = some (.sysfsWrite "/sys/class/hwmon/pwm1" 76)) = true) ∧
    ∃ d, run117 (pre117 ++ List.replicate 11 (.tick 1)) = .ok d ∧
      decide (d.w.trace.getLast? = some (.sysfsWrite "/sys/class/hwmon/pwm1" 153)) = true :=
  ⟨ok_of_any (P := fun d : Daemon => decide (d.w.trace.getLast? = some (.sysfsWrite "/sys/class/hwmon/pwm1" 76)))
    (by decide +kernel),
   ok_of_any (P := fun d : Daemon => decide (d.w.trace.getLast? = some (.sysfsWrite "/sys/class/hwmon/pwm1" 153)))
    (by decide +kernel)⟩

theorem on117 : ∀ (k : Nat) (es1 es2 : List DEvent), List.replicate k (.tick 1) = es1 ++ es2 →
    switchAfter 1 "temps" true es1 = true
  | _, [], _, _ => rfl
  | 0, e :: es1, es2, h => by cases h
  | k + 1, e :: es1, es2, h => by
    rw [List.replicate_succ, List.cons_append, List.cons.injEq] at h
    rw [← h.1]
    exact on117 k es1 es2 h.2

/-- C117: all hypotheses hold for this run -/
example : ∃ d2 d3, run117 (pre117 ++ List.replicate 10 (.tick 1)) = .ok d2 ∧ d2.step {} (.tick 1) = .ok d3 ∧
    FansAtLeast loops117.entries (60 / 100) d2.w d3.w := by
  obtain ⟨d3, h, _⟩ := ok_of_any (x := run117 ((pre117 ++ List.replicate 10 (.tick 1)) ++ [.tick 1]))
    (P := fun _ : Daemon => true) (by decide +kernel)
  obtain ⟨d1', hp, hb⟩ := ok_of_any (x := run117 pre117)
    (P := fun d : Daemon => hotB 1 "cpu" (fun v => decide (v.isFinite = true ∧ (90 : Dbl) ≤ v)) d
      (List.replicate 10 (.tick 1) ++ [.tick 1])) (by decide +kernel)
  obtain ⟨d0', hp0, hmb⟩ := ok_of_any (x := run117 [])
    (P := fun d : Daemon => modB "cpu" d (pre117 ++ List.replicate 10 (.tick 1))) (by decide +kernel)
  obtain ⟨d0, hl, h⟩ := bind_eq_ok.1 h
  obtain ⟨d2, hr, h⟩ := run_append.1 h
  obtain ⟨d3', ht, h⟩ := bind_eq_ok.1 h
  cases h
  obtain ⟨d1, hr1, hr2⟩ := run_append.1 hr
  obtain ⟨d0'', hl', hp⟩ := bind_eq_ok.1 hp
  rw [hl] at hl'
  cases hl'
  rw [hr1] at hp
  cases hp
  obtain ⟨d0'', hl', hp⟩ := bind_eq_ok.1 hp0
  rw [hl] at hl'
  cases hl'
  cases hp
  have h60 : woundUpAt temps117.pidInfo 80 90 = 60 := by decide +kernel
  have hfind : pids117.find? 1 = some loops117 := by unfold pids117; rw [OMap.find?_insert_self]
  have g := C117_hot_sensor (o := {}) rfl rfl pids117_wf
    (fun e he => by
      have := (OMap.mem_entries_iff pids117_wf e.1 e.2).1 he
      unfold pids117 at this
      by_cases hi : e.1 = 1
      · rw [hi, OMap.find?_insert_self] at this
        rw [← Option.some.inj this]; exact loops117_wf
      · rw [OMap.find?_insert_ne _ hi, OMap.find?_empty] at this
        cases this) hl
    (i := 1) (conf := loops117) (c := zone99) hfind (by unfold zones99; rw [OMap.find?_insert_self]) rfl
    (e := ("temps", temps117))
    ((OMap.mem_entries_iff loops117_wf _ _).2 (by unfold loops117; rw [OMap.find?_insert_self])) (.inl rfl)
    (by
      intro e he h
      rcases loops117_mem he with rfl | rfl <;> exact absurd h (by decide))
    temps117_integrating (by decide +kernel) (by decide +kernel) (by decide +kernel) (x := 90) (by decide +kernel) (N := 4) temps117_winds
    (by
      intro f hf hff
      rcases loops117_mem hf with rfl | rfl
      · exact ⟨⟨rfl, by decide +kernel, by decide +kernel, by decide +kernel⟩, by decide +kernel⟩
      · exact absurd hff (by decide))
    (by decide) hr1 hr2 (mod_of hmb)
    (hot_of (n := "cpu") (by simp [temps117, loop99]) (fun v hv => of_decide_eq_true hv) hb)
    (fun es1 es2 h => by
      rw [switchAfter_append]
      exact on117 10 es1 es2 h)
    (by decide) rfl ht
  change FansAtLeast loops117.entries (woundUpAt temps117.pidInfo 80 90 / 100) d2.w d3.w at g
  rw [h60] at g
  refine ⟨d2, d3, ?_, ht, g⟩
  show (Daemon.launch {} bus103 0 world99 sensors99 pids117 zones99 >>= _) = _
  rw [hl, ok_bind]
  exact hr

/-- C117: at 700 ms the processor reports 90 degrees; eleven fan intervals and 20 ms later, at 6230 ms, the fan has been told
60 percent, which is 153 of 255. The history is served -/
def launch117 : Res Timed := Timed.launch {} bus103 0 (fun _ => 0)
  { world99 with nowFans := 7000000000, nowThermals := 7000000000 }
  (sensors106.insert "cpu" ⟨"temp", "/xyz/openbmc_project/sensors/temperature/cpu", "", 0, 0, 60, false, true, false⟩) pids117 zones99
def hot117 : List TEvent := before111 ++ at111 700 (.signal "cpu" (ms 700) (temp103 90)) ::
  (List.range 11).map (fun k => at111 (500 * (k + 2) + k) (.tick 1))
example : ∃ td, (do let td ← launch117; td.run {} hot117) = .ok td ∧
    decide (valueAt "/xyz/openbmc_project/control/fanpwm/pwm1" td.d.w = some 153) = true :=
  ok_of_any (P := fun td : Timed => decide (valueAt "/xyz/openbmc_project/control/fanpwm/pwm1" td.d.w = some 153))
    (by decide +kernel)
example : ∃ td, launch117 = .ok td ∧
    servedCheck {} 20000000 td (hot117 ++ [at111 6230 (.manual 1 true)]) = true :=
  ok_of_any (P := fun td : Timed => servedCheck {} 20000000 td (hot117 ++ [at111 6230 (.manual 1 true)])) (by decide +kernel)

end
end Ex
end Verif
