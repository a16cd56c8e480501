import Verif.Lemmas.Slew
import Verif.Props.Integral

/-! # C118: outputs that climb -/

namespace Verif
open Dbl

section
variable [F : FloatModel]

/-- **C118** From heat that lasts to the fans, for a loop with a proportional part whose output may only climb at its slew
rate: let its input be at least as hot as `x` at every cycle, and let `N + 1` steps be enough to climb from the lower limit of
the output to what the loop asks for at `x`. The input is the largest temperature or power, the smallest margin, or the sum of
powers. The zone adds up no set points and has no ceilings; its fan loops hand their set point on. Then, after
(N+1) * max(1, ceil(T/F)) automatic cycles of the zone and whatever else happens to the daemon, every automatic cycle commands
all fan loops at least what the loop asks for at `x`. The input and the settings of the loop are of moderate size. -/
theorem C118_hot_input {o : Opts} (ho : o.tuningEnabled = false) (hst : o.strictFailsafePwm = false) {bus : BuildBus}
    {now : Int} {w : World} {sensors : OMap String SensorConfig} {pids : OMap Int PIDConf} {configs : OMap Int ZoneConfig}
    (hw : pids.WF) (hc : ∀ e ∈ pids.entries, OMap.WF e.2) {d0 : Daemon}
    (hl : Daemon.launch o bus now w sensors pids configs = .ok d0) {i : Int} {conf : PIDConf} {c : ZoneConfig}
    (hp : pids.find? i = some conf) (hcc : configs.find? i = some c) (hacc : c.accumulateSetPoint = false) {e : Entry}
    (he : e ∈ conf.entries) (hes : IsPid e.2.type)
    (hceil : ∀ e ∈ conf.entries, e.2.type = "stepwise" → e.2.stepwiseInfo.isCeiling = false)
    (hsl : Slewing e.2.pidInfo) (hkp : FacesHeat e.2.type e.2.pidInfo.proportionalCoeff) (hsp : Moderate e.2.setpoint) {x : Dbl}
    (hx : Moderate x) {N : Nat} (hclimb : Climbs e.2.pidInfo (proportionalAt e.2.pidInfo e.2.setpoint x) N)
    (hfan : ∀ f ∈ conf.entries, IsFan f →
      HandsOn f.2.pidInfo ∧ proportionalAt e.2.pidInfo e.2.setpoint x ≤ f.2.pidInfo.outLim.max)
    (hF : 1 ≤ c.cycleTime.cycleIntervalTimeMS) {pre post : List DEvent} {d1 d2 d3 : Daemon}
    (hr1 : d0.run o pre = .ok d1) (hr2 : d1.run o post = .ok d2) (hmod : ModerateInput o e.2 d0 (pre ++ post))
    (hhot : HotInput o i e.2 x d1 (post ++ [.tick i]))
    (hon : ∀ es1 es2, post = es1 ++ es2 → switchAfter i e.1 true (pre ++ es1) = true)
    (hn : (N + 1) * max 1 ((c.cycleTime.updateThermalsTimeMS + c.cycleTime.cycleIntervalTimeMS - 1) /
      c.cycleTime.cycleIntervalTimeMS) ≤ autoTicks i (modeAfter i false pre) post)
    (hm : modeAfter i false (pre ++ post) = false) (ht : d2.step o (.tick i) = .ok d3) :
    FansAtLeast conf.entries (proportionalAt e.2.pidInfo e.2.setpoint x / 100) d2.w d3.w := by
  obtain ⟨low, step, h⟩ : ∃ low step : Int, e.2.pidInfo.slewPos = 0 ∨ (-(2 ^ 53) ≤ low ∧ 0 ≤ step ∧ low + (N + 1) * step ≤ 2 ^ 53 ∧
      step ≤ 2 ^ 53 ∧ millionths low ≤ e.2.pidInfo.outLim.min ∧ millionths step ≤ e.2.pidInfo.slewPos * e.2.pidInfo.ts ∧
      proportionalAt e.2.pidInfo e.2.setpoint x ≤ millionths (low + (N + 1) * step)) := by
    rcases hclimb with h | ⟨low, step, h⟩
    · exact ⟨0, 0, .inl h⟩
    · exact ⟨low, step, .inr h⟩
  exact passes_reach_fans ho hst hw hc hl hp hcc hacc he hes hceil (climbing hsl hkp hsp hx h) hfan hF
    hr1 hr2 hmod hhot hon hn hm ht

/-- **C118** The time from heat that lasts to fast fans: once
((N+1) * max(1, ceil(T/F)) + 1) * F and the lateness have passed since the input of the loop became as hot as `x`, every fan
of the zone has been told at least what the loop asks for at `x`. -/
theorem C118_time {o : Opts} (ho : o.tuningEnabled = false) (hst : o.strictFailsafePwm = false) {bus : BuildBus} {now : Int}
    {started : Int → Int} {w : World} (htr : w.trace = []) {sensors : OMap String SensorConfig} (hws : sensors.WF)
    {pids : OMap Int PIDConf} {configs : OMap Int ZoneConfig} (hw : pids.WF) (hc : ∀ e ∈ pids.entries, OMap.WF e.2) {td : Timed}
    (hl : Timed.launch o bus now started w sensors pids configs = .ok td)
    {i : Int} {conf : PIDConf} {c : ZoneConfig} (hp : pids.find? i = some conf) (hcc : configs.find? i = some c)
    (hacc : c.accumulateSetPoint = false) {e : Entry} (he : e ∈ conf.entries) (hes : IsPid e.2.type)
    (hceil : ∀ e ∈ conf.entries, e.2.type = "stepwise" → e.2.stepwiseInfo.isCeiling = false)
    (hsl : Slewing e.2.pidInfo) (hkp : FacesHeat e.2.type e.2.pidInfo.proportionalCoeff) (hsp : Moderate e.2.setpoint) {x : Dbl}
    (hx : Moderate x) {N : Nat} (hclimb : Climbs e.2.pidInfo (proportionalAt e.2.pidInfo e.2.setpoint x) N)
    (hpos : 0 ≤ proportionalAt e.2.pidInfo e.2.setpoint x)
    (hfan : ∀ f ∈ conf.entries, IsFan f →
      HandsOn f.2.pidInfo ∧ proportionalAt e.2.pidInfo e.2.setpoint x ≤ f.2.pidInfo.outLim.max)
    (hF : 1 ≤ c.cycleTime.cycleIntervalTimeMS) {late t0 ta : Int} (h0 : started i ≤ t0) (h1 : t0 ≤ ta)
    {pre post : List TEvent} {t : Int} {e' : DEvent} {tda td1 : Timed} (hsv : Served o late t0 td (pre ++ post ++ [(t, e')]))
    (hra : td.run o pre = .ok tda) (hrb : tda.run o post = .ok td1) (hpre : ∀ x ∈ pre, x.1 ≤ ta)
    (hmod : ModerateInput o e.2 td.d (eventsOf pre ++ eventsOf post)) (hhot : HotInput o i e.2 x tda.d (eventsOf post))
    (hon : ∀ es1 es2, eventsOf post = es1 ++ es2 → switchAfter i e.1 true (eventsOf pre ++ es1) = true)
    (hauto : Automatic i (eventsOf pre) (eventsOf post))
    (ht : ta + (((N + 1) * max 1 ((c.cycleTime.updateThermalsTimeMS + c.cycleTime.cycleIntervalTimeMS - 1) /
      c.cycleTime.cycleIntervalTimeMS) + 1 : Nat) : Int) * ms c.cycleTime.cycleIntervalTimeMS + late < t) :
    ∀ f ∈ conf.entries, IsFan f → ∀ y ∈ f.2.inputs, ∀ fc path, FanOn bus.dirs sensors y.name fc path →
      OnlyZone pids i y.name → w.busOk path = true → (∀ e ∈ eventsOf (pre ++ post), BusWorks path e) →
      ToldAtLeast fc path (proportionalAt e.2.pidInfo e.2.setpoint x / 100) td1.d.w := by
  obtain ⟨low, step, h⟩ : ∃ low step : Int, e.2.pidInfo.slewPos = 0 ∨ (-(2 ^ 53) ≤ low ∧ 0 ≤ step ∧ low + (N + 1) * step ≤ 2 ^ 53 ∧
      step ≤ 2 ^ 53 ∧ millionths low ≤ e.2.pidInfo.outLim.min ∧ millionths step ≤ e.2.pidInfo.slewPos * e.2.pidInfo.ts ∧
      proportionalAt e.2.pidInfo e.2.setpoint x ≤ millionths (low + (N + 1) * step)) := by
    rcases hclimb with h | ⟨low, step, h⟩
    · exact ⟨0, 0, .inl h⟩
    · exact ⟨low, step, .inr h⟩
  exact passes_in_time ho hst htr hws hw hc hl hp hcc hacc he hes hceil (climbing hsl hkp hsp hx h) hpos hfan
    hF h0 h1 hsv hra hrb hpre hmod hhot hon hauto ht

/-- **C118** A slew rate that allows at least a millionth per step lets every such loop climb to any output within its limits,
sooner or later. -/
theorem C118_sooner_or_later {c : PidConf} (hc : Slewing c) (h : millionths 1 ≤ c.slewPos * c.ts) {y : Dbl}
    (hy : y ≤ c.outLim.max) : Climbs c y (2 ^ 41 - 1) := by
  have h1 : (millionths (-(2 ^ 40)) : Dbl) = -1048576 := by
    rw [nat_eq (n := 1048576) (by norm_num), neg_def, Dbl.neg, millionths_fin (by norm_num) (by norm_num)]
    congr 1
    norm_num
  have h2 : (millionths (2 ^ 40) : Dbl) = 1048576 := by
    rw [nat_eq (n := 1048576) (by norm_num), millionths_fin (by norm_num) (by norm_num)]
    congr 1
    norm_num
  refine .inr ⟨-(2 ^ 40), 1, by norm_num, by norm_num, by norm_num, by norm_num, ?_, h, ?_⟩
  · rw [h1]; exact hc.moderateLimits.1.1
  · have : (-(2 ^ 40) + (((2 ^ 41 - 1 : Nat) : Int) + 1) * 1 : Int) = 2 ^ 40 := by norm_num
    rw [this, h2]
    exact Dbl.le_trans hy hc.moderateLimits.2.2

end

namespace Ex
section
attribute [local instance] binary64

/-- a loop over the distance of the processor to 100 degrees: 5 percent for each degree less than 20, by at most 10 percent
per second -/
def margin118 : ControllerInfo :=
  let t := loop99 "margin" "cpu" 5 0 90
  { t with inputs := [⟨"cpu", 100, true, false⟩], setpoint := 20, pidInfo := { t.pidInfo with slewPos := 10 } }
def loops118 : PIDConf := (({} : PIDConf).insert "fans" (loop99 "fan" "fan0" 0 1 0)).insert "margins" margin118
def pids118 : OMap Int PIDConf := ({} : OMap Int PIDConf).insert 1 loops118

theorem loops118_wf : loops118.WF := OMap.wf_insert (OMap.wf_insert OMap.wf_empty _ _) _ _
theorem pids118_wf : pids118.WF := OMap.wf_insert OMap.wf_empty _ _

theorem loops118_mem {e : Entry} (h : e ∈ loops118.entries) :
    e = ("fans", loop99 "fan" "fan0" 0 1 0) ∨ e = ("margins", margin118) := by
  have h := (OMap.mem_entries_iff loops118_wf e.1 e.2).1 h
  obtain ⟨n, x⟩ := e
  unfold loops118 at h
  dsimp only at h
  rw [OMap.find?_insert, OMap.find?_insert, OMap.find?_empty] at h
  split_ifs at h with h1 h2
  · cases h; rw [h1]; exact .inr rfl
  · cases h; rw [h2]; exact .inl rfl

def run118 (es : List DEvent) : Res Daemon := do
  let d ← Daemon.launch {} bus103 0 world99 sensors99 pids118 zones99
  d.run {} es

theorem margin118_slewing : Slewing margin118.pidInfo :=
  ⟨⟨rfl, by decide +kernel⟩, by decide +kernel, by decide +kernel, by decide +kernel, by decide +kernel, by decide +kernel,
    by decide +kernel, ⟨1, FloatModel.rep_one, one_eq, by norm_num, by norm_num⟩⟩

/-- from 0 to 50 in steps of 10 -/
theorem margin118_climbs : Climbs margin118.pidInfo (proportionalAt margin118.pidInfo 20 10) 4 :=
  .inr ⟨0, 10485760, by decide, by decide, by decide, by decide, by decide +kernel, by decide +kernel, by decide +kernel⟩

/-- C118: at 90 degrees, 10 from the limit, the loop wants 50 percent. It first asks for 10 percent, and the zone for its
minimum of 20: 51 of 255 is written; four passes later for 50 percent: 127 -/
example : (∃ d, run118 (pre117 ++ [.tick 1]) = .ok d ∧
      decide (d.w.trace.getLast? = some (.sysfsWrite "/sys/class/hwmon/pwm1" 51)) = true) ∧
    ∃ d, run118 (pre117 ++ List.replicate 11 (.tick 1)) = .ok d ∧
      decide (d.w.trace.getLast? = some (.sysfsWrite "/sys/class/hwmon/pwm1" 127)) = true :=
  ⟨ok_of_any (P := fun d : Daemon => decide (d.w.trace.getLast? = some (.sysfsWrite "/sys/class/hwmon/pwm1" 51)))
    (by decide +kernel),
   ok_of_any (P := fun d : Daemon => decide (d.w.trace.getLast? = some (.sysfsWrite "/sys/class/hwmon/pwm1" 127)))
    (by decide +kernel)⟩

/-- C118: without the slew rate 127 is written at once -/
example : ∃ d, (do
      let d ← Daemon.launch {} bus103 0 world99 sensors99 (({} : OMap Int PIDConf).insert 1 (loops118.insert "margins"
        { margin118 with pidInfo := { margin118.pidInfo with slewPos := 0 } })) zones99
      d.run {} (pre117 ++ [DEvent.tick 1])) = .ok d ∧
      decide (d.w.trace.getLast? = some (.sysfsWrite "/sys/class/hwmon/pwm1" 127)) = true :=
  ok_of_any (P := fun d : Daemon => decide (d.w.trace.getLast? = some (.sysfsWrite "/sys/class/hwmon/pwm1" 127)))
    (by decide +kernel)

/-- the input of the loop for a reading of the processor -/
theorem margin118_sees {w : World} {v : Dbl} (h : Sees w margin118 v) :
    ∃ r, GivesReading w "cpu" r ∧ (r.isFinite = false ∧ v = 20 ∨ v = dblMax ∧ v ≤ 100 - r ∨ v = 100 - r) := by
  obtain ⟨rs, h1, h2⟩ := h
  change List.Forall₂ _ [_] rs at h1
  obtain ⟨r, _, hr, hn, rfl⟩ := List.forall₂_cons_left_iff.1 h1
  cases List.forall₂_nil_left_iff.1 hn
  refine ⟨r, hr, ?_⟩
  change InputOver "margin" 20 (counted "margin" [_] [r]) v at h2
  rw [counted_cons] at h2
  unfold counts at h2
  cases hf : r.isFinite with
  | false =>
    simp only [hf, counted, Bool.false_eq_true, if_false, List.append_nil] at h2
    cases h2 with
    | nothing => exact .inl ⟨rfl, rfl⟩
    | largest _ h => cases h
    | smallest _ h => exact absurd rfl h
    | sum h => exact absurd h (by decide)
  | true =>
    simp only [hf, counted, and_self, if_true, List.append_nil] at h2
    cases h2 with
    | largest h => exact absurd h (by decide)
    | smallest _ _ h h' =>
      have h'' := h' _ (List.mem_cons_of_mem _ List.mem_cons_self)
      rcases List.mem_cons.1 h with h | h
      · exact .inr (.inl ⟨h, h''⟩)
      · exact .inr (.inr (List.mem_singleton.1 h))
    | sum h => exact absurd h (by decide)

/-- a check of the readings of a sensor throughout -/
def readB (n : String) (P : Dbl → Bool) (d : Daemon) (es : List DEvent) : Bool :=
  (match d.w.sensors.find? n with
    | some s => (match s.read d.w d.w.nowThermals with | .ok r => P r.value | .error _ => true)
    | none => true) &&
  (match es with
    | [] => true
    | e :: es => match d.step {} e with
      | .ok d' => readB n P d' es
      | .error _ => true)

theorem read_of {n : String} {P : Dbl → Bool} : ∀ {es : List DEvent} {d : Daemon}, readB n P d es = true →
    ∀ es1 es2 d1, es = es1 ++ es2 → d.run {} es1 = .ok d1 → ∀ r, GivesReading d1.w n r → P r = true := by
  have base : ∀ {es : List DEvent} {d : Daemon}, readB n P d es = true → ∀ r, GivesReading d.w n r → P r = true := by
    rintro es d hb r ⟨s, rr, hs, hr, rfl⟩
    unfold readB at hb
    rw [hs] at hb
    simp only [Bool.and_eq_true, hr] at hb
    exact hb.1
  intro es
  induction es with
  | nil =>
    intro d hb es1 es2 d1 h hr
    cases es1 with
    | nil => cases hr; exact base hb
    | cons => cases h
  | cons e es ih =>
    intro d hb es1 es2 d1 h hr
    cases es1 with
    | nil => cases hr; exact base hb
    | cons e' es1 =>
      cases h
      obtain ⟨d2, h1, h2⟩ := bind_eq_ok.1 hr
      unfold readB at hb
      simp only [Bool.and_eq_true, h1] at hb
      exact ih hb.2 es1 es2 d1 rfl h2

theorem on118 : ∀ (k : Nat) (es1 es2 : List DEvent), List.replicate k (.tick 1) = es1 ++ es2 →
    switchAfter 1 "margins" true es1 = true
  | _, [], _, _ => rfl
  | 0, e :: es1, es2, h => by cases h
  | k + 1, e :: es1, es2, h => by
    rw [List.replicate_succ, List.cons_append, List.cons.injEq] at h
    rw [← h.1]
    exact on118 k es1 es2 h.2

/-- C118: all hypotheses hold for this run -/
example : ∃ d2 d3, run118 (pre117 ++ List.replicate 10 (.tick 1)) = .ok d2 ∧ d2.step {} (.tick 1) = .ok d3 ∧
    FansAtLeast loops118.entries (50 / 100) d2.w d3.w := by
  obtain ⟨d3, h, _⟩ := ok_of_any (x := run118 ((pre117 ++ List.replicate 10 (.tick 1)) ++ [.tick 1]))
    (P := fun _ : Daemon => true) (by decide +kernel)
  obtain ⟨d1', hp, hb⟩ := ok_of_any (x := run118 pre117)
    (P := fun d : Daemon => readB "cpu" (fun r => decide (r.isFinite = true ∧ 100 - r = 10)) d (List.replicate 10 (.tick 1) ++ [.tick 1]))
    (by decide +kernel)
  obtain ⟨d0', hp0, hmb⟩ := ok_of_any (x := run118 [])
    (P := fun d : Daemon => readB "cpu" (fun r => decide (Moderate (100 - r))) d (pre117 ++ List.replicate 10 (.tick 1)))
    (by decide +kernel)
  obtain ⟨d0, hl, h⟩ := bind_eq_ok.1 h
  obtain ⟨d2, hr, h⟩ := run_append.1 h
  obtain ⟨d3', ht, h⟩ := bind_eq_ok.1 h
  cases h
  obtain ⟨d1, hr1, hr2⟩ := run_append.1 hr
  obtain ⟨d0'', hl', hp⟩ := bind_eq_ok.1 hp
  rw [hl] at hl'
  cases hl'
  rw [hr1] at hp
  cases hp
  obtain ⟨d0'', hl', hp⟩ := bind_eq_ok.1 hp0
  rw [hl] at hl'
  cases hl'
  cases hp
  have h50 : proportionalAt margin118.pidInfo 20 10 = 50 := by decide +kernel
  have hbig : ¬ (dblMax : Dbl) ≤ 1048576 := by decide +kernel
  have hfind : pids118.find? 1 = some loops118 := by unfold pids118; rw [OMap.find?_insert_self]
  have g := C118_hot_input (o := {}) rfl rfl pids118_wf
    (fun e he => by
      have := (OMap.mem_entries_iff pids118_wf e.1 e.2).1 he
      unfold pids118 at this
      by_cases hi : e.1 = 1
      · rw [hi, OMap.find?_insert_self] at this
        rw [← Option.some.inj this]; exact loops118_wf
      · rw [OMap.find?_insert_ne _ hi, OMap.find?_empty] at this
        cases this) hl
    (i := 1) (conf := loops118) (c := zone99) hfind (by unfold zones99; rw [OMap.find?_insert_self]) rfl
    (e := ("margins", margin118))
    ((OMap.mem_entries_iff loops118_wf _ _).2 (by unfold loops118; rw [OMap.find?_insert_self])) (.inr (.inr (.inl rfl)))
    (by
      intro e he h
      rcases loops118_mem he with rfl | rfl <;> exact absurd h (by decide))
    margin118_slewing (by unfold FacesHeat; decide +kernel) (by decide +kernel) (x := 10) (by decide +kernel) (N := 4)
    margin118_climbs
    (by
      intro f hf hff
      rcases loops118_mem hf with rfl | rfl
      · exact ⟨⟨rfl, by decide +kernel, by decide +kernel, by decide +kernel⟩, by decide +kernel⟩
      · exact absurd hff (by decide))
    (by decide) hr1 hr2
    (by
      intro es1 es2 d h1 h2 v hv
      obtain ⟨r, hr, hv⟩ := margin118_sees hv
      have := of_decide_eq_true (read_of hmb es1 es2 d h1 h2 r hr)
      rcases hv with ⟨_, rfl⟩ | ⟨rfl, h⟩ | rfl
      · decide +kernel
      · exact absurd (Dbl.le_trans h this.2) hbig
      · exact this)
    (by
      intro es1 es2 d h1 h2 v hv
      unfold AsHot
      rw [if_pos (show margin118.type = "margin" from rfl)]
      obtain ⟨r, hr, hv⟩ := margin118_sees hv
      have h10 := of_decide_eq_true (read_of hb es1 (.tick 1 :: es2) d h1 h2 r hr)
      rcases hv with ⟨hf, _⟩ | ⟨_, h⟩ | rfl
      · rw [h10.1] at hf; cases hf
      · rw [h10.2] at h; exact h
      · rw [h10.2]; decide +kernel)
    (fun es1 es2 h => by
      rw [switchAfter_append]
      exact on118 10 es1 es2 h)
    (by decide) rfl ht
  change FansAtLeast loops118.entries (proportionalAt margin118.pidInfo 20 10 / 100) d2.w d3.w at g
  rw [h50] at g
  refine ⟨d2, d3, ?_, ht, g⟩
  show (Daemon.launch {} bus103 0 world99 sensors99 pids118 zones99 >>= _) = _
  rw [hl, ok_bind]
  exact hr

end
end Ex
end Verif
