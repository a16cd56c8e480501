import Verif.Lemmas.Register
import Verif.Props.Demand

/-! # What the fans are told: property C106 -/

namespace Verif
open Dbl
section
variable [F : FloatModel]

theorem limited_mono {min max : Int} (h0 : 0 ≤ min) (h1 : min ≤ max) (h2 : max ≤ 2 ^ 53) {v v' : Dbl} (hv0 : 0 ≤ v) (hv : v ≤ v')
    {r : Int} (hr : (percentToRaw min max v').toI64 = some r) :
    0 ≤ percentToRaw min max v ∧ percentToRaw min max v ≤ percentToRaw min max v' := by
  obtain ⟨t, ht, e, -⟩ := castInt_some hr
  simp only [percentToRaw] at e ⊢
  have hk : (0 : Dbl) ≤ ofInt max - ofInt min := by
    rw [range_eq h0 h1 h2, zero_eq, fin_le_fin]
    exact_mod_cast (by omega : (0 : Int) ≤ max - min)
  have n2 : (ofInt max - ofInt min) * v' + ofInt min ≠ nan := by rw [e]; simp
  have hz : (ofInt max - ofInt min : Dbl) * 0 = 0 := by
    rw [range_eq h0 h1 h2, zero_eq, fin_mul_fin, Rat.mul_zero, ofRat_rep F.rep_zero]
  have hm : (0 : Dbl) ≤ ofInt min := by
    rw [ofInt_eq (by omega) (by omega), zero_eq, fin_le_fin]
    exact_mod_cast h0
  have n1 : (ofInt max - ofInt min) * v + ofInt min ≠ nan := by
    cases v with
    | nan => simp at hv
    | ninf => simp [zero_eq] at hv0
    | pinf =>
      have : v' = pinf := by cases v' <;> simp_all
      rw [this] at n2
      exact n2
    | fin q hq =>
      rw [range_eq h0 h1 h2, fin_mul_fin, ofInt_eq (by omega) (by omega)]
      cases hh : ofRat (F := F) (((max - min : Int) : Rat) * q) with
      | nan => exact absurd hh (ofRat_ne_nan _)
      | ninf => simp [add_def, Dbl.add]
      | pinf => simp [add_def, Dbl.add]
      | fin a ha => rw [fin_add_fin]; exact ofRat_ne_nan _
  have hp : (0 : Dbl) ≤ (ofInt max - ofInt min) * v := by
    rw [← hz]
    exact mul_le_mul_left_of_nonneg hk hv0 (by rw [hz, zero_eq]; simp) (add_ne_nan_left n1)
  constructor
  · have h00 : (0 : Dbl) + 0 = 0 := by rw [zero_eq, fin_add_fin, Rat.add_zero, ofRat_rep F.rep_zero]
    rw [← h00]
    exact add_le_add hp hm (by rw [h00, zero_eq]; simp) n1
  · exact add_le_add (mul_le_mul_left_of_nonneg hk hv (add_ne_nan_left n1) (add_ne_nan_left n2))
      (Dbl.le_refl (ofInt_ne_nan _)) n1 n2

/-- a larger command stands for a number that is not smaller -/
theorem rawCommand_mono {c : SensorConfig} (hl : LimitsOk c) {v v' : Dbl} (hv0 : 0 ≤ v) (hv : v ≤ v') {r : Int}
    (hr : rawCommand (limitsOf c) v' = some r) : ∃ s, rawCommand (limitsOf c) v = some s ∧ 0 ≤ s ∧ s ≤ r := by
  unfold limitsOf at *
  by_cases hm : 0 < c.max
  · rw [if_pos hm] at *
    obtain ⟨a, b, d⟩ := hl hm
    obtain ⟨x, y⟩ := limited_mono a b d hv0 hv (v' := v') (r := r) hr
    exact toI64_mono x y hr
  · rw [if_neg hm] at *
    exact toI64_mono hv0 hv hr

/-- **C106** Suppose the daemon was launched, anything has happened since, and its loops now command their fans at least the
fraction `v`. Then every fan they command has been told at least the number that stands for `v`: whatever was skipped as
unchanged, what its D-Bus object or file got last is not smaller. -/
theorem C106_told {o : Opts} {bus : BuildBus} {now : Int} {w : World} {sensors : OMap String SensorConfig}
    {pids : OMap Int PIDConf} {configs : OMap Int ZoneConfig} {d d1 : Daemon} (hw : sensors.WF) (htr : w.trace = [])
    (hl : Daemon.launch o bus now w sensors pids configs = .ok d) {es : List DEvent} (hr : d.run o es = .ok d1)
    {n p : String} {c : SensorConfig} (hfo : FanOn bus.dirs sensors n c p) (hb : w.busOk p = true)
    (hbs : ∀ e ∈ es, BusWorks p e) {conf : List Entry} {v : Dbl} (hv : 0 ≤ v) {w2 : World} (h : FansAtLeast conf v d1.w w2)
    (hin : ∃ e ∈ conf, IsFan e ∧ ∃ x ∈ e.2.inputs, x.name = n) :
    ToldAtLeast c p v w2 := by
  obtain ⟨hc, hfan, hlim, hp, honly⟩ := hfo
  have hf := fanAt_run hr hbs (fanAt_launched hw hl hc hfan hp honly hb htr)
  obtain ⟨l, b, h1, h2, h3⟩ := h
  have hex : ∃ x ∈ l, n ∈ x.1.inputs := by
    obtain ⟨e, he, hF, x, hx, rfl⟩ := hin
    have : e.2.inputs.map SensorInput.name ∈ l.map (fun x => x.1.inputs) := by
      rw [h1]
      exact List.mem_map.2 ⟨e, List.mem_filter.2 ⟨he, by simpa using hF⟩, rfl⟩
    obtain ⟨y, hy, hy2⟩ := List.mem_map.1 this
    exact ⟨y, hy, by rw [hy2]; exact List.mem_map.2 ⟨x, hx, rfl⟩⟩
  obtain ⟨x, hx, hx2, raw, hraw, hval⟩ := (fanAt_drives h2 hf).2.2 hex
  have htn : targetOf d1.w n ≠ none := by
    obtain ⟨s, rd, wr, hs, hi, hwr⟩ := hf.fan
    unfold targetOf
    rw [hs]
    dsimp only
    rw [hi]
    dsimp only
    rw [hwr.target]
    simp
  obtain ⟨r, hr1, hr2, hr3⟩ := rawCommand_mono hlim hv (h3 x hx ⟨n, hx2, htn⟩) hraw
  exact ⟨raw, r, hval (by omega), hr1, hr3⟩

theorem percent_nonneg {p : Dbl} (h : 0 ≤ p) : 0 ≤ p / 100 := by
  have hz : (0 : Dbl) / 100 = 0 := by
    have e : (100 : Dbl) = fin ((100 : Nat) : Rat) (rep_nat (by norm_num)) := nat_eq (n := 100) (by norm_num)
    rw [e, zero_eq, fin_div_fin (by norm_num), zero_div, ofRat_rep F.rep_zero]
  rw [← hz]
  exact div_le_div_of_pos pos100 h (by rw [hz, zero_eq]; simp) (div100_ne_nan (ne_nan_of_le_right h))

theorem percentFor_nonneg {c : ZoneConfig} {conf : List Entry} {n : String} {p : Dbl}
    (hnum : ∀ e ∈ conf, 0 ≤ e.2.failSafePercent) (hzn : 0 ≤ c.failsafePercent) (h : PercentFor c conf n p) : 0 ≤ p := by
  cases h with
  | own hl _ =>
    obtain ⟨x, hx, rfl⟩ := List.mem_map.1 hl.1
    obtain ⟨e, he, hxe⟩ := List.mem_flatMap.1 (List.mem_filter.1 hx).1
    obtain ⟨i, _, rfl⟩ := List.mem_map.1 hxe
    exact hnum e (List.mem_filter.1 he).1
  | zero _ => exact hzn
  | zone _ => exact hzn

/-- **C106** From a critical alarm to the numbers the fans get: while a D-Bus sensor that counts as failed reports an alarm,
every automatic cycle after the first ceil(T/F) leaves every fan of the zone told at least the number that stands for the
percentage configured for the sensor. -/
theorem C106_alarm {o : Opts} (ho : o.tuningEnabled = false) {bus : BuildBus} {now : Int} {w : World} (htr : w.trace = [])
    {sensors : OMap String SensorConfig} (hws : sensors.WF) {pids : OMap Int PIDConf} {configs : OMap Int ZoneConfig}
    (hw : pids.WF) (hc : ∀ e ∈ pids.entries, OMap.WF e.2) {d0 : Daemon}
    (hl : Daemon.launch o bus now w sensors pids configs = .ok d0)
    {i : Int} {conf : PIDConf} {c : ZoneConfig} (hp : pids.find? i = some conf) (hcc : configs.find? i = some c)
    {n : String} (hs : MustRead conf.entries n) (hnum : ∀ e ∈ conf.entries, 0 ≤ e.2.failSafePercent)
    (hzn : 0 ≤ c.failsafePercent) (hF : 1 ≤ c.cycleTime.cycleIntervalTimeMS)
    {sc : SensorConfig} (hsc : sensors.find? n = some sc) (htk : KnownType sc.type) (hk : ReadKind sc.readPath .dbusPassive)
    (hua : sc.unavailableAsFailed = true) (hho : sc.ignoreFailIfHostOff = false)
    {pre post : List DEvent} {t : Int} {m : PropMsg} {d2 d3 : Daemon}
    (hr : d0.run o (pre ++ .signal n t m :: post) = .ok d2) (hm : alarmIn o (t, m) = some true)
    (hpost : ∀ x ∈ signalsFor n post, alarmIn o x ≠ some false)
    (hn : (c.cycleTime.updateThermalsTimeMS + c.cycleTime.cycleIntervalTimeMS - 1) / c.cycleTime.cycleIntervalTimeMS ≤
      autoTicks i (modeAfter i false pre) post)
    (hmode : modeAfter i false (pre ++ post) = false) (ht : d2.step o (.tick i) = .ok d3) :
    ∃ percent, PercentFor c conf.entries n percent ∧
      ∀ e ∈ conf.entries, IsFan e → ∀ x ∈ e.2.inputs, ∀ fc path, FanOn bus.dirs sensors x.name fc path → w.busOk path = true →
        (∀ e ∈ pre ++ .signal n t m :: post, BusWorks path e) → ToldAtLeast fc path (percent / 100) d3.w := by
  obtain ⟨p, h1, h2⟩ := C100_alarm ho hws hw hc hl hp hcc hs (fun e he => ne_nan_of_le_right (hnum e he))
    (ne_nan_of_le_right hzn) hF hsc htk hk hua hho hr hm hpost hn hmode ht
  refine ⟨p, h1, fun e he hFe x hx fc path hfo hb hbs => ?_⟩
  exact C106_told hws htr hl hr hfo hb hbs (percent_nonneg (percentFor_nonneg hnum hzn h1)) h2 ⟨e, he, hFe, x, hx, rfl⟩

end

namespace Ex
section
attribute [local instance] binary64

def fan106 : SensorConfig :=
  ⟨"fan", "/xyz/openbmc_project/sensors/fan_tach/fan0", "/xyz/openbmc_project/control/fanpwm/pwm1", 0, 255, 0, false, true, false⟩
/-- as `sensors99`, but the fan is written over D-Bus, and there is another one -/
def sensors106 : OMap String SensorConfig :=
  [("fan0", fan106),
    ("fan1", { fan106 with writePath := "/xyz/openbmc_project/control/fanpwm/pwm2" }),
    ("cpu", ⟨"temp", "/xyz/openbmc_project/sensors/temperature/cpu", "", 0, 0, 5, false, true, false⟩)].foldl
    (fun m e => m.insert e.1 e.2) {}

theorem sensors106_wf : sensors106.WF := by
  unfold sensors106
  simp only [List.foldl]
  repeat apply OMap.wf_insert
  exact OMap.wf_empty

def run106 (es : List DEvent) : Res Daemon := do
  let d ← Daemon.launch {} bus98 0 world99 sensors106 pids99 zones99
  d.run {} es

theorem fanOn106 : FanOn bus98.dirs sensors106 "fan0" fan106 "/xyz/openbmc_project/control/fanpwm/pwm1" where
  configured := by decide +kernel
  fan := rfl
  limits _ := by decide
  written := .dbus ((C65_write _ _).1 (by decide +kernel))
  only := by
    intro m c hm hc ht hp
    have key : ∀ e ∈ sensors106.entries, e.1 ≠ "fan0" → e.2.type = "fan" →
        e.2.writePath ≠ "/xyz/openbmc_project/control/fanpwm/pwm1" ∧ getWriteInterfaceType e.2.writePath ≠ .sysfs := by
      decide +kernel
    have := key (m, c) ((OMap.mem_entries_iff sensors106_wf m c).2 hc) hm ht
    generalize hq : "/xyz/openbmc_project/control/fanpwm/pwm1" = q at *
    cases hp with
    | dbus _ => exact this.1 rfl
    | sysfs h _ => exact this.2 ((C65_write _ _).2 h)

/-- C106: after the alarm 229 is sent once, although many cycles follow, and it is what the fan was told last -/
example : ∃ d, run106 (events99 ++ [.tick 1, .tick 1, .tick 1]) = .ok d ∧
    decide (d.w.trace.map Effect.value = [51, 229] ∧
      valueAt "/xyz/openbmc_project/control/fanpwm/pwm1" d.w = some 229) = true :=
  ok_of_any (P := fun d : Daemon => decide (d.w.trace.map Effect.value = [51, 229] ∧
    valueAt "/xyz/openbmc_project/control/fanpwm/pwm1" d.w = some 229)) (by decide +kernel)

/-- C106: all hypotheses hold for this run -/
example : ∃ d0 d2 d3 p, Daemon.launch {} bus98 0 world99 sensors106 pids99 zones99 = .ok d0 ∧ d0.run {} events99 = .ok d2 ∧
    d2.step {} (.tick 1) = .ok d3 ∧ PercentFor zone99 loops99.entries "cpu" p ∧
    ToldAtLeast fan106 "/xyz/openbmc_project/control/fanpwm/pwm1" (p / 100) d3.w := by
  obtain ⟨d3, h, _⟩ := ok_of_any (x := run106 (events99 ++ [.tick 1])) (P := fun _ : Daemon => true) (by decide +kernel)
  obtain ⟨d0, hl, h⟩ := bind_eq_ok.1 h
  obtain ⟨d2, hr, h⟩ := run_append.1 h
  obtain ⟨d3', ht, h⟩ := bind_eq_ok.1 h
  cases h
  obtain ⟨p, h1, h2⟩ := C106_alarm (o := {}) rfl rfl sensors106_wf pids99_wf
    (fun e he => by rw [(pids99_find ((OMap.mem_entries_iff pids99_wf e.1 e.2).1 he)).2]; exact loops99_wf) hl
    (i := 1) (conf := loops99) (c := zone99) (by unfold pids99; rw [OMap.find?_insert_self])
    (by unfold zones99; rw [OMap.find?_insert_self]) (n := "cpu")
    ⟨by decide +kernel, by decide +kernel⟩ (by decide +kernel) (by decide +kernel) (by decide)
    (sc := ⟨"temp", "/xyz/openbmc_project/sensors/temperature/cpu", "", 0, 0, 5, false, true, false⟩)
    (by decide +kernel) (by decide) ((C65_read _ _).1 (by decide +kernel)) rfl rfl
    (pre := [.tick 1]) (post := [.tick 1, .tick 1]) hr (by decide +kernel) (by intro x hx; cases hx) (by decide) rfl ht
  refine ⟨d0, d2, d3, p, hl, hr, ht, h1, h2 ("fans", loop99 "fan" "fan0" 0 1 0) ?_ ?_ { name := "fan0" } ?_ _ _ fanOn106 rfl ?_⟩
  · unfold loops99
    exact (OMap.mem_entries_iff (OMap.wf_insert (OMap.wf_insert OMap.wf_empty _ _) _ _) _ _).2 (by
      rw [OMap.find?_insert_ne _ (by decide), OMap.find?_insert_self])
  · decide +kernel
  · exact List.mem_cons_self
  · intro e he
    simp only [List.mem_cons, List.mem_append, List.not_mem_nil, or_false] at he
    rcases he with rfl | rfl | rfl | rfl <;> trivial

end
end Ex
end Verif
