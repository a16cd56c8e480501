import Verif.Lemmas.Ranges
import Verif.Lemmas.Remote
import Verif.Lemmas.Whole
import Verif.Props.SteadyTimed
import Verif.Props.Written

/-! # C129: no fan is ever told a number outside its configured range -/

namespace Verif
open Dbl

section
variable [F : FloatModel]

/-- **C129** Whatever happens to a launched daemon, in whatever order (readings of any size or missing, sensors failing and
recovering, switches to manual mode and back, loops switched on and off, writes that fail, the tuning mode): every number ever sent
to a fan with limits is between these limits. All that is asked for is that the output limits of the fan's loops and the failsafe
percentages of its zones are percentages, that the slew rates of its loops point the right way, and that no other fan has the same
path. -/
theorem C129_range {o : Opts} {bus : BuildBus} {now : Int} {w : World} {sensors : OMap String SensorConfig}
    {pids : OMap Int PIDConf} {configs : OMap Int ZoneConfig} (hw : pids.WF) (hc : ∀ e ∈ pids.entries, OMap.WF e.2)
    (hws : sensors.WF) {d : Daemon} (hl : Daemon.launch o bus now w sensors pids configs = .ok d) (htr : w.trace = [])
    {n path : String} {fc : SensorConfig} (hf : FanOn bus.dirs sensors n fc path) (hmax : 0 < fc.max)
    (hs : ∀ j conf c, pids.find? j = some conf → configs.find? j = some c → SafeFor n c conf.entries)
    {es : List DEvent} {d1 : Daemon} (hr : d.run o es = .ok d1) : WithinRange path fc.min fc.max d1.w := by
  obtain ⟨h0, h1, h2⟩ := hf.limits hmax
  exact (ranged_run h0 h1 h2 hr (rangedZone_launched hw hc hl hs) (rangeAt_launched hws hl hf hmax htr)).2.range

/-- what a fan was last told is one of the numbers sent to it -/
theorem within_valueFrom {path : String} {lo hi : Int} : ∀ {l : List Effect} {a : Option Int},
    (∀ e ∈ l, e.path = path → lo ≤ e.value ∧ e.value ≤ hi) → (∀ x, a = some x → lo ≤ x ∧ x ≤ hi) →
    ∀ u, valueFrom path a l = some u → lo ≤ u ∧ u ≤ hi
  | [], a, _, ha, u, hu => ha u hu
  | .dbusSet p x ok :: l, a, hl, ha, u, hu => by
    refine within_valueFrom (fun e he => hl e (List.mem_cons_of_mem _ he)) (fun y hy => ?_) u hu
    split_ifs at hy with h
    · cases hy
      exact hl _ List.mem_cons_self h.1
    · exact ha y hy
  | .sysfsWrite p x :: l, a, hl, ha, u, hu => by
    refine within_valueFrom (fun e he => hl e (List.mem_cons_of_mem _ he)) (fun y hy => ?_) u hu
    split_ifs at hy with h
    · cases hy
      exact hl _ List.mem_cons_self h
    · exact ha y hy

/-- **C129** In particular what the fan was last told, if anything, is between its limits at all times. -/
theorem C129_told {o : Opts} {bus : BuildBus} {now : Int} {w : World} {sensors : OMap String SensorConfig}
    {pids : OMap Int PIDConf} {configs : OMap Int ZoneConfig} (hw : pids.WF) (hc : ∀ e ∈ pids.entries, OMap.WF e.2)
    (hws : sensors.WF) {d : Daemon} (hl : Daemon.launch o bus now w sensors pids configs = .ok d) (htr : w.trace = [])
    {n path : String} {fc : SensorConfig} (hf : FanOn bus.dirs sensors n fc path) (hmax : 0 < fc.max)
    (hs : ∀ j conf c, pids.find? j = some conf → configs.find? j = some c → SafeFor n c conf.entries)
    {es : List DEvent} {d1 : Daemon} (hr : d.run o es = .ok d1) {u : Int} (hu : valueAt path d1.w = some u) :
    fc.min ≤ u ∧ u ≤ fc.max :=
  within_valueFrom (C129_range hw hc hws hl htr hf hmax hs hr) (by simp) u hu

theorem rangeAt_destroy {o : Opts} {n p : String} {lo hi : Int} (h0 : 0 ≤ lo) (h1 : lo ≤ hi) (h2 : hi ≤ 2 ^ 53) :
    ∀ {zs : List Zone} {w w' : World}, destroyZones o w zs = .ok w' → (∀ z ∈ zs, RangedZone n z) → RangeAt n p lo hi w →
    RangeAt n p lo hi w'
  | [], w, w', h, _, hr => by cases h; exact hr
  | z :: zs, w, w', h, hz, hr => by
    obtain ⟨⟨w1, z1⟩, g1, g2⟩ := bind_eq_ok.1 h
    refine rangeAt_destroy h0 h1 h2 g2 (fun z hz' => hz z (List.mem_cons_of_mem _ hz')) ?_
    cases ho : o.offlineFailsafePwm with
    | false => rw [destroyFans_nothing ho] at g1; cases g1; exact hr
    | true =>
      refine rangeAt_drives h0 h1 h2 (C74_zone ho g1) hr (fun x hx hn => ?_)
      obtain ⟨c, hc, hx⟩ := List.mem_filterMap.1 hx
      cases c with
      | none => cases hx
      | some c =>
        cases hx
        obtain ⟨_, d0, log, a1, a2⟩ := hz z List.mem_cons_self c hc hn
        exact percent_fraction (.inr (failSafePercent_percentage a1 a2))

/-- **C129** The same holds for what the daemon sends when it stops its zones for a reload or at the end. -/
theorem C129_stop {o : Opts} {bus : BuildBus} {now : Int} {w : World} {sensors : OMap String SensorConfig}
    {pids : OMap Int PIDConf} {configs : OMap Int ZoneConfig} (hw : pids.WF) (hc : ∀ e ∈ pids.entries, OMap.WF e.2)
    (hws : sensors.WF) {d : Daemon} (hl : Daemon.launch o bus now w sensors pids configs = .ok d) (htr : w.trace = [])
    {n path : String} {fc : SensorConfig} (hf : FanOn bus.dirs sensors n fc path) (hmax : 0 < fc.max)
    (hs : ∀ j conf c, pids.find? j = some conf → configs.find? j = some c → SafeFor n c conf.entries)
    {es : List DEvent} {d1 : Daemon} (hr : d.run o es = .ok d1) {w' : World}
    (hd : destroyZones o d1.w (d1.zones.entries.map (fun e => e.2.1)) = .ok w') : WithinRange path fc.min fc.max w' := by
  obtain ⟨h0, h1, h2⟩ := hf.limits hmax
  obtain ⟨g1, g2⟩ := ranged_run h0 h1 h2 hr (rangedZone_launched hw hc hl hs) (rangeAt_launched hws hl hf hmax htr)
  refine (rangeAt_destroy h0 h1 h2 hd (fun z hz => ?_) g2).range
  obtain ⟨e, he, rfl⟩ := List.mem_map.1 hz
  exact g1 e.1 e.2.1 e.2.2 ((OMap.mem_entries_iff (run_wf (launch_wf hl) hr) e.1 e.2).1 he)

theorem ofInt_percentage {v : Int} (h0 : 0 ≤ v) (h1 : v ≤ 100) : Percentage (Dbl.ofInt v) := by
  refine ⟨ofInt_nonneg h0, ?_⟩
  have e : (100 : Dbl) = Dbl.ofRat ((100 : Nat) : Rat) := by
    rw [ofRat_rep (rep_nat (by norm_num))]
    exact nat_eq (n := 100) (by norm_num)
  rw [e]
  refine ofRat_mono ?_
  exact_mod_cast h1

theorem file_safeFor {data : Json} {c : Config} (hm : FileMatch data c) {n : String}
    (hs : ∀ j zone, Chosen data "zones" Numbering j zone → SafeEntryFor n zone) :
    ∀ j conf z, c.pids.find? j = some conf → c.zones.find? j = some z → SafeFor n z conf.entries := by
  intro j conf z h1 h2 e he hfan hin
  obtain ⟨zone, hz, hlm⟩ := hm.zones j conf h1
  obtain ⟨z', conf', g1, g2, g3, -⟩ := hm.zone j zone hz
  rw [h2] at g1
  cases g1
  obtain ⟨l, hl', hle⟩ := hlm.listed e he
  have hty : e.2.type = "fan" := hfan
  obtain ⟨a1, a2, a3⟩ := hs j zone hz l ⟨⟨_, hl'⟩, by rw [← hty]; exact hle.type⟩ ((lists_inputs hle.inputs).2 hin)
  refine ⟨?_, fun e' he' => ?_, a3 _ g3.failsafePercent⟩
  · obtain ⟨p, hp, hx⟩ := hle.pid
    rw [if_neg (by rw [hty]; decide)] at hx
    exact a1 p _ hp hx.1
  · obtain ⟨l', hl'', hle'⟩ := hlm.listed e' he'
    obtain ⟨v, hv, hp⟩ := hle'.failSafePercent
    rw [hp]
    rcases hv with hv | ⟨-, rfl⟩
    · obtain ⟨b1, b2⟩ := a2 _ l' v ⟨⟨_, hl''⟩, hle'.type⟩ hv
      exact ofInt_percentage b1 b2
    · exact ofInt_percentage (by norm_num) (by norm_num)

/-- **C129** The same from the configuration file: a daemon that runs from a file never sends a fan in the file a number outside the
limits the file says, if the file has percentages for the limits of the loops with the fan, and for the failsafe percentages of
their zones. -/
theorem C129_file {o : Opts} {conf file : String} {f : StartFiles} (hsrc : Source conf f (some file)) {data : Json}
    (hj : f.json file = some data) {b : ConfBus} {h : HashOrder} {bus : BuildBus} {now : Int} {w : World} (htr : w.trace = [])
    {d : Daemon} (hd : attempt o conf f b h bus now w = .running d) {n path : String} {lo hi : Int}
    (hf : FileFan bus.dirs data n path lo hi) (hs : ∀ j zone, Chosen data "zones" Numbering j zone → SafeEntryFor n zone)
    {es : List DEvent} {d1 : Daemon} (hr : d.run o es = .ok d1) :
    WithinRange path lo hi d1.w ∧
    ∀ w', destroyZones o d1.w (d1.zones.entries.map (fun e => e.2.1)) = .ok w' → WithinRange path lo hi w' := by
  rw [attempt_file hsrc] at hd
  cases hc : configFromFile f file with
  | error e => rw [hc] at hd; cases e <;> cases hd
  | ok c =>
    rw [hc] at hd
    have hm := fileMatch hc hj
    have hl := launched_running.1 hd
    obtain ⟨fs, hfo, hlim⟩ := fanOn_of hm hf
    unfold limitsOf at hlim
    split_ifs at hlim with hmax
    cases hlim
    have hsafe := file_safeFor hm hs
    exact ⟨C129_range hm.pidsWf hm.loopsWf hm.sensorsWf hl htr hfo hmax hsafe hr,
      fun w' hw' => C129_stop hm.pidsWf hm.loopsWf hm.sensorsWf hl htr hfo hmax hsafe hr hw'⟩

end

/-! ## Examples -/

namespace Ex
section
attribute [local instance] binary64

theorem safe129 : ∀ j conf c, pids125.find? j = some conf → zones99.find? j = some c → SafeFor "fan0" c conf.entries := by
  intro j conf c h1 h2
  by_cases hj : j = 1
  · subst hj
    unfold pids125 at h1
    unfold zones99 at h2
    rw [OMap.find?_insert_self] at h1 h2
    cases h1
    cases h2
    intro f hf hff _
    refine ⟨?_, fun e he => ?_, by unfold Percentage; decide +kernel⟩
    · rcases loops125_mem hf with rfl | rfl | rfl
      · exact ⟨by unfold SaneSlew; decide +kernel, by decide +kernel, by decide +kernel, by decide +kernel⟩
      · exact absurd hff (by decide)
      · exact absurd hff (by decide)
    · rcases loops125_mem he with rfl | rfl | rfl <;> (unfold Percentage; decide +kernel)
  · unfold pids125 at h1
    rw [OMap.find?_insert_ne _ hj, OMap.find?_empty] at h1
    cases h1

/-- C129: all hypotheses hold for the daemon of C125, whatever happens to it … -/
example (es : List DEvent) (d : Daemon) (h : run125 es = .ok d) : WithinRange path124 0 255 d.w := by
  obtain ⟨d0, h1, h2⟩ := bind_eq_ok.1 h
  exact C129_range pids125_wf pids125_wfs sensors106_wf h1 rfl (fc := fan106) fanOn106 (by decide) safe129 h2

/-- through heat, an alarm and cold -/
def story129 : List DEvent := [.signal "cpu" 1 (temp103 95), .tick 1, .tick 1, .tick 1, .signal "cpu" 2 (alarm99 true), .tick 1,
  .tick 1, .tick 1, .signal "cpu" 3 (alarm99 false), .signal "cpu" 4 (temp103 40), .tick 1, .tick 1, .tick 1]
/-- … and here it sends four numbers, the largest of them in failsafe mode -/
example : ∃ d, run125 story129 = .ok d ∧ decide (d.w.trace.map Effect.value = [51, 63, 229, 51]) = true :=
  ok_of_any (P := fun d : Daemon => decide (d.w.trace.map Effect.value = [51, 63, 229, 51])) (by decide +kernel)

/-- the same story with the offline setting, and the zones stopped at the end -/
def end129 : Res World := do
  let d ← Daemon.launch { offlineFailsafePwm := true } bus103 0 world99 sensors106 pids125 zones99
  let d ← d.run { offlineFailsafePwm := true } story129
  destroyZones { offlineFailsafePwm := true } d.w (d.zones.entries.map (fun e => e.2.1))
/-- C129: the failsafe percentage of the zone is sent at the end -/
example : ∃ w, end129 = .ok w ∧ decide (w.trace.map Effect.value = [51, 63, 229, 51, 191]) = true :=
  ok_of_any (P := fun w : World => decide (w.trace.map Effect.value = [51, 63, 229, 51, 191])) (by decide +kernel)

/-- the zones of the file of C113 are safe for its fan -/
theorem safe113 : ∀ j zone, Chosen json113 "zones" Numbering j zone → SafeEntryFor "fan0" zone := by
  intro j zone hz
  obtain ⟨pre, post, he, hn, -⟩ := (chosen_iff zones113 (.arr _)).1 hz
  have hzm : zone ∈ [zone113] := by rw [he]; simp
  simp only [List.mem_cons, List.not_mem_nil, or_false] at hzm
  subst hzm
  intro f hf hfan
  refine ⟨fun p c hp hpe => ?_, fun type l v hl' hv => ?_, fun p hp => ?_⟩
  · rcases loopIn113 hf with ⟨rfl, -⟩ | ⟨rfl, h⟩
    · cases member_unique hp (member113 rfl)
      have e1 := setting_unique reads_dbl hpe.slewNeg ⟨_, member113 rfl, .inl ⟨0, rfl, rfl⟩⟩
      have e2 := setting_unique reads_dbl hpe.slewPos ⟨_, member113 rfl, .inl ⟨0, rfl, rfl⟩⟩
      have e3 := setting_unique reads_dbl hpe.ts ⟨_, member113 rfl, .inl ⟨1, rfl, rfl⟩⟩
      have e4 := setting_unique reads_dbl hpe.outMin ⟨_, member113 rfl, .inl ⟨0, rfl, rfl⟩⟩
      have e5 := setting_unique reads_dbl hpe.outMax ⟨_, member113 rfl, .inl ⟨100, rfl, rfl⟩⟩
      refine ⟨⟨?_, ?_, ?_⟩, ?_, ?_, ?_⟩
      · rw [e1]; decide +kernel
      · rw [e2]; decide +kernel
      · rw [e3]; decide +kernel
      · rw [e4]; decide +kernel
      · rw [e4, e5]; decide +kernel
      · rw [e5]; decide +kernel
    · exact absurd h (by decide)
  · obtain ⟨x, hx, -⟩ := hv
    rcases loopIn113 hl' with ⟨rfl, -⟩ | ⟨rfl, -⟩ <;> exact absurd hx (lacksPercent113 x)
  · rw [setting_unique reads_dbl hp ⟨_, member113 rfl, .inl ⟨75, rfl, rfl⟩⟩]
    unfold Percentage
    decide +kernel

/-- C129: all hypotheses hold for the file of C113 -/
example : ∃ d, attempt {} "" files113 noConfig asListed bus98 0 world113 = .running d ∧ ∀ es d1, d.run {} es = .ok d1 →
    WithinRange "/sys/class/hwmon/pwm1" 0 255 d1.w := by
  obtain ⟨td, hl, -⟩ := ok_of_any (x := start113) (P := fun _ : Timed => true) (by decide +kernel)
  obtain ⟨c, hc, hlt⟩ := bind_eq_ok.1 hl
  have hm := fileMatch hc (data := json113) rfl
  have hd : attempt {} "" files113 noConfig asListed bus98 0 world113 = .running td.d := by
    rw [attempt_file source113, hc]
    exact launched_running.2 (timed_launch hm.pidsWf hm.loopsWf hlt).1
  refine ⟨td.d, hd, fun es d1 hr => (C129_file source113 (data := json113) rfl rfl hd fan113 safe113 hr).1⟩

/-- the zone of C125 without the ceiling, with output limits of 120 and 200 percent -/
def pids129 : OMap Int PIDConf := ({} : OMap Int PIDConf).insert 1
  ((({} : PIDConf).insert "fans" { loop99 "fan" "fan0" 0 1 0 with
    pidInfo := { (loop99 "fan" "fan0" 0 1 0).pidInfo with outLim := ⟨0, 120⟩ } }).insert "temps"
      { temps125 with pidInfo := { temps125.pidInfo with outLim := ⟨0, 200⟩ } })

/-- Output limits above 100 are accepted, and take effect: a fan for which at most 255 may be written gets 306. -/
theorem C129_above : ∃ d, (do
    let d ← Daemon.launch {} bus103 0 world99 sensors106 pids129 zones99
    d.run {} [.signal "cpu" 1 (temp103 170), .tick 1, .tick 1, .tick 1]) = .ok d ∧ fan106.max = 255 ∧ valueAt path124 d.w = some 306 := by
  obtain ⟨d, h, hp⟩ := ok_of_any (x := do
    let d ← Daemon.launch {} bus103 0 world99 sensors106 pids129 zones99
    d.run {} [.signal "cpu" 1 (temp103 170), .tick 1, .tick 1, .tick 1]) (P := fun d : Daemon => decide (valueAt path124 d.w = some 306))
    (by decide +kernel)
  exact ⟨d, h, rfl, of_decide_eq_true hp⟩

end
end Ex
end Verif
