import Verif.Props.WarmFile

/-!
# From the configuration file to a fan that an alarm holds across a reload (C152)

C145 and C148 in terms of the JSON file that is read at the reload (main.cpp:131-147).
-/

namespace Verif
open Dbl
section
variable [F : FloatModel]

/-- the fan after a reload that finds an alarm, in terms of the configuration that was read -/
theorem alarm_reload {o : Opts} (ho : o.tuningEnabled = false) {s1 s0 s : Whole} {r : Found} (hre : s1.step o (.reload r) = .ok s0)
    (hall : s0.AllRun) {c : Config} (hread : r.read = .got c) {i : Int} {z : ZoneConfig} {conf : PIDConf}
    (k1 : c.zones.find? i = some z) (k2 : c.pids.find? i = some conf) {n : String} (hmust : MustRead conf.entries n)
    (hnum : ∀ e ∈ conf.entries, e.2.failSafePercent ≠ nan) (hzn : z.failsafePercent ≠ nan) {sc : SensorConfig}
    (hs : c.sensors.find? n = some sc) (hkn : KnownType sc.type) (hrk : ReadKind sc.readPath .dbusPassive)
    (hua : sc.unavailableAsFailed = true) (hho : sc.ignoreFailIfHostOff = false) {b : SensorBus} {own : String}
    (hpas : r.bus.passive n = b.answers o) (hown : FirstOwner b own) (hal : AlarmIs o (b.object own) true) {es : List DEvent}
    (hr : s0.run o (es.map .event) = .ok s) (hsig : ∀ x ∈ signalsFor n es, alarmIn o x ≠ some false)
    (hauto : ∀ es1 es2, es = es1 ++ es2 → modeAfter i false es1 = false) (hti : .tick i ∈ es) {fan path : String}
    {fs : SensorConfig} (hfo : FanOn r.bus.dirs c.sensors fan fs path) (hoz : OnlyZone c.pids i fan) (hT : Turns conf.entries fan)
    (hbus : s1.d.w.busOk path = true) (hbw : ∀ e ∈ es, BusWorks path e) :
    ∃ q, PercentFor z conf.entries n q ∧ (0 ≤ q → ToldAtLeast fs path (q / 100) s.d.w) := by
  obtain ⟨hws, hw, hl⟩ := read_wf hread
  have hre : s1.reload o r = .ok s0 := hre
  obtain ⟨w, -, h7⟩ := C123_restart hre hall
  rw [attempt_read hread, launched_running] at h7
  obtain ⟨w0, g1, ⟨b', rfl⟩ | ⟨c', m, hread', g3, g4, -⟩⟩ := reload_cases hre
  · exact absurd hall.2.2 (by rw [Whole.halted]; exact Bool.noConfusion)
  rw [hread] at hread'
  cases hread'
  have hb0 : w0.busOk path = true := by rw [(stop_after g1).same]; exact hbus
  have hf0 : FanAt fan path (limitsOf fs) s0.d.w := by rw [(startBuilt_cases g4).1]; exact fanAt_made hws g3 hfo hb0
  obtain ⟨d, h5, rfl⟩ := wrun_events.1 hr
  obtain ⟨mid, i', tail, rfl, rfl, hno⟩ := last_shared (T := (· = i)) ⟨i, rfl, hti⟩
  obtain ⟨da, r1, r2⟩ := run_append.1 h5
  obtain ⟨db, r3, r4⟩ := bind_eq_ok.1 r2
  have hfail : ∀ {es1 es2 : List DEvent} {d1 : Daemon}, mid = es1 ++ es2 → s0.d.run o es1 = .ok d1 → ∀ t, FailsAt d1.w t n := by
    intro es1 es2 d1 he hr
    refine C145_alarm_fails hws h7 hs hkn hrk hua hho hpas hown hal hr (fun y hy => hsig y ?_)
    rw [he, List.append_assoc, signalsFor_append]
    exact List.mem_append_left _ hy
  obtain ⟨q, q1, q2⟩ := C145_no_gap ho hw hl h7 k2 k1 hmust hnum hzn (hfail (es1 := []) rfl rfl _) r1
    (by
      intro es1 es2 d1 he hr
      have : ∃ es3, mid = es1 ++ es3 := by
        rcases List.eq_nil_or_concat es2 with rfl | ⟨es3, y, rfl⟩
        · exact ⟨[], by rw [List.append_nil]; exact List.append_inj_left' he rfl⟩
        · refine ⟨.tick i' :: es3, ?_⟩
          rw [List.concat_eq_append, ← List.cons_append, ← List.append_assoc] at he
          exact List.append_inj_left' he rfl
      obtain ⟨es3, he3⟩ := this
      exact ⟨hfail he3 hr _, hfail he3 hr _⟩) (hauto mid _ rfl) r3
  refine ⟨q, q1, fun hq => ?_⟩
  have hm1 : ∀ e ∈ mid, BusWorks path e := fun e he => hbw e (List.mem_append_left _ he)
  have h12 : s0.d.run o (mid ++ [.tick i']) = .ok db := run_append.2 ⟨da, r1, by unfold Daemon.run; rw [r3, ok_bind]; rfl⟩
  have hm2 : ∀ e ∈ mid ++ [.tick i'], BusWorks path e := fun e he => hbw e (by
    simp only [List.mem_append, List.mem_cons, List.not_mem_nil, or_false] at he ⊢; tauto)
  have ha2 := (told_unless (T := TurnedBy c.pids fan) h12 hm2 hf0 (fun j z cnt => away_unless hw hl h7 j z cnt)).1
  have hk := (told_unless r4 (fun e he => hbw e (by simp [he])) (fanAt_run h12 hm2 hf0) ha2).2 (fun j hj hTj => by
    obtain ⟨conf', hp', e', he', hF', y, hy, hyn⟩ := hTj
    exact hoz j conf' (hno j hj) hp' e' he' hF' y hy hyn)
  obtain ⟨u, v, b1, b2, b3⟩ := told_of hfo.limits (fanAt_run r1 hm1 hf0) (percent_nonneg hq) q2 hT
  exact ⟨u, v, by rw [hk]; exact b1, b2, b3⟩

/-- **C152** An alarm, from the configuration file to the fan, across a reload: let the file that a reload reads have a zone that
cannot do without a sensor on the bus, whose object shows a critical alarm when it is looked at. As long as the alarm is not
withdrawn and the zone stays in automatic mode, every fan that only this zone has was, from the first cycle of the zone after the
reload on, last told at least the number for the percentages the file demands, between the limits in the file. -/
theorem C152_file {o : Opts} (ho : o.tuningEnabled = false) {s1 s0 s : Whole} {r : Found}
    (hre : s1.step o (.reload r) = .ok s0) (hall : s0.AllRun) {file : String} (hsrc : Source r.conf r.files (some file)) {data : Json}
    (hj : r.files.json file = some data) :
      ∀ i zone, Chosen data "zones" Numbering i zone → PercentsOk zone →
      (∀ p, Setting zone "failsafePercent" IsNumber p → 0 ≤ p) →
      ∀ n e, NeededIn zone n → BusSensor data n e → ¬ Setting e "unavailableAsFailed" IsFlag false →
      ¬ Setting e "ignoreFailIfHostOff" IsFlag true →
      ∀ b own, r.bus.passive n = SensorBus.answers o b → FirstOwner b own → AlarmIs o (b.object own) true →
      ∀ es, s0.run o (es.map .event) = .ok s → (∀ x ∈ signalsFor n es, alarmIn o x ≠ some false) →
      (∀ es1 es2, es = es1 ++ es2 → modeAfter i false es1 = false) → .tick i ∈ es →
      ∀ p, Demanded zone n p → ∀ lf fan path lo hi, LoopIn zone "fan" lf → Lists lf "inputs" fan →
      FileFan r.bus.dirs data fan path lo hi → OnlyIn data i fan → s1.d.w.busOk path = true → (∀ e ∈ es, BusWorks path e) →
      WrittenAtLeast lo hi path (p / 100) s.d.w := by
  intro i zone hz hpo hp0 n e hneed hsens hua hho b own hpas hown hal es hr hsig hauto hti p hdem lf fan path lo hi hlf hlfan hff honly
    hbus hbw
  obtain ⟨c, hread, hm⟩ : ∃ c, r.read = .got c ∧ FileMatch data c := by
    cases hc : configFromFile r.files file with
    | ok c => exact ⟨c, by rw [read_file hsrc, hc], fileMatch hc hj⟩
    | error e =>
      exfalso
      obtain ⟨w0, -, ⟨b, rfl⟩ | ⟨c', m, g, -⟩⟩ := reload_cases (show s1.reload o r = .ok s0 from hre)
      · exact absurd hall.2.2 (by rw [Whole.halted]; exact Bool.noConfusion)
      · rw [read_file hsrc, hc] at g
        cases e <;> cases g
  obtain ⟨z, conf, k1, k2, k3, k4⟩ := hm.zone i zone hz
  obtain ⟨sc, hs, hse⟩ := hm.sensor n e hsens.entry
  obtain ⟨ty, hty, hkn⟩ := hsens.type
  obtain ⟨rp, hrp, hrk⟩ := hsens.path
  have hz0 : 0 ≤ z.failsafePercent := hp0 _ k3.failsafePercent
  obtain ⟨fs, hfo, hlim⟩ := fanOn_of hm hff
  obtain ⟨⟨fname, hlfc⟩, hlft⟩ := hlf
  obtain ⟨cf, hcf, hfle⟩ := k4.entry fname lf hlfc
  obtain ⟨x, hx, rfl⟩ := (lists_inputs hfle.inputs).1 hlfan
  obtain ⟨q, q1, q2⟩ := alarm_reload ho hre hall hread k1 k2 (mustRead_of k4 hneed)
    (fun e he => Dbl.ne_nan_of_le_right (percents_ok k4 hpo e he)) (Dbl.ne_nan_of_le_right hz0) hs
    (by rw [settingText_unique hse.type hty]; exact hkn) (by rw [settingText_unique hse.readPath hrp]; exact hrk)
    (by
      rcases hse.unavailableAsFailed with hu | ⟨-, hu⟩
      · cases hb : sc.unavailableAsFailed with
        | true => rfl
        | false => rw [hb] at hu; exact absurd hu hua
      · exact hu)
    (by
      rcases hse.ignoreFailIfHostOff with hu | ⟨-, hu⟩
      · cases hb : sc.ignoreFailIfHostOff with
        | false => rfl
        | true => rw [hb] at hu; exact absurd hu hho
      · exact hu) hpas hown hal hr hsig hauto hti hfo (onlyZone_of hm honly)
    ⟨(fname, cf), hcf, settingText_unique hfle.type hlft, x, hx, rfl⟩ hbus hbw
  obtain ⟨hp1, hp2⟩ := demanded_le k4 k3 hdem q1 hz0
  exact written_of_told hfo hlim hp1 hp2 (q2 (le_trans hp1 hp2))

end

namespace Ex
section
attribute [local instance] binary64

def after152 : List DEvent := after145 ++ [.tick 3, fan145]

/-- C152: all hypotheses hold for the file and the life of C145; after the reload the fan is told 75 percent of 255 -/
example : ∃ s1 s0 s, (Whole.init world99).run {} life145 = .ok s1 ∧ s1.step {} (.reload alarm145) = .ok s0 ∧
    s0.run {} (after152.map .event) = .ok s ∧ WrittenAtLeast 0 255 "/sys/class/hwmon/pwm1" (75 / 100) s.d.w := by
  obtain ⟨s, hs, -⟩ := ok_of_any (x := (Whole.init world99).run {} ((life145 ++ [.reload alarm145]) ++ after152.map .event))
    (P := fun _ : Whole => true) (by decide +kernel)
  obtain ⟨s0, hs0, hr⟩ := wrun_append.1 hs
  obtain ⟨s1, hs1, hre⟩ := wrun_append.1 hs0
  unfold Whole.run at hre
  obtain ⟨s0', h3, h4⟩ := bind_eq_ok.1 hre
  cases h4
  have hP : (((Whole.init world99).run {} (life145 ++ [.reload alarm145])).toOption.any (fun s : Whole => !s.again &&
      s.idle.isEmpty && !s.d.zones.isEmpty)) = true := by decide +kernel
  rw [hs0] at hP
  have hP : (_ && _) = true := hP
  simp only [Bool.and_eq_true, Bool.not_eq_true', List.isEmpty_iff] at hP
  have hbus : (((Whole.init world99).run {} life145).toOption.any (fun s : Whole => s.d.w.busOk "/sys/class/hwmon/pwm1")) = true := by
    decide +kernel
  rw [hs1] at hbus
  have quiet : ∀ e ∈ after152, (∀ j b, e ≠ .manual j b) ∧ BusWorks "/sys/class/hwmon/pwm1" e := by
    intro e he
    simp only [after152, after145, fan145, List.mem_append, List.mem_cons, List.not_mem_nil, or_false] at he
    rcases he with (rfl | rfl) | rfl | rfl <;> exact ⟨by simp, trivial⟩
  refine ⟨s1, s0, s, hs1, h3, hr, ?_⟩
  refine C152_file (o := {}) rfl h3 ⟨hP.1.1, hP.1.2, hP.2⟩ source113 (data := json113) rfl 3 zone113 zoneChosen113 ?_ ?_ "cpu"
    sensorCpu113 needed113 sensorCpu113_bus ?_ ?_ cpuObject _ rfl owner145 showsAlarm145 after152 hr (by decide +kernel)
    (fun es1 es2 h => mode_still (fun x hx => (quiet x (by rw [h]; exact List.mem_append_left _ hx)).1)) (by simp [after152])
    75 (.zone ?_ ?_) _ "fan0" _ 0 255 fanLoop113 (lists113.2 rfl) fan113 onlyIn113 hbus (fun e he => (quiet e he).2)
  · rintro type l hl' v ⟨x, hx, -⟩
    rcases loopIn113 hl' with ⟨rfl, -⟩ | ⟨rfl, -⟩ <;> exact absurd hx (lacksPercent113 x)
  · intro p hp
    rw [setting_unique reads_dbl hp ⟨_, member113 rfl, .inl ⟨75, rfl, rfl⟩⟩]
    decide +kernel
  · rintro ⟨v, hv, -⟩
    exact absurd hv (lacks113 rfl v)
  · rintro ⟨v, hv, -⟩
    exact absurd hv (lacks113 rfl v)
  · intro type l hl' _
    rcases loopIn113 hl' with ⟨rfl, -⟩ | ⟨rfl, -⟩ <;> exact lacksPercent113
  · exact ⟨_, member113 rfl, .inl ⟨75, rfl, by decide +kernel⟩⟩

end
end Ex
end Verif
