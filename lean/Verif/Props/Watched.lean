import Verif.Lemmas.Watched

/-! # The host and the redundancy groups reach the fans -/

namespace Verif
open Dbl

section
variable [F : FloatModel]

/-! ## A failing fan -/

/-- when a sensor is listed as failed as the fans are driven, they get at least its percentage -/
theorem driven_when_failed {o : Opts} (ho : o.tuningEnabled = false) {d0 : ZoneData} {s : String} {zt z' : Zone}
    {log : List Poll} {w w' : World} (h2 : HistInv d0 zt.d log) (hp : ∀ m, Required d0 m → percentOf d0 m ≠ nan)
    (hfail : Failed zt.d s) (h1 : zt.processFans o w = .ok (w', z')) :
    ∃ (l : List (FanPid × Dbl)) (b : Bool), zt.fans = l.map (fun x => some x.1) ∧ Drives b w l w' ∧
      ∀ x ∈ l, (∃ m ∈ x.1.inputs, targetOf w m ≠ none) → percentOf d0 s / 100 ≤ x.2 := by
  have hmode : zt.d.getFailSafeMode = true := by
    obtain ⟨e, he⟩ := hfail
    simp only [ZoneData.getFailSafeMode, Bool.not_eq_true']
    exact (OMap.isEmpty_false_iff _).2 ⟨s, e, he⟩
  have hsel := h2.selection (fun m hm => hp m ((h2.failed m).1 hm).1) hmode
  have hge : percentOf d0 s ≤ zt.d.getFailSafePercent := hsel.2 _ ⟨s, hfail, rfl⟩
  obtain ⟨l, a1, _, a2, a3, _⟩ := processFans_spec h1
  refine ⟨l.map (fun x => (x.1, x.2.1)), _, ?_, a2, ?_⟩
  · rw [a1, List.map_map]; rfl
  · intro x hx ⟨m, hm1, hm2⟩
    have hnn : x.2 ≠ nan := fun hv => hm2 (drives_nan a2 x hx hv m hm1)
    obtain ⟨y, hy, rfl⟩ := List.mem_map.1 hx
    obtain ⟨⟨i, _, hv, _⟩, _⟩ := a3 y hy
    have hper : percentOf d0 s ≤ fanPercent o zt.d (pidStep y.1.ctl zt.d.maximumSetPoint i).1 := by
      rw [hv] at hnn
      have hpn := div_ne_nan_left hnn
      generalize (pidStep y.1.ctl zt.d.maximumSetPoint i).1 = out at *
      simp only [fanPercent, ho, hmode, Bool.false_eq_true, if_false, if_true] at hpn ⊢
      split_ifs with h5 h6
      · exact hge
      · exact hge
      · rw [if_neg h5, if_neg h6] at hpn
        exact Dbl.le_trans hge (le_of_not_lt (Dbl.ne_nan_of_le_right hge) hpn h6)
    change _ ≤ y.2.1
    rw [hv] at hnn ⊢
    exact div_le_div_of_pos pos100 hper (div100_ne_nan (Dbl.ne_nan_of_le_left hper)) hnn

/-- a fan that fails at a cycle is listed when the fans are driven -/
theorem fan_failed_after {d0 : ZoneData} {z : Zone} {d : ZoneData} {cnt : Nat} {log : List Poll} {w : World} {s : String}
    (hi : HistInv d0 z.d log) (hi' : HistInv d0 d (log ++ tickPolls z cnt w)) (hm : z.d.manualMode = false)
    (hs : s ∈ d0.fanInputs) (hq : s ∉ d0.missingAcceptable) (hf : FailsAt w w.nowFans s)
    (ht : FailsAt w w.nowThermals s) : Failed d s := by
  rw [hi'.failed s]
  refine ⟨⟨.inl hs, hq⟩, fun p hp => ?_⟩
  obtain ⟨e1, e2, _, e3, _⟩ := hi.same
  simp only [tickPolls, hm, Bool.false_eq_true, if_false, e1, e2, e3] at hp
  by_cases hT : d0.cycleTime.updateThermalsTimeMS ≤ cnt
  · rw [if_pos hT] at hp
    have : log ++ [⟨w, w.nowFans, d0.fanInputs⟩, ⟨w, w.nowThermals, d0.thermalInputs⟩] =
        (log ++ [⟨w, w.nowFans, d0.fanInputs⟩]) ++ [⟨w, w.nowThermals, d0.thermalInputs⟩] := by simp
    rw [this, lastPoll_append] at hp
    split_ifs at hp with hin
    · cases hp; exact ht
    · rw [lastPoll_append, if_pos hs] at hp
      cases hp; exact hf
  · rw [if_neg hT, lastPoll_append, if_pos hs] at hp
    cases hp; exact hf

/-- **C139** A fan that has to be there and fails when the timer of its zone expires: in automatic mode this very cycle
commands all fan loops of the zone at least the percentage configured for it. -/
theorem C139_fan {o : Opts} (ho : o.tuningEnabled = false) {bus : BuildBus} {now : Int} {w : World}
    {sensors : OMap String SensorConfig} {pids : OMap Int PIDConf} {configs : OMap Int ZoneConfig} (hw : pids.WF)
    (hc : ∀ e ∈ pids.entries, OMap.WF e.2) {d0 : Daemon} (hl : Daemon.launch o bus now w sensors pids configs = .ok d0)
    {i : Int} {conf : PIDConf} {c : ZoneConfig} (hp : pids.find? i = some conf) (hcc : configs.find? i = some c)
    {n : String} (hs : MustTurn conf.entries n) (hnum : ∀ e ∈ conf.entries, e.2.failSafePercent ≠ nan)
    (hzn : c.failsafePercent ≠ nan) {es : List DEvent} {d d' : Daemon} (hr : d0.run o es = .ok d)
    (hf : FailsAt d.w d.w.nowFans n) (hft : FailsAt d.w d.w.nowThermals n) (hm : modeAfter i false es = false)
    (ht : d.step o (.tick i) = .ok d') :
    ∃ p, PercentFor c conf.entries n p ∧ FansAtLeast conf.entries (p / 100) d.w d'.w := by
  obtain ⟨m, zones, hL⟩ := launch_spec hl
  obtain ⟨zb, c', hzb, hc', hN⟩ := (C64_zones hw hc hL.built i).1 conf hp
  rw [hcc] at hc'
  cases hc'
  obtain ⟨z0, hz0, hf0⟩ := hL.started i zb hzb
  have hh0 := C80_hist hw hL.built hzb hz0
  obtain ⟨hm0, hfa0⟩ := start_flags hz0
  rw [hN.manualMode] at hm0
  obtain ⟨z1, cnt1, log1, hz1, hh1, hm1, hfa1⟩ := mode_run hr hf0 hh0
  rw [hm0, hm] at hm1
  simp only [Daemon.step, hz1] at ht
  obtain ⟨⟨w', z3, cnt3⟩, htk, ht⟩ := bind_eq_ok.1 ht
  cases ht
  have hpn : ∀ m, ∀ p ∈ percentsFor m conf.entries, p ≠ nan := by
    intro m p hp
    obtain ⟨⟨a, b⟩, hab, rfl⟩ := List.mem_map.1 hp
    obtain ⟨e, he, hx⟩ := List.mem_flatMap.1 (List.mem_filter.1 hab).1
    obtain ⟨i, -, hx⟩ := List.mem_map.1 hx
    obtain ⟨-, rfl⟩ := Prod.mk.inj hx
    exact hnum e (List.mem_filter.1 he).1
  have hne : ∀ m, percentOf zb.d m ≠ nan := by
    intro m
    have := percentOf_of hN (hpn m)
    generalize percentOf zb.d m = q at this
    cases this with
    | own h1 _ => exact hpn m _ h1.1
    | zero _ => exact hzn
    | zone _ => exact hzn
  have hq : n ∉ zb.d.missingAcceptable := by
    intro hmem
    obtain ⟨e, he, -, i, hi, h1, h2⟩ := (hN.missing n).1 hmem
    rw [hs.2 e he i hi h1] at h2
    cases h2
  have hin : n ∈ zb.d.fanInputs := by
    rw [hN.fanInputs]
    obtain ⟨e, he, hfe, x, hx, hxn⟩ := hs.1
    exact List.mem_flatMap.2 ⟨e, List.mem_filter.2 ⟨he, by simpa using hfe⟩, List.mem_map.2 ⟨x, hx, hxn⟩⟩
  obtain ⟨zt, h1, h2, h3, _⟩ := tick_inv hh1.inv hm1 htk
  obtain ⟨l, b, g1, g2, g3⟩ := driven_when_failed ho h2 (fun m _ => hne m)
    (fan_failed_after hh1.inv h2 hm1 hin hq hf hft) h1
  rw [h3] at g1
  refine ⟨_, percentOf_of hN (hpn n), l, b, fans_as_configured ?_ g1, g2, g3⟩
  rw [hfa1, hfa0, hN.fans]

/-! ## Which sensors fail -/

/-- a launched D-Bus sensor, with its object path -/
theorem launched_setup {o : Opts} {bus : BuildBus} {now : Int} {w : World} {sensors : OMap String SensorConfig}
    (hws : sensors.WF) {pids : OMap Int PIDConf} {configs : OMap Int ZoneConfig} {d0 : Daemon}
    (hl : Daemon.launch o bus now w sensors pids configs = .ok d0) {n : String} {c : SensorConfig}
    (hcs : sensors.find? n = some c) (ht : KnownType c.type) (hk : ReadKind c.readPath .dbusPassive) :
    ∃ (s : Sensor) (st : Setup) (wr : Writer), d0.w.sensors.find? n = some s ∧ s.impl = .pluggable (.passive st.sensor) wr ∧
      DbusSensor o bus now n c = some st.sensor ∧ s.timeout = c.timeout ∧ s.ignoreFailIfHostOff = c.ignoreFailIfHostOff ∧
      st.type = c.type ∧ st.path = c.readPath ∧ st.hasRedundancy = decide (c.type = "fan") ∧
      (c.unavailableAsFailed = true → st.props.unavailableAsFailed = true) := by
  obtain ⟨m, zones, hL⟩ := launch_spec hl
  obtain ⟨s, hs, hm⟩ := (C98_as_configured hws hL.made n).2 c hcs ht
  have hs' : d0.w.sensors.find? n = some s := by rw [hL.world]; exact hs
  have hne : c.readPath ≠ "" := by
    intro h0
    rw [h0] at hk
    have := (C65_read _ _).2 hk
    revert this
    decide +kernel
  have key : ∀ r, ReadsFrom o bus now n c r → ∃ st : Setup, r = .passive st.sensor ∧ DbusSensor o bus now n c = some st.sensor ∧
      st.type = c.type ∧ st.path = c.readPath ∧ st.hasRedundancy = decide (c.type = "fan") ∧
      (c.unavailableAsFailed = true → st.props.unavailableAsFailed = true) := by
    intro r hr
    cases hr with
    | dbus _ hd =>
      obtain ⟨st, rfl, h1, h2, _, h4, h5, h6⟩ := created_setup hd
      rw [if_neg hne] at h4
      refine ⟨st, rfl, hd, h1, h4, h2, fun hua => ?_⟩
      cases hmi : st.missing with
      | true => exact (h5 hmi).2
      | false => rw [(h6 hmi).1]; exact hua
    | sysfs h1 => cases readKind_unique hk h1
    | external h1 => cases readKind_unique hk h1
    | nothing h1 => rcases h1 with h1 | h1 <;> cases readKind_unique hk h1
  cases hm with
  | fan _ hr _ =>
    obtain ⟨st, rfl, h1, h2, h3, h4, h5⟩ := key _ hr
    exact ⟨_, st, _, hs', rfl, h1, rfl, rfl, h2, h3, h4, h5⟩
  | thermal _ _ hr =>
    obtain ⟨st, rfl, h1, h2, h3, h4, h5⟩ := key _ hr
    exact ⟨_, st, _, hs', rfl, h1, rfl, rfl, h2, h3, h4, h5⟩
  | external he =>
    have : ReadKind c.readPath .external := .external he.2
    cases readKind_unique hk this

/-- what the host and the groups said is what the daemon goes by -/
theorem watched_state {o : Opts} {bus : BuildBus} {now : Int} {w : World} {reply : Option String}
    {answers : Option (List (Option RedundancyProps))} {sensors : OMap String SensorConfig} {pids : OMap Int PIDConf}
    {configs : OMap Int ZoneConfig} {x0 x : Watched} {es : List HeardEvent}
    (hl : Watched.launch o bus now w reply answers sensors pids configs = .ok x0) (hr : x0.run o es = .ok x) :
    (x.d.w.hostOn = true ↔ HostRuns reply es) ∧ x.d.w.redundancyFailed = x.failed := by
  obtain ⟨_, ha, hmo, hon, _⟩ := watched_launch hl
  obtain ⟨a1, a2⟩ := agrees_run ha hr
  refine ⟨?_, a2⟩
  rw [a1, (host_run hmo hr).2]
  unfold HostRuns
  cases (statesOf es).getLast? with
  | some s => exact Iff.rfl
  | none => exact hon

/-- **C139** When a D-Bus sensor counts as failed: unless the host excuses it, when its own messages say so or when it is a
fan of a redundancy group whose last status says so. A sensor that may fail while the host is off fails only if the last
state of the host was that it runs. -/
theorem C139_failed {o : Opts} {bus : BuildBus} {now : Int} {w : World} {reply : Option String}
    {groups : String → List String} {first : FirstAnswers} {sensors : OMap String SensorConfig} (hws : sensors.WF)
    {pids : OMap Int PIDConf} {configs : OMap Int ZoneConfig} {x0 x : Watched} {es : List HeardEvent}
    (hl : Watched.launch o bus now w reply (answersOf groups first) sensors pids configs = .ok x0)
    (hr : x0.run o es = .ok x) (hg : Members groups es) {n : String} {c : SensorConfig} (hcs : sensors.find? n = some c)
    (ht : KnownType c.type) (hk : ReadKind c.readPath .dbusPassive)
    (hd : ∀ a b, c.readPath ∈ groups a → c.readPath ∈ groups b → a = b) :
    ∃ (s : Sensor) (st : Setup) (b : Bool), x.d.w.sensors.find? n = some s ∧ DbusSensor o bus now n c = some st.sensor ∧
      st.type = c.type ∧ (c.unavailableAsFailed = true → st.props.unavailableAsFailed = true) ∧ s.getFailed x.d.w = .ok b ∧ (b = true ↔ (c.ignoreFailIfHostOff = true → HostRuns reply es) ∧
        ((c.type = "fan" ∧ ∃ obj, c.readPath ∈ groups obj ∧ GroupFailed first obj (reportsOf es)) ∨
          st.ShouldFail o (signalsFor n (ownOf es)) [])) := by
  obtain ⟨⟨w', hl'⟩, _, _, _, hi⟩ := watched_launch hl
  obtain ⟨hon, hred⟩ := watched_state hl hr
  obtain ⟨s, st, wr, h1, h2, h3, h4, h5, h6, h7, h8, h9⟩ := launched_setup hws hl' hcs ht hk
  obtain ⟨s', p', wr', a1, a2, a3, a4, a5⟩ := heard_run (seen_run hr) h1 h2 .start
  rw [List.nil_append, seen_signals n hr] at a3
  have hG : Groups groups first (reportsOf es) x.failed := by
    have := groups_run hg hr (h := []) (.start (hi ⟨_, (OMap.mem_entries_iff hws n c).2 hcs, hk⟩))
    simpa using this
  have hgr : c.readPath ∈ x.failed ↔ ∃ obj, c.readPath ∈ groups obj ∧ GroupFailed first obj (reportsOf es) := by
    by_cases hex : ∃ obj, c.readPath ∈ groups obj
    · obtain ⟨obj, hobj⟩ := hex
      rw [C54_last_status hG hobj (fun b hb => hd b obj hb hobj)]
      constructor
      · exact fun h => ⟨obj, hobj, h⟩
      · rintro ⟨b, hb, h⟩
        rwa [hd b obj hb hobj] at h
    · exact iff_of_false (C54_outsider hG (fun obj h => hex ⟨obj, h⟩)) (fun ⟨obj, h, _⟩ => hex ⟨obj, h⟩)
  have hdec := C49_decision a3 x.d.w.redundancyFailed
  have hsf : st.ShouldFail o (signalsFor n (ownOf es)) x.d.w.redundancyFailed ↔
      ((c.type = "fan" ∧ ∃ obj, c.readPath ∈ groups obj ∧ GroupFailed first obj (reportsOf es)) ∨
        st.ShouldFail o (signalsFor n (ownOf es)) []) := by
    unfold Setup.ShouldFail
    rw [hred, h7, h8, hgr]
    simp
  have hgf : ∃ b, s'.getFailed x.d.w = .ok b ∧
      (b = true ↔ (s'.ignoreFailIfHostOff = true → x.d.w.hostOn = true) ∧ p'.getFailed x.d.w.redundancyFailed = true) := by
    unfold Sensor.getFailed
    rw [a2]
    refine ⟨_, rfl, ?_⟩
    cases p'.getFailed x.d.w.redundancyFailed <;> cases s'.ignoreFailIfHostOff <;> cases x.d.w.hostOn <;> simp
  obtain ⟨b, hb, hbi⟩ := hgf
  refine ⟨s', st, b, a1, h3, h6, h9, hb, hbi.trans ?_⟩
  rw [hdec, hsf, hon, a5, h5]

/-- **C139** Redundancy: while the last status of its group says `Failed` (and the host does not excuse the fan), every
automatic cycle of a zone that needs the fan commands all its fan loops at least the percentage configured for it. -/
theorem C139_group {o : Opts} (ho : o.tuningEnabled = false) {bus : BuildBus} {now : Int} {w : World} {reply : Option String}
    {groups : String → List String} {first : FirstAnswers} {sensors : OMap String SensorConfig} (hws : sensors.WF)
    {pids : OMap Int PIDConf} {configs : OMap Int ZoneConfig} (hw : pids.WF) (hc : ∀ e ∈ pids.entries, OMap.WF e.2)
    {x0 x x' : Watched} {es : List HeardEvent}
    (hl : Watched.launch o bus now w reply (answersOf groups first) sensors pids configs = .ok x0)
    (hr : x0.run o es = .ok x) (hg : Members groups es) {n : String} {sc : SensorConfig} (hcs : sensors.find? n = some sc)
    (ht : sc.type = "fan") (hk : ReadKind sc.readPath .dbusPassive) {obj : String} (hobj : sc.readPath ∈ groups obj)
    (hd : ∀ a, sc.readPath ∈ groups a → a = obj) (hf : GroupFailed first obj (reportsOf es))
    (hho : sc.ignoreFailIfHostOff = true → HostRuns reply es)
    {i : Int} {conf : PIDConf} {c : ZoneConfig} (hp : pids.find? i = some conf) (hcc : configs.find? i = some c)
    (hs : MustTurn conf.entries n) (hnum : ∀ e ∈ conf.entries, e.2.failSafePercent ≠ nan) (hzn : c.failsafePercent ≠ nan)
    (hm : modeAfter i false (ownOf es) = false) (hx : x.step o (.own (.tick i)) = .ok x') :
    ∃ p, PercentFor c conf.entries n p ∧ FansAtLeast conf.entries (p / 100) x.d.w x'.d.w := by
  obtain ⟨⟨w', hl'⟩, _⟩ := watched_launch hl
  obtain ⟨s, st, b, h1, _, _, _, h2, h3⟩ := C139_failed hws hl hr hg hcs (by rw [ht]; decide) hk
    (fun a b ha hb => (hd a ha).trans (hd b hb).symm)
  have hb : b = true := h3.2 ⟨hho, .inl ⟨ht, obj, hobj, hf⟩⟩
  rw [hb] at h2
  exact C139_fan ho hw hc hl' hp hcc hs hnum hzn (seen_run hr) ⟨s, h1, .inl h2⟩ ⟨s, h1, .inl h2⟩
    (by rw [seen_mode i _ hr]; exact hm) (watched_step hx).1

/-- what comes before a cycle comes before the last one -/
theorem before_last {es es1 es2 : List HeardEvent} {a b : HeardEvent} (h : es ++ [a] = es1 ++ b :: es2) : ∃ es3, es = es1 ++ es3 := by
  rcases List.eq_nil_or_concat es2 with h0 | ⟨l, c, h0⟩
  · rw [h0] at h
    exact ⟨[], by rw [List.append_nil]; exact List.append_inj_left' h rfl⟩
  · rw [h0, List.concat_eq_append, ← List.cons_append, ← List.append_assoc] at h
    exact ⟨_, List.append_inj_left' h rfl⟩

/-- **C139** A critical alarm counts once the host runs: C100 for sensors that may fail while the host is off. From the
moment a D-Bus temperature sensor has reported a critical alarm and until it withdraws it, if the host runs at every cycle
of the zone, every automatic cycle after the first ceil(T/F) commands the fans at least the percentage configured. -/
theorem C139_alarm {o : Opts} (ho : o.tuningEnabled = false) {bus : BuildBus} {now : Int} {w : World} {reply : Option String}
    {groups : String → List String} {first : FirstAnswers} {sensors : OMap String SensorConfig} (hws : sensors.WF)
    {pids : OMap Int PIDConf} {configs : OMap Int ZoneConfig} (hw : pids.WF) (hc : ∀ e ∈ pids.entries, OMap.WF e.2)
    {x0 x1 x x' : Watched} {pre post : List HeardEvent}
    (hl : Watched.launch o bus now w reply (answersOf groups first) sensors pids configs = .ok x0)
    (hr1 : x0.run o pre = .ok x1) (hr2 : x1.run o post = .ok x) (hg : Members groups (pre ++ post))
    {n : String} {sc : SensorConfig} (hcs : sensors.find? n = some sc)
    (ht : KnownType sc.type) (hk : ReadKind sc.readPath .dbusPassive)
    (hd : ∀ a b, sc.readPath ∈ groups a → sc.readPath ∈ groups b → a = b) (hua : sc.unavailableAsFailed = true)
    {sig : List (Int × PropMsg)} {t : Int} {m : PropMsg} (hsig : signalsFor n (ownOf pre) = sig ++ [(t, m)])
    (hal : alarmIn o (t, m) = some true) (hpost : ∀ y ∈ signalsFor n (ownOf post), alarmIn o y ≠ some false)
    {i : Int} {conf : PIDConf} {c : ZoneConfig} (hp : pids.find? i = some conf) (hcc : configs.find? i = some c)
    (hho : sc.ignoreFailIfHostOff = true → ∀ es1 es2, post ++ [.own (.tick i)] = es1 ++ .own (.tick i) :: es2 →
      HostRuns reply (pre ++ es1))
    (hs : MustRead conf.entries n) (hnum : ∀ e ∈ conf.entries, e.2.failSafePercent ≠ nan) (hzn : c.failsafePercent ≠ nan)
    (hF : 1 ≤ c.cycleTime.cycleIntervalTimeMS)
    (hn : (c.cycleTime.updateThermalsTimeMS + c.cycleTime.cycleIntervalTimeMS - 1) / c.cycleTime.cycleIntervalTimeMS ≤
      autoTicks i (modeAfter i false (ownOf pre)) (ownOf post))
    (hm : modeAfter i false (ownOf (pre ++ post)) = false) (hx : x.step o (.own (.tick i)) = .ok x') :
    ∃ p, PercentFor c conf.entries n p ∧ FansAtLeast conf.entries (p / 100) x.d.w x'.d.w := by
  obtain ⟨⟨w', hl'⟩, _⟩ := watched_launch hl
  have hmode : modeAfter i false (x0.seen o pre ++ x1.seen o post) = false := by
    rw [← seen_append post hr1, seen_mode i _ (watched_append.2 ⟨x1, hr1, hr2⟩)]
    exact hm
  refine C100_failsafe ho hw hc hl' hp hcc hs hnum hzn hF (seen_run hr1) (seen_run hr2) ?_
    (by rw [seen_ticks i _ hr2, seen_mode i _ hr1]; exact hn) hmode (watched_step hx).1
  intro ds1 ds2 d he hrd
  have hr3 : x1.run o (post ++ [.own (.tick i)]) = .ok x' :=
    watched_append.2 ⟨x, hr2, watched_cons.2 ⟨x', hx, rfl⟩⟩
  have he' : x1.seen o (post ++ [.own (.tick i)]) = ds1 ++ .tick i :: ds2 := by
    rw [seen_append _ hr2, seen_cons hx]
    exact he
  obtain ⟨es1, es2, y, k1, k2, k3⟩ := seen_split hr3 he'
  have hy : d = y.d := by
    have := seen_run k2
    rw [k3, hrd] at this
    cases this; rfl
  obtain ⟨es3, hes3⟩ := before_last k1
  obtain ⟨s, st, b, h1, _, _, hu, h2, hb⟩ := C139_failed hws hl (watched_append.2 ⟨x1, hr1, k2⟩)
    (fun a b c' h => hg a b c' (by
      rcases List.mem_append.1 h with h | h
      · exact List.mem_append_left _ h
      · exact List.mem_append_right _ (by rw [hes3]; exact List.mem_append_left _ h))) hcs ht hk hd
  have halarm : st.Alarm o (signalsFor n (ownOf (pre ++ es1))) := by
    unfold Setup.Alarm
    rw [ownOf_append, signalsFor_append, hsig, lastOf_append, lastOf_snoc, hal]
    have hsub : ∀ y ∈ signalsFor n (ownOf es1), alarmIn o y ≠ some false := by
      intro y hy
      apply hpost y
      rw [hes3, ownOf_append, signalsFor_append]
      exact List.mem_append_left _ hy
    show lastOf (alarmIn o) true _ = true
    generalize signalsFor n (ownOf es1) = l at hsub
    clear hb
    induction l with
    | nil => rfl
    | cons z l ih =>
      have hz := hsub z List.mem_cons_self
      have : (alarmIn o z).getD true = true := by
        cases hh : alarmIn o z with
        | none => rfl
        | some b => cases b <;> simp_all
      show lastOf (alarmIn o) ((alarmIn o z).getD true) l = true
      rw [this]
      exact ih (fun y hy => hsub y (List.mem_cons_of_mem _ hy))
  have hbt : b = true := hb.2 ⟨fun hig => hho hig es1 es2 k1,
    .inr (.inr (.inr ⟨fun hex => absurd (hex.2.2.symm.trans (hu hua)) (by decide), .inr (.inr (.inl halarm))⟩))⟩
  rw [hbt] at h2
  rw [hy]
  exact ⟨⟨s, h1, .inl h2⟩, ⟨s, h1, .inl h2⟩⟩

/-- **C139** While the host is off, a D-Bus sensor that may fail then and has no timeout does not fail. -/
theorem C139_excused {o : Opts} {bus : BuildBus} {now : Int} {w : World} {reply : Option String}
    {answers : Option (List (Option RedundancyProps))} {sensors : OMap String SensorConfig} (hws : sensors.WF)
    {pids : OMap Int PIDConf} {configs : OMap Int ZoneConfig} {x0 x : Watched} {es : List HeardEvent}
    (hl : Watched.launch o bus now w reply answers sensors pids configs = .ok x0) (hr : x0.run o es = .ok x) {n : String}
    {c : SensorConfig} (hcs : sensors.find? n = some c) (ht : KnownType c.type) (hk : ReadKind c.readPath .dbusPassive)
    (hig : c.ignoreFailIfHostOff = true) (hto : c.timeout = 0) (hoff : ¬ HostRuns reply es) (t : Int) :
    ¬ FailsAt x.d.w t n := by
  obtain ⟨⟨w', hl'⟩, _⟩ := watched_launch hl
  obtain ⟨hon, _⟩ := watched_state hl hr
  obtain ⟨s, st, wr, h1, h2, h3, h4, h5, _⟩ := launched_setup hws hl' hcs ht hk
  obtain ⟨s', p', wr', a1, a2, a3, a4, a5⟩ := heard_run (seen_run hr) h1 h2 .start
  have hoff' : x.d.w.hostOn = false := by
    cases h : x.d.w.hostOn with
    | false => rfl
    | true => exact absurd (hon.1 h) hoff
  rintro ⟨s2, hs2, hf⟩
  rw [a1] at hs2
  cases hs2
  rcases hf with hf | ⟨r, _, hst⟩
  · unfold Sensor.getFailed at hf
    rw [a2] at hf
    simp only [a5, h5, hig, hoff', Bool.and_true] at hf
    cases h : p'.getFailed x.d.w.redundancyFailed <;> rw [h] at hf <;> cases hf
  · rw [a4, h4, hto] at hst
    rcases hst with ⟨h, _⟩ | ⟨h, _⟩ <;> omega

/-- **C139** While the host is off: let every input of a zone that has to be there be a D-Bus sensor that may fail while the
host is off and has no timeout, or not fail at the zone's cycles. Then, if the host does not run at any of them from some
point on, after ceil(T/F) automatic cycles every one leaves the zone out of failsafe mode and commands the fan loops exactly
what they compute, whatever the sensors report. -/
theorem C139_off {o : Opts} {bus : BuildBus} {now : Int} {w : World} {reply : Option String}
    {answers : Option (List (Option RedundancyProps))} {sensors : OMap String SensorConfig} (hws : sensors.WF)
    {pids : OMap Int PIDConf} {configs : OMap Int ZoneConfig} (hw : pids.WF) (hc : ∀ e ∈ pids.entries, OMap.WF e.2)
    {x0 x1 x x' : Watched} {pre post : List HeardEvent}
    (hl : Watched.launch o bus now w reply answers sensors pids configs = .ok x0)
    (hr1 : x0.run o pre = .ok x1) (hr2 : x1.run o post = .ok x)
    {i : Int} {conf : PIDConf} {c : ZoneConfig} (hp : pids.find? i = some conf) (hcc : configs.find? i = some c)
    (hF : 1 ≤ c.cycleTime.cycleIntervalTimeMS)
    (hex : ∀ n, NeededBy conf.entries n → (∃ sc, sensors.find? n = some sc ∧ KnownType sc.type ∧
      ReadKind sc.readPath .dbusPassive ∧ sc.ignoreFailIfHostOff = true ∧ sc.timeout = 0) ∨
      ∀ es1 es2 y, post ++ [.own (.tick i)] = es1 ++ .own (.tick i) :: es2 → x1.run o es1 = .ok y →
        ¬ FailsAt y.d.w y.d.w.nowFans n ∧ ¬ FailsAt y.d.w y.d.w.nowThermals n)
    (hoff : ∀ es1 es2, post ++ [.own (.tick i)] = es1 ++ .own (.tick i) :: es2 → ¬ HostRuns reply (pre ++ es1))
    (hn : (c.cycleTime.updateThermalsTimeMS + c.cycleTime.cycleIntervalTimeMS - 1) / c.cycleTime.cycleIntervalTimeMS ≤
      autoTicks i (modeAfter i false (ownOf pre)) (ownOf post))
    (hm : modeAfter i false (ownOf (pre ++ post)) = false) (hx : x.step o (.own (.tick i)) = .ok x') :
    ∃ z cnt, x'.d.zones.find? i = some (z, cnt) ∧ z.d.getFailSafeMode = false ∧
      FansAsComputed conf.entries z.d x.d.w x'.d.w := by
  obtain ⟨⟨w', hl'⟩, _⟩ := watched_launch hl
  have hmode : modeAfter i false (x0.seen o pre ++ x1.seen o post) = false := by
    rw [← seen_append post hr1, seen_mode i _ (watched_append.2 ⟨x1, hr1, hr2⟩)]
    exact hm
  refine C102_recovery hw hc hl' hp hcc hF (seen_run hr1) (seen_run hr2) ?_
    (by rw [seen_ticks i _ hr2, seen_mode i _ hr1]; exact hn) hmode (watched_step hx).1
  intro ds1 ds2 d he hrd n hneed
  have hr3 : x1.run o (post ++ [.own (.tick i)]) = .ok x' :=
    watched_append.2 ⟨x, hr2, watched_cons.2 ⟨x', hx, rfl⟩⟩
  have he' : x1.seen o (post ++ [.own (.tick i)]) = ds1 ++ .tick i :: ds2 := by
    rw [seen_append _ hr2, seen_cons hx]
    exact he
  obtain ⟨es1, es2, y, k1, k2, k3⟩ := seen_split hr3 he'
  have hy : d = y.d := by
    have := seen_run k2
    rw [k3, hrd] at this
    cases this; rfl
  rw [hy]
  rcases hex n hneed with ⟨sc, h1, h2, h3, h4, h5⟩ | h
  · have := C139_excused hws hl (watched_append.2 ⟨x1, hr1, k2⟩) h1 h2 h3 h4 h5 (hoff es1 es2 k1)
    exact ⟨this _, this _⟩
  · exact h es1 es2 y k1 k2

end
namespace Ex
section
attribute [local instance] binary64

/-- the fan and the temperature sensor of C99 without timeouts, both excused while the host is off -/
def fan139 : SensorConfig :=
  ⟨"fan", "/xyz/openbmc_project/sensors/fan_tach/fan0", "/sys/class/hwmon/pwm1", 0, 255, 0, false, true, true⟩
def cpu139 : SensorConfig := ⟨"temp", "/xyz/openbmc_project/sensors/temperature/cpu", "", 0, 0, 0, false, true, true⟩
def sensors139 : OMap String SensorConfig := (({} : OMap String SensorConfig).insert "fan0" fan139).insert "cpu" cpu139

theorem sensors139_wf : sensors139.WF := OMap.wf_insert (OMap.wf_insert OMap.wf_empty _ _) _ _
theorem pids139_wf : ∀ e ∈ pids99.entries, OMap.WF e.2 :=
  fun e he => by rw [(pids99_find ((OMap.mem_entries_iff pids99_wf e.1 e.2).1 he)).2]; exact loops99_wf

/-- one group with this fan and another -/
def groups139 (obj : String) : List String :=
  if obj = "/fans" then ["/xyz/openbmc_project/sensors/fan_tach/fan0", "/xyz/openbmc_project/sensors/fan_tach/fan1"] else []
def run139 (reply : Option String) (es : List HeardEvent) : Res Watched := do
  let x ← Watched.launch {} bus98 0 world99 reply (answersOf groups139 (some [some ("/fans", some "x.Full")])) sensors139
    pids99 zones99
  x.run {} es
/-- `fraction` of 255 is what was written last -/
def wrote139 (v : Int) (x : Watched) : Bool := decide (x.d.w.trace.getLast? = some (.sysfsWrite "/sys/class/hwmon/pwm1" v))

def says139 (status : String) : HeardEvent := .group "/fans" (some status) (some (groups139 "/fans"))
def host139 (state : String) : HeardEvent := .host (some (({} : OMap String String).insert "CurrentHostState" state))
def tick139 : HeardEvent := .own (.tick 1)
def alarm139 (b : Bool) : HeardEvent := .own (.signal "cpu" 5 (alarm99 b))

/-- C139: the group fails, and the next cycle commands 75 percent: 191 of 255 -/
example : ∃ x, run139 (some "x.Running") [tick139, says139 "x.Failed", tick139] = .ok x ∧ wrote139 191 x = true :=
  ok_of_any (by decide +kernel)
/-- … until the group has recovered, … -/
example : ∃ x, run139 (some "x.Running") [tick139, says139 "x.Failed", tick139, says139 "x.Degraded", tick139] = .ok x ∧
    wrote139 51 x = true := ok_of_any (by decide +kernel)
/-- … and the host being off excuses it -/
example : ∃ x, run139 (some "x.Running") [host139 "x.Off", tick139, says139 "x.Failed", tick139] = .ok x ∧
    wrote139 51 x = true := ok_of_any (by decide +kernel)
/-- C139: an alarm while the host is off changes nothing; once it runs the fans get 90 percent: 229 of 255 -/
example : ∃ x, run139 none [alarm139 true, tick139, tick139, tick139] = .ok x ∧ wrote139 51 x = true :=
  ok_of_any (by decide +kernel)
example : ∃ x, run139 none [alarm139 true, tick139, tick139, host139 "x.Running", tick139, tick139, tick139] = .ok x ∧
    wrote139 229 x = true := ok_of_any (by decide +kernel)

theorem members139 {es : List HeardEvent}
    (h : ∀ e ∈ es, e = tick139 ∨ (∃ b, e = alarm139 b) ∨ (∃ s, e = host139 s) ∨ ∃ s, e = says139 s) : Members groups139 es := by
  intro obj status c hc
  rcases h _ hc with h | ⟨_, h⟩ | ⟨_, h⟩ | ⟨_, h⟩
  · cases h
  · cases h
  · cases h
  · cases h; rfl

/-- C139: all hypotheses hold for the failing group … -/
example : ∃ x x' p, run139 (some "x.Running") [tick139, says139 "x.Failed"] = .ok x ∧ x.step {} tick139 = .ok x' ∧
    PercentFor zone99 loops99.entries "fan0" p ∧ FansAtLeast loops99.entries (p / 100) x.d.w x'.d.w := by
  obtain ⟨x', h, _⟩ := ok_of_any (x := run139 (some "x.Running") [tick139, says139 "x.Failed", tick139])
    (P := fun _ : Watched => true) (by decide +kernel)
  obtain ⟨x0, hl, h⟩ := bind_eq_ok.1 h
  obtain ⟨x, hr, h⟩ := watched_append (es := [tick139, says139 "x.Failed"]).1 h
  obtain ⟨x2, hx, h⟩ := watched_cons.1 h
  cases h
  obtain ⟨p, h1, h2⟩ := C139_group (o := {}) rfl sensors139_wf pids99_wf pids139_wf hl hr
    (members139 (by intro e he; simp only [List.mem_cons, List.not_mem_nil, or_false] at he
                    rcases he with rfl | rfl
                    · exact .inl rfl
                    · exact .inr (.inr (.inr ⟨_, rfl⟩))))
    (n := "fan0") (sc := fan139) (by decide +kernel) rfl ((C65_read _ _).1 (by decide +kernel)) (obj := "/fans")
    (by decide) (by
      intro a ha
      unfold groups139 at ha
      by_contra hne
      rw [if_neg hne] at ha
      cases ha)
    (show SaysFailed "x.Failed" from ⟨"x.".toList, [], by decide⟩)
    (fun _ => ⟨"x.Running", rfl, "x".toList, by decide⟩) (i := 1) (conf := loops99) (c := zone99)
    (by unfold pids99; rw [OMap.find?_insert_self]) (by unfold zones99; rw [OMap.find?_insert_self])
    ⟨by decide +kernel, by decide +kernel⟩ (by decide +kernel) (by decide +kernel) rfl hx
  refine ⟨x, x', p, ?_, hx, h1, h2⟩
  unfold run139
  rw [hl, ok_bind]
  exact hr

/-- C139: all hypotheses hold for the alarm once the host runs, … -/
example : ∃ x x' p, run139 none ([alarm139 true, tick139, tick139, host139 "x.Running"] ++ [tick139, tick139]) = .ok x ∧
    x.step {} tick139 = .ok x' ∧ PercentFor zone99 loops99.entries "cpu" p ∧
    FansAtLeast loops99.entries (p / 100) x.d.w x'.d.w := by
  obtain ⟨x', h, _⟩ := ok_of_any
    (x := run139 none [alarm139 true, tick139, tick139, host139 "x.Running", tick139, tick139, tick139])
    (P := fun _ : Watched => true) (by decide +kernel)
  obtain ⟨x0, hl, h⟩ := bind_eq_ok.1 h
  obtain ⟨x1, hr1, h⟩ := watched_append (es := [alarm139 true, tick139, tick139, host139 "x.Running"]).1 h
  obtain ⟨x, hr2, h⟩ := watched_append (es := [tick139, tick139]).1 h
  obtain ⟨x2, hx, h⟩ := watched_cons.1 h
  cases h
  obtain ⟨p, h1, h2⟩ := C139_alarm (o := {}) rfl sensors139_wf pids99_wf pids139_wf hl hr1 hr2
    (members139 (by intro e he; simp only [List.cons_append, List.nil_append, List.mem_cons, List.not_mem_nil, or_false] at he
                    rcases he with rfl | rfl | rfl | rfl | rfl | rfl
                    · exact .inr (.inl ⟨_, rfl⟩)
                    · exact .inl rfl
                    · exact .inl rfl
                    · exact .inr (.inr (.inl ⟨_, rfl⟩))
                    · exact .inl rfl
                    · exact .inl rfl))
    (n := "cpu") (sc := cpu139) (by decide +kernel) (by decide) ((C65_read _ _).1 (by decide +kernel))
    (by
      intro a b ha hb
      have : ∀ a, cpu139.readPath ∉ groups139 a := by
        intro a ha
        unfold groups139 at ha
        split_ifs at ha
        · revert ha; decide
        · cases ha
      exact absurd ha (this a)) rfl (sig := []) (t := 5) (m := alarm99 true) rfl (by decide +kernel)
    (by intro y hy; cases hy) (i := 1) (conf := loops99) (c := zone99)
    (by unfold pids99; rw [OMap.find?_insert_self]) (by unfold zones99; rw [OMap.find?_insert_self])
    (by
      intro _ es1 es2 he
      have key : ∀ es : List HeardEvent, (∀ e ∈ es, e = tick139) → statesOf es = [] := by
        intro es
        induction es with
        | nil => exact fun _ => rfl
        | cons a es ih =>
          intro he
          rw [he a List.mem_cons_self]
          exact ih (fun e h => he e (List.mem_cons_of_mem _ h))
      have h0 : statesOf es1 = [] := key es1 (fun e hes => by
        have : e ∈ [tick139, tick139] ++ [.own (.tick 1)] := by rw [he]; exact List.mem_append_left _ hes
        simp only [List.cons_append, List.nil_append, List.mem_cons, List.not_mem_nil, or_false] at this
        rcases this with h | h | h <;> exact h)
      have h1 : statesOf ([alarm139 true, tick139, tick139, host139 "x.Running"] ++ es1) = ["x.Running"] := by
        show "x.Running" :: statesOf es1 = _
        rw [h0]
      unfold HostRuns
      rw [h1]
      exact ⟨"x".toList, by decide⟩)
    ⟨by decide +kernel, by decide +kernel⟩ (by decide +kernel) (by decide +kernel) (by decide) (by decide +kernel) rfl hx
  refine ⟨x, x', p, ?_, hx, h1, h2⟩
  unfold run139
  rw [hl, ok_bind]
  exact watched_append.2 ⟨x1, hr1, hr2⟩

/-- … and for the alarm while the host is off -/
example : ∃ x x', run139 none [alarm139 true, tick139, tick139] = .ok x ∧ x.step {} tick139 = .ok x' ∧
    ∃ z cnt, x'.d.zones.find? 1 = some (z, cnt) ∧ z.d.getFailSafeMode = false ∧
      FansAsComputed loops99.entries z.d x.d.w x'.d.w := by
  obtain ⟨x', h, _⟩ := ok_of_any (x := run139 none [alarm139 true, tick139, tick139, tick139])
    (P := fun _ : Watched => true) (by decide +kernel)
  obtain ⟨x0, hl, h⟩ := bind_eq_ok.1 h
  obtain ⟨x1, hr1, h⟩ := watched_append (es := [alarm139 true]).1 h
  obtain ⟨x, hr2, h⟩ := watched_append (es := [tick139, tick139]).1 h
  obtain ⟨x2, hx, h⟩ := watched_cons.1 h
  cases h
  have hstates : ∀ es1 es2 : List HeardEvent, [tick139, tick139] ++ [tick139] = es1 ++ tick139 :: es2 →
      ¬ HostRuns none ([alarm139 true] ++ es1) := by
    intro es1 es2 h
    have key : ∀ es : List HeardEvent, (∀ e ∈ es, e = tick139) → statesOf es = [] := by
      intro es
      induction es with
      | nil => exact fun _ => rfl
      | cons a es ih =>
        intro he
        rw [he a List.mem_cons_self]
        exact ih (fun e h => he e (List.mem_cons_of_mem _ h))
    have : statesOf ([alarm139 true] ++ es1) = [] := by
      refine key es1 (fun e he => ?_)
      have : e ∈ [tick139, tick139] ++ [tick139] := by rw [h]; exact List.mem_append_left _ he
      simpa using this
    unfold HostRuns
    rw [this]
    rintro ⟨s, hs, _⟩
    cases hs
  refine ⟨x, x', ?_, hx, C139_off sensors139_wf pids99_wf pids139_wf hl hr1 hr2 (i := 1) (conf := loops99) (c := zone99)
    (by unfold pids99; rw [OMap.find?_insert_self]) (by unfold zones99; rw [OMap.find?_insert_self]) (by decide)
    ?_ hstates (by decide +kernel) rfl hx⟩
  · unfold run139
    rw [hl, ok_bind]
    exact watched_append (es := [alarm139 true]).2 ⟨x1, hr1, hr2⟩
  · rintro n ⟨⟨e, he, _, j, hj, rfl⟩, _⟩
    left
    have key : ∀ e ∈ loops99.entries, ∀ j ∈ e.2.inputs, j.name = "fan0" ∨ j.name = "cpu" := by decide +kernel
    rcases key e he j hj with h | h <;> rw [h]
    · exact ⟨fan139, by decide +kernel, by decide, (C65_read _ _).1 (by decide +kernel), rfl, rfl⟩
    · exact ⟨cpu139, by decide +kernel, by decide, (C65_read _ _).1 (by decide +kernel), rfl, rfl⟩

end
end Ex
end Verif
