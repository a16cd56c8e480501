import Verif.Props.Whole
import Verif.Props.BuildSensors

/-! # C145: a reload leaves no gap in the failsafe protection

C42, C100 and C123 give a sensor that begins to fail while the zones run ceil(T/F) cycles until the fans follow. For a sensor
that already fails when the zones are made there is no such delay: the first cycle after a start or a reload commands the fans
at least the failsafe percentage. -/

namespace Verif
open Dbl

section
variable [F : FloatModel]

/-- a failed sensor that keeps failing stays listed -/
theorem Failing.stays {o : Opts} {d0 : ZoneData} {s : String} {z0 z : Zone} {cnt0 n cnt : Nat} {log : List Poll}
    (h0 : Hist o d0 z0 cnt0 log) (h : Failing o s z0 cnt0 n z cnt) (hs : s ∈ d0.thermalInputs)
    (hq : s ∉ d0.missingAcceptable) (hf0 : Failed z0.d s) : (∃ log', Hist o d0 z cnt log') ∧ Failed z.d s := by
  induction h with
  | start => exact ⟨⟨_, h0⟩, hf0⟩
  | manual b _ ih =>
    obtain ⟨⟨log', a⟩, b'⟩ := ih
    exact ⟨⟨_, .manual b a⟩, b'⟩
  | @enable n z cnt name b _ ih =>
    obtain ⟨⟨log', a⟩, hf⟩ := ih
    refine ⟨⟨_, .enable name b a⟩, ?_⟩
    unfold Failed
    rw [(setEnabled_rest z.d name b).failed]; exact hf
  | idle w _ hm ht ih => rw [tick_manual hm] at ht; cases ht; exact ih
  | @auto n z cnt w w' z' cnt' _ hm hf htm ht ih =>
    obtain ⟨⟨log', a⟩, b'⟩ := ih
    have hh := a.tick w ht
    exact ⟨⟨_, hh⟩, failed_after a.inv hh.inv hm hs hq hf htm (.inl b')⟩

/-- a cycle of a zone in which a listed sensor fails -/
theorem failed_tick {o : Opts} (ho : o.tuningEnabled = false) {d0 : ZoneData} {s : String} {z z' : Zone}
    {cnt cnt' : Nat} {log : List Poll} {w w' : World} (hh : Hist o d0 z cnt log) (hfl : Failed z.d s)
    (hs : s ∈ d0.thermalInputs) (hq : s ∉ d0.missingAcceptable) (hp : ∀ m, Required d0 m → percentOf d0 m ≠ nan)
    (hm : z.d.manualMode = false) (hf : FailsAt w w.nowFans s) (hft : FailsAt w w.nowThermals s)
    (ht : z.tick o w cnt = .ok (w', z', cnt')) :
    ∃ (l : List (FanPid × Dbl)) (b : Bool), z.fans = l.map (fun x => some x.1) ∧ Drives b w l w' ∧
      ∀ x ∈ l, (∃ m ∈ x.1.inputs, targetOf w m ≠ none) → percentOf d0 s / 100 ≤ x.2 := by
  obtain ⟨zt, h1, h2, h3, h4⟩ := tick_inv hh.inv hm ht
  have hfail : Failed zt.d s := failed_after hh.inv h2 hm hs hq hf hft (.inl hfl)
  have hmode : zt.d.getFailSafeMode = true := by
    obtain ⟨e, he⟩ := hfail
    simp only [ZoneData.getFailSafeMode, Bool.not_eq_true']
    exact (OMap.isEmpty_false_iff _).2 ⟨s, e, he⟩
  have hsel := h2.selection (fun m hm => hp m ((h2.failed m).1 hm).1) hmode
  have hge : percentOf d0 s ≤ zt.d.getFailSafePercent := hsel.2 _ ⟨s, hfail, rfl⟩
  obtain ⟨l, a1, _, a2, a3, _⟩ := processFans_spec h1
  refine ⟨l.map (fun x => (x.1, x.2.1)), _, ?_, a2, ?_⟩
  · rw [← h3, a1, List.map_map]; rfl
  · intro x hx ⟨m, hm1, hm2⟩
    have hnn : x.2 ≠ nan := fun hv => hm2 (drives_nan a2 x hx hv m hm1)
    obtain ⟨y, hy, rfl⟩ := List.mem_map.1 hx
    obtain ⟨⟨i, _, hv, _⟩, _⟩ := a3 y hy
    have hper : percentOf d0 s ≤ fanPercent o zt.d (pidStep y.1.ctl zt.d.maximumSetPoint i).1 := by
      rw [hv] at hnn
      have hpn := div_ne_nan_left hnn
      generalize (pidStep y.1.ctl zt.d.maximumSetPoint i).1 = out at *
      simp only [fanPercent, ho, hmode, Bool.false_eq_true, if_false, if_true] at hpn ⊢
      split_ifs with h5 h6
      · exact hge
      · exact hge
      · rw [if_neg h5, if_neg h6] at hpn
        exact Dbl.le_trans hge (le_of_not_lt (Dbl.ne_nan_of_le_right hge) hpn h6)
    change _ ≤ y.2.1
    rw [hv] at hnn ⊢
    exact div_le_div_of_pos pos100 hper (div100_ne_nan (Dbl.ne_nan_of_le_left hper)) hnn

/-- **C145** No gap at a start: if a thermal input that has to be there fails when the zones start and whenever the timer of its
zone expires, then every automatic cycle of the zone, from the first on and whatever else happens to the daemon, commands all fan
loops of the zone at least the percentage configured for the input. -/
theorem C145_no_gap {o : Opts} (ho : o.tuningEnabled = false) {bus : BuildBus} {now : Int} {w : World}
    {sensors : OMap String SensorConfig} {pids : OMap Int PIDConf} {configs : OMap Int ZoneConfig} (hw : pids.WF)
    (hc : ∀ e ∈ pids.entries, OMap.WF e.2) {d0 : Daemon} (hl : Daemon.launch o bus now w sensors pids configs = .ok d0)
    {i : Int} {conf : PIDConf} {c : ZoneConfig} (hp : pids.find? i = some conf) (hcc : configs.find? i = some c)
    {n : String} (hs : MustRead conf.entries n) (hnum : ∀ e ∈ conf.entries, e.2.failSafePercent ≠ nan)
    (hzn : c.failsafePercent ≠ nan) (hf0 : FailsAt d0.w d0.w.nowThermals n) {es : List DEvent} {d1 d2 : Daemon}
    (hr : d0.run o es = .ok d1) (hft : FailsThroughout o i n d0 (es ++ [.tick i]))
    (hm : modeAfter i false es = false) (ht : d1.step o (.tick i) = .ok d2) :
    ∃ p, PercentFor c conf.entries n p ∧ FansAtLeast conf.entries (p / 100) d1.w d2.w := by
  obtain ⟨m, zones, hL⟩ := launch_spec hl
  obtain ⟨zb, c', hzb, hc', hN⟩ := (C64_zones hw hc hL.built i).1 conf hp
  rw [hcc] at hc'
  cases hc'
  obtain ⟨z0, hz0, hz0'⟩ := hL.started i zb hzb
  have hh0 := C80_hist hw hL.built hzb hz0
  obtain ⟨hm0, hfa0⟩ := start_flags hz0
  rw [hN.manualMode] at hm0
  have hmem : n ∈ zb.d.thermalInputs := (hN.thermalInputs_mem n).2 hs.1
  have hq : n ∉ zb.d.missingAcceptable := by
    intro hmem
    obtain ⟨e, he, -, j, hj, h1, h2⟩ := (hN.missing n).1 hmem
    rw [hs.2 e he j hj h1] at h2
    cases h2
  have hpn : ∀ m, ∀ p ∈ percentsFor m conf.entries, p ≠ nan := by
    intro m p hp
    obtain ⟨⟨a, b⟩, hab, rfl⟩ := List.mem_map.1 hp
    obtain ⟨e, he, hx⟩ := List.mem_flatMap.1 (List.mem_filter.1 hab).1
    obtain ⟨i, -, hx⟩ := List.mem_map.1 hx
    obtain ⟨-, rfl⟩ := Prod.mk.inj hx
    exact hnum e (List.mem_filter.1 he).1
  have hne : ∀ m, percentOf zb.d m ≠ nan := by
    intro m
    have := percentOf_of hN (hpn m)
    generalize percentOf zb.d m = q at this
    cases this with
    | own h1 _ => exact hpn m _ h1.1
    | zero _ => exact hzn
    | zone _ => exact hzn
  have hfail0 : Failed z0.d n := by
    rw [hh0.inv.failed n]
    refine ⟨⟨.inr hmem, hq⟩, fun p hp => ?_⟩
    have : p = ⟨d0.w, d0.w.nowThermals, zb.d.thermalInputs⟩ := by
      rw [show [(⟨d0.w, d0.w.nowThermals, zb.d.thermalInputs⟩ : Poll)] = [] ++ [⟨d0.w, d0.w.nowThermals, zb.d.thermalInputs⟩]
        from rfl, lastPoll_append, if_pos hmem] at hp
      cases hp; rfl
    rw [this]; exact hf0
  obtain ⟨z1', cnt1', log1, hz1', hh1, hm1, hfa1⟩ := mode_run hr hz0' hh0
  rw [hm0] at hm1
  obtain ⟨z1, cnt1, hz1, hfl⟩ := failing_run hr hz0' .start (fun es1 es2 d he hr => hft es1 (es2 ++ [.tick i]) d (by
    rw [he]; simp) hr)
  rw [hz1'] at hz1
  cases hz1
  obtain ⟨⟨log', hh⟩, hfail⟩ := hfl.stays hh0 hmem hq hfail0
  simp only [Daemon.step, hz1'] at ht
  obtain ⟨⟨w', z3, cnt3⟩, htk, ht⟩ := bind_eq_ok.1 ht
  cases ht
  obtain ⟨f1, f2⟩ := hft es [] d1 rfl hr
  obtain ⟨l, b, g1, g2, g3⟩ := failed_tick ho hh hfail hmem hq (fun m _ => hne m) (by rw [hm1]; exact hm) f1 f2 htk
  refine ⟨_, percentOf_of hN (hpn n), l, b, fans_as_configured ?_ g1, g2, g3⟩
  rw [hfa1, hfa0, hN.fans]

theorem alarm_kept {o : Opts} : ∀ {l : Signals}, (∀ x ∈ l, alarmIn o x ≠ some false) → lastOf (alarmIn o) true l = true
  | [], _ => rfl
  | x :: l, h => by
    have hx := h x List.mem_cons_self
    have : (alarmIn o x).getD true = true := by
      cases hh : alarmIn o x with
      | none => rfl
      | some b => cases b <;> simp_all
    show lastOf (alarmIn o) ((alarmIn o x).getD true) l = true
    rw [this]
    exact alarm_kept (fun y hy => h y (List.mem_cons_of_mem _ hy))

theorem alarmIs_shown {o : Opts} {b : SensorReplies} {f g : Bool} (h1 : AlarmIs o b f) (h2 : AlarmIs o b g) : f = g := by
  have a := (alarm_iff o b f).2 h1
  rw [(alarm_iff o b g).2 h2] at a
  cases a; rfl

/-- a D-Bus sensor as it is made from what its object shows -/
theorem launched_shown {o : Opts} {bus : BuildBus} {now : Int} {w : World} {sensors : OMap String SensorConfig}
    (hws : sensors.WF) {pids : OMap Int PIDConf} {configs : OMap Int ZoneConfig} {d0 : Daemon}
    (hl : Daemon.launch o bus now w sensors pids configs = .ok d0) {n : String} {c : SensorConfig}
    (hcs : sensors.find? n = some c) (ht : KnownType c.type) (hk : ReadKind c.readPath .dbusPassive)
    {b : SensorBus} (hb : bus.passive n = b.answers o) {own : String} (hown : FirstOwner b own) :
    ∃ s p wr st, d0.w.sensors.find? n = some s ∧ s.impl = .pluggable (.passive p) wr ∧ Heard o st [] p ∧
      s.ignoreFailIfHostOff = c.ignoreFailIfHostOff ∧ st.type = c.type ∧ st.missing = false ∧
      st.props.unavailableAsFailed = c.unavailableAsFailed ∧
      ∃ min max, Shows o (b.object own) st.props.scale st.props.value min max st.props.available st.alarm := by
  obtain ⟨m, zones, hL⟩ := launch_spec hl
  obtain ⟨s, hs, hm⟩ := (C98_as_configured hws hL.made n).2 c hcs ht
  have hs' : d0.w.sensors.find? n = some s := by rw [hL.world]; exact hs
  have key : ∀ r, ReadsFrom o bus now n c r → ∃ p st, r = .passive p ∧ Heard o st [] p ∧ st.type = c.type ∧ st.missing = false ∧
      st.props.unavailableAsFailed = c.unavailableAsFailed ∧
      ∃ min max, Shows o (b.object own) st.props.scale st.props.value min max st.props.available st.alarm := by
    intro r hr
    cases hr with
    | dbus _ hd =>
      unfold DbusSensor at hd
      rw [hb] at hd
      obtain ⟨st, h1, h2, h3, _, h4, mn, mx, hsh, _⟩ := C95_start hd hown
      exact ⟨_, st, rfl, h1, h2, h3, h4, mn, mx, hsh⟩
    | sysfs h1 => cases readKind_unique hk h1
    | external h1 => cases readKind_unique hk h1
    | nothing h1 => rcases h1 with h1 | h1 <;> cases readKind_unique hk h1
  cases hm with
  | fan _ hr _ =>
    obtain ⟨p, st, rfl, h1, h2⟩ := key _ hr
    exact ⟨_, p, _, st, hs', rfl, h1, rfl, h2⟩
  | thermal _ _ hr =>
    obtain ⟨p, st, rfl, h1, h2⟩ := key _ hr
    exact ⟨_, p, _, st, hs', rfl, h1, rfl, h2⟩
  | external he =>
    have : ReadKind c.readPath .external := .external he.2
    cases readKind_unique hk this

/-- **C145** Such an input is a D-Bus sensor whose object shows a critical alarm when the sensor is made and that has not withdrawn
it since, if its unavailability counts as a failure and the state of the host does not excuse it. -/
theorem C145_alarm_fails {o : Opts} {bus : BuildBus} {now : Int} {w : World} {sensors : OMap String SensorConfig}
    (hws : sensors.WF) {pids : OMap Int PIDConf} {configs : OMap Int ZoneConfig} {d0 : Daemon}
    (hl : Daemon.launch o bus now w sensors pids configs = .ok d0) {n : String} {c : SensorConfig}
    (hcs : sensors.find? n = some c) (htk : KnownType c.type) (hk : ReadKind c.readPath .dbusPassive)
    (hua : c.unavailableAsFailed = true) (hho : c.ignoreFailIfHostOff = false)
    {b : SensorBus} (hb : bus.passive n = b.answers o) {own : String} (hown : FirstOwner b own)
    (hal : AlarmIs o (b.object own) true) {es : List DEvent} {d : Daemon} (hr : d0.run o es = .ok d)
    (hes : ∀ x ∈ signalsFor n es, alarmIn o x ≠ some false) (t : Int) : FailsAt d.w t n := by
  obtain ⟨s, p, wr, st, h1, h2, h3, h4, _, _, h6, _, _, hsh⟩ := launched_shown hws hl hcs htk hk hb hown
  have h5 : st.alarm = true := alarmIs_shown hsh.alarm hal
  obtain ⟨s', p', wr', a1, a2, a3, a4, a5⟩ := heard_run hr h1 h2 h3
  have hal' : st.Alarm o ([] ++ signalsFor n es) := by
    unfold Setup.Alarm
    rw [List.nil_append, h5]
    exact alarm_kept hes
  have hfail : s'.getFailed d.w = .ok true := by
    unfold Sensor.getFailed
    rw [a2]
    have : p'.getFailed d.w.redundancyFailed = true :=
      (C49_decision a3 _).2 (.inr (.inr ⟨fun hex => absurd (hex.2.2.symm.trans (h6.trans hua)) (by decide),
        .inr (.inr (.inl hal'))⟩))
    simp [this, a5, h4, hho]
  exact ⟨s', a1, .inl hfail⟩

/-- **C145** No gap at a reload: in any life of the process, if the last reload left all zones running from configuration `c`, and
the object of a D-Bus temperature sensor showed a critical alarm when the sensors were made and has not withdrawn it since, then
every automatic cycle of its zone since the reload, from the first on, commands its fans at least the percentage configured for the
sensor. -/
theorem C145_reload {o : Opts} (ho : o.tuningEnabled = false) {w0 : World} {life : List WEvent} {r : Found} {c : Config}
    (hread : r.read = .got c) {i : Int} {conf : PIDConf} {zc : ZoneConfig} (hp : c.pids.find? i = some conf) (hcc : c.zones.find? i = some zc)
    {n : String} (hs : MustRead conf.entries n) (hnum : ∀ e ∈ conf.entries, e.2.failSafePercent ≠ nan)
    (hzn : zc.failsafePercent ≠ nan)
    {sc : SensorConfig} (hsc : c.sensors.find? n = some sc) (htk : KnownType sc.type) (hk : ReadKind sc.readPath .dbusPassive)
    (hua : sc.unavailableAsFailed = true) (hho : sc.ignoreFailIfHostOff = false)
    {b : SensorBus} (hb : r.bus.passive n = b.answers o) {own : String} (hown : FirstOwner b own)
    (hal : AlarmIs o (b.object own) true) {es : List DEvent} {s s' : Whole}
    (h : (Whole.init w0).run o (life ++ .reload r :: es.map .event) = .ok s) (hall : s.AllRun)
    (hes : ∀ x ∈ signalsFor n es, alarmIn o x ≠ some false) (hmode : modeAfter i false es = false)
    (ht : s.step o (.event (.tick i)) = .ok s') :
    ∃ p, PercentFor zc conf.entries n p ∧ FansAtLeast conf.entries (p / 100) s.d.w s'.d.w := by
  obtain ⟨hws, hw, hl⟩ := read_wf hread
  obtain ⟨s1, -, h2⟩ := wrun_append.1 h
  unfold Whole.run at h2
  obtain ⟨s2, h3, h4⟩ := bind_eq_ok.1 h2
  obtain ⟨d, h5, rfl⟩ := wrun_events.1 h4
  obtain ⟨w, -, h7⟩ := C123_restart h3 ⟨hall.1, hall.2.1, by rw [← empty_run h5]; exact hall.2.2⟩
  rw [attempt_read hread, launched_running] at h7
  unfold Whole.step at ht
  obtain ⟨d', h8, h9⟩ := bind_eq_ok.1 ht
  cases h9
  have hfail : ∀ {es1 es2 : List DEvent} {d1 : Daemon}, es = es1 ++ es2 → s2.d.run o es1 = .ok d1 → ∀ t, FailsAt d1.w t n := by
    intro es1 es2 d1 he hr
    refine C145_alarm_fails hws h7 hsc htk hk hua hho hb hown hal hr (fun x hx => hes x ?_)
    rw [he, signalsFor_append]
    exact List.mem_append_left _ hx
  refine C145_no_gap ho hw hl h7 hp hcc hs hnum hzn (hfail (es1 := []) rfl rfl _) h5 ?_ hmode h8
  intro es1 es2 d1 he hr
  have : ∃ es3, es = es1 ++ es3 := by
    rcases List.eq_nil_or_concat es2 with rfl | ⟨es3, x, rfl⟩
    · refine ⟨[], ?_⟩
      rw [List.append_nil]
      exact (List.append_inj_left' he rfl)
    · refine ⟨.tick i :: es3, ?_⟩
      rw [List.concat_eq_append, ← List.cons_append, ← List.append_assoc] at he
      exact (List.append_inj_left' he rfl)
  obtain ⟨es3, he3⟩ := this
  exact ⟨hfail he3 hr _, hfail he3 hr _⟩

theorem shows_unique {o : Opts} {b : SensorReplies} {sc sc' : Int} {v v' mn mn' mx mx' : Dbl} {av av' al al' : Bool}
    (h1 : Shows o b sc v mn mx av al) (h2 : Shows o b sc' v' mn' mx' av' al') : v = v' ∧ av = av' ∧ al = al' := by
  have a := (readSensor_iff o b (⟨sc, v, mn, mx, av, false⟩, al)).2 ⟨h1, rfl⟩
  rw [(readSensor_iff o b (⟨sc', v', mn', mx', av', false⟩, al')).2 ⟨h2, rfl⟩] at a
  cases a
  exact ⟨rfl, rfl, rfl⟩

/-- **C145**, finding: a broken sensor is forgotten. Whatever happened in the life of the process — the sensor may have told that it
is not functional — after a reload a sensor whose object shows a number and no alarm counts as working until the next message from it:
the operational status is not read when the sensor is made (dbus/dbushelper.cpp:72-146). -/
theorem C145_broken_forgotten {o : Opts} {w0 : World} {life : List WEvent} {r : Found} {c : Config}
    (hread : r.read = .got c) {n : String}
    {sc : SensorConfig} (hsc : c.sensors.find? n = some sc) (htk : KnownType sc.type) (hmg : sc.type ≠ "margin")
    (hk : ReadKind sc.readPath .dbusPassive)
    {b : SensorBus} (hb : r.bus.passive n = b.answers o) {own : String} (hown : FirstOwner b own)
    {scale : Int} {value min max : Dbl} (hsh : Shows o (b.object own) scale value min max true false)
    (hv : value.isFinite = true) {es : List DEvent} {s : Whole}
    (h : (Whole.init w0).run o (life ++ .reload r :: es.map .event) = .ok s) (hall : s.AllRun)
    (hes : signalsFor n es = []) (hred : s.d.w.redundancyFailed = []) :
    ∃ x, s.d.w.sensors.find? n = some x ∧ x.getFailed s.d.w = .ok false := by
  obtain ⟨hws, -, -⟩ := read_wf hread
  obtain ⟨s1, -, h2⟩ := wrun_append.1 h
  unfold Whole.run at h2
  obtain ⟨s2, h3, h4⟩ := bind_eq_ok.1 h2
  obtain ⟨d, h5, rfl⟩ := wrun_events.1 h4
  obtain ⟨w, -, h7⟩ := C123_restart h3 ⟨hall.1, hall.2.1, by rw [← empty_run h5]; exact hall.2.2⟩
  rw [attempt_read hread, launched_running] at h7
  obtain ⟨x, p, wr, st, a1, a2, a3, a4, a5, a6, a7, _, _, hsh'⟩ := launched_shown hws h7 hsc htk hk hb hown
  obtain ⟨rfl, e2, e3⟩ := shows_unique hsh' hsh
  obtain ⟨x', p', wr', b1, b2, b3, b4, b5⟩ := heard_run h5 a1 a2 a3
  rw [hes, List.append_nil] at b3
  refine ⟨x', b1, ?_⟩
  have : p'.getFailed d.w.redundancyFailed = false := by
    rw [Bool.eq_false_iff, ne_eq, C49_decision b3, show d.w.redundancyFailed = [] from hred]
    rintro (⟨_, h⟩ | h | ⟨_, h | h | h | h | h⟩)
    · cases h
    · rw [a6] at h; cases h
    · unfold Setup.Bad at h
      rw [show lastOf seenIn st.props.value [] = st.props.value from rfl, hv] at h
      cases h
    · exact hmg (a5.symm.trans h.1)
    · unfold Setup.Alarm at h
      rw [e3] at h
      cases h
    · unfold Setup.Unavailable at h
      rw [e2] at h
      cases h
    · cases h
  unfold Sensor.getFailed
  rw [b2]
  simp [this]

end

namespace Ex
section
attribute [local instance] binary64

/-- the object of the processor shows a critical alarm -/
def bus145 : BuildBus := { bus98 with passive := fun n => if n = "cpu" then cpuObject.answers {} else bus98.passive n }
def alarm145 : Found := ⟨"", files113, noConfig, asListed, bus145, 0, true⟩
def fan145 : DEvent := .signal "fan0" 1 (temp103 900)

/-- the daemon runs; then it is reloaded while the object of the processor shows an alarm; a message with a harmless reading comes -/
def life145 : List WEvent := [file123, .event fan145, .event (.tick 3)]
def after145 : List DEvent := [.signal "cpu" 1 (temp103 30), fan145]

/-- The first cycle after the reload commands 75% (191 of 255). -/
example : (((Whole.init world99).run {} (life145 ++ .reload alarm145 :: (after145 ++ [DEvent.tick 3]).map .event)).toOption.map sum123) =
    some ([(3, false)], 0, false, [.sysfsWrite "/sys/class/hwmon/pwm1" 51, .sysfsWrite "/sys/class/hwmon/pwm1" 191]) := by
  decide +kernel

theorem owner145 : FirstOwner cpuObject "xyz.openbmc_project.HwmonTempSensor" := ⟨_, rfl, List.mem_cons_self, by simp⟩

theorem showsAlarm145 : AlarmIs {} (cpuObject.object "xyz.openbmc_project.HwmonTempSensor") true :=
  (alarm_iff _ _ _).1 (by decide +kernel)

/-- what C145_reload asks of the configuration -/
def fit145 (c : Config) : Bool :=
  match c.pids.find? 3, c.zones.find? 3, c.sensors.find? "cpu" with
    | some conf, some zc, some sc =>
      decide (∃ e ∈ conf.entries, IsHeat e ∧ ∃ i ∈ e.2.inputs, i.name = "cpu") &&
      decide (∀ e ∈ conf.entries, ∀ i ∈ e.2.inputs, i.name = "cpu" → i.missingIsAcceptable = false) &&
      decide (∀ e ∈ conf.entries, e.2.failSafePercent ≠ nan) && decide (zc.failsafePercent = 75) &&
      decide (KnownType sc.type ∧ sc.type ≠ "margin") && decide (getReadInterfaceType sc.readPath = .dbusPassive) &&
      sc.unavailableAsFailed && !sc.ignoreFailIfHostOff
    | _, _, _ => false

structure Fit145 (c : Config) : Prop where
  zone : ∃ conf zc sc, c.pids.find? 3 = some conf ∧ c.zones.find? 3 = some zc ∧ c.sensors.find? "cpu" = some sc ∧
    MustRead conf.entries "cpu" ∧ (∀ e ∈ conf.entries, e.2.failSafePercent ≠ nan) ∧ zc.failsafePercent = 75 ∧
    KnownType sc.type ∧ sc.type ≠ "margin" ∧ ReadKind sc.readPath .dbusPassive ∧ sc.unavailableAsFailed = true ∧
    sc.ignoreFailIfHostOff = false

theorem fit_of {c : Config} (h : fit145 c = true) : Fit145 c := by
  unfold fit145 at h
  refine ⟨?_⟩
  split at h
  · next conf zc sc e1 e2 e3 =>
    simp only [Bool.and_eq_true, decide_eq_true_eq, Bool.not_eq_true'] at h
    obtain ⟨⟨⟨⟨⟨⟨⟨k1, k2⟩, k3⟩, k4⟩, k5⟩, k6⟩, k7⟩, k8⟩ := h
    exact ⟨conf, zc, sc, e1, e2, e3, ⟨k1, k2⟩, k3, k4, k5.1, k5.2, (C65_read _ _).1 k6, k7, k8⟩
  · cases h

theorem read145 : ∃ c, alarm145.read = .got c ∧ Fit145 c := by
  have h : (match alarm145.read with | .got c => fit145 c | _ => false) = true := by decide +kernel
  split at h
  · next c e => exact ⟨c, e, fit_of h⟩
  · cases h

/-- C145_reload for this life -/
example : ∃ s s' zc conf p, (Whole.init world99).run {} (life145 ++ .reload alarm145 :: after145.map .event) = .ok s ∧
    s.step {} (.event (.tick 3)) = .ok s' ∧ PercentFor zc conf "cpu" p ∧ zc.failsafePercent = 75 ∧
    FansAtLeast conf (p / 100) s.d.w s'.d.w := by
  obtain ⟨s, hs, hP⟩ := ok_of_any (x := (Whole.init world99).run {} (life145 ++ .reload alarm145 :: after145.map .event))
    (P := fun s : Whole => !s.again && s.idle.isEmpty && !s.d.zones.isEmpty && (s.step {} (.event (.tick 3))).toOption.isSome)
    (by decide +kernel)
  simp only [Bool.and_eq_true, Bool.not_eq_true', List.isEmpty_iff] at hP
  obtain ⟨c, hc, hf⟩ := read145
  obtain ⟨conf, zc, sc, e1, e2, e3, k1, k2, k3, k4, -, k5, k6, k7⟩ := hf.zone
  cases hst : s.step {} (.event (.tick 3)) with
  | error e => rw [hst] at hP; cases hP.2
  | ok s' =>
    obtain ⟨p, g1, g2⟩ := C145_reload (o := {}) rfl hc e1 e2 k1 k2 (by rw [k3]; decide +kernel)
      e3 k4 k5 k6 k7 (b := cpuObject) rfl owner145 showsAlarm145 hs ⟨hP.1.1.1, hP.1.1.2, hP.1.2⟩ (by decide +kernel) rfl hst
    exact ⟨s, s', zc, _, p, hs, hst, g1, k3, g2⟩

/-- the sensor tells that it is not functional -/
def broken145 : WEvent := .event (.signal "cpu" 1 ⟨ifOperational, ({} : OMap String Variant).insert "Functional" (.bool false)⟩)

/-- C145_broken_forgotten: the message that the sensor is not functional raises the fan to 75%; after a reload the fan goes back to
20% (51 of 255), although the sensor did not withdraw the message. -/
example : (((Whole.init world99).run {} (life145 ++ [broken145, .event (.tick 3), .event (.tick 3), .event (.tick 3), file123,
      .event fan145, .event (.tick 3)])).toOption.map sum123) = some ([(3, false)], 0, false, [.sysfsWrite "/sys/class/hwmon/pwm1" 51, .sysfsWrite "/sys/class/hwmon/pwm1" 51,
        .sysfsWrite "/sys/class/hwmon/pwm1" 191, .sysfsWrite "/sys/class/hwmon/pwm1" 191, .sysfsWrite "/sys/class/hwmon/pwm1" 51]) := by
  decide +kernel

/-- the object of the processor shows 42.5 degrees and no alarm -/
def calmObject : SensorBus := { cpuObject with
  object := fun s => { cpuObject.object s with
    critical := none } }
def calm145 : Found := ⟨"", files113, noConfig, asListed,
  { bus98 with passive := fun n => if n = "cpu" then calmObject.answers {} else bus98.passive n }, 0, true⟩

theorem showsCalm145 : ∃ r : SensorProperties, Shows {} (calmObject.object "xyz.openbmc_project.HwmonTempSensor") r.scale r.value
    r.min r.max true false ∧ r.value.isFinite = true := by
  obtain ⟨r, h, hP⟩ := ok_of_any (x := readSensor {} (calmObject.object "xyz.openbmc_project.HwmonTempSensor"))
    (P := fun r : SensorProperties × Bool => r.1.value.isFinite && r.1.available && !r.2) (by decide +kernel)
  simp only [Bool.and_eq_true, Bool.not_eq_true'] at hP
  have := ((readSensor_iff _ _ r).1 h).1
  rw [hP.1.2, hP.2] at this
  exact ⟨r.1, this, hP.1.1⟩

example : ∃ s x, (Whole.init world99).run {} (life145 ++ [broken145] ++ .reload calm145 :: [DEvent.tick 3].map .event) = .ok s ∧
    s.d.w.sensors.find? "cpu" = some x ∧ x.getFailed s.d.w = .ok false := by
  obtain ⟨s, hs, hP⟩ := ok_of_any
    (x := (Whole.init world99).run {} (life145 ++ [broken145] ++ .reload calm145 :: [DEvent.tick 3].map .event))
    (P := fun s : Whole => !s.again && s.idle.isEmpty && !s.d.zones.isEmpty && s.d.w.redundancyFailed.isEmpty) (by decide +kernel)
  simp only [Bool.and_eq_true, Bool.not_eq_true', List.isEmpty_iff] at hP
  obtain ⟨c, hc, hf⟩ := read145
  obtain ⟨conf, zc, sc, e1, e2, e3, k1, k2, k3, k4, k4', k5, k6, k7⟩ := hf.zone
  obtain ⟨r, g1, g2⟩ := showsCalm145
  obtain ⟨x, g3, g4⟩ := C145_broken_forgotten (o := {}) (r := calm145) hc e3 k4 k4' k5 (b := calmObject) rfl
    ⟨_, rfl, List.mem_cons_self, by simp⟩ g1 g2 hs ⟨hP.1.1.1, hP.1.1.2, hP.1.2⟩ rfl hP.2
  exact ⟨s, x, hs, g3, g4⟩

end
end Ex
end Verif
