import Verif.Spec.Unbroken
import Verif.Props.NeverStops
import Verif.Props.Whole
import Verif.Props.Lifelong

/-! # C144: the process never breaks down in its whole life -/

namespace Verif
open Dbl

section
variable [F : FloatModel]

/-! ## Writers that say what they wrote -/

/-- the writers for D-Bus -/
def Reporting (wr : Writer) : Prop := (∃ p lo hi old, wr = .dbusPercent p lo hi old) ∨ ∃ p old, wr = .dbusRaw p old

def Reports (w : World) (n : String) : Prop :=
  ∃ s rd wr, w.sensors.find? n = some s ∧ s.impl = .pluggable rd wr ∧ Reporting wr

theorem reporting_write {wr : Writer} (h : Reporting wr) {v : Dbl} {busOk : String → Bool} {force : Bool} {r : WriteResult}
    (hw : wr.write busOk v force = .ok r) : Reporting r.writer ∧ ∃ raw, r.written = some raw := by
  rcases h with ⟨p, lo, hi, old, rfl⟩ | ⟨p, old, rfl⟩
  · obtain ⟨raw, g1, ⟨_, hf, rfl⟩ | ⟨_, u', g2, rfl⟩⟩ := dbusTail_spec hw
    · exact ⟨.inl ⟨_, _, _, _, rfl⟩, _, rfl⟩
    · exact ⟨.inl ⟨_, _, _, _, rfl⟩, _, rfl⟩
  · obtain ⟨raw, g1, ⟨_, hf, rfl⟩ | ⟨_, u', g2, rfl⟩⟩ := dbusTail_spec hw
    · exact ⟨.inr ⟨_, _, rfl⟩, _, rfl⟩
    · exact ⟨.inr ⟨_, _, rfl⟩, _, rfl⟩

theorem reports_write {w w' : World} {m sn : String} {v : Dbl} {force : Bool} {x : Option Int}
    (hw : w.writeSensor m v force = .ok (w', sn, x)) {n : String} (h : Reports w n) : Reports w' n := by
  obtain ⟨s', rd', wr', res, hs', hii, hres, _, _, hw'⟩ := writeSensor_spec hw
  obtain ⟨s, rd, wr, h1, h2, h3⟩ := h
  have hse : w'.sensors = w.sensors.insert m ⟨s'.name, s'.timeout, s'.ignoreFailIfHostOff, .pluggable rd' res.writer⟩ := by
    rw [hw']
  by_cases e : n = m
  · subst e
    rw [hs'] at h1
    cases h1
    rw [hii] at h2
    cases h2
    exact ⟨_, _, _, by rw [hse, OMap.find?_insert_self], rfl, (reporting_write h3 hres).1⟩
  · exact ⟨s, rd, wr, by rw [hse, OMap.find?_insert_ne _ e]; exact h1, h2, h3⟩

theorem reports_commanded {v : Dbl} {force : Bool} {w w' : World} {ns : List String} (hc : Commanded v force w ns w') {n : String}
    (h : Reports w n) : Reports w' n := by
  induction hc with
  | nil w => exact h
  | cons g1 _ ih => exact ih (reports_write g1 h)

theorem reports_drives {force : Bool} {w w' : World} {l : List (FanPid × Dbl)} (hd : Drives force w l w') {n : String}
    (h : Reports w n) : Reports w' n := by
  induction hd with
  | nil w => exact h
  | cons g1 _ ih => exact ih (reports_commanded g1 h)

theorem reports_set {d : Daemon} {n : String} (h : Reports d.w n) {k : String} {s s' : Sensor} (hs : d.w.sensors.find? k = some s)
    (hi' : ∀ rd wr, s.impl = .pluggable rd wr → ∃ rd', s'.impl = .pluggable rd' wr) : Reports (d.setSensor k s').w n := by
  obtain ⟨s0, rd, wr, h1, h2, h3⟩ := h
  by_cases e : n = k
  · subst e
    rw [hs] at h1
    cases h1
    obtain ⟨rd', h4⟩ := hi' rd wr h2
    exact ⟨s', rd', wr, OMap.find?_insert_self _ _ _, h4, h3⟩
  · exact ⟨s0, rd, wr, (OMap.find?_insert_ne _ e _).trans h1, h2, h3⟩

theorem reports_step {o : Opts} {d d' : Daemon} {e : DEvent} (hst : d.step o e = .ok d') {n : String} (h : Reports d.w n) :
    Reports d'.w n := by
  cases e with
  | outside nf nt ho rf fi bo => cases hst; exact h
  | signal k t msg =>
    have hst : d.signal o k t msg = .ok d' := hst
    unfold Daemon.signal at hst
    split at hst
    · next s hs =>
      split at hst
      · next q wr hi =>
        obtain ⟨p', _, hst⟩ := bind_eq_ok.1 hst
        cases hst
        refine reports_set h hs (fun rd wr' e => ?_)
        rw [hi] at e
        cases e
        exact ⟨_, rfl⟩
      · cases hst; exact h
    · cases hst; exact h
  | hostWrite k t v =>
    simp only [Daemon.step] at hst
    split at hst
    · next s hs =>
      cases hst
      refine reports_set h hs (fun rd wr e => ?_)
      refine ⟨rd, ?_⟩
      unfold Sensor.hostWrite
      split
      · next hh => rw [hh] at e; cases e
      · exact e
    · cases hst; exact h
  | manual j b => cases hst; rw [onZone_w]; exact h
  | enable j l b => cases hst; rw [onZone_w]; exact h
  | tick j =>
    simp only [Daemon.step] at hst
    split at hst
    · next z cnt hj =>
      obtain ⟨⟨w', z', cnt'⟩, g1, hst⟩ := bind_eq_ok.1 hst
      cases hst
      by_cases hm : z.d.manualMode = true
      · rw [tick_manual hm] at g1; cases g1; exact h
      obtain ⟨d, _, ⟨-, zt, -, g3, -⟩ | ⟨-, g3, -⟩⟩ := tick_auto (by simpa using hm) g1
      · obtain ⟨l, _, _, a3, _⟩ := processFans_spec g3
        exact reports_drives a3 h
      · obtain ⟨l, _, _, a3, _⟩ := processFans_spec g3
        exact reports_drives a3 h
    · cases hst; exact h

theorem reports_run {o : Opts} : ∀ {es : List DEvent} {d d' : Daemon}, d.run o es = .ok d' → ∀ {n : String}, Reports d.w n →
    Reports d'.w n
  | [], d, d', h, n, hw => by cases h; exact hw
  | e :: es, d, d', h, n, hw => by
    obtain ⟨d1, g1, g2⟩ := bind_eq_ok.1 h
    exact reports_run g2 (reports_step g1 hw)

theorem reports_launched {o : Opts} {bus : BuildBus} {now : Int} {w : World} {sensors : OMap String SensorConfig}
    {pids : OMap Int PIDConf} {configs : OMap Int ZoneConfig} {m : Manager} {zones : OMap Int Zone} {d : Daemon} (hw : sensors.WF)
    (h : Launched o bus now w sensors pids configs m zones d) {n : String} {c : SensorConfig} (hc : sensors.find? n = some c)
    (ht : c.type = "fan") (hk : WriteKind c.writePath .dbusActive) : Reports d.w n := by
  obtain ⟨s, hs, hm⟩ := (C98_as_configured hw h.made n).2 c hc (by rw [ht]; simp)
  have hs : d.w.sensors.find? n = some s := by rw [h.world]; exact hs
  have hk' := (C65_write _ _).2 hk
  cases hm with
  | fan _ _ hwr =>
    refine ⟨_, _, _, hs, rfl, ?_⟩
    cases hwr with
    | sysfsPercent h1 _ _ => rw [(C65_write _ _).2 h1] at hk'; cases hk'
    | sysfsRaw h1 _ _ => rw [(C65_write _ _).2 h1] at hk'; cases hk'
    | dbusPercent _ _ => exact .inl ⟨_, _, _, _, rfl⟩
    | dbusRaw _ _ => exact .inr ⟨_, _, rfl⟩
    | nothing h1 => rcases h1 with h1 | h1 <;> (rw [(C65_write _ _).2 h1] at hk'; cases hk')
  | external he =>
    have := he.1
    rw [ht] at this
    simp at this
  | thermal h1 _ _ =>
    rw [ht] at h1
    simp at h1

/-! ## Zones that can be destroyed -/

theorem writeSensor_reports {w : World} {n : String} {v : Dbl} (h0 : 0 ≤ v) (h1 : v ≤ 1) (force : Bool) (hf : WritersFine w)
    (hr : Reports w n) : ∃ w' sn raw, w.writeSensor n v force = .ok (w', sn, some raw) := by
  obtain ⟨s, rd, wr, g1, g2, g3⟩ := hr
  have hn : wr ≠ .null := by rcases g3 with ⟨_, _, _, _, rfl⟩ | ⟨_, _, rfl⟩ <;> simp
  unfold World.writeSensor World.getSensor
  simp only [OMap.atKey_of_find? g1, ok_bind, g2]
  rcases write_total (busOk := w.busOk) hn v force with ⟨r, h4, -⟩ | ⟨e, h4, h5⟩
  · obtain ⟨-, raw, hraw⟩ := reporting_write g3 h4
    rw [h4, ok_bind, hraw]
    exact ⟨_, _, raw, rfl⟩
  · exact absurd h4 (fine_write_error (hf _ _ _ _ g1 g2) h0 h1 h5)

theorem writeFans_reports {v : Dbl} (h0 : 0 ≤ v) (h1 : v ≤ 1) (raw0 : Res Int) : ∀ (ns : List String) (w : World) (z : ZoneData),
    WritersFine w → (∀ n ∈ ns, Reports w n) → ∃ w' z', writeFans raw0 v w z ns = .ok (w', z')
  | [], w, z, _, _ => ⟨w, z, rfl⟩
  | n :: ns, w, z, hf, hr => by
    obtain ⟨w', sn, raw, g⟩ := writeSensor_reports h0 h1 z.redundantWrite hf (hr n List.mem_cons_self)
    unfold writeFans
    rw [g, ok_bind]
    exact writeFans_reports h0 h1 raw0 ns w' _ (writersFine_write hf g)
      (fun m hm => reports_write g (hr m (List.mem_cons_of_mem _ hm)))

theorem destroyFans_total {o : Opts} : ∀ (cs : List (Option FanPid)) (w : World) (z : ZoneData),
    (cs ≠ [] → Percentage z.getFailSafePercent) → WritersFine w → (∀ f, some f ∈ cs → ∀ n ∈ f.inputs, Reports w n) →
    ∃ w' z', Zone.destroyFans o w z cs = .ok (w', z') ∧ WritersFine w' ∧ ∀ n, Reports w n → Reports w' n
  | [], w, z, _, hf, _ => ⟨w, z, rfl, hf, fun _ h => h⟩
  | none :: cs, w, z, hp, hf, hr => by
    unfold Zone.destroyFans
    exact destroyFans_total cs w z (fun _ => hp (by simp)) hf (fun f hfm => hr f (List.mem_cons_of_mem _ hfm))
  | some c :: cs, w, z, hp, hf, hr => by
    unfold Zone.destroyFans FanPid.destroy
    split_ifs
    · rw [ok_bind]
      exact destroyFans_total cs w z (fun _ => hp (by simp)) hf (fun f hfm => hr f (List.mem_cons_of_mem _ hfm))
    · obtain ⟨a, b⟩ := percentage_fraction (hp (by simp))
      obtain ⟨w1, z1, g⟩ := writeFans_reports a b (.error (.ub "uninitialised value read")) c.inputs w z hf (hr c List.mem_cons_self)
      obtain ⟨g1, g2⟩ := writeFans_spec g
      rw [g, ok_bind]
      have hz : z1.getFailSafePercent = z.getFailSafePercent := by rw [g2]; rfl
      obtain ⟨w', z', k1, k2, k3⟩ := destroyFans_total (o := o) cs w1 z1 (fun _ => by rw [hz]; exact hp (by simp)) (writersFine_commanded g1 hf)
        (fun f hfm n hn => reports_commanded g1 (hr f (List.mem_cons_of_mem _ hfm) n hn))
      exact ⟨w', z', k1, k2, fun n hn => k3 n (reports_commanded g1 hn)⟩

theorem destroyZones_total {o : Opts} : ∀ (zs : List Zone) (w : World), WritersFine w →
    (∀ z ∈ zs, Percentage z.d.getFailSafePercent ∧ ∀ f, some f ∈ z.fans → ∀ n ∈ f.inputs, Reports w n) →
    ∃ w', destroyZones o w zs = .ok w'
  | [], w, _, _ => ⟨w, rfl⟩
  | z :: zs, w, hf, hz => by
    obtain ⟨w1, z1, g1, g2, g3⟩ := destroyFans_total (o := o) z.fans w z.d (fun _ => (hz z List.mem_cons_self).1) hf (hz z List.mem_cons_self).2
    unfold destroyZones
    rw [g1, ok_bind]
    exact destroyZones_total zs w1 g2 (fun z' hz' => ⟨(hz z' (List.mem_cons_of_mem _ hz')).1,
      fun f hfm n hn => g3 n ((hz z' (List.mem_cons_of_mem _ hz')).2 f hfm n hn)⟩)

/-- a daemon that runs with a sound configuration can be stopped -/
theorem stops_total {o : Opts} {c : Config} (hs : c.Sound o) {bus : BuildBus} {now : Int} {w : World}
    (hfi : FilesOk o bus.dirs c.sensors w.files) {d : Daemon} (hl : Daemon.launch o bus now w c.sensors c.pids c.zones = .ok d)
    {es : List DEvent} (hes : ∀ e ∈ es, EventOk o bus.dirs c.sensors e) {d1 : Daemon} (hr : d.run o es = .ok d1) :
    ∃ w', destroyZones o d1.w (d1.zones.entries.map (fun e => e.2.1)) = .ok w' := by
  cases ho : o.offlineFailsafePwm with
  | false => exact ⟨_, destroyZones_nothing ho _ _⟩
  | true =>
    obtain ⟨m, zones, hL⟩ := launch_spec hl
    have hi := dinv_run hs.suits hL.built (launched_inv hs.suits hfi hL) hes hr
    refine destroyZones_total _ _ (writersFine_run hr (writersFine_launched hs.suits.sensorsWf hL hs.limits)) (fun z hz => ?_)
    obtain ⟨e, he, rfl⟩ := List.mem_map.1 hz
    have hf := (OMap.mem_entries_iff (run_wf (launch_wf hl) hr) e.1 e.2).1 he
    obtain ⟨zb, log, h1, h2, h3⟩ := hi.zones e.1 e.2.1 e.2.2 hf
    obtain ⟨conf, zc, hp, hzc, hN, -⟩ := suits_newZone hs.suits hL.built h1
    obtain ⟨g2, g3⟩ := (hs.zones _ _ _ hp hzc).failsafe
    refine ⟨failSafePercent_percentage h2.inv ⟨fun s => ?_, by rw [hN.failsafePercent]; exact g3⟩, fun f hfm n hn => ?_⟩
    · exact (percentOf_of hN (percentsFor_ne_nan (fun e he => ne_nan_of_le_left (g2 e he).2) s)).holds g2 g3
    · obtain ⟨g, hg, hin⟩ := h3.fans _ hfm
      cases hg
      have hin := hin n hn
      rw [h2.inv.same.1, hN.fanInputs] at hin
      obtain ⟨e', he', hx⟩ := List.mem_flatMap.1 hin
      obtain ⟨x, hx', rfl⟩ := List.mem_map.1 hx
      rw [List.mem_filter] at he'
      obtain ⟨s, k1, k2, k3⟩ := hs.offline ho _ _ hp e' he'.1 (by simpa using he'.2) x hx'
      exact reports_run hr (reports_launched hs.suits.sensorsWf hL k1 k2 k3)

/-! ## The whole life -/

/-- without zones nothing can go wrong -/
theorem empty_total {o : Opts} {d : Daemon} (hd : d.zones.isEmpty = true) {e : DEvent} (he : WellTyped e) :
    ∃ d', d.step o e = .ok d' := by
  cases e with
  | outside | manual | enable => exact ⟨_, rfl⟩
  | hostWrite n t v =>
    simp only [Daemon.step]
    split <;> exact ⟨_, rfl⟩
  | tick i =>
    simp only [Daemon.step]
    rw [(OMap.isEmpty_iff _).1 hd i]
    exact ⟨_, rfl⟩
  | signal n t m =>
    show ∃ d', d.signal o n t m = .ok d'
    unfold Daemon.signal
    split
    · split
      · cases hh : handleSensorValue o _ t m with
        | ok p => exact ⟨_, rfl⟩
        | error x => exact absurd (handle_error hh).2 he
      · exact ⟨_, rfl⟩
    · exact ⟨_, rfl⟩

/-- sensors are made or they are not, but nothing undefined happens -/
theorem buildSensors_defined {o : Opts} {bus : BuildBus} {now : Int} {config : OMap String SensorConfig} {why : String} :
    buildSensors o bus now config ≠ .error (.ub why) := by
  have hfix : ∀ p, fixupPath bus.dirs p ≠ .error (.ub why) := by
    intro p h
    unfold fixupPath at h
    split at h
    · cases h
    · dsimp only at h
      split at h <;> cases h
  have hone : ∀ name info, buildSensor o bus now name info ≠ .error (.ub why) := by
    intro name info h
    unfold buildSensor at h
    rcases bind_eq_err.1 h with h | ⟨ri, -, h⟩
    · unfold buildReader at h
      split at h
      · split at h <;> cases h
      · cases h
      · rcases bind_eq_err.1 h with h | ⟨p, -, h⟩
        · exact hfix _ h
        · cases h
      · cases h
    · split_ifs at h
      · rcases bind_eq_err.1 h with h | ⟨wi, -, h⟩
        · unfold buildWriter at h
          split at h
          · rcases bind_eq_err.1 h with h | ⟨p, -, h⟩
            · exact hfix _ h
            · split_ifs at h
          · split_ifs at h
            cases h
          · cases h
        · cases h
  have key : ∀ (l : List (String × SensorConfig)) (m : Manager), buildSensorsLoop o bus now m l ≠ .error (.ub why) := by
    intro l
    induction l with
    | nil => intro m h; cases h
    | cons e l ih =>
      intro m h
      unfold buildSensorsLoop at h
      rcases bind_eq_err.1 h with h | ⟨x, -, h⟩
      · exact hone _ _ h
      · cases x with
        | none => exact ih _ h
        | some s => exact ih _ h
  exact key _ _

/-- what is true of the daemon between any two events -/
inductive Alive (o : Opts) (w0 : World) (es : List WEvent) (s : Whole) : Prop
  | idle : s.d.zones.isEmpty = true → s.idle = [] → Alive o w0 es s
  | runs {pre : List WEvent} {r : Found} {post : List DEvent} {c : Config} {w : World} {s1 : Whole} :
      es = pre ++ .reload r :: post.map .event → r.read = .got c → c.Sound o → FilesOk o r.bus.dirs c.sensors w.files →
      Daemon.launch o r.bus r.now w c.sensors c.pids c.zones = .ok s1.d → (Whole.init w0).run o (pre ++ [.reload r]) = .ok s1 →
      s1.d.run o post = .ok s.d → s.idle = [] → Alive o w0 es s

theorem Kindly.left {o : Opts} {w0 : World} {es es' : List WEvent} (h : Kindly o w0 (es ++ es')) : Kindly o w0 es where
  found r hr := h.found r (List.mem_append_left _ hr)
  files pre r post s c he := h.files pre r (post ++ es') s c (by rw [he]; simp)
  events pre e post he := h.events pre e (post ++ es') (by rw [he]; simp)
  speeds pre i post s r c conf he := h.speeds pre i (post ++ es') s r c conf (by rw [he]; simp)

/-- the events since the last reload are harmless -/
theorem kindly_events {o : Opts} {w0 : World} {pre : List WEvent} {r : Found} {post : List DEvent}
    (h : Kindly o w0 (pre ++ .reload r :: post.map .event)) {c : Config} (hr : r.read = .got c) :
    ∀ e ∈ post, EventOk o r.bus.dirs c.sensors e ∧ WellTyped e := by
  intro e he
  obtain ⟨a, b, rfl⟩ := List.append_of_mem he
  obtain ⟨h1, h2⟩ := h.events (pre ++ .reload r :: a.map .event) e (b.map .event) (by simp)
  exact ⟨h2 r c ⟨pre, a, rfl, hr⟩, h1⟩

theorem alive_stop {o : Opts} {w0 : World} {es : List WEvent} (hk : Kindly o w0 es) {s : Whole} (h : Alive o w0 es s) :
    ∃ w, s.stop o = .ok w := by
  unfold Whole.stop
  cases h with
  | idle h1 h2 =>
    have : s.d.zones.entries = [] := by simpa [OMap.isEmpty] using h1
    rw [this, h2]
    exact ⟨_, rfl⟩
  | runs h1 h2 h3 h4 h5 h6 h7 h8 =>
    subst h1
    rw [h8, List.append_nil]
    exact stops_total h3 h4 h5 (fun e he => (kindly_events hk h2 e he).1) h7

theorem alive_event {o : Opts} (ho : o.tuningEnabled = false) {w0 : World} {es : List WEvent} {e : DEvent}
    (hk : Kindly o w0 (es ++ [.event e])) {s : Whole} (h : Alive o w0 es s) :
    ∃ d, s.d.step o e = .ok d ∧ Alive o w0 (es ++ [.event e])
      { s with
        d := d } := by
  cases h with
  | idle h1 h2 =>
    obtain ⟨d, hd⟩ := empty_total (o := o) h1 (hk.events es e [] rfl).1
    exact ⟨d, hd, .idle (by rw [← h1]; exact empty_step hd) h2⟩
  | @runs pre r post c w s1 h1 h2 h3 h4 h5 h6 h7 h8 =>
    subst h1
    have hk' : Kindly o w0 (pre ++ .reload r :: (post ++ [e]).map .event) := by
      rw [List.map_append]; simpa using hk
    obtain ⟨d, hd⟩ := C130_never_stops ho h3.suits h3.limits h3.zones h4 h5 (es := post ++ [e]) (kindly_events hk' h2)
      (fun i conf hp f hf hF es1 es2 d1 he hrun ha v hv => by
        have hrun' : (Whole.init w0).run o (pre ++ .reload r :: es1.map .event) = .ok ⟨d1, s1.idle, s1.hosts, s1.again⟩ := by
          have : pre ++ .reload r :: es1.map WEvent.event = (pre ++ [.reload r]) ++ es1.map .event := by simp
          rw [this]
          exact wrun_append.2 ⟨s1, h6, wrun_events.2 ⟨d1, hrun, rfl⟩⟩
        exact hk'.speeds (pre ++ .reload r :: es1.map .event) i (es2.map .event) _ r c conf (by rw [he]; simp) hrun' ⟨pre, es1, rfl, h2⟩
          ha hp f hf hF v hv)
    obtain ⟨d1, g1, g2⟩ := run_append.1 hd
    rw [h7] at g1
    cases g1
    have g2' : s.d.step o e = .ok d := by
      unfold Daemon.run at g2
      obtain ⟨d2, k1, k2⟩ := bind_eq_ok.1 g2
      cases k2
      exact k1
    refine ⟨d, g2', .runs (pre := pre) (r := r) (post := post ++ [e]) (by simp) h2 h3 h4 h5 h6 hd h8⟩

theorem alive_reload {o : Opts} {w0 : World} {es : List WEvent} {r : Found} (hk : Kindly o w0 (es ++ [.reload r])) {s : Whole}
    (hs : (Whole.init w0).run o es = .ok s) (h : Alive o w0 es s) :
    ∃ s', s.reload o r = .ok s' ∧ Alive o w0 (es ++ [.reload r]) s' := by
  obtain ⟨w, hw⟩ := alive_stop hk.left h
  have hhalt : ∀ b, Alive o w0 (es ++ [.reload r]) (s.halted w b) := fun b => .idle rfl rfl
  have hre : s.reload o r = match r.read with
      | .got c => s.rebuild o r w c
      | .wait => .ok (s.halted w false)
      | .again _ => .ok (s.halted w true)
      | .ended why => .error (.exc why)
      | .undefined why => .error (.ub why) := by
    unfold Whole.reload
    rw [hw, ok_bind]
    rfl
  cases hk.found r (by simp) with
  | wait hr => exact ⟨_, by rw [hre, hr], hhalt _⟩
  | again hr => exact ⟨_, by rw [hre, hr], hhalt _⟩
  | @got c hr hc =>
    have hfi : FilesOk o r.bus.dirs c.sensors w.files := by
      have := hk.files es r [] s c rfl hs hr
      have hfe : w.files = s.d.w.files := by rw [(stop_after hw).same]
      rw [hfe]; exact this
    by_cases hcl : (r.refuses && ((hostObjects c.sensors).map Prod.fst).any (s.hosts.contains ·)) = true
    · exact ⟨_, by rw [hre, hr]; dsimp only; unfold Whole.rebuild; rw [if_pos hcl], hhalt _⟩
    · cases hb : buildSensors o r.bus r.now c.sensors with
      | error x =>
        cases x with
        | exc why => exact ⟨_, by rw [hre, hr]; dsimp only; unfold Whole.rebuild; rw [if_neg hcl, hb], hhalt _⟩
        | ub why => exact absurd hb buildSensors_defined
      | ok m =>
        obtain ⟨d, hd⟩ := C99_launches (now := r.now) hc.suits ((C98_all_or_nothing hc.suits.sensorsWf).1 ⟨m, hb⟩) hfi
        have hrun : attempt o r.conf r.files r.objects r.order r.bus r.now w = .running d := by
          rw [attempt_read hr, launched_running]; exact hd
        obtain ⟨s', k1, k2, k3⟩ := C123_reloads hw hrun (fun p hp hcp => hcl (by
          obtain ⟨a, c', b1, n, b2⟩ := hcp
          rw [hr] at b1
          cases b1
          rw [Bool.and_eq_true]
          exact ⟨a, List.any_eq_true.2 ⟨p, List.mem_map.2 ⟨_, b2, rfl⟩, by simpa using hp⟩⟩))
        refine ⟨s', k1, .runs (pre := es) (post := []) rfl hr hc hfi (s1 := s') (by rw [k3]; exact hd)
          (wrun_append.2 ⟨s, hs, ?_⟩) rfl k2.2.1⟩
        show (s.reload o r >>= fun s => Whole.run o s []) = .ok s'
        rw [k1]
        rfl

theorem alive_run {o : Opts} (ho : o.tuningEnabled = false) {w0 : World} {es : List WEvent} (hk : Kindly o w0 es) :
    ∃ s, (Whole.init w0).run o es = .ok s ∧ Alive o w0 es s := by
  induction es using List.reverseRecOn with
  | nil => exact ⟨_, rfl, .idle rfl rfl⟩
  | append_singleton es e ih =>
    obtain ⟨s, h1, h2⟩ := ih hk.left
    cases e with
    | event e =>
      obtain ⟨d, h3, h4⟩ := alive_event ho hk h2
      refine ⟨_, wrun_append.2 ⟨s, h1, ?_⟩, h4⟩
      unfold Whole.run Whole.step
      dsimp only
      rw [h3]
      rfl
    | reload r =>
      obtain ⟨s', h3, h4⟩ := alive_reload hk h1 h2
      refine ⟨s', wrun_append.2 ⟨s, h1, ?_⟩, h4⟩
      show (s.reload o r >>= fun s => Whole.run o s []) = .ok s'
      rw [h3]
      rfl

/-- **C144** The process never breaks down in its whole life: through any number of reloads, whatever they find (one sound
configuration after the other, nothing yet, or a configuration that fails because a sensor or a service is not there yet or the
bus refuses an object), and through all events between them. And whenever it is told to, it ends in order. -/
theorem C144_unbroken {o : Opts} (ho : o.tuningEnabled = false) {w0 : World} {es : List WEvent} (hk : Kindly o w0 es) :
    ∃ s, (Whole.init w0).run o es = .ok s ∧ ∃ w, s.terminate o = .ok w := by
  obtain ⟨s, h1, h2⟩ := alive_run ho hk
  exact ⟨s, h1, alive_stop hk h2⟩

theorem run_keeps_zone {o : Opts} {i : Int} : ∀ {es : List DEvent} {d d' : Daemon}, d.run o es = .ok d' →
    (∃ x, d.zones.find? i = some x) → ∃ x, d'.zones.find? i = some x
  | [], d, d', h, hx => by cases h; exact hx
  | e :: es, d, d', h, hx => by
    obtain ⟨d1, g1, g2⟩ := bind_eq_ok.1 h
    obtain ⟨x, hx⟩ := hx
    obtain ⟨z', c', k, -⟩ := step_zone g1 (z := x.1) (cnt := x.2) hx
    exact run_keeps_zone g2 ⟨_, k⟩

/-- **C144** And all zones run or none does: a configuration is never in force half. -/
theorem C144_all_or_none {o : Opts} (ho : o.tuningEnabled = false) {w0 : World} {es : List WEvent} (hk : Kindly o w0 es) {s : Whole}
    (h : (Whole.init w0).run o es = .ok s) :
    s.idle = [] ∧ (s.NoneRuns ∨ ∃ r c, InForce es r c ∧ ∀ i, (∃ conf, c.pids.find? i = some conf) ↔ ∃ x, s.d.zones.find? i = some x) := by
  obtain ⟨s', h1, h2⟩ := alive_run ho hk
  rw [h] at h1
  cases h1
  cases h2 with
  | idle h1 h2 => exact ⟨h2, .inl h1⟩
  | @runs pre r post c w s1 g1 g2 g3 g4 g5 g6 g7 g8 =>
    refine ⟨g8, .inr ⟨r, c, ⟨pre, post, g1, g2⟩, fun i => ?_⟩⟩
    subst g1
    obtain ⟨m, zones, hL⟩ := launch_spec g5
    constructor
    · rintro ⟨conf, hp⟩
      obtain ⟨h1, -⟩ := buildZoneList_find? (OMap.wf_nodup g3.suits.pidsWf) hL.built i
      obtain ⟨z, hz, -⟩ := h1 conf ((OMap.mem_entries_iff g3.suits.pidsWf i conf).2 hp)
      obtain ⟨z0, -, hz0⟩ := hL.started i z hz
      exact run_keeps_zone g7 ⟨_, hz0⟩
    · rintro ⟨x, hx⟩
      have hi := dinv_run g3.suits hL.built (launched_inv g3.suits g4 hL) (fun e he => (kindly_events hk g2 e he).1) g7
      obtain ⟨zb, log, h1, -⟩ := hi.zones i x.1 x.2 hx
      obtain ⟨conf, -, hp, -⟩ := suits_newZone g3.suits hL.built h1
      exact ⟨conf, hp⟩

end

namespace Ex
section
attribute [local instance] binary64

/-- a check whether a configuration of fan and temperature loops over sensors on the bus is sound -/
def entryB (o : Opts) (c : Config) (e : Entry) : Bool :=
  decide (0 ≤ e.2.failSafePercent ∧ e.2.failSafePercent ≤ 100) && !e.2.inputs.isEmpty &&
    decide (e.2.pidInfo.slewNeg ≤ 0 ∧ 0 ≤ e.2.pidInfo.slewPos ∧ 0 ≤ e.2.pidInfo.ts) &&
    decide (e.2.pidInfo.outLim.min ≤ 1000 ∧ e.2.pidInfo.outLim.max ≤ 1000) &&
    e.2.inputs.all (fun x => (c.sensors.find? x.name).any (fun s =>
      decide (KnownType s.type) && decide (getReadInterfaceType s.readPath = .dbusPassive) &&
        (!o.offlineFailsafePwm || decide (e.2.type = "temp") ||
          decide (s.type = "fan") && decide (getWriteInterfaceType s.writePath = .dbusActive)))) &&
    (decide (e.2.type = "temp") || decide (e.2.type = "fan") &&
      decide (0 ≤ e.2.pidInfo.outLim.min ∧ e.2.pidInfo.outLim.min ≤ e.2.pidInfo.outLim.max ∧ e.2.pidInfo.outLim.max ≤ 100) &&
      [e.2.pidInfo.proportionalCoeff, e.2.pidInfo.integralCoeff, e.2.pidInfo.derivativeCoeff, e.2.pidInfo.feedFwdOffset,
        e.2.pidInfo.feedFwdGain, e.2.pidInfo.integralLimit.min, e.2.pidInfo.integralLimit.max, e.2.pidInfo.slewNeg,
        e.2.pidInfo.slewPos].all (fun x => decide (-1048576 ≤ x ∧ x ≤ 1048576)) && decide (e.2.pidInfo.ts = 1))

def soundB (o : Opts) (c : Config) : Bool :=
  decide (c.sensors.entries.Pairwise (fun a b => a.1 < b.1)) && decide (c.pids.entries.Pairwise (fun a b => a.1 < b.1)) &&
    !c.pids.entries.isEmpty &&
    c.sensors.entries.all (fun s => decide (0 ≤ s.2.min ∧ s.2.min ≤ s.2.max ∧ s.2.max ≤ 2 ^ 53 ∨ s.2.max ≤ 0) &&
      decide (getReadInterfaceType s.2.readPath = .dbusPassive)) &&
    c.pids.entries.all (fun p => decide (p.2.entries.Pairwise (fun a b => a.1 < b.1)) &&
      (c.zones.find? p.1).any (fun z => !z.accumulateSetPoint && decide (z.minThermalOutput ≤ 1000) &&
        decide (0 ≤ z.failsafePercent ∧ z.failsafePercent ≤ 100)) && p.2.entries.all (entryB o c))

theorem sound_of {o : Opts} {c : Config} (h : soundB o c = true) : c.Sound o ∧
    ∀ n s, c.sensors.find? n = some s → getReadInterfaceType s.readPath = .dbusPassive := by
  simp only [soundB, Bool.and_eq_true, decide_eq_true_eq, List.all_eq_true, Bool.not_eq_true'] at h
  obtain ⟨⟨⟨⟨h1, h2⟩, h3⟩, h4⟩, h5⟩ := h
  have hp : ∀ i conf, c.pids.find? i = some conf → (i, conf) ∈ c.pids.entries := fun i conf hi => (OMap.mem_entries_iff h2 _ _).2 hi
  have hs : ∀ n s, c.sensors.find? n = some s → (n, s) ∈ c.sensors.entries := fun n s hi => (OMap.mem_entries_iff h1 _ _).2 hi
  have hz : ∀ i conf, c.pids.find? i = some conf → ∃ z, c.zones.find? i = some z ∧ z.accumulateSetPoint = false ∧
      z.minThermalOutput ≤ 1000 ∧ Percentage z.failsafePercent := by
    intro i conf hi
    obtain ⟨z, hz, hP⟩ := any_some (h5 _ (hp _ _ hi)).1.2
    simp only [Bool.and_eq_true, decide_eq_true_eq, Bool.not_eq_true'] at hP
    exact ⟨z, hz, hP.1.1, hP.1.2, hP.2⟩
  have he : ∀ i conf, c.pids.find? i = some conf → ∀ e ∈ conf.entries, entryB o c e = true := fun i conf hi => (h5 _ (hp _ _ hi)).2
  have hx : ∀ i conf, c.pids.find? i = some conf → ∀ e ∈ conf.entries, ∀ x ∈ e.2.inputs, ∃ s, c.sensors.find? x.name = some s ∧
      KnownType s.type ∧ getReadInterfaceType s.readPath = .dbusPassive ∧
      (o.offlineFailsafePwm = true → e.2.type ≠ "temp" → s.type = "fan" ∧ getWriteInterfaceType s.writePath = .dbusActive) := by
    intro i conf hi e hem x hxm
    have := he i conf hi e hem
    simp only [entryB, Bool.and_eq_true, List.all_eq_true] at this
    obtain ⟨s, hs', hP⟩ := any_some (this.1.2 x hxm)
    simp only [Bool.and_eq_true, decide_eq_true_eq, Bool.or_eq_true, Bool.not_eq_true'] at hP
    refine ⟨s, hs', hP.1.1, hP.1.2, fun a b => ?_⟩
    rcases hP.2 with (k | k) | k
    · rw [a] at k; cases k
    · exact absurd k b
    · exact k
  have ht : ∀ i conf, c.pids.find? i = some conf → ∀ e ∈ conf.entries, e.2.type = "temp" ∨ e.2.type = "fan" := by
    intro i conf hi e hem
    have := he i conf hi e hem
    simp only [entryB, Bool.and_eq_true, Bool.or_eq_true, decide_eq_true_eq] at this
    rcases this.2 with k | k
    · exact .inl k
    · exact .inr k.1.1.1
  have hin : ∀ i conf, c.pids.find? i = some conf → ∀ e ∈ conf.entries, e.2.inputs ≠ [] := by
    intro i conf hi e hem hn
    have := he i conf hi e hem
    simp only [entryB, Bool.and_eq_true, hn] at this
    exact absurd this.1.1.1.1.2 (by decide)
  refine ⟨⟨⟨h1, h2, fun i conf hi => (h5 _ (hp _ _ hi)).1.1, ?_, fun i conf hi => ?_, fun i conf hi => ⟨⟨fun e hem _ => hin i conf hi e hem,
    fun e hem hm => ?_⟩, fun e hem _ => hin i conf hi e hem⟩, fun i conf hi e hem _ x hxm => ?_⟩, fun n s hn _ => ?_, fun i conf z hi hzi => ?_,
    fun ho i conf hi e hem hf x hxm => ?_⟩, fun n s hn => (h4 _ (hs n s hn)).2⟩
  · cases hl : c.pids.entries with
    | nil => rw [hl] at h3; cases h3
    | cons p l => exact ⟨p.1, p.2, (OMap.mem_entries_iff h2 _ _).1 (by rw [hl]; exact List.mem_cons_self)⟩
  · obtain ⟨z, hz, -⟩ := hz i conf hi
    exact ⟨z, hz⟩
  · rcases ht i conf hi e hem with k | k <;> rw [k] at hm <;> exact absurd hm (by decide)
  · obtain ⟨s, g1, g2, g3, -⟩ := hx i conf hi e hem x hxm
    have hk := (C65_read _ _).1 g3
    exact ⟨s, g1, ⟨g2, .inl hk⟩, fun _ he => by cases readKind_unique hk (.external he.2)⟩
  · intro h0
    rcases (h4 _ (hs n s hn)).1 with k | k
    · exact k
    · have k : s.max ≤ 0 := k
      omega
  · obtain ⟨z', g1, g2, g3, g4⟩ := hz i conf hi
    rw [hzi] at g1
    cases g1
    refine ⟨g2, fun e hem hm => ?_, ⟨1000, by decide +kernel, by unfold Moderate; decide +kernel, g3, fun e hem _ => ?_⟩, fun e hem hf => ?_,
      fun e hem => ?_, g4⟩
    · rcases ht i conf hi e hem with k | k <;> rw [k] at hm <;> exact absurd hm (by decide)
    · have := he i conf hi e hem
      simp only [entryB, Bool.and_eq_true, decide_eq_true_eq] at this
      exact .limits (by rcases ht i conf hi e hem with k | k <;> rw [k] <;> decide) this.1.1.1.2 this.1.1.2
    · have := he i conf hi e hem
      simp only [entryB, Bool.and_eq_true, Bool.or_eq_true, decide_eq_true_eq, List.all_eq_true] at this
      obtain ⟨⟨⟨⟨-, k1⟩, -⟩, -⟩, k2 | ⟨⟨⟨-, k2⟩, k3⟩, k4⟩⟩ := this
      · exact absurd (show e.2.type = "fan" from hf) (by rw [k2]; decide)
      · refine ⟨⟨k1, k2.1, k2.2.1, k2.2.2⟩, ⟨k3 _ ?_, k3 _ ?_, k3 _ ?_⟩, ⟨k3 _ ?_, k3 _ ?_⟩, ⟨k3 _ ?_, k3 _ ?_⟩, ⟨k3 _ ?_, k3 _ ?_⟩,
          ⟨1, FloatModel.rep_one, by rw [k4, one_eq], by norm_num, by norm_num⟩⟩ <;> simp
    · have := he i conf hi e hem
      simp only [entryB, Bool.and_eq_true, decide_eq_true_eq] at this
      exact this.1.1.1.1.1
  · obtain ⟨s, g1, -, -, g4⟩ := hx i conf hi e hem x hxm
    obtain ⟨k1, k2⟩ := g4 ho (by rw [show e.2.type = "fan" from hf]; decide)
    exact ⟨s, g1, k1, (C65_write _ _).1 k2⟩

/-- what a reload finds, checked -/
def foundB (o : Opts) (r : Found) : Bool :=
  match r.read with
  | .got c => soundB o c
  | .wait | .again _ => true
  | _ => false

/-- whenever a timer expires no sensor has an enormous reading -/
def calmB (o : Opts) : Whole → List WEvent → Bool
  | _, [] => true
  | s, e :: es =>
    (match e with
      | .event (.tick _) => s.d.w.sensors.entries.all (fun n => match n.2.read s.d.w s.d.w.nowFans with
          | .ok r => decide (-1048576 ≤ r.unscaled ∧ r.unscaled ≤ 1048576)
          | .error _ => true)
      | _ => true) &&
    (match s.step o e with
      | .ok s' => calmB o s' es
      | .error _ => true)

theorem find_mem {K V : Type} [DecidableEq K] {m : OMap K V} {k : K} {v : V} (h : m.find? k = some v) : (k, v) ∈ m.entries := by
  obtain ⟨l⟩ := m
  unfold OMap.find? at h
  dsimp only at h ⊢
  induction l with
  | nil => cases h
  | cons e l ih =>
    unfold OMap.lookupL at h
    split_ifs at h with hk
    · cases h
      subst hk
      exact List.mem_cons_self
    · exact List.mem_cons_of_mem _ (ih h)

theorem calm_of {o : Opts} : ∀ {es : List WEvent} {s0 : Whole}, calmB o s0 es = true → ∀ pre i post s, es = pre ++ .event (.tick i) :: post →
    s0.run o pre = .ok s → ∀ f v, FanSees s.d.w f v → Moderate v
  | [], s0, _, pre, i, post, s, h, _, _, _, _ => by cases pre <;> cases h
  | e :: es, s0, hb, pre, i, post, s, h, hr, f, v, hv => by
    simp only [calmB, Bool.and_eq_true] at hb
    cases pre with
    | nil =>
      cases h
      cases hr
      have hb := hb.1
      dsimp only at hb
      rw [List.all_eq_true] at hb
      obtain ⟨rs, hrs, hv⟩ := hv
      cases hv with
      | still => unfold Moderate; decide +kernel
      | slowest hm _ =>
        have hm := List.mem_of_mem_filter hm
        have key : ∀ {l : List SensorInput} {rs : List Dbl}, List.Forall₂ (fun i r => TurnsAt s0.d.w (SensorInput.name i) r) l rs →
            ∀ v ∈ rs, Moderate v := by
          intro l rs hl
          induction hl with
          | nil => intro v hv; cases hv
          | cons hx _ ih =>
            intro v hv
            rcases List.mem_cons.1 hv with rfl | hv
            · obtain ⟨sn, rr, a1, a2, rfl⟩ := hx
              have := hb _ (find_mem a1)
              dsimp only at this
              rw [a2] at this
              exact of_decide_eq_true this
            · exact ih v hv
        exact key hrs v hm
    | cons e' pre =>
      cases h
      obtain ⟨s2, h1, h2⟩ := bind_eq_ok.1 hr
      have hb2 := hb.2
      rw [h1] at hb2
      exact calm_of hb2 pre i post s rfl h2 f v hv

theorem kindly_of {o : Opts} (ho : o.tuningEnabled = false) {w0 : World} {es : List WEvent}
    (hf : ∀ r, WEvent.reload r ∈ es → foundB o r = true) (he : ∀ e, WEvent.event e ∈ es → WellTyped e)
    (hc : calmB o (.init w0) es = true) : Kindly o w0 es := by
  have hfi : ∀ r c, WEvent.reload r ∈ es → r.read = .got c → ∀ dirs files, FilesOk o dirs c.sensors files := by
    intro r c hr hg dirs files
    have := hf r hr
    unfold foundB at this
    rw [hg] at this
    refine ⟨fun n s q hs hk _ => ?_, fun h => by rw [ho] at h; cases h⟩
    have h1 := (sound_of this).2 n s hs
    rw [(C65_read _ _).2 hk] at h1
    cases h1
  refine ⟨fun r hr => ?_, fun pre r post s c hes _ hg => hfi r c (by rw [hes]; simp) hg _ _, fun pre e post hes => ⟨he e (by rw [hes]; simp),
    fun r c hI => ?_⟩, fun pre i post s r c conf hes hr _ _ _ f _ _ v hv => calm_of hc pre i post s hes hr f.2 v hv⟩
  · have := hf r hr
    unfold foundB at this
    split at this
    · next hg => exact .got hg (sound_of this).1
    · next hg => exact .wait hg
    · next hg => exact .again hg
    · cases this
  · obtain ⟨p, q, rfl, hg⟩ := hI
    unfold EventOk
    split
    · exact hfi r c (by rw [hes]; simp) hg _ _
    · trivial

/-- A life: nothing is configured at first, then there is a file; the processor gets hot; a service of the bus does not answer; then
there is the file again, and the zone goes to manual mode. -/
def life144 : List WEvent :=
  [.reload none140, file123, .event (.tick 3), .event (.signal "cpu" 1 (temp103 90)), .event (.signal "fan0" 1 (temp103 900)),
    .event (.tick 3), .reload mute140, .event (.tick 3), file123, .event (.manual 3 true), .event (.tick 3), file123, .event (.tick 3)]

theorem kindly144 : Kindly {} world113 life144 := by
  refine kindly_of rfl (fun r hr => ?_) (fun e he => ?_) (by decide +kernel)
  · have key : ∀ r ∈ [none140, file140, mute140], foundB {} r = true := by decide +kernel
    simp only [life144, file123, List.mem_cons, WEvent.reload.injEq, reduceCtorEq, false_or, List.not_mem_nil, or_false] at hr
    apply key
    rcases hr with rfl | rfl | rfl | rfl | rfl <;> simp [file140]
  · have ta : ∀ t, ¬ WrongType (temp103 t) := by
      rintro t ⟨n, v, h1, _⟩
      simp [temp103, switches, ifSensorValue] at h1
    simp only [life144, file123, List.mem_cons, WEvent.event.injEq, reduceCtorEq, false_or, List.not_mem_nil, or_false] at he
    rcases he with rfl | rfl | rfl | rfl | rfl | rfl | rfl | rfl <;> first | exact trivial | exact ta _

/-- C144 on this life -/
example : ∃ s, (Whole.init world113).run {} life144 = .ok s ∧ (∃ w, s.terminate {} = .ok w) ∧ ¬ s.NoneRuns := by
  obtain ⟨s, h1, h2⟩ := C144_unbroken rfl kindly144
  obtain ⟨s', h1', hP⟩ := ok_of_any (x := (Whole.init world113).run {} life144) (P := fun s : Whole => !s.d.zones.isEmpty) (by decide +kernel)
  rw [h1] at h1'
  cases h1'
  exact ⟨s, h1, h2, fun h => by rw [show s.d.zones.isEmpty = true from h] at hP; cases hP⟩

/-- the configuration of C115 without the table -/
def bus144 : Found := found123 nofiles108 (busOf107 (objs115.eraseIdx 3) [] (fun _ _ => none)) true

/-- a life with the configuration on the bus and the option to leave the fans at their failsafe percentages -/
def offline144 : List WEvent := [.reload bus144, .event (.tick 3), .reload bus144, .reload mute140, .reload bus144, .event (.tick 3)]

theorem offlineKindly144 : Kindly { offlineFailsafePwm := true } world113 offline144 := by
  refine kindly_of rfl (fun r hr => ?_) (fun e he => ?_) (by decide +kernel)
  · have key : ∀ r ∈ [bus144, mute140], foundB { offlineFailsafePwm := true } r = true := by decide +kernel
    simp only [offline144, List.mem_cons, WEvent.reload.injEq, reduceCtorEq, false_or, List.not_mem_nil, or_false] at hr
    apply key
    rcases hr with rfl | rfl | rfl | rfl <;> simp
  · simp only [offline144, List.mem_cons, WEvent.event.injEq, reduceCtorEq, false_or, List.not_mem_nil, or_false] at he
    rcases he with rfl | rfl <;> exact trivial

/-- C144 on this life: whenever zones end, the fan is told its failsafe percentage -/
example : ∃ s, (Whole.init world113).run { offlineFailsafePwm := true } offline144 = .ok s ∧
    ∃ w, s.terminate { offlineFailsafePwm := true } = .ok w ∧ w.trace =
      [.dbusSet "/xyz/openbmc_project/control/fanpwm/Pwm_1" 76 true, .dbusSet "/xyz/openbmc_project/control/fanpwm/Pwm_1" 191 true,
        .dbusSet "/xyz/openbmc_project/control/fanpwm/Pwm_1" 191 true, .dbusSet "/xyz/openbmc_project/control/fanpwm/Pwm_1" 76 true,
        .dbusSet "/xyz/openbmc_project/control/fanpwm/Pwm_1" 191 true] := by
  obtain ⟨s, h1, w, h2⟩ := C144_unbroken rfl offlineKindly144
  obtain ⟨w', h3, hP⟩ := ok_of_any (x := ((Whole.init world113).run { offlineFailsafePwm := true } offline144 >>= fun s =>
    s.terminate { offlineFailsafePwm := true })) (P := fun w : World => decide (w.trace =
      [.dbusSet "/xyz/openbmc_project/control/fanpwm/Pwm_1" 76 true, .dbusSet "/xyz/openbmc_project/control/fanpwm/Pwm_1" 191 true,
        .dbusSet "/xyz/openbmc_project/control/fanpwm/Pwm_1" 191 true, .dbusSet "/xyz/openbmc_project/control/fanpwm/Pwm_1" 76 true,
        .dbusSet "/xyz/openbmc_project/control/fanpwm/Pwm_1" 191 true])) (by decide +kernel)
  rw [h1, ok_bind, h2] at h3
  cases h3
  exact ⟨s, h1, w, h2, of_decide_eq_true hP⟩

end
end Ex
end Verif
