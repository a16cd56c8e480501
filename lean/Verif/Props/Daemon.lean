import Verif.Lemmas.Daemon

/-! # The running daemon: properties C99 and C100 -/

namespace Verif
open Dbl
section
variable [F : FloatModel]

/-! ## C99 -/

/-- what a sensor with configuration `c` is made of, as long as it exists -/
inductive Kind (dirs : Dirs) (c : SensorConfig) : SensorImpl → Prop
  | host (v u) : ExternalSensor c → Kind dirs c (.host v u)
  | dbus (p) {wr} : ReadKind c.readPath .dbusPassive → wr ≠ .null → Kind dirs c (.pluggable (.passive p) wr)
  | sysfs {q wr} : ReadKind c.readPath .sysfs → Stands dirs c.readPath q → wr ≠ .null → Kind dirs c (.pluggable (.sysfs q) wr)
  | silent {r wr} : ¬ ReadKind c.readPath .dbusPassive → ¬ ReadKind c.readPath .sysfs → ¬ ExternalSensor c → wr ≠ .null →
      (∀ p, r ≠ .passive p) → Kind dirs c (.pluggable r wr)

omit F in
theorem readKind_unique {p : String} {a b : IOType} (ha : ReadKind p a) (hb : ReadKind p b) : a = b := by
  rw [← (C65_read _ _).2 ha, ← (C65_read _ _).2 hb]

theorem madeFrom_kind {o : Opts} {bus : BuildBus} {now : Int} {name : String} {c : SensorConfig} {s : Sensor}
    (h : MadeFrom o bus now name c s) : Kind bus.dirs c s.impl := by
  have key : ∀ r wr, ¬ ExternalSensor c → ReadsFrom o bus now name c r → wr ≠ .null → Kind bus.dirs c (.pluggable r wr) := by
    intro r wr hne hr hw
    cases hr with
    | dbus h1 _ => exact .dbus _ h1 hw
    | sysfs h1 h2 => exact .sysfs h1 h2 hw
    | external h1 =>
      exact .silent (fun h2 => by cases readKind_unique h1 h2) (fun h2 => by cases readKind_unique h1 h2) hne hw (by simp)
    | nothing h1 =>
      rcases h1 with h1 | h1 <;>
        exact .silent (fun h2 => by cases readKind_unique h1 h2) (fun h2 => by cases readKind_unique h1 h2) hne hw (by simp)
  cases h with
  | fan ht hr hw =>
    refine key _ _ ?_ hr ?_
    · intro he
      have := he.1
      rw [ht] at this
      simp at this
    · cases hw <;> simp
  | external he => exact .host _ _ he
  | thermal _ hne hr => exact key _ _ hne hr (by simp)

theorem front_pluggable {s s' : Sensor} {r r' : Reader} {wr wr' : Writer} (h : s'.front = s.front)
    (h1 : s.impl = .pluggable r wr) (h2 : s'.impl = .pluggable r' wr') : r' = r := by
  unfold Sensor.front at h
  rw [h1, h2] at h
  simp only [Prod.mk.injEq, Sum.inl.injEq] at h
  exact h.2.2.2

theorem kind_step {dirs : Dirs} {o : Opts} {n : String} {c : SensorConfig} {s s' : Sensor} {e : DEvent} (h : Kind dirs c s.impl)
    (hs : SensorStep o n s e s') : Kind dirs c s'.impl := by
  cases hs with
  | heard hi _ =>
    rw [hi] at h
    cases h with
    | dbus _ h1 h2 => exact .dbus _ h1 h2
    | silent _ _ _ _ h5 => exact absurd rfl (h5 _)
  | deaf _ => exact h
  | host =>
    unfold Sensor.hostWrite
    split
    · next hi =>
      rw [hi] at h
      cases h with
      | host _ _ he => exact .host _ _ he
    · exact h
  | written hf hw =>
    cases hi : s.impl with
    | host v u =>
      rw [hi] at h
      have : s'.impl = .host v u := by
        unfold Sensor.front at hf
        rw [hi] at hf
        cases hi' : s'.impl with
        | host v' u' =>
          rw [hi'] at hf
          simp only [Prod.mk.injEq, Sum.inr.injEq] at hf
          obtain ⟨_, _, _, rfl, rfl⟩ := hf
          rfl
        | pluggable r wr => rw [hi'] at hf; simp at hf
      rw [this]
      exact h
    | pluggable r wr =>
      rw [hi] at h
      have hn : wr ≠ .null := by cases h <;> assumption
      obtain ⟨r', wr', h1, h2⟩ := hw ⟨r, wr, hi, hn⟩
      cases front_pluggable hf hi h1
      rw [h1]
      cases h with
      | dbus _ h3 => exact .dbus _ h3 h2
      | sysfs h3 h4 => exact .sysfs h3 h4 h2
      | silent h3 h4 h5 _ h6 => exact .silent h3 h4 h5 h2 h6
  | other _ _ => exact h

theorem kind_read {dirs : Dirs} {o : Opts} {sensors : OMap String SensorConfig} {n : String} {c : SensorConfig} {s : Sensor} {w : World}
    (h : Kind dirs c s.impl) (hc : sensors.find? n = some c) (hu : Usable c) (hf : FilesOk o dirs sensors w.files) (now : Int) :
    ∃ r, s.read w now = .ok r := by
  obtain ⟨a, b, cc, d⟩ := s
  cases h with
  | host v u _ => exact ⟨_, rfl⟩
  | dbus p => exact ⟨_, rfl⟩
  | @sysfs q _ h1 hq _ =>
    have := hf.1 n c q hc h1 hq
    unfold Sensor.read
    dsimp only
    cases hh : w.files q with
    | missing => exact absurd hh this.1
    | blank => exact absurd hh this.2
    | nonNumber => exact ⟨_, rfl⟩
    | number v => exact ⟨_, rfl⟩
  | silent h1 h2 h3 => rcases hu.2 with h | h | h <;> contradiction

/-- what holds in every state of the daemon -/
structure DInv (o : Opts) (dirs : Dirs) (sensors : OMap String SensorConfig) (zones : OMap Int Zone) (d : Daemon) : Prop where
  kinds : ∀ n c, sensors.find? n = some c → KnownType c.type → ∃ s, d.w.sensors.find? n = some s ∧ Kind dirs c s.impl
  files : FilesOk o dirs sensors d.w.files
  zones : ∀ i z cnt, d.zones.find? i = some (z, cnt) →
    ∃ zb log, zones.find? i = some zb ∧ Hist o zb.d z cnt log ∧ ZoneOk z

theorem dinv_worldOk {dirs : Dirs} {o : Opts} {sensors : OMap String SensorConfig} {pids : OMap Int PIDConf}
    {configs : OMap Int ZoneConfig} (hf : Suits sensors pids configs) {w : World}
    (hk : ∀ n c, sensors.find? n = some c → KnownType c.type → ∃ s, w.sensors.find? n = some s ∧ Kind dirs c s.impl)
    (hfi : FilesOk o dirs sensors w.files) {i : Int} {c : ZoneConfig} {conf : PIDConf} (hp : pids.find? i = some conf) {zb : Zone}
    (hn : NewZone i c conf.entries zb) {z : Zone} (hz : ZoneOk z) (h1 : z.d.fanInputs = zb.d.fanInputs)
    (h2 : z.d.thermalInputs = zb.d.thermalInputs) : WorldOk o w z := by
  have hfan : ∀ n ∈ z.d.fanInputs, ∃ e ∈ conf.entries, IsFan e ∧ ∃ x ∈ e.2.inputs, x.name = n := by
    intro n hin
    rw [h1, hn.fanInputs] at hin
    obtain ⟨e, he, hx⟩ := List.mem_flatMap.1 hin
    obtain ⟨x, hx', rfl⟩ := List.mem_map.1 hx
    rw [List.mem_filter] at he
    exact ⟨e, he.1, by simpa using he.2, x, hx', rfl⟩
  refine ⟨fun n hin => ?_, fun n hin => ?_, fun f hfm n hin => ?_, hfi.2⟩
  · obtain ⟨e, he, hF, x, hx, rfl⟩ := hfan n hin
    obtain ⟨c, hc, hu, _⟩ := hf.inputs i conf hp e he (.inl hF) x hx
    obtain ⟨s, hs, hkd⟩ := hk _ c hc hu.1
    obtain ⟨r, hr⟩ := kind_read hkd hc hu hfi w.nowFans
    exact ⟨s, r, hs, hr⟩
  · rw [h2, hn.thermalInputs_mem] at hin
    obtain ⟨e, he, hH, x, hx, rfl⟩ := hin
    obtain ⟨c, hc, hu, _⟩ := hf.inputs i conf hp e he (.inr hH) x hx
    obtain ⟨s, hs, hkd⟩ := hk _ c hc hu.1
    obtain ⟨r, hr⟩ := kind_read hkd hc hu hfi w.nowThermals
    exact ⟨s, r, hs, hr⟩
  · obtain ⟨g, hg, hin'⟩ := hz.fans _ hfm
    cases hg
    obtain ⟨e, he, hF, x, hx, rfl⟩ := hfan n (hin' n hin)
    obtain ⟨c, hc, hu, hne⟩ := hf.inputs i conf hp e he (.inl hF) x hx
    obtain ⟨s, hs, hkd⟩ := hk _ c hc hu.1
    cases hi : s.impl with
    | host v u =>
      rw [hi] at hkd
      cases hkd with
      | host _ _ he => exact absurd he (hne hF)
    | pluggable r wr =>
      rw [hi] at hkd
      exact ⟨s, r, wr, hs, hi, by cases hkd <;> assumption⟩

/-- the zones of a configuration that fits -/
theorem suits_newZone {sensors : OMap String SensorConfig} {pids : OMap Int PIDConf} {configs : OMap Int ZoneConfig}
    (hf : Suits sensors pids configs) {zones : OMap Int Zone} (h : buildZones pids configs = .ok zones) {i : Int} {zb : Zone}
    (hz : zones.find? i = some zb) :
    ∃ conf c, pids.find? i = some conf ∧ configs.find? i = some c ∧ NewZone i c conf.entries zb ∧ ZoneOk zb := by
  have hc : ∀ e ∈ pids.entries, OMap.WF e.2 := fun e he => hf.loopsWf e.1 e.2 ((OMap.mem_entries_iff hf.pidsWf _ _).1 he)
  have hzs := C64_zones hf.pidsWf hc h i
  cases hp : pids.find? i with
  | none => rw [hzs.2 hp] at hz; cases hz
  | some conf =>
    obtain ⟨z', c, hz', hc', hn⟩ := hzs.1 conf hp
    rw [hz] at hz'
    cases hz'
    obtain ⟨h1, h2⟩ := hf.loops i conf hp
    exact ⟨conf, c, rfl, hc', hn, newZone_ok hn h1 h2⟩

theorem launched_inv {o : Opts} {bus : BuildBus} {now : Int} {w : World} {sensors : OMap String SensorConfig}
    {pids : OMap Int PIDConf} {configs : OMap Int ZoneConfig} {m : Manager} {zones : OMap Int Zone} {d : Daemon}
    (hf : Suits sensors pids configs) (hfi : FilesOk o bus.dirs sensors w.files)
    (h : Launched o bus now w sensors pids configs m zones d) : DInv o bus.dirs sensors zones d := by
  have hk : ∀ n c, sensors.find? n = some c → KnownType c.type → ∃ s, d.w.sensors.find? n = some s ∧ Kind bus.dirs c s.impl := by
    intro n c hc ht
    obtain ⟨s, hs, hm⟩ := (C98_as_configured hf.sensorsWf h.made n).2 c hc ht
    exact ⟨s, by rw [h.world]; exact hs, madeFrom_kind hm⟩
  have hfi' : FilesOk o bus.dirs sensors d.w.files := by rw [h.world]; exact hfi
  refine ⟨hk, hfi', fun i z cnt hz => ?_⟩
  cases hzb : zones.find? i with
  | none => rw [h.only i hzb] at hz; cases hz
  | some zb =>
    obtain ⟨z0, h1, h2⟩ := h.started i zb hzb
    rw [hz] at h2
    cases h2
    obtain ⟨conf, c, hp, _, hn, hok⟩ := suits_newZone hf h.built hzb
    obtain ⟨z', h3, h4⟩ := C43_start hok (dinv_worldOk hf hk hfi' hp hn hok rfl rfl)
    rw [h1] at h3
    cases h3
    exact ⟨zb, _, rfl, C80_hist hf.pidsWf h.built hzb h1, h4⟩

theorem dinv_world {dirs : Dirs} {o : Opts} {sensors : OMap String SensorConfig} {pids : OMap Int PIDConf} {configs : OMap Int ZoneConfig}
    {zones : OMap Int Zone} {d : Daemon} (hf : Suits sensors pids configs) (hb : buildZones pids configs = .ok zones)
    (hi : DInv o dirs sensors zones d) {i : Int} {z : Zone} {cnt : Nat} (hz : d.zones.find? i = some (z, cnt)) :
    WorldOk o d.w z := by
  obtain ⟨zb, log, h1, h2, h3⟩ := hi.zones i z cnt hz
  obtain ⟨conf, c, hp, _, hn, _⟩ := suits_newZone hf hb h1
  exact dinv_worldOk hf hi.kinds hi.files hp hn h3 h2.inv.same.1 h2.inv.same.2.1

theorem dinv_step {dirs : Dirs} {o : Opts} {sensors : OMap String SensorConfig} {pids : OMap Int PIDConf} {configs : OMap Int ZoneConfig}
    {zones : OMap Int Zone} {d d' : Daemon} (hf : Suits sensors pids configs) (hb : buildZones pids configs = .ok zones)
    (hi : DInv o dirs sensors zones d) {e : DEvent} (he : EventOk o dirs sensors e) (h : d.step o e = .ok d') :
    DInv o dirs sensors zones d' := by
  refine ⟨fun n c hc ht => ?_, ?_, fun i z cnt hz => ?_⟩
  · obtain ⟨s, hs, hk⟩ := hi.kinds n c hc ht
    obtain ⟨s', hs', hst⟩ := step_sensor h hs
    exact ⟨s', hs', kind_step hk hst⟩
  · rcases step_files h with h1 | ⟨nf, nt, ho, rf, fi, bo, rfl, h1⟩
    · rw [h1]; exact hi.files
    · rw [h1]; exact he
  · cases hz0 : d.zones.find? i with
    | none => rw [step_none h hz0] at hz; cases hz
    | some x =>
      obtain ⟨z0, cnt0⟩ := x
      obtain ⟨zb, log, h1, h2, h3⟩ := hi.zones i z0 cnt0 hz0
      obtain ⟨z', cnt', h4, h5⟩ := step_zone h hz0
      rw [hz] at h4
      cases h4
      cases h5 with
      | manual b => exact ⟨zb, log, h1, h2.manual b, ⟨h3.fans, h3.pids, h3.steps⟩⟩
      | enable l b => exact ⟨zb, log, h1, h2.enable l b, h3.enable l b⟩
      | tick ht =>
        refine ⟨zb, _, h1, h2.tick _ ht, ?_⟩
        rcases C43_no_crash h3 (dinv_world hf hb hi hz0) cnt0 with ⟨_, _, _, q1, q2⟩ | ⟨_, _, q1⟩
        · rw [ht] at q1; cases q1; exact q2
        · rw [ht] at q1; cases q1
      | other => exact ⟨zb, log, h1, h2, h3⟩

theorem dinv_run {dirs : Dirs} {o : Opts} {sensors : OMap String SensorConfig} {pids : OMap Int PIDConf} {configs : OMap Int ZoneConfig}
    {zones : OMap Int Zone} (hf : Suits sensors pids configs) (hb : buildZones pids configs = .ok zones) :
    ∀ {es : List DEvent} {d d' : Daemon}, DInv o dirs sensors zones d → (∀ e ∈ es, EventOk o dirs sensors e) → d.run o es = .ok d' →
      DInv o dirs sensors zones d'
  | [], d, d', hi, _, h => by cases h; exact hi
  | e :: es, d, d', hi, he, h => by
    obtain ⟨d1, h1, h2⟩ := bind_eq_ok.1 h
    exact dinv_run hf hb (dinv_step hf hb hi (he e List.mem_cons_self) h1) (fun e' h' => he e' (List.mem_cons_of_mem _ h')) h2

/-- a message that is not understood has a property of the wrong type -/
theorem handle_error {o : Opts} {p : Passive} {t : Int} {m : PropMsg} {x : Err} (h : handleSensorValue o p t m = .error x) :
    x = .exc "bad_variant_access" ∧ WrongType m := by
  have key : ∀ {k : String} {v : Variant} {x : Err}, (m.iface, k) ∈ switches → m.props.find? k = some v → v.getBool = .error x →
      x = .exc "bad_variant_access" ∧ WrongType m := by
    intro k v x hi hv hx
    cases v <;> cases hx
    · exact ⟨rfl, _, _, hi, hv, by simp⟩
    · exact ⟨rfl, _, _, hi, hv, by simp⟩
  unfold handleSensorValue at h
  split_ifs at h with c1 c2 c3 c4 c5
  · split at h <;> cases h
  · split at h
    · cases h
    · have high : ∀ {x : Err}, (match m.props.find? "CriticalAlarmHigh" with
          | some v => do
            let asserted ← v.getBool
            .ok (p.setFailed asserted)
          | none => do
            let asserted ← .ok false
            .ok (p.setFailed asserted)) = .error x → x = .exc "bad_variant_access" ∧ WrongType m := by
        intro x h
        split at h
        · next v hv =>
          rcases bind_eq_err.1 h with h | ⟨a, ha, h⟩
          · exact key (by rw [c2]; decide) hv h
          · cases h
        · cases h
      dsimp only at h
      split at h
      · next v hv =>
        rcases bind_eq_err.1 h with h | ⟨a, ha, h⟩
        · exact key (by rw [c2]; decide) hv h
        · split_ifs at h
          · cases h
          · exact high h
      · rw [ok_bind, if_neg (by simp)] at h
        exact high h
  · split at h
    · cases h
    · next v hv =>
      rcases bind_eq_err.1 h with h | ⟨a, ha, h⟩
      · exact key (by rw [of_decide_eq_true (p := m.iface = ifWarning) (Bool.and_eq_true _ _ ▸ c3).2]; decide) hv h
      · cases h
  · split at h
    · cases h
    · next v hv =>
      rcases bind_eq_err.1 h with h | ⟨a, ha, h⟩
      · exact key (by rw [c4]; decide) hv h
      · cases h
  · split at h
    · cases h
    · next v hv =>
      rcases bind_eq_err.1 h with h | ⟨a, ha, h⟩
      · exact key (by rw [c5]; decide) hv h
      · cases h

/-- **C99** A configuration whose sensors suit its zones launches, if every sensor can be made. -/
theorem C99_launches {o : Opts} {bus : BuildBus} {now : Int} {w : World} {sensors : OMap String SensorConfig}
    {pids : OMap Int PIDConf} {configs : OMap Int ZoneConfig} (hf : Suits sensors pids configs)
    (hm : ∀ n c, sensors.find? n = some c → CanMake o bus now n c) (hfi : FilesOk o bus.dirs sensors w.files) :
    ∃ d, Daemon.launch o bus now w sensors pids configs = .ok d := by
  obtain ⟨m, h1⟩ := (C98_all_or_nothing hf.sensorsWf).2 hm
  obtain ⟨zones, h2⟩ := (C64_builds pids configs).1.2 (fun e he => by
    have := (OMap.mem_entries_iff hf.pidsWf _ _).1 he
    exact ⟨hf.details _ _ this, (hf.loops _ _ this).2⟩)
  have hwz := buildZones_wf h2
  have hne : zones.isEmpty = false := by
    obtain ⟨i, conf, hi⟩ := hf.zone
    have hc : ∀ e ∈ pids.entries, OMap.WF e.2 := fun e he => hf.loopsWf e.1 e.2 ((OMap.mem_entries_iff hf.pidsWf _ _).1 he)
    obtain ⟨z, _, hz, _⟩ := (C64_zones hf.pidsWf hc h2 i).1 conf hi
    rw [OMap.isEmpty_false_iff]
    exact ⟨i, z, hz⟩
  have hk : ∀ n c, sensors.find? n = some c → KnownType c.type →
      ∃ s, ({ w with sensors := m.sensors } : World).sensors.find? n = some s ∧ Kind bus.dirs c s.impl := by
    intro n c hc ht
    obtain ⟨s, hs, hm⟩ := (C98_as_configured hf.sensorsWf h1 n).2 c hc ht
    exact ⟨s, hs, madeFrom_kind hm⟩
  obtain ⟨zs, h3⟩ := startZones_total (o := o) (w := { w with sensors := m.sensors }) (acc := {}) (l := zones.entries) (by
    intro e he
    have he := (OMap.mem_entries_iff hwz _ _).1 he
    obtain ⟨conf, c, hp, _, hn, hok⟩ := suits_newZone hf h2 he
    obtain ⟨z', h3, _⟩ := C43_start hok (dinv_worldOk (w := { w with sensors := m.sensors }) hf hk hfi hp hn hok rfl rfl)
    exact ⟨z', h3⟩)
  refine ⟨⟨{ w with sensors := m.sensors }, zs⟩, ?_⟩
  unfold Daemon.launch
  rw [h1, ok_bind, h2, ok_bind, if_neg (by simp [hne]), h3, ok_bind]

/-- **C99** From then on the daemon can only be brought down in two ways, whatever happens in whatever order, as long as
the files its sensors are read from can be read: by the conversion of a fan command to an integer, or by a message with a
property of the wrong type. -/
theorem C99_keeps_running {o : Opts} {bus : BuildBus} {now : Int} {w : World} {sensors : OMap String SensorConfig}
    {pids : OMap Int PIDConf} {configs : OMap Int ZoneConfig} (hf : Suits sensors pids configs)
    (hfi : FilesOk o bus.dirs sensors w.files) {d : Daemon} (hl : Daemon.launch o bus now w sensors pids configs = .ok d)
    {es : List DEvent} (hes : ∀ e ∈ es, EventOk o bus.dirs sensors e) {d1 : Daemon} (hr : d.run o es = .ok d1) {e : DEvent}
    (he : EventOk o bus.dirs sensors e) :
    (∃ d2, d1.step o e = .ok d2) ∨
    (∃ i x, e = .tick i ∧ (x = .ub "cast to int64_t" ∨ x = .ub "cast to uint64_t") ∧ d1.step o e = .error x) ∨
    (∃ n t m, e = .signal n t m ∧ WrongType m ∧ d1.step o e = .error (.exc "bad_variant_access")) := by
  obtain ⟨m, zones, hL⟩ := launch_spec hl
  have hi := dinv_run hf hL.built (launched_inv hf hfi hL) hes hr
  cases e with
  | outside nf nt ho rf fi bo => exact .inl ⟨_, rfl⟩
  | signal n t m =>
    show (∃ d2, d1.signal o n t m = .ok d2) ∨ _ ∨ ∃ n' t' m', DEvent.signal n t m = .signal n' t' m' ∧ _ ∧
      d1.signal o n t m = .error _
    unfold Daemon.signal
    cases hs : d1.w.sensors.find? n with
    | none => exact .inl ⟨_, rfl⟩
    | some s =>
      dsimp only
      split
      · next p wr hi' =>
        cases hp : handleSensorValue o p t m with
        | ok p' => exact .inl ⟨_, rfl⟩
        | error x =>
          obtain ⟨rfl, hw⟩ := handle_error hp
          exact .inr (.inr ⟨n, t, m, rfl, hw, rfl⟩)
      · exact .inl ⟨_, rfl⟩
  | hostWrite n t v =>
    simp only [Daemon.step]
    cases d1.w.sensors.find? n <;> exact .inl ⟨_, rfl⟩
  | manual i b => exact .inl ⟨_, rfl⟩
  | enable i l b => exact .inl ⟨_, rfl⟩
  | tick i =>
    simp only [Daemon.step]
    cases hz : d1.zones.find? i with
    | none => exact .inl ⟨_, rfl⟩
    | some x =>
      obtain ⟨z, cnt⟩ := x
      dsimp only
      obtain ⟨_, _, _, _, hok⟩ := hi.zones i z cnt hz
      rcases C43_no_crash hok (dinv_world hf hL.built hi hz) cnt with ⟨w', z', cnt', q1, _⟩ | ⟨x, q0, q1⟩
      · rw [q1, ok_bind]; exact .inl ⟨_, rfl⟩
      · rw [q1]; exact .inr (.inl ⟨i, x, rfl, q0, rfl⟩)

/-! ## C100 -/

theorem tick_flags {o : Opts} {w w' : World} {z z' : Zone} {cnt cnt' : Nat} (h : z.tick o w cnt = .ok (w', z', cnt')) :
    z'.d.manualMode = z.d.manualMode ∧
      z'.fans.map (Option.map FanPid.inputs) = z.fans.map (Option.map FanPid.inputs) := by
  by_cases hm : z.d.manualMode = true
  · rw [tick_manual hm] at h; cases h; exact ⟨rfl, rfl⟩
  · have key : ∀ {z1 : Zone}, z1.d.manualMode = z.d.manualMode → z1.fans = z.fans → z1.processFans o w = .ok (w', z') →
        z'.d.manualMode = z.d.manualMode ∧
          z'.fans.map (Option.map FanPid.inputs) = z.fans.map (Option.map FanPid.inputs) := by
      intro z1 h1 h2 h3
      obtain ⟨l, a1, a2, _, a4, a5, _⟩ := processFans_spec h3
      refine ⟨by rw [a5]; exact h1, ?_⟩
      rw [← h2, a1, a2, List.map_map, List.map_map]
      exact List.map_congr_left (fun x hx => congrArg some (a4 x hx).same.1)
    obtain ⟨d, h1, h2⟩ := tick_auto (by simpa using hm) h
    have e := (pollAll_spec h1).frame.eq
    have hd : d.manualMode = z.d.manualMode := by rw [e]
    rcases h2 with ⟨_, zt, h3, h4, _⟩ | ⟨_, h3, _⟩
    · obtain ⟨_, b, c⟩ := thermalTick_flags h3
      exact key (b.trans hd) c h4
    · exact key (z1 := { z with d := d }) hd rfl h3

theorem start_flags {o : Opts} {w : World} {z z' : Zone} (h : z.start o w = .ok z') :
    z'.d.manualMode = z.d.manualMode ∧ z'.fans = z.fans := by
  obtain ⟨_, b, c⟩ := thermalTick_flags h
  have e := (initializeCache_spec z.d).eq
  refine ⟨b.trans ?_, c⟩
  show z.d.initializeCache.manualMode = _
  rw [e]

theorem setEnabled_manual (z : ZoneData) (l : String) (b : Bool) : (z.setEnabled l b).manualMode = z.manualMode := by
  unfold ZoneData.setEnabled
  split <;> rfl

/-- the mode and the fans of a zone, and the history of a failure, along events -/
theorem failing_run {o : Opts} {i : Int} {n : String} : ∀ {es : List DEvent} {d d' : Daemon} {z0 z : Zone} {cnt0 cnt k : Nat},
    d.run o es = .ok d' → d.zones.find? i = some (z, cnt) → Failing o n z0 cnt0 k z cnt → FailsThroughout o i n d es →
    ∃ z' cnt', d'.zones.find? i = some (z', cnt') ∧ Failing o n z0 cnt0 (k + autoTicks i z.d.manualMode es) z' cnt'
  | [], d, d', z0, z, cnt0, cnt, k, h, hz, hf, _ => by
    cases h
    exact ⟨z, cnt, hz, hf⟩
  | e :: es, d, d', z0, z, cnt0, cnt, k, h, hz, hf, hft => by
    obtain ⟨d1, h1, h2⟩ := bind_eq_ok.1 h
    have hft' : FailsThroughout o i n d1 es := by
      intro es1 es2 d2 he hr
      refine hft (e :: es1) es2 d2 (by rw [he]; rfl) ?_
      unfold Daemon.run
      rw [h1, ok_bind]
      exact hr
    obtain ⟨z1, cnt1, hz1, hst⟩ := step_zone h1 hz
    cases hst with
    | manual b =>
      have := failing_run h2 hz1 (hf.manual b) hft'
      simpa [autoTicks, ZoneData.setManualMode] using this
    | enable l b =>
      have := failing_run h2 hz1 (hf.enable l b) hft'
      rw [setEnabled_manual] at this
      exact this
    | tick ht =>
      obtain ⟨hm, _⟩ := tick_flags ht
      obtain ⟨f1, f2⟩ := hft [] es d rfl rfl
      by_cases hmm : z.d.manualMode = true
      · have := failing_run h2 hz1 (hf.idle _ hmm ht) hft'
        rw [hm] at this
        simpa [autoTicks, hmm] using this
      · have := failing_run h2 hz1 (hf.auto _ (by simpa using hmm) f1 f2 ht) hft'
        rw [hm] at this
        simpa [autoTicks, hmm, Nat.add_assoc] using this
    | other q1 q2 q3 =>
      have := failing_run h2 hz1 hf hft'
      cases e with
      | manual j b =>
        have hj : j ≠ i := fun hj => q1 b (by rw [hj])
        simpa [autoTicks, hj] using this
      | tick j =>
        have hj : j ≠ i := fun hj => q3 (by rw [hj])
        simpa [autoTicks, hj] using this
      | outside | signal | hostWrite | enable => exact this

theorem mode_run {o : Opts} {i : Int} : ∀ {es : List DEvent} {d d' : Daemon} {z : Zone} {cnt : Nat} {d0 : ZoneData}
    {log : List Poll}, d.run o es = .ok d' → d.zones.find? i = some (z, cnt) → Hist o d0 z cnt log →
    ∃ z' cnt' log', d'.zones.find? i = some (z', cnt') ∧ Hist o d0 z' cnt' log' ∧
      z'.d.manualMode = modeAfter i z.d.manualMode es ∧
      z'.fans.map (Option.map FanPid.inputs) = z.fans.map (Option.map FanPid.inputs)
  | [], d, d', z, cnt, d0, log, h, hz, hh => by
    cases h
    exact ⟨z, cnt, log, hz, hh, rfl, rfl⟩
  | e :: es, d, d', z, cnt, d0, log, h, hz, hh => by
    obtain ⟨d1, h1, h2⟩ := bind_eq_ok.1 h
    obtain ⟨z1, cnt1, hz1, hst⟩ := step_zone h1 hz
    cases hst with
    | manual b =>
      have := mode_run h2 hz1 (hh.manual b)
      simpa [modeAfter, ZoneData.setManualMode] using this
    | enable l b =>
      have := mode_run h2 hz1 (hh.enable l b)
      rw [setEnabled_manual] at this
      exact this
    | tick ht =>
      obtain ⟨hm, hfa⟩ := tick_flags ht
      have := mode_run h2 hz1 (hh.tick _ ht)
      rw [hm, hfa] at this
      exact this
    | other q1 q2 q3 =>
      have := mode_run h2 hz1 hh
      cases e with
      | manual j b =>
        have hj : j ≠ i := fun hj => q1 b (by rw [hj])
        simpa [modeAfter, hj] using this
      | outside | signal | hostWrite | enable | tick => exact this

/-- the fans of a zone are those of its configuration -/
theorem fans_as_configured {conf : List Entry} {fans : List (Option FanPid)} {l : List (FanPid × Dbl)}
    (h : fans.map (Option.map FanPid.inputs) = ((conf.filter IsFan).map fanOf).map (Option.map FanPid.inputs))
    (hl : fans = l.map (fun x => some x.1)) :
    l.map (fun x => x.1.inputs) = (conf.filter IsFan).map (fun e => e.2.inputs.map SensorInput.name) := by
  rw [hl, List.map_map, List.map_map] at h
  have h' : (l.map (fun x => x.1.inputs)).map some =
      ((conf.filter IsFan).map (fun e => e.2.inputs.map SensorInput.name)).map some := by
    rw [List.map_map, List.map_map]
    refine (show _ = _ from h).trans (List.map_congr_left (fun e he => ?_))
    show Option.map FanPid.inputs (fanOf e) = some _
    have : Option.map FanPid.inputs (fanOf e) ∈ l.map (Option.map FanPid.inputs ∘ fun x => some x.1) := by
      rw [h]
      exact List.mem_map.2 ⟨e, he, rfl⟩
    unfold fanOf at this ⊢
    split_ifs at this ⊢
    · obtain ⟨x, _, hx⟩ := List.mem_map.1 this
      cases hx
    · rfl
  exact (List.map_injective_iff.2 (Option.some_injective _)) h'

/-- **C100** From sensors to fans: in a launched daemon, let a thermal input of a zone that has to be there fail whenever
the zone's timer expires, from some point on. Then, after ceil(T/F) automatic cycles of the zone and whatever else happens
to the daemon, every automatic cycle commands all fan loops of the zone at least the percentage configured for the input. -/
theorem C100_failsafe {o : Opts} (ho : o.tuningEnabled = false) {bus : BuildBus} {now : Int} {w : World}
    {sensors : OMap String SensorConfig} {pids : OMap Int PIDConf} {configs : OMap Int ZoneConfig} (hw : pids.WF)
    (hc : ∀ e ∈ pids.entries, OMap.WF e.2) {d0 : Daemon} (hl : Daemon.launch o bus now w sensors pids configs = .ok d0)
    {i : Int} {conf : PIDConf} {c : ZoneConfig} (hp : pids.find? i = some conf) (hcc : configs.find? i = some c)
    {n : String} (hs : MustRead conf.entries n) (hnum : ∀ e ∈ conf.entries, e.2.failSafePercent ≠ nan)
    (hzn : c.failsafePercent ≠ nan) (hF : 1 ≤ c.cycleTime.cycleIntervalTimeMS) {pre post : List DEvent} {d1 d2 d3 : Daemon}
    (hr1 : d0.run o pre = .ok d1) (hr2 : d1.run o post = .ok d2) (hft : FailsThroughout o i n d1 (post ++ [.tick i]))
    (hn : (c.cycleTime.updateThermalsTimeMS + c.cycleTime.cycleIntervalTimeMS - 1) / c.cycleTime.cycleIntervalTimeMS ≤
      autoTicks i (modeAfter i false pre) post)
    (hm : modeAfter i false (pre ++ post) = false) (ht : d2.step o (.tick i) = .ok d3) :
    ∃ p, PercentFor c conf.entries n p ∧ FansAtLeast conf.entries (p / 100) d2.w d3.w := by
  obtain ⟨m, zones, hL⟩ := launch_spec hl
  obtain ⟨zb, c', hzb, hc', hN⟩ := (C64_zones hw hc hL.built i).1 conf hp
  rw [hcc] at hc'
  cases hc'
  obtain ⟨z0, hz0, hf0⟩ := hL.started i zb hzb
  have hh0 := C80_hist hw hL.built hzb hz0
  obtain ⟨hm0, hfa0⟩ := start_flags hz0
  rw [hN.manualMode] at hm0
  obtain ⟨z1, cnt1, log1, hz1, hh1, hm1, hfa1⟩ := mode_run hr1 hf0 hh0
  rw [hm0] at hm1
  obtain ⟨z2', cnt2', log2, hz2', hh2, hm2, hfa2⟩ := mode_run hr2 hz1 hh1
  obtain ⟨z2, cnt2, hz2, hfl⟩ := failing_run hr2 hz1 .start (fun es1 es2 d he hr => hft es1 (es2 ++ [.tick i]) d (by
    rw [he]; simp) hr)
  rw [hz2'] at hz2
  cases hz2
  have hmode : z2'.d.manualMode = false := by
    rw [hm2, hm1]
    have : ∀ (es es' : List DEvent) (b : Bool), modeAfter i b (es ++ es') = modeAfter i (modeAfter i b es) es' := by
      intro es
      induction es with
      | nil => exact fun _ _ => rfl
      | cons e es ih => intro es' b; cases e <;> exact ih _ _
    rw [← this]; exact hm
  simp only [Daemon.step, hz2'] at ht
  obtain ⟨⟨w', z3, cnt3⟩, htk, ht⟩ := bind_eq_ok.1 ht
  cases ht
  obtain ⟨f1, f2⟩ := hft post [] d2 rfl hr2
  rw [hm1, Nat.zero_add] at hfl
  obtain ⟨p, hpf, l, b, g1, g2, g3⟩ := C80_failsafe hw hc hL.built hp hcc hzb hs hnum hzn hF ho hh1 hfl hn hmode f1 f2 htk
  refine ⟨p, hpf, l, b, fans_as_configured ?_ g1, g2, g3⟩
  rw [hfa2, hfa1, hfa0, hN.fans]

theorem heard_run {o : Opts} {n : String} {st : Setup} : ∀ {es : List DEvent} {d d' : Daemon} {s : Sensor} {p : Passive}
    {wr : Writer} {h : Signals}, d.run o es = .ok d' → d.w.sensors.find? n = some s → s.impl = .pluggable (.passive p) wr →
    Heard o st h p → ∃ s' p' wr', d'.w.sensors.find? n = some s' ∧ s'.impl = .pluggable (.passive p') wr' ∧
      Heard o st (h ++ signalsFor n es) p' ∧ s'.timeout = s.timeout ∧ s'.ignoreFailIfHostOff = s.ignoreFailIfHostOff
  | [], d, d', s, p, wr, h, hr, hs, hi, hh => by
    cases hr
    exact ⟨s, p, wr, hs, hi, by simpa [signalsFor] using hh, rfl, rfl⟩
  | e :: es, d, d', s, p, wr, h, hr, hs, hi, hh => by
    obtain ⟨d1, h1, h2⟩ := bind_eq_ok.1 hr
    obtain ⟨s1, hs1, hst⟩ := step_sensor h1 hs
    cases hst with
    | @heard p0 p1 wr0 t m hi0 hp =>
      rw [hi] at hi0
      cases hi0
      have := heard_run h2 hs1 rfl (hh.signal t m hp)
      simpa [signalsFor] using this
    | deaf hd => exact absurd hi (hd _ _)
    | @host t0 v0 =>
      have e1 : s.hostWrite t0 v0 = s := by
        unfold Sensor.hostWrite
        rw [hi]
      rw [e1] at hs1
      have := heard_run h2 hs1 hi hh
      exact this
    | written hf _ =>
      obtain ⟨r', wr', hi'⟩ : ∃ r' wr', s1.impl = .pluggable r' wr' := by
        cases hi' : s1.impl with
        | pluggable r wr => exact ⟨_, _, rfl⟩
        | host v u =>
          unfold Sensor.front at hf
          rw [hi, hi'] at hf
          simp at hf
      cases front_pluggable hf hi hi'
      obtain ⟨s', p', wr'', a1, a2, a3, a4, a5⟩ := heard_run h2 hs1 hi' hh
      unfold Sensor.front at hf
      simp only [Prod.mk.injEq] at hf
      exact ⟨s', p', wr'', a1, a2, a3, a4.trans hf.2.1, a5.trans hf.2.2.1⟩
    | other q1 q2 =>
      have := heard_run h2 hs1 hi hh
      cases e with
      | signal k t m =>
        have hk : k ≠ n := fun hk => q1 t m (by rw [hk])
        simpa [signalsFor, hk] using this
      | outside | hostWrite | manual | enable | tick => exact this

theorem signalsFor_append (n : String) : ∀ es es' : List DEvent,
    signalsFor n (es ++ es') = signalsFor n es ++ signalsFor n es'
  | [], es' => rfl
  | e :: es, es' => by
    cases e with
    | signal k t m =>
      simp only [List.cons_append, signalsFor, signalsFor_append n es es']
      split_ifs <;> rfl
    | outside | hostWrite | manual | enable | tick => exact signalsFor_append n es es'

/-- a launched D-Bus sensor -/
theorem launched_heard {o : Opts} {bus : BuildBus} {now : Int} {w : World} {sensors : OMap String SensorConfig}
    (hws : sensors.WF) {pids : OMap Int PIDConf} {configs : OMap Int ZoneConfig} {d0 : Daemon}
    (hl : Daemon.launch o bus now w sensors pids configs = .ok d0) {n : String} {c : SensorConfig}
    (hcs : sensors.find? n = some c) (ht : KnownType c.type) (hk : ReadKind c.readPath .dbusPassive) :
    ∃ s p wr st, d0.w.sensors.find? n = some s ∧ s.impl = .pluggable (.passive p) wr ∧ Heard o st [] p ∧
      s.timeout = c.timeout ∧ s.ignoreFailIfHostOff = c.ignoreFailIfHostOff ∧ st.type = c.type ∧ st.created = now ∧
      (st.props.unavailableAsFailed = c.unavailableAsFailed ∨ st.props.unavailableAsFailed = true) := by
  obtain ⟨m, zones, hL⟩ := launch_spec hl
  obtain ⟨s, hs, hm⟩ := (C98_as_configured hws hL.made n).2 c hcs ht
  have hs' : d0.w.sensors.find? n = some s := by rw [hL.world]; exact hs
  have key : ∀ r, ReadsFrom o bus now n c r → ∃ p st, r = .passive p ∧ Heard o st [] p ∧ st.type = c.type ∧ st.created = now ∧
      (st.props.unavailableAsFailed = c.unavailableAsFailed ∨ st.props.unavailableAsFailed = true) := by
    intro r hr
    cases hr with
    | dbus _ hd =>
      obtain ⟨st, rfl, h1, _, h3, _, h5, h6⟩ := created_setup hd
      refine ⟨_, st, rfl, .start, h1, h3, ?_⟩
      cases hmi : st.missing with
      | true => exact .inr (h5 hmi).2
      | false => exact .inl (h6 hmi).1
    | sysfs h1 => cases readKind_unique hk h1
    | external h1 => cases readKind_unique hk h1
    | nothing h1 => rcases h1 with h1 | h1 <;> cases readKind_unique hk h1
  cases hm with
  | fan _ hr _ =>
    obtain ⟨p, st, rfl, h1, h2⟩ := key _ hr
    exact ⟨_, p, _, st, hs', rfl, h1, rfl, rfl, h2⟩
  | thermal _ _ hr =>
    obtain ⟨p, st, rfl, h1, h2⟩ := key _ hr
    exact ⟨_, p, _, st, hs', rfl, h1, rfl, rfl, h2⟩
  | external he =>
    have : ReadKind c.readPath .external := .external he.2
    cases readKind_unique hk this

/-- **C100** Such an input is a D-Bus sensor that reported a critical alarm and has not withdrawn it since, if its
unavailability counts as a failure and the state of the host does not excuse it. -/
theorem C100_alarm_fails {o : Opts} {bus : BuildBus} {now : Int} {w : World} {sensors : OMap String SensorConfig}
    (hws : sensors.WF) {pids : OMap Int PIDConf} {configs : OMap Int ZoneConfig} {d0 : Daemon}
    (hl : Daemon.launch o bus now w sensors pids configs = .ok d0) {n : String} {c : SensorConfig}
    (hcs : sensors.find? n = some c) (htk : KnownType c.type) (hk : ReadKind c.readPath .dbusPassive)
    (hua : c.unavailableAsFailed = true) (hho : c.ignoreFailIfHostOff = false) {pre post : List DEvent} {t : Int} {m : PropMsg}
    {d1 : Daemon} (hr : d0.run o (pre ++ [.signal n t m]) = .ok d1) (hm : alarmIn o (t, m) = some true)
    (hpost : ∀ x ∈ signalsFor n post, alarmIn o x ≠ some false) (i : Int) : FailsThroughout o i n d1 post := by
  obtain ⟨s, p, wr, st, h1, h2, h3, h4, h5, h6, h7, h8⟩ := launched_heard hws hl hcs htk hk
  intro es1 es2 d2 he hr2
  have hrun := run_append.2 ⟨d1, hr, hr2⟩
  obtain ⟨s', p', wr', a1, a2, a3, a4, a5⟩ := heard_run hrun h1 h2 h3
  have hu : st.props.unavailableAsFailed = true := by rcases h8 with h8 | h8 <;> rw [h8]; exact hua
  have hal : st.Alarm o ([] ++ signalsFor n (pre ++ [.signal n t m] ++ es1)) := by
    unfold Setup.Alarm
    have hsig : signalsFor n [DEvent.signal n t m] = [(t, m)] := by simp [signalsFor]
    rw [List.nil_append, signalsFor_append, signalsFor_append, hsig, lastOf_append, lastOf_snoc, hm]
    have hsub : ∀ x ∈ signalsFor n es1, alarmIn o x ≠ some false := by
      intro x hx
      apply hpost x
      rw [he, signalsFor_append]
      exact List.mem_append_left _ hx
    show lastOf (alarmIn o) true _ = true
    generalize signalsFor n es1 = l at hsub
    clear a3 hrun hr2 he
    induction l with
    | nil => rfl
    | cons x l ih =>
      have hx := hsub x List.mem_cons_self
      have : (alarmIn o x).getD true = true := by
        cases hh : alarmIn o x with
        | none => rfl
        | some b => cases b <;> simp_all
      show lastOf (alarmIn o) ((alarmIn o x).getD true) l = true
      rw [this]
      exact ih (fun y hy => hsub y (List.mem_cons_of_mem _ hy))
  have hfail : s'.getFailed d2.w = .ok true := by
    unfold Sensor.getFailed
    rw [a2]
    have : p'.getFailed d2.w.redundancyFailed = true :=
      (C49_decision a3 _).2 (.inr (.inr ⟨fun hex => absurd (hex.2.2.symm.trans hu) (by decide), .inr (.inr (.inl hal))⟩))
    simp [this, a5, h5, hho]
  exact ⟨⟨s', a1, .inl hfail⟩, ⟨s', a1, .inl hfail⟩⟩

theorem reading_before {st : Setup} {t0 : Int} (hc : st.created ≤ t0) {h : Signals} (hb : ∀ x ∈ h, x.1 ≤ t0) :
    (st.reading h).1 ≤ t0 := by
  unfold Setup.reading lastOf
  have : ∀ (h : Signals) (a : Int × Dbl), a.1 ≤ t0 → (∀ x ∈ h, x.1 ≤ t0) →
      (h.foldl (fun acc s => (readingIn s).getD acc) a).1 ≤ t0 := by
    intro h
    induction h with
    | nil => exact fun a ha _ => ha
    | cons x h ih =>
      intro a ha hx
      refine ih _ ?_ (fun y hy => hx y (List.mem_cons_of_mem _ hy))
      have h0 := hx x List.mem_cons_self
      show ((readingIn x).getD a).1 ≤ t0
      cases hv : readingIn x with
      | none => exact ha
      | some v =>
        have : v.1 = x.1 := by
          unfold readingIn at hv
          split at hv <;> split_ifs at hv <;> (cases hv; rfl)
        show v.1 ≤ t0
        omega
  exact this h _ hc hb

theorem clock_run {o : Opts} {t : Int} : ∀ {es : List DEvent} {d d' : Daemon}, d.run o es = .ok d' →
    t ≤ d.w.nowFans ∧ t ≤ d.w.nowThermals → (∀ e ∈ es, ClockFrom t e) → t ≤ d'.w.nowFans ∧ t ≤ d'.w.nowThermals
  | [], d, d', h, hc, _ => by cases h; exact hc
  | e :: es, d, d', h, hc, he => by
    obtain ⟨d1, h1, h2⟩ := bind_eq_ok.1 h
    refine clock_run h2 ?_ (fun e' h' => he e' (List.mem_cons_of_mem _ h'))
    have h0 := he e List.mem_cons_self
    cases e with
    | outside nf nt ho rf fi bo => cases h1; exact h0
    | signal k t' m =>
      have h1 : d.signal o k t' m = .ok d1 := h1
      unfold Daemon.signal at h1
      split at h1
      · split at h1
        · obtain ⟨p', hp, h1⟩ := bind_eq_ok.1 h1
          cases h1; exact hc
        · cases h1; exact hc
      · cases h1; exact hc
    | hostWrite k t' v =>
      simp only [Daemon.step] at h1
      split at h1 <;> (cases h1; exact hc)
    | manual j b => cases h1; rw [onZone_w]; exact hc
    | enable j l b => cases h1; rw [onZone_w]; exact hc
    | tick j =>
      simp only [Daemon.step] at h1
      split at h1
      · obtain ⟨⟨w', z', cnt'⟩, h3, h1⟩ := bind_eq_ok.1 h1
        cases h1
        have := (tick_after h3).same
        rw [this]; exact hc
      · cases h1; exact hc

/-- **C100** Such an input is also a D-Bus sensor with a timeout that has been silent for that long: nothing it sent
arrived after `t0`, except messages without a reading, and the clock is `timeout` seconds further. -/
theorem C100_silent_fails {o : Opts} {bus : BuildBus} {now : Int} {w : World} {sensors : OMap String SensorConfig}
    (hws : sensors.WF) {pids : OMap Int PIDConf} {configs : OMap Int ZoneConfig} {d0 : Daemon}
    (hl : Daemon.launch o bus now w sensors pids configs = .ok d0) {n : String} {c : SensorConfig}
    (hcs : sensors.find? n = some c) (htk : KnownType c.type) (hk : ReadKind c.readPath .dbusPassive) (hto : 0 < c.timeout)
    {t0 : Int} (h0 : now ≤ t0) {pre post : List DEvent} {d1 : Daemon} (hr : d0.run o pre = .ok d1)
    (hpre : ∀ x ∈ signalsFor n pre, x.1 ≤ t0) (hpost : ∀ x ∈ signalsFor n post, readingIn x = none)
    (hc1 : t0 + c.timeout * 1000000000 ≤ d1.w.nowFans ∧ t0 + c.timeout * 1000000000 ≤ d1.w.nowThermals)
    (hclock : ∀ e ∈ post, ClockFrom (t0 + c.timeout * 1000000000) e) (i : Int) : FailsThroughout o i n d1 post := by
  obtain ⟨s, p, wr, st, h1, h2, h3, h4, h5, h6, h7, h8⟩ := launched_heard hws hl hcs htk hk
  intro es1 es2 d2 he hr2
  have hrun := run_append.2 ⟨d1, hr, hr2⟩
  obtain ⟨s', p', wr', a1, a2, a3, a4, a5⟩ := heard_run hrun h1 h2 h3
  have hcl := clock_run hr2 hc1 (fun e h' => hclock e (by rw [he]; exact List.mem_append_left _ h'))
  have hup : p'.read.updated ≤ t0 := by
    have := (C48_reading a3).1
    rw [this]
    show (st.reading _).1 ≤ t0
    rw [List.nil_append, signalsFor_append, Setup.reading, lastOf_append, lastOf_none]
    · exact reading_before (h7 ▸ h0) hpre
    · intro x hx
      apply hpost x
      rw [he, signalsFor_append]
      exact List.mem_append_left _ hx
  have hrd : ∀ nw, s'.read d2.w nw = .ok p'.read := by
    intro nw
    unfold Sensor.read
    rw [a2]
  have hst : ∀ nw, t0 + c.timeout * 1000000000 ≤ nw → Stale s'.timeout (nw - p'.read.updated) := by
    intro nw hnw
    rw [a4, h4]
    exact .inl ⟨hto, by omega⟩
  exact ⟨⟨s', a1, .inr ⟨_, hrd _, hst _ hcl.1⟩⟩, ⟨s', a1, .inr ⟨_, hrd _, hst _ hcl.2⟩⟩⟩

/-- **C100** Both together: once a D-Bus temperature sensor reports a critical alarm and until it withdraws it, every
automatic cycle after the first ceil(T/F) commands the fans at least the percentage configured for the sensor. -/
theorem C100_alarm {o : Opts} (ho : o.tuningEnabled = false) {bus : BuildBus} {now : Int} {w : World}
    {sensors : OMap String SensorConfig} (hws : sensors.WF) {pids : OMap Int PIDConf} {configs : OMap Int ZoneConfig}
    (hw : pids.WF) (hc : ∀ e ∈ pids.entries, OMap.WF e.2) {d0 : Daemon}
    (hl : Daemon.launch o bus now w sensors pids configs = .ok d0)
    {i : Int} {conf : PIDConf} {c : ZoneConfig} (hp : pids.find? i = some conf) (hcc : configs.find? i = some c)
    {n : String} (hs : MustRead conf.entries n) (hnum : ∀ e ∈ conf.entries, e.2.failSafePercent ≠ nan)
    (hzn : c.failsafePercent ≠ nan) (hF : 1 ≤ c.cycleTime.cycleIntervalTimeMS)
    {sc : SensorConfig} (hsc : sensors.find? n = some sc) (htk : KnownType sc.type) (hk : ReadKind sc.readPath .dbusPassive)
    (hua : sc.unavailableAsFailed = true) (hho : sc.ignoreFailIfHostOff = false)
    {pre post : List DEvent} {t : Int} {m : PropMsg} {d2 d3 : Daemon}
    (hr : d0.run o (pre ++ .signal n t m :: post) = .ok d2) (hm : alarmIn o (t, m) = some true)
    (hpost : ∀ x ∈ signalsFor n post, alarmIn o x ≠ some false)
    (hn : (c.cycleTime.updateThermalsTimeMS + c.cycleTime.cycleIntervalTimeMS - 1) / c.cycleTime.cycleIntervalTimeMS ≤
      autoTicks i (modeAfter i false pre) post)
    (hmode : modeAfter i false (pre ++ post) = false) (ht : d2.step o (.tick i) = .ok d3) :
    ∃ p, PercentFor c conf.entries n p ∧ FansAtLeast conf.entries (p / 100) d2.w d3.w := by
  have e : pre ++ DEvent.signal n t m :: post = (pre ++ [.signal n t m]) ++ post := by simp
  rw [e] at hr
  obtain ⟨d1, hr1, hr2⟩ := run_append.1 hr
  have happ : ∀ (es es' : List DEvent) (b : Bool), modeAfter i b (es ++ es') = modeAfter i (modeAfter i b es) es' := by
    intro es
    induction es with
    | nil => exact fun _ _ => rfl
    | cons e es ih => intro es' b; cases e <;> exact ih _ _
  have hs1 : modeAfter i false (pre ++ [.signal n t m]) = modeAfter i false pre := by rw [happ]; rfl
  refine C100_failsafe ho hw hc hl hp hcc hs hnum hzn hF hr1 hr2
    (C100_alarm_fails hws hl hsc htk hk hua hho hr1 hm (fun x hx => hpost x ?_) i) (by rw [hs1]; exact hn)
    (by rw [happ, hs1, ← happ]; exact hmode) ht
  rw [signalsFor_append] at hx
  simpa [signalsFor] using hx

end

namespace Ex
section
attribute [local instance] binary64

/-- a fan and a temperature sensor on the bus -/
def sensors99 : OMap String SensorConfig :=
  [("fan0", ⟨"fan", "/xyz/openbmc_project/sensors/fan_tach/fan0", "/sys/class/hwmon/pwm1", 0, 255, 0, false, true, false⟩),
    ("cpu", ⟨"temp", "/xyz/openbmc_project/sensors/temperature/cpu", "", 0, 0, 5, false, true, false⟩)].foldl
    (fun m e => m.insert e.1 e.2) {}

def loop99 (type input : String) (k offset percent : Int) : ControllerInfo :=
  { type := type, inputs := [{ name := input }], setpoint := 80
    pidInfo := { PidConf.zero with
      ts := 1, proportionalCoeff := Dbl.ofInt k, feedFwdGain := Dbl.ofInt offset, outLim := ⟨0, 100⟩ }
    stepwiseInfo := .zero, failSafePercent := Dbl.ofInt percent }

def loops99 : PIDConf := (({} : PIDConf).insert "fans" (loop99 "fan" "fan0" 0 1 0)).insert "temps" (loop99 "temp" "cpu" (-2) 0 90)
def pids99 : OMap Int PIDConf := ({} : OMap Int PIDConf).insert 1 loops99
/-- thermal loops run every second cycle -/
def zone99 : ZoneConfig := ⟨20, 75, ⟨500, 1000⟩, false⟩
def zones99 : OMap Int ZoneConfig := ({} : OMap Int ZoneConfig).insert 1 zone99

theorem sensors99_wf : sensors99.WF := by
  unfold sensors99
  simp only [List.foldl]
  repeat apply OMap.wf_insert
  exact OMap.wf_empty

theorem loops99_wf : loops99.WF := OMap.wf_insert (OMap.wf_insert OMap.wf_empty _ _) _ _
theorem pids99_wf : pids99.WF := OMap.wf_insert OMap.wf_empty _ _
theorem pids99_find {i : Int} {conf : PIDConf} (h : pids99.find? i = some conf) : i = 1 ∧ conf = loops99 := by
  unfold pids99 at h
  by_cases hi : i = 1
  · subst hi
    rw [OMap.find?_insert_self] at h
    cases h; exact ⟨rfl, rfl⟩
  · rw [OMap.find?_insert_ne _ hi, OMap.find?_empty] at h
    cases h

theorem suits99 : Suits sensors99 pids99 zones99 where
  sensorsWf := sensors99_wf
  pidsWf := pids99_wf
  loopsWf i conf h := by rw [(pids99_find h).2]; exact loops99_wf
  zone := ⟨1, loops99, by unfold pids99; rw [OMap.find?_insert_self]⟩
  details i conf h := by rw [(pids99_find h).1]; exact ⟨zone99, by unfold zones99; rw [OMap.find?_insert_self]⟩
  loops i conf h := by
    rw [(pids99_find h).2]
    refine ⟨⟨by decide +kernel, ?_⟩, by decide +kernel⟩
    intro e he ht
    have : e.2.type ≠ "margin" := by revert e; decide +kernel
    exact absurd ht this
  inputs i conf h e he _ x hx := by
    rw [(pids99_find h).2] at he
    have key : ∀ e ∈ loops99.entries, ∀ x ∈ e.2.inputs, (sensors99.find? x.name).any (fun c =>
        decide (KnownType c.type) && decide (getReadInterfaceType c.readPath = .dbusPassive)) = true := by decide +kernel
    have := key e he x hx
    cases hc : sensors99.find? x.name with
    | none => rw [hc] at this; cases this
    | some c =>
      rw [hc] at this
      simp only [Option.any_some, Bool.and_eq_true, decide_eq_true_eq] at this
      have hk := (C65_read _ _).1 this.2
      exact ⟨c, rfl, ⟨this.1, .inl hk⟩, fun _ he => by cases readKind_unique hk (.external he.2)⟩

def files99 (path : String) : FileContent := if path = "/sys/class/hwmon/pwm1" then .number 0 else .missing
def world99 : World := { world with
  nowFans := 1000000000, nowThermals := 1000000000, files := files99 }

theorem filesOk99 (dirs : Dirs) : FilesOk {} dirs sensors99 files99 := by
  refine ⟨?_, fun h => by cases h⟩
  intro n c _ hc hk _
  have := (OMap.mem_entries_iff sensors99_wf n c).2 hc
  have key : ∀ e ∈ sensors99.entries, getReadInterfaceType e.2.readPath ≠ .sysfs := by decide +kernel
  exact absurd ((C65_read _ _).2 hk) (key _ this)

/-- C99: this daemon starts … -/
theorem launch99 : ∃ d, Daemon.launch {} bus98 0 world99 sensors99 pids99 zones99 = .ok d := by
  refine C99_launches suits99 ?_ (filesOk99 _)
  intro n c hc
  have key : ∀ e ∈ sensors99.entries, (DbusSensor {} bus98 0 e.1 e.2).isSome = true := by decide +kernel
  have key2 : ∀ e ∈ sensors99.entries, getReadInterfaceType e.2.readPath ≠ .sysfs ∧
      findSub "**".toList e.2.writePath.toList = none := by decide +kernel
  have hm := (OMap.mem_entries_iff sensors99_wf n c).2 hc
  exact ⟨fun _ => Option.isSome_iff_exists.1 (key _ hm), fun hk => absurd ((C65_read _ _).2 hk) (key2 _ hm).1, fun _ _ => rfl,
    fun _ _ => ⟨_, .plain (fun h => by rw [← findSub_isSome, (key2 _ hm).2] at h; cases h)⟩⟩

/-- … and runs -/
example (d d1 : Daemon) (hl : Daemon.launch {} bus98 0 world99 sensors99 pids99 zones99 = .ok d)
    (hr : d.run {} [.tick 1, .manual 1 true, .tick 1] = .ok d1) : (∃ d2, d1.step {} (.manual 1 false) = .ok d2) := by
  rcases C99_keeps_running suits99 (filesOk99 _) hl (es := [.tick 1, .manual 1 true, .tick 1])
    (by intro e he; simp only [List.mem_cons, List.not_mem_nil, or_false] at he; rcases he with rfl | rfl | rfl <;> trivial) hr (e := .manual 1 false) trivial with h | ⟨_, _, h, _⟩ | ⟨_, _, _, h, _⟩
  · exact h
  · cases h
  · cases h

/-- a critical alarm -/
def alarm99 (b : Bool) : PropMsg := ⟨ifCritical, ({} : OMap String Variant).insert "CriticalAlarmHigh" (.bool b)⟩
def events99 : List DEvent := [.tick 1, .signal "cpu" 5 (alarm99 true), .tick 1, .tick 1]
def run99 (es : List DEvent) : Res Daemon := do
  let d ← Daemon.launch {} bus98 0 world99 sensors99 pids99 zones99
  d.run {} es

/-- C100: the alarm is raised, and after two cycles the fans are commanded 90 percent: 229 of 255 is written -/
example : ∃ d, run99 (events99 ++ [.tick 1]) = .ok d ∧
    decide (d.w.trace.getLast? = some (.sysfsWrite "/sys/class/hwmon/pwm1" 229)) = true :=
  ok_of_any (P := fun d : Daemon => decide (d.w.trace.getLast? = some (.sysfsWrite "/sys/class/hwmon/pwm1" 229)))
    (by decide +kernel)
/-- without the alarm the fans stay at the lowest set point -/
example : ∃ d, run99 [.tick 1, .tick 1, .tick 1] = .ok d ∧
    decide (d.w.trace.getLast? = some (.sysfsWrite "/sys/class/hwmon/pwm1" 51)) = true :=
  ok_of_any (P := fun d : Daemon => decide (d.w.trace.getLast? = some (.sysfsWrite "/sys/class/hwmon/pwm1" 51)))
    (by decide +kernel)

/-- C100: all hypotheses hold for this run -/
example : ∃ d0 d2 d3 p, Daemon.launch {} bus98 0 world99 sensors99 pids99 zones99 = .ok d0 ∧ d0.run {} events99 = .ok d2 ∧
    d2.step {} (.tick 1) = .ok d3 ∧ PercentFor zone99 loops99.entries "cpu" p ∧
    FansAtLeast loops99.entries (p / 100) d2.w d3.w := by
  obtain ⟨d3, h, _⟩ := ok_of_any (x := run99 (events99 ++ [.tick 1])) (P := fun _ : Daemon => true) (by decide +kernel)
  obtain ⟨d0, hl, h⟩ := bind_eq_ok.1 h
  obtain ⟨d2, hr, h⟩ := run_append.1 h
  obtain ⟨d3', ht, h⟩ := bind_eq_ok.1 h
  cases h
  obtain ⟨p, h1, h2⟩ := C100_alarm (o := {}) rfl sensors99_wf pids99_wf
    (fun e he => by rw [(pids99_find ((OMap.mem_entries_iff pids99_wf e.1 e.2).1 he)).2]; exact loops99_wf) hl
    (i := 1) (conf := loops99) (c := zone99) (by unfold pids99; rw [OMap.find?_insert_self])
    (by unfold zones99; rw [OMap.find?_insert_self]) (n := "cpu")
    ⟨by decide +kernel, by decide +kernel⟩ (by decide +kernel) (by decide +kernel) (by decide)
    (sc := ⟨"temp", "/xyz/openbmc_project/sensors/temperature/cpu", "", 0, 0, 5, false, true, false⟩)
    (by decide +kernel) (by decide) ((C65_read _ _).1 (by decide +kernel)) rfl rfl
    (pre := [.tick 1]) (post := [.tick 1, .tick 1]) hr (by decide +kernel) (by intro x hx; cases hx) (by decide) rfl ht
  exact ⟨d0, d2, d3, p, hl, hr, ht, h1, h2⟩

/-- C100: the sensor has a timeout of 5 s, nothing arrived since time 0 and the clock shows 6 s -/
example (d0 d1 : Daemon) (hl : Daemon.launch {} bus98 0 world99 sensors99 pids99 zones99 = .ok d0)
    (hr : d0.run {} [.tick 1, .outside 6000000000 6000000000 true [] files99 (fun _ => true)] = .ok d1) :
    FailsThroughout {} 1 "cpu" d1 [.tick 1, .manual 1 true, .tick 1] := by
  refine C100_silent_fails sensors99_wf hl
    (c := ⟨"temp", "/xyz/openbmc_project/sensors/temperature/cpu", "", 0, 0, 5, false, true, false⟩)
    (by decide +kernel) (by decide) ((C65_read _ _).1 (by decide +kernel)) (by decide) (t0 := 0) le_rfl hr
    (by intro x hx; cases hx) (by intro x hx; cases hx) ?_ ?_ 1
  · obtain ⟨d2, _, h⟩ := run_append (es := [.tick 1]).1 hr
    cases h
    exact ⟨by norm_num, by norm_num⟩
  · intro e he
    simp only [List.mem_cons, List.not_mem_nil, or_false] at he
    rcases he with rfl | rfl | rfl <;> trivial

end
end Ex
end Verif
