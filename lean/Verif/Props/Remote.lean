import Verif.Lemmas.Remote

/-! # C121: remote control -/

namespace Verif
open Dbl
section
variable [F : FloatModel]

theorem onlySet_refl (d : Daemon) : OnlySet d d := by
  refine ⟨rfl, fun i => ?_⟩
  cases d.zones.find? i <;> simp

theorem onlySet_onZone {d : Daemon} (i : Int) {f : ZoneData → ZoneData}
    (hf : ∀ z, f z = { z with manualMode := (f z).manualMode, redundantWrite := (f z).redundantWrite, procs := (f z).procs }) :
    OnlySet d (d.onZone i f) := by
  refine ⟨by rw [onZone_w], fun j => ?_⟩
  unfold Daemon.onZone
  cases hz : d.zones.find? i with
  | none => dsimp only; cases d.zones.find? j <;> simp
  | some e =>
    obtain ⟨z, cnt⟩ := e
    dsimp only
    rw [OMap.find?_insert]
    split_ifs with hj
    · subst hj
      rw [hz]
      exact ⟨rfl, rfl, rfl, hf z.d⟩
    · cases d.zones.find? j <;> simp

/-- **C121** A call to set a property of the daemon never ends it. It is answered with success exactly if it addresses the mode of
a zone that exists, the switch of a loop that exists, or the value of a host sensor, with a value of the right type. The zone, loop
or host sensor that is addressed is then as asked. All other modes, switches and sensors, and everything else, stay as they are. -/
theorem C121_set {o : Opts} {d : Daemon} (hw : d.zones.WF) {hosts : List (String × String)} (hh : (hosts.map Prod.fst).Nodup) (now : Int)
    (c : SetCall) :
    ∃ d' ok, d.set o hosts now c = .ok (d', ok) ∧
      (ok = true ↔ (∃ i b, AsksMode c i b ∧ d.manualOf i ≠ none) ∨ (∃ i n b, AsksSwitch c i n b ∧ d.switchOf i n ≠ none) ∨
        ∃ h ∈ hosts, ∃ v, AsksValue c h.1 v) ∧
      (∀ i b, AsksMode c i b → d.manualOf i ≠ none → d'.manualOf i = some b) ∧
      (∀ i, (∀ b, ¬ AsksMode c i b) → d'.manualOf i = d.manualOf i) ∧
      (∀ i n b, AsksSwitch c i n b → d.switchOf i n ≠ none → d'.switchOf i n = some b) ∧
      (∀ i n, (∀ b, ¬ AsksSwitch c i n b) → d'.switchOf i n = d.switchOf i n) ∧
      (∀ h ∈ hosts, ∀ v, AsksValue c h.1 v → d.hostOf h.2 ≠ none → d'.hostOf h.2 = some (v, now)) ∧
      (∀ n, (∀ h ∈ hosts, h.2 = n → ∀ v, ¬ AsksValue c h.1 v) → d'.w.sensors.find? n = d.w.sensors.find? n) ∧
      OnlySet d d' := by
  have hac := fun e => accept_iff hw hh (now := now) (c := c) (e := e)
  unfold Daemon.set
  cases ha : d.accept hosts now c with
  | none =>
    have no : ∀ e, d.accept hosts now c ≠ some e := fun e => by rw [ha]; simp
    have n1 : ∀ i b, AsksMode c i b → d.manualOf i = none := fun i b h1 => by
      by_contra h2
      exact no _ ((hac _).2 (.inl ⟨i, b, h1, h2, rfl⟩))
    have n2 : ∀ i n b, AsksSwitch c i n b → d.switchOf i n = none := fun i n b h1 => by
      by_contra h2
      exact no _ ((hac _).2 (.inr (.inl ⟨i, n, b, h1, h2, rfl⟩)))
    have n3 : ∀ h ∈ hosts, ∀ v, ¬ AsksValue c h.1 v := fun h hm v h1 =>
      no _ ((hac _).2 (.inr (.inr ⟨h, hm, v, h1, rfl⟩)))
    refine ⟨d, false, rfl, ⟨by simp, ?_⟩, fun i b h1 h2 => absurd (n1 i b h1) h2, fun _ _ => rfl,
      fun i n b h1 h2 => absurd (n2 i n b h1) h2, fun _ _ _ => rfl, fun h hm v h1 => absurd h1 (n3 h hm v), fun _ _ => rfl,
      onlySet_refl d⟩
    rintro (⟨i, b, h1, h2⟩ | ⟨i, n, b, h1, h2⟩ | ⟨h, hm, v, h1⟩)
    · exact absurd (n1 i b h1) h2
    · exact absurd (n2 i n b h1) h2
    · exact absurd h1 (n3 h hm v)
  | some e =>
    have n12 : ∀ {i b j n b'}, AsksMode c i b → ¬ AsksSwitch c j n b' := by
      intro i b j n b' h1 h2
      rw [h1] at h2
      exact absurd (congrArg SetCall.interface h2) (by dsimp only; decide)
    have n13 : ∀ {i b p v}, AsksMode c i b → ¬ AsksValue c p v := by
      intro i b p v h1 h2
      rw [h1] at h2
      exact absurd (congrArg SetCall.interface h2) (by dsimp only; decide)
    have n23 : ∀ {i n b p v}, AsksSwitch c i n b → ¬ AsksValue c p v := by
      intro i n b p v h1 h2
      rw [h1] at h2
      exact absurd (congrArg SetCall.interface h2) (by dsimp only; decide)
    rcases (hac e).1 ha with ⟨i, b, h1, h2, rfl⟩ | ⟨i, n, b, h1, h2, rfl⟩ | ⟨h, hm, v, h1, rfl⟩
    · have same : ∀ j b', AsksMode c j b' → j = i ∧ b' = b := by
        intro j b' h3
        rw [h1] at h3
        injection h3 with _ e1 _ _ e2
        injection e2 with e2
        exact ⟨(zoneObject_inj e1).symm, e2.symm⟩
      refine ⟨d.onZone i (fun z => z.setManualMode b), true, rfl, ⟨fun _ => .inl ⟨i, b, h1, h2⟩, fun _ => rfl⟩, ?_, ?_,
        fun _ _ _ h3 => absurd h3 (n12 h1), ?_, fun _ _ _ h3 => absurd h3 (n13 h1), fun n _ => by rw [onZone_w],
        onlySet_onZone i (fun z => rfl)⟩
      · intro j b' h3 h4
        obtain ⟨rfl, rfl⟩ := same j b' h3
        unfold Daemon.manualOf at h4 ⊢
        rw [onZone_find?, if_pos rfl]
        cases hz : d.zones.find? j with
        | none => rw [hz] at h4; exact absurd rfl h4
        | some e => rfl
      · intro j h3
        have hj : j ≠ i := fun hj => h3 b (hj ▸ h1)
        unfold Daemon.manualOf
        rw [onZone_find?, if_neg hj]
      · intro j n _
        unfold Daemon.switchOf
        rw [onZone_find?]
        split_ifs with hj
        · subst hj
          cases d.zones.find? j <;> rfl
        · rfl
    · have same : ∀ j m b', AsksSwitch c j m b' → (j = i ∧ m = n) ∧ b' = b := by
        intro j m b' h3
        rw [h1] at h3
        injection h3 with _ e1 _ _ e2
        injection e2 with e2
        obtain ⟨e3, e4⟩ := loopObject_inj e1
        exact ⟨⟨e3.symm, e4.symm⟩, e2.symm⟩
      refine ⟨d.onZone i (fun z => z.setEnabled n b), true, rfl, ⟨fun _ => .inr (.inl ⟨i, n, b, h1, h2⟩), fun _ => rfl⟩,
        fun _ _ h3 => absurd h1 (n12 h3), ?_, ?_, ?_, fun _ _ _ h3 => absurd h3 (n23 h1), fun n _ => by rw [onZone_w],
        onlySet_onZone i (fun z => ?_)⟩
      · intro j _
        unfold Daemon.manualOf
        rw [onZone_find?]
        split_ifs with hj
        · subst hj
          cases d.zones.find? j with
          | none => rfl
          | some e => exact congrArg some (setEnabled_manual _ _ _)
        · rfl
      · intro j m b' h3 h4
        obtain ⟨⟨rfl, rfl⟩, rfl⟩ := same j m b' h3
        unfold Daemon.switchOf at h4 ⊢
        rw [onZone_find?, if_pos rfl]
        cases hz : d.zones.find? j with
        | none => rw [hz] at h4; exact absurd rfl h4
        | some e =>
          rw [hz] at h4
          show ((e.1.d.setEnabled m b').procs.find? m).map (·.enabled) = _
          rw [setEnabled_find?, if_pos rfl]
          cases hp : e.1.d.procs.find? m with
          | none =>
            exfalso
            apply h4
            show (e.1.d.procs.find? m).map _ = none
            rw [hp]; rfl
          | some p => rfl
      · intro j m h3
        unfold Daemon.switchOf
        rw [onZone_find?]
        split_ifs with hj
        · subst hj
          cases hz : d.zones.find? j with
          | none => rfl
          | some e =>
            show ((e.1.d.setEnabled n b).procs.find? m).map (·.enabled) = (e.1.d.procs.find? m).map (·.enabled)
            rw [setEnabled_find?, if_neg]
            intro hm
            exact h3 b (hm ▸ h1)
        · rfl
      · unfold ZoneData.setEnabled
        cases z.procs.find? n <;> rfl
    · have same : ∀ x ∈ hosts, ∀ v', AsksValue c x.1 v' → x = h ∧ v' = v := by
        intro x hx v' h3
        rw [h1] at h3
        injection h3 with _ e1 _ _ e2
        injection e2 with e2
        exact ⟨List.inj_on_of_nodup_map hh hx hm e1.symm, e2.symm⟩
      have hst : ∀ m, ∃ d', d.step o (.hostWrite h.2 now v) = .ok d' ∧ d'.zones = d.zones ∧
          d'.w = { d.w with sensors := d'.w.sensors } ∧
          d'.w.sensors.find? m = if m = h.2 then (d.w.sensors.find? m).map (·.hostWrite now v) else d.w.sensors.find? m := by
        intro m
        simp only [Daemon.step]
        cases hs : d.w.sensors.find? h.2 with
        | none =>
          refine ⟨d, rfl, rfl, rfl, ?_⟩
          split_ifs with hm
          · rw [hm, hs]; rfl
          · rfl
        | some s =>
          refine ⟨_, rfl, rfl, rfl, ?_⟩
          show (d.w.sensors.insert h.2 _).find? m = _
          rw [OMap.find?_insert]
          split_ifs with hm
          · rw [hm, hs]; rfl
          · rfl
      obtain ⟨d', h2, h3, h4, -⟩ := hst h.2
      have h5 : ∀ m, d'.w.sensors.find? m =
          if m = h.2 then (d.w.sensors.find? m).map (·.hostWrite now v) else d.w.sensors.find? m := by
        intro m
        obtain ⟨d1, q1, _, _, q2⟩ := hst m
        rw [h2] at q1
        cases q1
        exact q2
      have hm1 : ∀ i, d'.manualOf i = d.manualOf i := fun i => by unfold Daemon.manualOf; rw [h3]
      have hm2 : ∀ i n, d'.switchOf i n = d.switchOf i n := fun i n => by unfold Daemon.switchOf; rw [h3]
      refine ⟨d', true, by simp only [h2]; rfl, ⟨fun _ => .inr (.inr ⟨h, hm, v, h1⟩), fun _ => rfl⟩, fun _ _ q => absurd h1 (n13 q),
        fun i _ => hm1 i, fun _ _ _ q => absurd h1 (n23 q), fun i n _ => hm2 i n, ?_, ?_, h4, fun i => ?_⟩
      · intro x hx v' q1 q2
        obtain ⟨rfl, rfl⟩ := same x hx v' q1
        unfold Daemon.hostOf at q2 ⊢
        rw [h5, if_pos rfl]
        cases hs : d.w.sensors.find? x.2 with
        | none => rw [hs] at q2; exact absurd rfl q2
        | some s =>
          rw [hs] at q2
          cases hi : s.impl with
          | pluggable r wr => simp [hi] at q2
          | host a b => simp [Sensor.hostWrite, hi, mul_pow10_zero]
      · intro m q
        rw [h5, if_neg]
        intro e
        exact q h hm e.symm v h1
      · rw [h3]
        cases d.zones.find? i <;> simp

/-- the zones and loops of a daemon that has been launched -/
theorem objects_run {o : Opts} {i : Int} {n : String} : ∀ {es : List DEvent} {d d' : Daemon}, d.run o es = .ok d' →
    (d'.manualOf i ≠ none ↔ d.manualOf i ≠ none) ∧ (d'.switchOf i n ≠ none ↔ d.switchOf i n ≠ none)
  | [], _, _, h => by cases h; exact ⟨Iff.rfl, Iff.rfl⟩
  | e :: es, d, d', h => by
    obtain ⟨d1, h1, h2⟩ := bind_eq_ok.1 h
    obtain ⟨a, b⟩ := objects_run (i := i) (n := n) h2
    rw [a, b]
    unfold Daemon.manualOf Daemon.switchOf
    cases hz : d.zones.find? i with
    | none => rw [step_none h1 hz]; exact ⟨Iff.rfl, Iff.rfl⟩
    | some x =>
      obtain ⟨z, cnt⟩ := x
      obtain ⟨z', cnt', hz', hst⟩ := step_zone h1 hz
      rw [hz']
      refine ⟨by simp, ?_⟩
      show (z'.d.procs.find? n).map (·.enabled) ≠ none ↔ (z.d.procs.find? n).map (·.enabled) ≠ none
      cases hst with
      | manual b => exact Iff.rfl
      | enable l b =>
        rw [setEnabled_find?]
        split_ifs <;> simp
      | tick ht => rw [tick_switches ht n]
      | other => exact Iff.rfl

theorem hosts_run {o : Opts} {dirs : Dirs} {n : String} {c : SensorConfig} : ∀ {es : List DEvent} {d d' : Daemon}, d.run o es = .ok d' →
    (∃ s, d.w.sensors.find? n = some s ∧ Kind dirs c s.impl) → ∃ s, d'.w.sensors.find? n = some s ∧ Kind dirs c s.impl
  | [], _, _, h, hs => by cases h; exact hs
  | e :: es, d, d', h, ⟨s, hs, hk⟩ => by
    obtain ⟨d1, h1, h2⟩ := bind_eq_ok.1 h
    obtain ⟨s', hs', hst⟩ := step_sensor h1 hs
    exact hosts_run h2 ⟨s', hs', kind_step hk hst⟩

theorem nosensor_step {o : Opts} {d d' : Daemon} {e : DEvent} (h : d.step o e = .ok d') {n : String}
    (hn : d.w.sensors.find? n = none) : d'.w.sensors.find? n = none := by
  have set : ∀ {m : String} {s s' : Sensor}, d.w.sensors.find? m = some s → (d.setSensor m s').w.sensors.find? n = none := by
    intro m s s' hm
    show (d.w.sensors.insert m s').find? n = none
    rw [OMap.find?_insert, if_neg, hn]
    rintro rfl
    rw [hn] at hm
    cases hm
  cases e with
  | outside => cases h; exact hn
  | signal m t x =>
    simp only [Daemon.step, Daemon.signal] at h
    split at h
    · next hm =>
      split at h
      · obtain ⟨p, _, h⟩ := bind_eq_ok.1 h
        cases h; exact set hm
      · cases h; exact hn
    · cases h; exact hn
  | hostWrite m t v =>
    simp only [Daemon.step] at h
    split at h
    · next hm => cases h; exact set hm
    · cases h; exact hn
  | manual i b => cases h; rw [onZone_w]; exact hn
  | enable i l b => cases h; rw [onZone_w]; exact hn
  | tick i =>
    simp only [Daemon.step] at h
    split at h
    · obtain ⟨⟨w, z, cnt⟩, h1, h⟩ := bind_eq_ok.1 h
      cases h
      have := (tick_after h1).front n
      rw [hn] at this
      simpa using this
    · cases h; exact hn

theorem nosensor_run {o : Opts} {n : String} : ∀ {es : List DEvent} {d d' : Daemon}, d.run o es = .ok d' →
    d.w.sensors.find? n = none → d'.w.sensors.find? n = none
  | [], _, _, h, hn => by cases h; exact hn
  | e :: es, d, d', h, hn => by
    obtain ⟨d1, h1, h2⟩ := bind_eq_ok.1 h
    exact nosensor_run h2 (nosensor_step h1 hn)

/-- **C121** The daemon that runs has a mode for every zone of the configuration, a switch for every loop of these zones other than
those of the fans, and a value for every external sensor; and no others. -/
theorem C121_objects {o : Opts} {bus : BuildBus} {now : Int} {w : World} {sensors : OMap String SensorConfig} (hs : sensors.WF)
    {pids : OMap Int PIDConf} {configs : OMap Int ZoneConfig} (hp : pids.WF) (hc : ∀ e ∈ pids.entries, OMap.WF e.2) {d0 d : Daemon}
    (hl : Daemon.launch o bus now w sensors pids configs = .ok d0) {es : List DEvent} (hr : d0.run o es = .ok d) :
    (∀ i, d.manualOf i ≠ none ↔ ∃ conf, pids.find? i = some conf) ∧
    (∀ i n, d.switchOf i n ≠ none ↔ ∃ conf, pids.find? i = some conf ∧ ∃ e ∈ conf.entries, IsHeat e ∧ e.1 = n) ∧
    (∀ n, d.hostOf n ≠ none ↔ ∃ c, sensors.find? n = some c ∧ ExternalSensor c) := by
  obtain ⟨m, zones, hL⟩ := launch_spec hl
  refine ⟨fun i => ?_, fun i n => ?_, fun n => ⟨fun h => ?_, fun ⟨c, hc, he⟩ => ?_⟩⟩
  · rw [(objects_run (n := "") hr).1]
    unfold Daemon.manualOf
    cases hpi : pids.find? i with
    | none => rw [hL.only i ((C64_zones hp hc hL.built i).2 hpi)]; simp
    | some conf =>
      obtain ⟨z, c, hz, _⟩ := (C64_zones hp hc hL.built i).1 conf hpi
      obtain ⟨z0, _, hz0⟩ := hL.started i z hz
      rw [hz0]; simp
  · rw [(objects_run hr).2]
    unfold Daemon.switchOf
    cases hpi : pids.find? i with
    | none => rw [hL.only i ((C64_zones hp hc hL.built i).2 hpi)]; simp
    | some conf =>
      obtain ⟨z, c, hz, _, hn⟩ := (C64_zones hp hc hL.built i).1 conf hpi
      obtain ⟨z0, hst, hz0⟩ := hL.started i z hz
      rw [hz0]
      have hsw : SameSwitches z.d z0.d := by
        have a : SameSwitches z.d z.d.initializeCache := .of_eq (by rw [(initializeCache_spec z.d).eq])
        exact a.trans (processThermals_switches hst)
      show (z0.d.procs.find? n).map (·.enabled) ≠ none ↔ _
      rw [hsw n]
      constructor
      · intro h
        cases hq : z.d.procs.find? n with
        | none => rw [hq] at h; exact absurd rfl h
        | some p =>
          obtain ⟨e, he, h1, h2, _⟩ := (hn.processes n p).1 hq
          exact ⟨conf, rfl, e, he, h1, h2⟩
      · rintro ⟨conf', h0, e, he, h1, h2⟩
        cases h0
        rw [(hn.processes n _).2 ⟨e, he, h1, h2, rfl⟩]
        simp
  · cases h0 : d0.w.sensors.find? n with
    | none =>
      unfold Daemon.hostOf at h
      rw [nosensor_run hr h0] at h
      exact absurd rfl h
    | some s =>
      have h0' := h0
      rw [hL.world] at h0'
      obtain ⟨c, h1, h2⟩ := (C98_as_configured hs hL.made n).1 s h0'
      obtain ⟨s', h3, h4⟩ := hosts_run hr ⟨s, h0, madeFrom_kind h2⟩
      unfold Daemon.hostOf at h
      rw [h3] at h
      cases hi : s'.impl with
      | pluggable r wr => simp [hi] at h
      | host v t =>
        rw [hi] at h4
        cases h4 with
        | host _ _ he => exact ⟨c, h1, he⟩
  · obtain ⟨s, h1, h2⟩ := (C98_as_configured hs hL.made n).2 c hc (List.mem_cons_of_mem _ he.1)
    obtain ⟨s', h3, h4⟩ := hosts_run hr ⟨s, by rw [hL.world]; exact h1, madeFrom_kind h2⟩
    unfold Daemon.hostOf
    rw [h3]
    cases hi : s'.impl with
    | host v t => simp [hi]
    | pluggable r wr =>
      exfalso
      rw [hi] at h4
      have hk : ReadKind c.readPath .external := (C65_read _ _).1 ((external_iff he.1).2 he)
      cases h4 with
      | dbus _ h5 => exact absurd (readKind_unique hk h5) (by decide)
      | sysfs h5 => exact absurd (readKind_unique hk h5) (by decide)
      | silent _ _ h5 => exact h5 he

/-- the host sensors of a configuration -/
theorem mem_hostObjects {sensors : OMap String SensorConfig} (hs : sensors.WF) {p n : String} :
    (p, n) ∈ hostObjects sensors ↔ ∃ c, sensors.find? n = some c ∧ ExternalSensor c ∧ c.readPath = p := by
  unfold hostObjects
  rw [List.mem_map]
  constructor
  · rintro ⟨⟨k, c⟩, he, h⟩
    rw [List.mem_filter] at he
    cases h
    simp only [Bool.and_eq_true, decide_eq_true_eq] at he
    have ht : c.type ∈ ["temp", "margin", "power", "powersum"] := (thermal_types _).1 (by simpa [isThermalType] using he.2.1)
    exact ⟨c, (OMap.mem_entries_iff hs _ _).1 he.1, (external_iff ht).1 he.2.2, rfl⟩
  · rintro ⟨c, h1, h2, rfl⟩
    refine ⟨(n, c), List.mem_filter.2 ⟨(OMap.mem_entries_iff hs _ _).2 h1, ?_⟩, rfl⟩
    simp only [Bool.and_eq_true, decide_eq_true_eq]
    exact ⟨by simpa [isThermalType] using (thermal_types _).2 h2.1, (external_iff h2.1).2 h2⟩

/-- **C121** A call to the daemon that runs is answered with success exactly if it asks for the mode of a zone of the configuration,
the switch of a loop of such a zone that is not a fan loop, or the value of an external sensor. -/
theorem C121_answer {o : Opts} {bus : BuildBus} {now : Int} {w : World} {sensors : OMap String SensorConfig} (hs : sensors.WF)
    (hd : ((hostObjects sensors).map Prod.fst).Nodup)
    {pids : OMap Int PIDConf} {configs : OMap Int ZoneConfig} (hp : pids.WF) (hc : ∀ e ∈ pids.entries, OMap.WF e.2) {d0 d : Daemon}
    (hl : Daemon.launch o bus now w sensors pids configs = .ok d0) {es : List DEvent} (hr : d0.run o es = .ok d) (t : Int) (c : SetCall) :
    ∃ d' ok, d.set o (hostObjects sensors) t c = .ok (d', ok) ∧
      (ok = true ↔
        (∃ i conf b, AsksMode c i b ∧ pids.find? i = some conf) ∨
        (∃ i conf, pids.find? i = some conf ∧ ∃ e ∈ conf.entries, IsHeat e ∧ ∃ b, AsksSwitch c i e.1 b) ∨
        (∃ n s, sensors.find? n = some s ∧ ExternalSensor s ∧ ∃ v, AsksValue c s.readPath v)) := by
  obtain ⟨h1, h2, h3⟩ := C121_objects hs hp hc hl hr
  obtain ⟨d', ok, h4, h5, -⟩ := C121_set (o := o) (run_wf (launch_wf hl) hr) hd t c
  refine ⟨d', ok, h4, h5.trans ⟨?_, ?_⟩⟩
  · rintro (⟨i, b, q1, q2⟩ | ⟨i, n, b, q1, q2⟩ | ⟨⟨p, n⟩, q1, v, q2⟩)
    · obtain ⟨conf, q3⟩ := (h1 i).1 q2
      exact .inl ⟨i, conf, b, q1, q3⟩
    · obtain ⟨conf, q3, e, q4, q5, rfl⟩ := (h2 i n).1 q2
      exact .inr (.inl ⟨i, conf, q3, e, q4, q5, b, q1⟩)
    · obtain ⟨s, q3, q4, rfl⟩ := (mem_hostObjects hs).1 q1
      exact .inr (.inr ⟨n, s, q3, q4, v, q2⟩)
  · rintro (⟨i, conf, b, q1, q2⟩ | ⟨i, conf, q1, e, q2, q3, b, q4⟩ | ⟨n, s, q1, q2, v, q3⟩)
    · exact .inl ⟨i, b, q1, (h1 i).2 ⟨conf, q2⟩⟩
    · exact .inr (.inl ⟨i, e.1, b, q4, (h2 i e.1).2 ⟨conf, q1, e, q2, q3, rfl⟩⟩)
    · exact .inr (.inr ⟨(s.readPath, n), (mem_hostObjects hs).2 ⟨s, q1, q2, rfl⟩, v, q3⟩)

/-! ## The IPMI commands -/

theorem accept_manual {d : Daemon} {i : Int} (b : Bool) :
    d.accept [] 0 (modeCall (zoneObject i) "Manual" b) = if d.manualOf i ≠ none then some (.manual i b) else none := by
  have e : d.accept [] 0 (modeCall (zoneObject i) "Manual" b) = (d.zoneAt (zoneObject i)).map (fun e => .manual e.1 b) := by
    unfold Daemon.accept
    exact (if_pos rfl).trans (if_pos ⟨rfl, rfl⟩)
  rw [e]
  unfold Daemon.manualOf
  cases hz : d.zones.find? i with
  | none => rw [zoneAt_none hz]; rfl
  | some x =>
    obtain ⟨y, hy⟩ := zoneAt_some (d := d) (i := i) (by rw [hz]; simp)
    rw [hy]; rfl

/-- **C121** The IPMI command that sets the mode, for a zone below 128: success if the zone exists, and then exactly this has
happened to the daemon: the mode of the zone was set. Otherwise nothing has happened. -/
theorem C121_ipmi (o : Opts) (d : Daemon) {zone : UInt8} (hz : zone.toNat < 128) (value : UInt8) (rest : List UInt8) :
    ∃ r d', d.ipmi o (1 :: zone :: value :: rest) = .ok (r, d') ∧
      (r.cc = 0 ↔ d.manualOf zone.toNat ≠ none) ∧
      d.step o (.manual zone.toNat (decide (value ≠ 0))) = .ok d' ∧
      (d.manualOf zone.toNat ≠ none → d'.manualOf zone.toNat = some (decide (value ≠ 0))) := by
  obtain ⟨h1, h2, -⟩ := C66_set d.ipmiBus rest hz (value := value)
  have hp : zonePath zone.toNat = zoneObject zone.toNat := rfl
  have ha := accept_manual (d := d) (i := zone.toNat) (decide (value ≠ 0))
  have hset : d.ipmiBus.set (zonePath zone.toNat) "Manual" (decide (value ≠ 0)) = true ↔ d.manualOf zone.toNat ≠ none := by
    show (d.accept [] 0 (modeCall (zoneObject zone.toNat) "Manual" (decide (value ≠ 0)))).isSome = true ↔ _
    rw [ha]
    split_ifs with h <;> simp [h]
  have hst : d.step o (.manual zone.toNat (decide (value ≠ 0))) =
      .ok (d.onZone zone.toNat (fun z => z.setManualMode (decide (value ≠ 0)))) := rfl
  have hcalls : d.ipmiCalls o (manualModeControl d.ipmiBus (1 :: zone :: value :: rest)).calls =
      d.step o (.manual zone.toNat (decide (value ≠ 0))) := by
    rw [h1, hp]
    unfold Daemon.ipmiCalls Daemon.ipmiCall Daemon.set
    dsimp only
    rw [ha]
    split_ifs with h
    · rw [hst]; rfl
    · have : d.zones.find? (zone.toNat : Int) = none := by
        unfold Daemon.manualOf at h
        simpa using h
      rw [hst]
      unfold Daemon.onZone
      rw [this]; rfl
  refine ⟨_, _, ?_, h2.trans hset, hst, fun h => ?_⟩
  · unfold Daemon.ipmi
    rw [hcalls, hst]; rfl
  · unfold Daemon.manualOf at h ⊢
    rw [onZone_find?, if_pos rfl]
    cases hz : d.zones.find? (zone.toNat : Int) with
    | none => rw [hz] at h; exact absurd rfl h
    | some e => rfl

theorem zoneAt_eq {d : Daemon} (hd : d.zones.WF) {i : Int} {e : Zone × Nat} (h : d.zones.find? i = some e) :
    d.zoneAt (zoneObject i) = some (i, e) := by
  obtain ⟨x, hx⟩ := zoneAt_some (d := d) (i := i) (by rw [h]; simp)
  rw [hx]
  have hm : (i, x) ∈ d.zones.entries := List.mem_of_find?_eq_some hx
  have := (OMap.mem_entries_iff hd _ _).1 hm
  rw [h] at this
  cases this
  rfl

/-- **C121** The IPMI commands that read the mode or the failsafe state tell that of the zone, and change nothing. -/
theorem C121_ipmi_read (o : Opts) {d : Daemon} (hd : d.zones.WF) {zone : UInt8} (hz : zone.toNat < 128) (rest : List UInt8) {z : Zone}
    {cnt : Nat} (hf : d.zones.find? zone.toNat = some (z, cnt)) :
    (∃ r, d.ipmi o (0 :: zone :: rest) = .ok (r, d) ∧ r.cc = 0 ∧ r.reply = [if z.d.manualMode = true then 1 else 0]) ∧
    (∃ r, d.ipmi o (2 :: zone :: rest) = .ok (r, d) ∧ r.cc = 0 ∧
      ((∃ n, Failed z.d n) → r.reply = [1]) ∧ ((¬ ∃ n, Failed z.d n) → r.reply = [0])) := by
  have hg : d.ipmiBus.getAll (zonePath zone.toNat) = some
      ((({} : OMap String Bool).insert "FailSafe" z.d.getFailSafeMode).insert "Manual" z.d.manualMode) := by
    show (d.zoneAt (zoneObject zone.toNat)).map _ = _
    rw [zoneAt_eq hd hf]; rfl
  constructor
  · obtain ⟨h1, -, h2⟩ := C66_get d.ipmiBus rest hz (.inl ⟨rfl, rfl⟩)
    obtain ⟨h3, h4, -⟩ := h2 _ z.d.manualMode hg (OMap.find?_insert_self _ _ _)
    refine ⟨_, ?_, h3, h4⟩
    unfold Daemon.ipmi
    rw [h1]; rfl
  · obtain ⟨h1, -, h2⟩ := C66_get d.ipmiBus rest hz (.inr ⟨rfl, rfl⟩)
    obtain ⟨h3, h4, -⟩ := h2 _ z.d.getFailSafeMode hg (by
      rw [OMap.find?_insert_ne _ (by decide), OMap.find?_insert_self])
    refine ⟨_, ?_, h3, fun ⟨n, hn⟩ => ?_, fun hn => ?_⟩
    · unfold Daemon.ipmi
      rw [h1]; rfl
    · have : z.d.getFailSafeMode = true := by
        unfold ZoneData.getFailSafeMode
        have : z.d.failSafeSensors.isEmpty = false := (OMap.isEmpty_false_iff _).2 (by
          obtain ⟨e, he⟩ := hn
          exact ⟨n, e, he⟩)
        rw [this]; rfl
      rw [h4, this]; rfl
    · have : z.d.getFailSafeMode = false := by
        unfold ZoneData.getFailSafeMode
        have : z.d.failSafeSensors.isEmpty = true := (OMap.isEmpty_iff _).2 (fun k => by
          by_contra hk
          exact hn ⟨k, Option.ne_none_iff_exists'.1 hk⟩)
        rw [this]; rfl
      rw [h4, this]; rfl

/-- the mode of a zone stays if nobody sets it -/
theorem mode_stays {o : Opts} {i : Int} : ∀ {es : List DEvent} {d d' : Daemon}, d.run o es = .ok d' → (∀ b, DEvent.manual i b ∉ es) →
    d'.manualOf i = d.manualOf i
  | [], _, _, h, _ => by cases h; rfl
  | e :: es, d, d', h, hn => by
    obtain ⟨d1, h1, h2⟩ := bind_eq_ok.1 h
    rw [mode_stays h2 (fun b hb => hn b (List.mem_cons_of_mem _ hb))]
    unfold Daemon.manualOf
    cases hz : d.zones.find? i with
    | none => rw [step_none h1 hz]
    | some x =>
      obtain ⟨z, cnt⟩ := x
      obtain ⟨z', cnt', hz', hst⟩ := step_zone h1 hz
      rw [hz']
      show some z'.d.manualMode = some z.d.manualMode
      cases hst with
      | manual b => exact absurd List.mem_cons_self (hn b)
      | enable l b => rw [setEnabled_manual]
      | tick ht => rw [(tick_flags ht).1]
      | other => rfl

/-- **C121** After an IPMI command has put a zone into manual mode with success, the timer of the zone changes nothing at all, whatever
else happens, until the mode is set again. -/
theorem C121_freeze {o : Opts} {d d1 d2 : Daemon} {zone : UInt8} (hz : zone.toNat < 128) {value : UInt8} (hv : value ≠ 0)
    {rest : List UInt8} {r : IpmiResult} (h : d.ipmi o (1 :: zone :: value :: rest) = .ok (r, d1)) (hr : r.cc = 0) {es : List DEvent}
    (hn : ∀ b, DEvent.manual zone.toNat b ∉ es) (hrun : d1.run o es = .ok d2) :
    ∃ d3, d2.step o (.tick zone.toNat) = .ok d3 ∧ d3.w = d2.w ∧ ∀ i, d3.zones.find? i = d2.zones.find? i := by
  obtain ⟨r', d', h1, h2, -, h3⟩ := C121_ipmi o d hz value rest
  rw [h] at h1
  cases h1
  have hm := (mode_stays hrun hn).trans (h3 (h2.1 hr))
  unfold Daemon.manualOf at hm
  simp only [Daemon.step]
  cases hf : d2.zones.find? (zone.toNat : Int) with
  | none => exact ⟨d2, rfl, rfl, fun _ => rfl⟩
  | some x =>
    obtain ⟨z, cnt⟩ := x
    rw [hf] at hm
    have hm : z.d.manualMode = true := by simpa [hv] using hm
    refine ⟨⟨d2.w, d2.zones.insert zone.toNat (z, cnt)⟩, by simp [tick_manual hm], rfl, fun i => ?_⟩
    show (d2.zones.insert _ _).find? i = _
    rw [OMap.find?_insert]
    split_ifs with hi
    · rw [hi, hf]
    · rfl

theorem release_stays {o : Opts} {i : Int} : ∀ {es : List DEvent} {d d' : Daemon} {z : Zone} {cnt : Nat}, d.run o es = .ok d' →
    (∀ b, DEvent.manual i b ∉ es) → DEvent.tick i ∉ es → d.zones.find? i = some (z, cnt) →
    ∃ z' cnt', d'.zones.find? i = some (z', cnt') ∧ z'.d.manualMode = z.d.manualMode ∧ z'.d.redundantWrite = z.d.redundantWrite ∧
      z'.fans = z.fans
  | [], _, _, z, cnt, h, _, _, hz => by cases h; exact ⟨z, cnt, hz, rfl, rfl, rfl⟩
  | e :: es, d, d', z, cnt, h, hn, ht, hz => by
    obtain ⟨d1, h1, h2⟩ := bind_eq_ok.1 h
    obtain ⟨z1, cnt1, hz1, hst⟩ := step_zone h1 hz
    obtain ⟨z', cnt', q1, q2, q3, q4⟩ := release_stays h2 (fun b hb => hn b (List.mem_cons_of_mem _ hb))
      (fun hb => ht (List.mem_cons_of_mem _ hb)) hz1
    refine ⟨z', cnt', q1, ?_⟩
    rw [q2, q3, q4]
    cases hst with
    | manual b => exact absurd List.mem_cons_self (hn b)
    | enable l b =>
      refine ⟨setEnabled_manual _ _ _, ?_, rfl⟩
      unfold ZoneData.setEnabled
      split <;> rfl
    | tick _ => exact absurd List.mem_cons_self ht
    | other => exact ⟨rfl, rfl, rfl⟩

/-- **C121** After an IPMI command has put a zone of a running daemon back into automatic mode with success, the next expiry of the zone's
timer writes every fan of the zone that can be written, in the order of the configuration, whatever else happens in between. -/
theorem C121_release {o : Opts} {bus : BuildBus} {now : Int} {w : World} {sensors : OMap String SensorConfig} {pids : OMap Int PIDConf}
    {configs : OMap Int ZoneConfig} (hp : pids.WF) (hc : ∀ e ∈ pids.entries, OMap.WF e.2) {d0 d : Daemon}
    (hl : Daemon.launch o bus now w sensors pids configs = .ok d0) {pre : List DEvent} (hr : d0.run o pre = .ok d) {zone : UInt8}
    (hz : zone.toNat < 128) {rest : List UInt8} {r : IpmiResult} {d1 : Daemon} (h : d.ipmi o (1 :: zone :: 0 :: rest) = .ok (r, d1))
    (hcc : r.cc = 0) {es : List DEvent} (hn : ∀ b, DEvent.manual zone.toNat b ∉ es) (ht : DEvent.tick zone.toNat ∉ es) {d2 d3 : Daemon}
    (h2 : d1.run o es = .ok d2) (h3 : d2.step o (.tick zone.toNat) = .ok d3) :
    ∃ conf, pids.find? zone.toNat = some conf ∧ ∃ effs, d3.w.trace = d2.w.trace ++ effs ∧
      effs.map Effect.path =
        ((conf.entries.filter IsFan).flatMap (fun e => e.2.inputs.map SensorInput.name)).filterMap (targetOf d2.w) := by
  obtain ⟨r', d', q1, q2, q3, -⟩ := C121_ipmi o d hz 0 rest
  rw [h] at q1
  cases q1
  have hm := q2.1 hcc
  obtain ⟨m, zones, hL⟩ := launch_spec hl
  have hm0 : d0.manualOf zone.toNat ≠ none := ((objects_run (n := "") hr).1).1 hm
  cases hpi : pids.find? (zone.toNat : Int) with
  | none =>
    exfalso
    apply hm0
    unfold Daemon.manualOf
    rw [hL.only _ ((C64_zones hp hc hL.built _).2 hpi)]; rfl
  | some conf =>
    refine ⟨conf, rfl, ?_⟩
    obtain ⟨zb, c, hzb, _, hN⟩ := (C64_zones hp hc hL.built _).1 conf hpi
    obtain ⟨z0, hz0, hf0⟩ := hL.started _ zb hzb
    have hh0 := C80_hist hp hL.built hzb hz0
    obtain ⟨z1, cnt1, log1, hz1, hh1, -, hfa1⟩ := mode_run hr hf0 hh0
    have hd' : d1.zones.find? (zone.toNat : Int) = some ({ z1 with d := z1.d.setManualMode false }, cnt1) := by
      have : d.step o (.manual zone.toNat (decide ((0 : UInt8) ≠ 0))) =
        .ok (d.onZone zone.toNat (fun z => z.setManualMode (decide ((0 : UInt8) ≠ 0)))) := rfl
      rw [q3] at this
      cases this
      rw [onZone_find?, if_pos rfl, hz1]; rfl
    obtain ⟨z2, cnt2, hz2, g1, g2, g3⟩ := release_stays h2 hn ht hd'
    simp only [Daemon.step, hz2] at h3
    obtain ⟨⟨w', z3, cnt3⟩, htk, h3⟩ := bind_eq_ok.1 h3
    cases h3
    obtain ⟨zt, a1, a2, a3, _⟩ := autoTick_drives g1 htk
    obtain ⟨l, b1, _, b2, _⟩ := processFans_spec a1
    rw [a2, g2] at b2
    obtain ⟨effs, c1, _, c2⟩ := (drives_target b2).2
    refine ⟨effs, c1, ?_⟩
    rw [c2 rfl]
    have hfan : z2.fans = (l.map (fun x => (x.1, x.2.1))).map (fun x => some x.1) := by rw [← a3, b1, List.map_map]; rfl
    have := fans_as_configured (conf := conf.entries) (by rw [g3]; rw [hfa1, (start_flags hz0).2, hN.fans]) hfan
    congr 1
    rw [List.flatMap_def, List.flatMap_def, this]

/-! ## setsensor -/

/-- **C121** (finding) `setsensor` puts zone 1 into manual mode, if there is one. It never sets the host sensor, because it sends an
integer where a floating-point number is expected; it says so, but its exit code is 0. -/
theorem C121_setsensor (o : Opts) (hosts : List (String × String)) (d : Daemon) (now : Int) :
    ∃ d' line, setSensorTool o hosts d now = .ok (d', [line, "call to Set the host sensor value failed."], 0) ∧
      d.step o (.manual 1 true) = .ok d' ∧ d'.w = d.w ∧
      (line = "call to Set the manual mode succeeded." ↔ d.manualOf 1 ≠ none) ∧
      (line = "call to Set the manual mode failed." ↔ d.manualOf 1 = none) := by
  have ha : d.accept hosts now (toolManual 1) = if d.manualOf 1 ≠ none then some (.manual 1 true) else none := by
    have e : d.accept hosts now (toolManual 1) = (d.zoneAt (zoneObject 1)).map (fun e => .manual e.1 true) := by
      unfold Daemon.accept
      exact (if_pos rfl).trans (if_pos ⟨rfl, rfl⟩)
    rw [e]
    unfold Daemon.manualOf
    cases hz : d.zones.find? 1 with
    | none => rw [zoneAt_none hz]; rfl
    | some x =>
      obtain ⟨y, hy⟩ := zoneAt_some (d := d) (i := 1) (by rw [hz]; simp)
      rw [hy]; rfl
  have hb : ∀ d : Daemon, d.set o hosts now toolHost = .ok (d, false) := by
    intro d
    have : d.accept hosts now toolHost = none := by
      unfold Daemon.accept
      refine (if_neg (show ¬ hostService = fanCtrlService by decide)).trans ((if_pos rfl).trans (if_pos ⟨rfl, rfl⟩))
    unfold Daemon.set
    rw [this]
  have hst : d.step o (.manual 1 true) = .ok (d.onZone 1 (fun z => z.setManualMode true)) := rfl
  have hset : d.set o hosts now (toolManual 1) =
      .ok (d.onZone 1 (fun z => z.setManualMode true), decide (d.manualOf 1 ≠ none)) := by
    unfold Daemon.set
    rw [ha]
    split_ifs with h
    · rw [decide_eq_true h]; rfl
    · have hz : d.zones.find? 1 = none := by
        unfold Daemon.manualOf at h
        simpa using h
      rw [decide_eq_false h]
      unfold Daemon.onZone
      rw [hz]
  refine ⟨_, toolLine "manual mode" (decide (d.manualOf 1 ≠ none)), ?_, hst, onZone_w _ _ _, ?_, ?_⟩
  · unfold setSensorTool
    rw [hset, ok_bind, hb, ok_bind]; rfl
  · by_cases h : d.manualOf 1 = none
    · simp only [h, ne_eq, not_true, decide_false, iff_false]; decide
    · simp only [h, ne_eq, not_false_iff, decide_true, iff_true]; decide
  · by_cases h : d.manualOf 1 = none
    · simp only [h, ne_eq, not_true, decide_false, iff_true]; decide
    · simp only [h, ne_eq, not_false_iff, decide_true, iff_false]; decide

end

namespace Ex
section
attribute [local instance] binary64

/-- as before, with a margin the host sets -/
def sensors121 : OMap String SensorConfig :=
  sensors99.insert "margin0" ⟨"margin", "/xyz/openbmc_project/extsensors/margin/sluggish0", "", 0, 0, 0, false, false, false⟩
def hosts121 : List (String × String) := hostObjects sensors121
example : hosts121 = [("/xyz/openbmc_project/extsensors/margin/sluggish0", "margin0")] := by decide +kernel

def launch121 : Res Daemon := Daemon.launch {} bus98 0 world99 sensors121 pids99 zones99
def set121 (d : Daemon) (path interface property : String) (v : BusVal) : Res (Daemon × Bool) :=
  d.set {} hosts121 7 ⟨if interface = "xyz.openbmc_project.Sensor.Value" then "xyz.openbmc_project.Hwmon.external"
    else "xyz.openbmc_project.State.FanCtrl", path, interface, property, v⟩

/-- C121: a mode, a switch and a value are set; everything else is refused: another zone, a fan loop, a wrong type -/
example : ∃ r, (do
      let d ← launch121
      let (d, a) ← set121 d "/xyz/openbmc_project/settings/fanctrl/zone1" "xyz.openbmc_project.Control.Mode" "Manual" (.bool true)
      let (d, b) ← set121 d "/xyz/openbmc_project/settings/fanctrl/zone1/temps" "xyz.openbmc_project.Object.Enable" "Enabled" (.bool false)
      let (d, c) ← set121 d "/xyz/openbmc_project/extsensors/margin/sluggish0" "xyz.openbmc_project.Sensor.Value" "Value" (.dbl 300)
      let (d, e) ← set121 d "/xyz/openbmc_project/settings/fanctrl/zone2" "xyz.openbmc_project.Control.Mode" "Manual" (.bool true)
      let (d, f) ← set121 d "/xyz/openbmc_project/settings/fanctrl/zone1/fans" "xyz.openbmc_project.Object.Enable" "Enabled" (.bool false)
      let (d, g) ← set121 d "/xyz/openbmc_project/extsensors/margin/sluggish0" "xyz.openbmc_project.Sensor.Value" "Value" (.int 300)
      Except.ok (d, [a, b, c, e, f, g])) = .ok r ∧
    decide (r.2 = [true, true, true, false, false, false] ∧ r.1.manualOf 1 = some true ∧ r.1.manualOf 2 = none ∧
      r.1.switchOf 1 "temps" = some false ∧ r.1.switchOf 1 "fans" = none ∧ r.1.hostOf "margin0" = some (300, 7)) = true :=
  ok_of_any (P := fun r : Daemon × List Bool => decide (r.2 = [true, true, true, false, false, false] ∧ r.1.manualOf 1 = some true ∧
    r.1.manualOf 2 = none ∧ r.1.switchOf 1 "temps" = some false ∧ r.1.switchOf 1 "fans" = none ∧
    r.1.hostOf "margin0" = some (300, 7))) (by decide +kernel)

/-- C121: manual mode by IPMI freezes the zone, so that nothing is written; back in automatic mode the fan is written -/
example : ∃ r, (do
      let d ← launch121
      let (a, d) ← d.ipmi {} [1, 1, 1]
      let d ← d.run {} [.tick 1, .tick 1, .tick 1]
      let n := d.w.trace.length
      let (b, d) ← d.ipmi {} [0, 1]
      let (c, d) ← d.ipmi {} [1, 1, 0]
      let d ← d.run {} [.tick 1]
      Except.ok (d, [a.cc, b.cc, c.cc], b.reply, n)) = .ok r ∧
    decide (r.2 = ([0, 0, 0], [1], 0) ∧ r.1.w.trace.map Effect.path = ["/sys/class/hwmon/pwm1"]) = true :=
  ok_of_any (P := fun r : Daemon × List UInt8 × List UInt8 × Nat => decide (r.2 = ([0, 0, 0], [1], 0) ∧
    r.1.w.trace.map Effect.path = ["/sys/class/hwmon/pwm1"])) (by decide +kernel)

/-- C121: all hypotheses of `C121_answer` hold -/
example : ∃ d, launch121 = .ok d ∧ ∃ d' ok, d.set {} hosts121 7 (modeCall (zoneObject 1) "Manual" true) = .ok (d', ok) ∧ ok = true := by
  obtain ⟨d, hl, -⟩ := ok_of_any (x := launch121) (P := fun _ : Daemon => true) (by decide +kernel)
  obtain ⟨d', ok, h1, h2⟩ := C121_answer (OMap.wf_insert sensors99_wf _ _) (by decide +kernel) pids99_wf
    (fun e he => by rw [(pids99_find ((OMap.mem_entries_iff pids99_wf e.1 e.2).1 he)).2]; exact loops99_wf) hl (es := []) rfl 7
    (modeCall (zoneObject 1) "Manual" true)
  exact ⟨d, hl, d', ok, h1, h2.2 (.inl ⟨1, loops99, true, rfl, by unfold pids99; rw [OMap.find?_insert_self]⟩)⟩

/-- C121: `setsensor` with the sensor it is meant for -/
example : ∃ r, (do
      let d ← launch121
      let (d, lines, code) ← setSensorTool {} hosts121 d 7
      Except.ok (d, lines, code)) = .ok r ∧
    decide (r.2 = (["call to Set the manual mode succeeded.", "call to Set the host sensor value failed."], 0) ∧
      r.1.manualOf 1 = some true ∧ r.1.hostOf "margin0" = some (0, 0)) = true :=
  ok_of_any (P := fun r : Daemon × List String × Int => decide
    (r.2 = (["call to Set the manual mode succeeded.", "call to Set the host sensor value failed."], 0) ∧
      r.1.manualOf 1 = some true ∧ r.1.hostOf "margin0" = some (0, 0))) (by decide +kernel)

end
end Ex
end Verif
