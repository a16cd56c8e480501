import Verif.Lemmas.Proportional

/-! # C103 and C104: from a hot sensor to the fans -/

namespace Verif
open Dbl

section
variable [F : FloatModel]

theorem switchAfter_append (i : Int) (l : String) : ∀ (es es' : List DEvent) (b : Bool),
    switchAfter i l b (es ++ es') = switchAfter i l (switchAfter i l b es) es'
  | [], _, _ => rfl
  | e :: es, es', b => by cases e <;> exact switchAfter_append i l es es' _

theorem modeAfter_append (i : Int) : ∀ (es es' : List DEvent) (b : Bool),
    modeAfter i b (es ++ es') = modeAfter i (modeAfter i b es) es'
  | [], _, _ => rfl
  | e :: es, es', b => by cases e <;> exact modeAfter_append i es es' _

omit F in
/-- the number of cycles after which a thermal pass is due -/
theorem due_after {t f n cnt : Nat} (hF : 1 ≤ f) (hn : (t + f - 1) / f ≤ n) (h : n * f ≤ cnt) : t ≤ cnt := by
  refine Nat.le_trans ?_ h
  have h5 := Nat.lt_mul_div_succ (t + f - 1) (show 0 < f by omega)
  have h6 : f * ((t + f - 1) / f + 1) ≤ f * (n + 1) := Nat.mul_le_mul_left _ (by omega)
  have h7 : f * (n + 1) = n * f + f := by ring
  omega

/-- the loops of a new zone that only has tables -/
theorem positive_new {id : Int} {c : ZoneConfig} {conf : List Entry} {zb : Zone} (hN : NewZone id c conf zb) (h : TablesOnly conf) :
    ∀ x ∈ zb.thermals, Positive x := by
  intro x hx
  obtain ⟨e, he, hl⟩ := forall₂_right hN.thermals hx
  obtain ⟨he, hh⟩ := List.mem_filter.1 he
  obtain ⟨h1, h2, h3⟩ := h e he (by simpa using hh)
  cases hl with
  | margin h => rw [h1] at h; exact absurd h (by decide)
  | absolute h => rw [h1] at h; exact absurd h (by decide)
  | summation h => rw [h1] at h; exact absurd h (by decide)
  | stepwise h => exact ⟨_, rfl, h2, h3, .inl rfl⟩

/-- a started zone is plain -/
theorem plainZone_start {o : Opts} (ho : o.tuningEnabled = false) {P : ThermalCtl → Prop}
    {Q : ZoneData → Prop} (hP : ∀ z c v c', Q z → P c → CtlOut z c v c' → P c') {w : World} {id : Int} {c : ZoneConfig} {conf : List Entry} {zb z : Zone}
    (hN : NewZone id c conf zb) (hacc : c.accumulateSetPoint = false ∨ TablesOnly conf)
    (hceil : ∀ e ∈ conf, e.2.type = "stepwise" → e.2.stepwiseInfo.isCeiling = false)
    {e : Entry} (he : e ∈ conf) (hh : IsHeat e) (hPe : ∀ x, HeatLoop e x → x.id = e.1 ∧ P x)
    (hQ : Fine Q zb.d.thermalInputs w) (hs : zb.start o w = .ok z) :
    PlainZone P e.1 c.cycleTime zb.d.thermalInputs (zb.fans.map (Option.map fanKey)) true z := by
  have eq := (initializeCache_spec zb.d).eq
  have e1 : zb.d.initializeCache.accumulateSetPoint = zb.d.accumulateSetPoint := by rw [eq]
  have e2 : zb.d.initializeCache.cycleTime = zb.d.cycleTime := by rw [eq]
  have e3 : zb.d.initializeCache.thermalInputs = zb.d.thermalInputs := by rw [eq]
  have e4 : zb.d.initializeCache.procs = zb.d.procs := by rw [eq]
  refine (PlainZone.thermals (z := { zb with d := zb.d.initializeCache }) ho hP ?_ (fun d hd => hQ _ d e3 hd) hs).1
  refine ⟨hacc.imp (fun h => e1.trans (hN.accumulateSetPoint.trans h)) (fun h x hx => positive_new hN h x hx),
    e2.trans hN.cycleTime, e3, ?_, ?_, rfl, ?_⟩
  · obtain ⟨x, hx, hl⟩ := forall₂_left hN.thermals (List.mem_filter.2 ⟨he, by simpa using hh⟩)
    exact ⟨x, hx, hPe x hl⟩
  · intro x hx
    obtain ⟨e', he', hl⟩ := forall₂_right hN.thermals hx
    have he' := (List.mem_filter.1 he').1
    cases hl with
    | stepwise ht => exact hceil e' he' ht
    | _ => trivial
  · have := (hN.processes e.1 _).2 ⟨e, he, hh, rfl, rfl⟩
    show (zb.d.initializeCache.procs.find? e.1).map _ = _
    rw [e4, this]
    rfl

/-- the fan loops of a zone built from `conf` follow its set point -/
theorem fans_follow {o : Opts} (ho : o.tuningEnabled = false) (hst : o.strictFailsafePwm = false) {i : Int} {c : ZoneConfig}
    {conf : List Entry} {zb : Zone} (hN : NewZone i c conf zb) {y : Dbl}
    (hfan : ∀ f ∈ conf, IsFan f → HandsOn f.2.pidInfo ∧ y ≤ f.2.pidInfo.outLim.max) {w w' : World} {zt z' : Zone}
    (g1 : zt.processFans o w = .ok (w', z')) (g2 : zt.fans.map (Option.map fanKey) = zb.fans.map (Option.map fanKey))
    (g3 : y ≤ zt.d.maximumSetPoint) : FansAtLeast conf (y / 100) w w' := by
  have hfk : ∀ f, some f ∈ zt.fans → HandsOn f.ctl.info.toPidConf ∧ y ≤ f.ctl.info.outLim.max := by
    intro f hf
    have h1 : some (fanKey f) ∈ zt.fans.map (Option.map fanKey) := List.mem_map.2 ⟨_, hf, rfl⟩
    rw [g2, hN.fans, List.map_map] at h1
    obtain ⟨e', he', h2⟩ := List.mem_map.1 h1
    obtain ⟨a, b⟩ := List.mem_filter.1 he'
    have h3 : f.ctl.info.toPidConf = e'.2.pidInfo := by
      simp only [Function.comp, fanOf] at h2
      split_ifs at h2
      · cases h2
      · exact (congrArg Prod.snd (Option.some.inj h2)).symm
    rw [h3]
    exact hfan e' a (by simpa using b)
  obtain ⟨l, b, k1, k2, k3⟩ := fansPass_ge ho hst g1 g3 hfk
  refine ⟨l, b, fans_as_configured ?_ k1, k2, k3⟩
  have := congrArg (List.map (Option.map Prod.fst)) g2
  rw [List.map_map, List.map_map, hN.fans] at this
  have e : (Option.map Prod.fst ∘ Option.map fanKey) = Option.map FanPid.inputs := by
    funext f
    cases f <;> rfl
  rw [e] at this
  exact this

/-- the way from what a loop asks for to the fans of a running daemon -/
theorem demand_tick {o : Opts} (ho : o.tuningEnabled = false)
    {P : ThermalCtl → Prop} {Q : ZoneData → Prop} (hP : ∀ z c v c', Q z → P c → CtlOut z c v c' → P c') {bus : BuildBus} {now : Int} {w : World}
    {sensors : OMap String SensorConfig} {pids : OMap Int PIDConf} {configs : OMap Int ZoneConfig} (hw : pids.WF)
    (hc : ∀ e ∈ pids.entries, OMap.WF e.2) {d0 : Daemon} (hl : Daemon.launch o bus now w sensors pids configs = .ok d0)
    {i : Int} {conf : PIDConf} {c : ZoneConfig} (hp : pids.find? i = some conf) (hcc : configs.find? i = some c)
    (hacc : c.accumulateSetPoint = false ∨ TablesOnly conf.entries) {e : Entry} (he : e ∈ conf.entries) (hh : IsHeat e)
    (hPe : ∀ x, HeatLoop e x → x.id = e.1 ∧ P x)
    (hceil : ∀ e ∈ conf.entries, e.2.type = "stepwise" → e.2.stepwiseInfo.isCeiling = false) {y : Dbl}
    (hF : 1 ≤ c.cycleTime.cycleIntervalTimeMS) {pre post : List DEvent} {d1 d2 d3 : Daemon}
    (hr1 : d0.run o pre = .ok d1) (hr2 : d1.run o post = .ok d2)
    (hfine : ∀ ti, (∀ x, (∃ e ∈ conf.entries, IsHeat e ∧ ∃ i ∈ e.2.inputs, i.name = x) → x ∈ ti) →
      FineThroughout Q ti o d0 (pre ++ post))
    (hask : ∀ ti, (∀ x, (∃ e ∈ conf.entries, IsHeat e ∧ ∃ i ∈ e.2.inputs, i.name = x) → x ∈ ti) →
      AsksThroughout P ti o i y d1 (post ++ [.tick i]))
    (hon : ∀ es1 es2, post = es1 ++ es2 → switchAfter i e.1 true (pre ++ es1) = true)
    (hn : (c.cycleTime.updateThermalsTimeMS + c.cycleTime.cycleIntervalTimeMS - 1) / c.cycleTime.cycleIntervalTimeMS ≤
      autoTicks i (modeAfter i false pre) post)
    (hm : modeAfter i false (pre ++ post) = false) (ht : d2.step o (.tick i) = .ok d3) :
    ∃ (zb zt z3 : Zone) (cnt3 : Nat), NewZone i c conf.entries zb ∧
      d3.zones.find? i = some (z3, cnt3) ∧ zt.processFans o d2.w = .ok (d3.w, z3) ∧
      zt.fans.map (Option.map fanKey) = zb.fans.map (Option.map fanKey) ∧ y ≤ zt.d.maximumSetPoint := by
  obtain ⟨m, zones, hL⟩ := launch_spec hl
  obtain ⟨zb, c', hzb, hc', hN⟩ := (C64_zones hw hc hL.built i).1 conf hp
  rw [hcc] at hc'
  cases hc'
  obtain ⟨z0, hz0, hf0⟩ := hL.started i zb hzb
  have hfine := hfine zb.d.thermalInputs (fun x hx => (hN.thermalInputs_mem x).2 hx)
  have hfine1 : FineThroughout Q zb.d.thermalInputs o d1 post := fun es1 es2 d h hr =>
    hfine (pre ++ es1) es2 d (by rw [h, List.append_assoc]) (run_append.2 ⟨d1, hr1, hr⟩)
  have hp0 := plainZone_start ho hP hN hacc hceil he hh hPe (hfine [] _ d0 rfl rfl) hz0
  obtain ⟨hm0, _⟩ := start_flags hz0
  rw [hN.manualMode] at hm0
  obtain ⟨z1, cnt1, hz1, hp1, hm1⟩ := plainZone_run ho hP hr1 hf0 hp0
    (fun es1 es2 d h hr => hfine es1 (es2 ++ post) d (by rw [h, List.append_assoc]) hr)
  have hon0 : switchAfter i e.1 true pre = true := by simpa using hon [] post rfl
  rw [hon0] at hp1
  rw [hm0] at hm1
  have hask := hask zb.d.thermalInputs (fun x hx => (hN.thermalInputs_mem x).2 hx)
  have hon' : OnThroughout i e.1 post := by
    intro es1 es2 h
    have := hon es1 es2 h
    rw [switchAfter_append, hon0] at this
    exact this
  obtain ⟨z2, cnt2, hz2, hp2, hd2⟩ := asks_run ho hP (k := 0) hr2 hz1 hp1 hfine1 hon'
    (fun es1 es2 d h hr => hask es1 (es2 ++ [.tick i]) d (by rw [h]; simp) hr) (.inr (by simp))
  obtain ⟨z2', cnt2', hz2', _, hm2⟩ := plainZone_run ho hP hr2 hz1 hp1 hfine1
  rw [hz2] at hz2'
  cases hz2'
  have hmode : z2.d.manualMode = false := by rw [hm2, hm1, ← modeAfter_append]; exact hm
  simp only [Daemon.step, hz2] at ht
  obtain ⟨⟨w', z3, cnt3⟩, htk, ht⟩ := bind_eq_ok.1 ht
  cases ht
  rw [hm1, Nat.zero_add] at hd2
  obtain ⟨_, q, _⟩ := hp2.tick ho hP (hfine (pre ++ post) [] d2 (by simp) (run_append.2 ⟨d1, hr1, hr2⟩)) hmode htk
  obtain ⟨_, zt, g1, g2, g3⟩ := q rfl y (hask post [] d2 rfl hr2) (hd2.imp_right (fun h => due_after hF hn h))
  exact ⟨zb, zt, z3, cnt3, hN, by rw [OMap.find?_insert_self], g1, g2.fans, g3⟩

/-- the way from what a loop asks for to the fans of a running daemon -/
theorem demand_reaches_fans {o : Opts} (ho : o.tuningEnabled = false) (hst : o.strictFailsafePwm = false)
    {P : ThermalCtl → Prop} {Q : ZoneData → Prop} (hP : ∀ z c v c', Q z → P c → CtlOut z c v c' → P c') {bus : BuildBus} {now : Int} {w : World}
    {sensors : OMap String SensorConfig} {pids : OMap Int PIDConf} {configs : OMap Int ZoneConfig} (hw : pids.WF)
    (hc : ∀ e ∈ pids.entries, OMap.WF e.2) {d0 : Daemon} (hl : Daemon.launch o bus now w sensors pids configs = .ok d0)
    {i : Int} {conf : PIDConf} {c : ZoneConfig} (hp : pids.find? i = some conf) (hcc : configs.find? i = some c)
    (hacc : c.accumulateSetPoint = false) {e : Entry} (he : e ∈ conf.entries) (hh : IsHeat e)
    (hPe : ∀ x, HeatLoop e x → x.id = e.1 ∧ P x)
    (hceil : ∀ e ∈ conf.entries, e.2.type = "stepwise" → e.2.stepwiseInfo.isCeiling = false) {y : Dbl}
    (hfan : ∀ f ∈ conf.entries, IsFan f → HandsOn f.2.pidInfo ∧ y ≤ f.2.pidInfo.outLim.max)
    (hF : 1 ≤ c.cycleTime.cycleIntervalTimeMS) {pre post : List DEvent} {d1 d2 d3 : Daemon}
    (hr1 : d0.run o pre = .ok d1) (hr2 : d1.run o post = .ok d2)
    (hfine : ∀ ti, (∀ x, (∃ e ∈ conf.entries, IsHeat e ∧ ∃ i ∈ e.2.inputs, i.name = x) → x ∈ ti) →
      FineThroughout Q ti o d0 (pre ++ post))
    (hask : ∀ ti, (∀ x, (∃ e ∈ conf.entries, IsHeat e ∧ ∃ i ∈ e.2.inputs, i.name = x) → x ∈ ti) →
      AsksThroughout P ti o i y d1 (post ++ [.tick i]))
    (hon : ∀ es1 es2, post = es1 ++ es2 → switchAfter i e.1 true (pre ++ es1) = true)
    (hn : (c.cycleTime.updateThermalsTimeMS + c.cycleTime.cycleIntervalTimeMS - 1) / c.cycleTime.cycleIntervalTimeMS ≤
      autoTicks i (modeAfter i false pre) post)
    (hm : modeAfter i false (pre ++ post) = false) (ht : d2.step o (.tick i) = .ok d3) :
    FansAtLeast conf.entries (y / 100) d2.w d3.w := by
  obtain ⟨zb, zt, z3, cnt3, hN, _, g1, g2, g3⟩ := demand_tick ho hP hw hc hl hp hcc (.inl hacc) he hh hPe hceil hF hr1 hr2 hfine hask hon
    hn hm ht
  exact fans_follow ho hst hN hfan g1 g2 g3

/-- a cycle after a sensor of a stepwise loop has been hot for long enough -/
theorem table_tick {o : Opts} (ho : o.tuningEnabled = false) {bus : BuildBus}
    {now : Int} {w : World} {sensors : OMap String SensorConfig} {pids : OMap Int PIDConf} {configs : OMap Int ZoneConfig}
    (hw : pids.WF) (hc : ∀ e ∈ pids.entries, OMap.WF e.2) {d0 : Daemon}
    (hl : Daemon.launch o bus now w sensors pids configs = .ok d0) {i : Int} {conf : PIDConf} {c : ZoneConfig}
    (hp : pids.find? i = some conf) (hcc : configs.find? i = some c)
    (hacc : c.accumulateSetPoint = false ∨ TablesOnly conf.entries) {e : Entry}
    (he : e ∈ conf.entries) (hes : e.2.type = "stepwise")
    (hceil : ∀ e ∈ conf.entries, e.2.type = "stepwise" → e.2.stepwiseInfo.isCeiling = false)
    {n k : Nat} (htab : RisingTable e.2.stepwiseInfo n) (hk : k < 20) (hkn : k < n)
    (hF : 1 ≤ c.cycleTime.cycleIntervalTimeMS) {pre post : List DEvent} {d1 d2 d3 : Daemon}
    (hr1 : d0.run o pre = .ok d1) (hr2 : d1.run o post = .ok d2)
    (hhot : ReadsThroughout o i (e.2.inputs.map SensorInput.name)
      (Passed e.2.stepwiseInfo.positiveHysteresis (e.2.stepwiseInfo.reading ⟨k, hk⟩)) d1 (post ++ [.tick i]))
    (hon : ∀ es1 es2, post = es1 ++ es2 → switchAfter i e.1 true (pre ++ es1) = true)
    (hn : (c.cycleTime.updateThermalsTimeMS + c.cycleTime.cycleIntervalTimeMS - 1) / c.cycleTime.cycleIntervalTimeMS ≤
      autoTicks i (modeAfter i false pre) post)
    (hm : modeAfter i false (pre ++ post) = false) (ht : d2.step o (.tick i) = .ok d3) :
    ∃ (zb zt z3 : Zone) (cnt3 : Nat), NewZone i c conf.entries zb ∧
      d3.zones.find? i = some (z3, cnt3) ∧ zt.processFans o d2.w = .ok (d3.w, z3) ∧
      zt.fans.map (Option.map fanKey) = zb.fans.map (Option.map fanKey) ∧
      e.2.stepwiseInfo.output ⟨k, hk⟩ ≤ zt.d.maximumSetPoint := by
  have hh : IsHeat e := by unfold IsHeat; rw [hes]; decide
  refine demand_tick ho (P := SoundSteps e.2.stepwiseInfo (e.2.inputs.map SensorInput.name))
    (Q := fun _ => True)
    (fun z c v c' _ h ho => soundSteps_out h ho) hw hc hl hp hcc hacc he hh ?_ hceil hF hr1 hr2
    (fun _ _ _ _ _ _ _ _ _ _ _ => trivial) ?_ hon hn hm ht
  · intro x hx
    cases hx with
    | margin h => rw [hes] at h; exact absurd h (by decide)
    | absolute h => rw [hes] at h; exact absurd h (by decide)
    | summation h => rw [hes] at h; exact absurd h (by decide)
    | stepwise h => exact ⟨rfl, _, rfl, rfl, rfl, .inl rfl⟩
  · intro ti hti es1 es2 d hes hr z zd hz hu x v x' hx hout
    obtain ⟨nm, hnm, s, r, hs, hrd, hpass⟩ := hhot es1 es2 d hes hr
    obtain ⟨si, hsi, rfl⟩ := List.mem_map.1 hnm
    have hin : si.name ∈ z.thermalInputs := by rw [hz]; exact hti _ ⟨e, he, hh, si, hsi, rfl⟩
    obtain ⟨s', r', f', a1, a2, _, a4⟩ := (pollAll_spec hu).sensor si.name hin
    rw [hs] at a1
    cases a1
    rw [hrd] at a2
    cases a2
    exact soundSteps_hot hx hout htab hk hkn hnm a4 hpass

/-- **C103** From a hot sensor to the fans: in a launched daemon, let some sensor of a stepwise loop that is switched on
have passed the reading of a point of its table whenever the zone's timer expires, from some point on. The table rises; the
zone adds up no set points and has no ceilings; its fan loops hand their set point on and allow the output of the point.
Then, after ceil(T/F) automatic cycles of the zone and whatever else happens to the daemon, every automatic cycle commands
all fan loops of the zone at least the output of the point. -/
theorem C103_hot_sensor {o : Opts} (ho : o.tuningEnabled = false) (hst : o.strictFailsafePwm = false) {bus : BuildBus}
    {now : Int} {w : World} {sensors : OMap String SensorConfig} {pids : OMap Int PIDConf} {configs : OMap Int ZoneConfig}
    (hw : pids.WF) (hc : ∀ e ∈ pids.entries, OMap.WF e.2) {d0 : Daemon}
    (hl : Daemon.launch o bus now w sensors pids configs = .ok d0) {i : Int} {conf : PIDConf} {c : ZoneConfig}
    (hp : pids.find? i = some conf) (hcc : configs.find? i = some c) (hacc : c.accumulateSetPoint = false) {e : Entry}
    (he : e ∈ conf.entries) (hes : e.2.type = "stepwise")
    (hceil : ∀ e ∈ conf.entries, e.2.type = "stepwise" → e.2.stepwiseInfo.isCeiling = false)
    {n k : Nat} (htab : RisingTable e.2.stepwiseInfo n) (hk : k < 20) (hkn : k < n)
    (hfan : ∀ f ∈ conf.entries, IsFan f → HandsOn f.2.pidInfo ∧ e.2.stepwiseInfo.output ⟨k, hk⟩ ≤ f.2.pidInfo.outLim.max)
    (hF : 1 ≤ c.cycleTime.cycleIntervalTimeMS) {pre post : List DEvent} {d1 d2 d3 : Daemon}
    (hr1 : d0.run o pre = .ok d1) (hr2 : d1.run o post = .ok d2)
    (hhot : ReadsThroughout o i (e.2.inputs.map SensorInput.name)
      (Passed e.2.stepwiseInfo.positiveHysteresis (e.2.stepwiseInfo.reading ⟨k, hk⟩)) d1 (post ++ [.tick i]))
    (hon : ∀ es1 es2, post = es1 ++ es2 → switchAfter i e.1 true (pre ++ es1) = true)
    (hn : (c.cycleTime.updateThermalsTimeMS + c.cycleTime.cycleIntervalTimeMS - 1) / c.cycleTime.cycleIntervalTimeMS ≤
      autoTicks i (modeAfter i false pre) post)
    (hm : modeAfter i false (pre ++ post) = false) (ht : d2.step o (.tick i) = .ok d3) :
    FansAtLeast conf.entries (e.2.stepwiseInfo.output ⟨k, hk⟩ / 100) d2.w d3.w := by
  obtain ⟨zb, zt, z3, cnt3, hN, _, g1, g2, g3⟩ := table_tick ho hw hc hl hp hcc (.inl hacc) he hes hceil htab hk hkn hF hr1 hr2 hhot hon
    hn hm ht
  exact fans_follow ho hst hN hfan g1 g2 g3

/-- **C104** The same for a proportional loop over temperatures or powers: when one of its sensors reads `x` or more at
every cycle, the fans get at least what the loop asks for at `x`. All readings of the loop, from the launch on, and its set
point are of moderate size (about a million). -/
theorem C104_hot_sensor {o : Opts} (ho : o.tuningEnabled = false) (hst : o.strictFailsafePwm = false) {bus : BuildBus}
    {now : Int} {w : World} {sensors : OMap String SensorConfig} {pids : OMap Int PIDConf} {configs : OMap Int ZoneConfig}
    (hw : pids.WF) (hc : ∀ e ∈ pids.entries, OMap.WF e.2) {d0 : Daemon}
    (hl : Daemon.launch o bus now w sensors pids configs = .ok d0) {i : Int} {conf : PIDConf} {c : ZoneConfig}
    (hp : pids.find? i = some conf) (hcc : configs.find? i = some c) (hacc : c.accumulateSetPoint = false) {e : Entry}
    (he : e ∈ conf.entries) (hes : e.2.type = "temp" ∨ e.2.type = "power")
    (hceil : ∀ e ∈ conf.entries, e.2.type = "stepwise" → e.2.stepwiseInfo.isCeiling = false)
    (hprop : Proportional e.2.pidInfo) (hsp : Moderate e.2.setpoint) {x : Dbl} (hx : Moderate x)
    (hfan : ∀ f ∈ conf.entries, IsFan f →
      HandsOn f.2.pidInfo ∧ proportionalAt e.2.pidInfo e.2.setpoint x ≤ f.2.pidInfo.outLim.max)
    (hF : 1 ≤ c.cycleTime.cycleIntervalTimeMS) {pre post : List DEvent} {d1 d2 d3 : Daemon}
    (hr1 : d0.run o pre = .ok d1) (hr2 : d1.run o post = .ok d2)
    (hmod : ModerateThroughout o (e.2.inputs.map SensorInput.name) d0 (pre ++ post))
    (hhot : ReadsThroughout o i (e.2.inputs.map SensorInput.name) (fun v => v.isFinite = true ∧ x ≤ v) d1 (post ++ [.tick i]))
    (hon : ∀ es1 es2, post = es1 ++ es2 → switchAfter i e.1 true (pre ++ es1) = true)
    (hn : (c.cycleTime.updateThermalsTimeMS + c.cycleTime.cycleIntervalTimeMS - 1) / c.cycleTime.cycleIntervalTimeMS ≤
      autoTicks i (modeAfter i false pre) post)
    (hm : modeAfter i false (pre ++ post) = false) (ht : d2.step o (.tick i) = .ok d3) :
    FansAtLeast conf.entries (proportionalAt e.2.pidInfo e.2.setpoint x / 100) d2.w d3.w := by
  have hh : IsHeat e := by unfold IsHeat; rcases hes with h | h <;> (rw [h]; decide)
  have hfine : ∀ ti, (∀ x, (∃ e ∈ conf.entries, IsHeat e ∧ ∃ i ∈ e.2.inputs, i.name = x) → x ∈ ti) →
      FineThroughout (ModerateCache e.2.inputs) ti o d0 (pre ++ post) := by
    intro ti hti es1 es2 d hes hr z zd hz hu j hj y hy hf
    have hin : j.name ∈ z.thermalInputs := by rw [hz]; exact hti _ ⟨e, he, hh, j, hj, rfl⟩
    obtain ⟨s, r, f, a1, a2, _, a4⟩ := (pollAll_spec hu).sensor j.name hin
    rw [hy] at a4
    cases a4
    exact hmod es1 es2 d hes hr j.name (List.mem_map.2 ⟨j, hj, rfl⟩) s r a1 a2 hf
  refine demand_reaches_fans ho hst (P := SoundProp e.2.pidInfo e.2.setpoint e.2.inputs) (Q := ModerateCache e.2.inputs)
    (fun z c v c' hq h ho => (soundProp_out hprop hsp hq h ho).1) hw hc hl hp hcc hacc he hh ?_ hceil hfan hF hr1 hr2
    hfine ?_ hon hn hm ht
  · have z0 : SizeUpTo 2097152 (0 : Dbl) := ⟨0, FloatModel.rep_zero, zero_eq, by norm_num⟩
    intro x hx
    cases hx with
    | margin h => rcases hes with h' | h' <;> (rw [h'] at h; exact absurd h (by decide))
    | absolute h => exact ⟨rfl, _, rfl, rfl, rfl, rfl, rfl, z0⟩
    | summation h => rcases hes with h' | h' <;> (rw [h'] at h; exact absurd h (by decide))
    | stepwise h => rcases hes with h' | h' <;> (rw [h'] at h; exact absurd h (by decide))
  · intro ti hti es1 es2 d hes hr z zd hz hu y v y' hy hout
    obtain ⟨nm, hnm, s, r, hs, hrd, hfin, hle⟩ := hhot es1 es2 d hes hr
    obtain ⟨si, hsi, rfl⟩ := List.mem_map.1 hnm
    have hin : si.name ∈ z.thermalInputs := by rw [hz]; exact hti _ ⟨e, he, hh, si, hsi, rfl⟩
    obtain ⟨s', r', f', a1, a2, _, a4⟩ := (pollAll_spec hu).sensor si.name hin
    rw [hs] at a1
    cases a1
    rw [hrd] at a2
    cases a2
    have hpre : ∃ es3, pre ++ post = (pre ++ es1) ++ es3 := by
      rcases List.append_eq_append_iff.1 hes with ⟨as, h1, h2⟩ | ⟨bs, h1, h2⟩
      · cases as with
        | nil => exact ⟨[], by rw [h1]; simp⟩
        | cons a as => cases as <;> simp at h2
      · exact ⟨bs, by rw [h1, List.append_assoc]⟩
    obtain ⟨es3, h3⟩ := hpre
    have hq := hfine ti hti (pre ++ es1) es3 d h3 (run_append.2 ⟨d1, hr1, hr⟩) z zd hz hu
    exact (soundProp_out hprop hsp hq hy hout).2 x hx si hsi _ a4 hfin hle

end

namespace Ex
section
attribute [local instance] binary64

/-- a stepwise loop over the processor: 40 percent from 30 degrees, 60 from 50, 100 from 70 -/
def steps103 : ControllerInfo := { loop99 "stepwise" "cpu" 0 0 90 with
  stepwiseInfo := exTable }
def loops103 : PIDConf := (({} : PIDConf).insert "fans" (loop99 "fan" "fan0" 0 1 0)).insert "steps" steps103
def pids103 : OMap Int PIDConf := ({} : OMap Int PIDConf).insert 1 loops103

theorem loops103_wf : loops103.WF := OMap.wf_insert (OMap.wf_insert OMap.wf_empty _ _) _ _
theorem pids103_wf : pids103.WF := OMap.wf_insert OMap.wf_empty _ _

theorem loops103_mem {e : Entry} (h : e ∈ loops103.entries) :
    e = ("fans", loop99 "fan" "fan0" 0 1 0) ∨ e = ("steps", steps103) := by
  have h := (OMap.mem_entries_iff loops103_wf e.1 e.2).1 h
  obtain ⟨n, x⟩ := e
  unfold loops103 at h
  dsimp only at h
  rw [OMap.find?_insert, OMap.find?_insert, OMap.find?_empty] at h
  split_ifs at h with h1 h2
  · cases h; rw [h1]; exact .inr rfl
  · cases h; rw [h2]; exact .inl rfl

instance (p x v : Dbl) : Decidable (Passed p x v) := by unfold Passed; infer_instance

theorem exTable_rising : RisingTable exTable 3 := by
  refine ⟨exTable_listed, ?_, ?_⟩
  · intro i j hi hj h1 h2
    have h : (i = 0 ∧ j = 1) ∨ (i = 0 ∧ j = 2) ∨ (i = 1 ∧ j = 2) := by omega
    rcases h with ⟨rfl, rfl⟩ | ⟨rfl, rfl⟩ | ⟨rfl, rfl⟩ <;> (revert hi hj; decide +kernel)
  · intro i j hi hj h1 h2
    have h : (i = 0 ∧ j = 1) ∨ (i = 0 ∧ j = 2) ∨ (i = 1 ∧ j = 2) ∨ (i = 0 ∧ j = 0) ∨ (i = 1 ∧ j = 1) ∨ (i = 2 ∧ j = 2) := by
      omega
    rcases h with ⟨rfl, rfl⟩ | ⟨rfl, rfl⟩ | ⟨rfl, rfl⟩ | ⟨rfl, rfl⟩ | ⟨rfl, rfl⟩ | ⟨rfl, rfl⟩ <;> (revert hi hj; decide +kernel)

/-- the sensors start at 30 and have no range on the bus -/
def bus103 : BuildBus := ⟨fun _ => ⟨true, some (⟨0, 30, 0, 0, true, false⟩, false)⟩, fun _ => true, fun _ => none⟩
/-- the processor reports a temperature -/
def temp103 (t : Int) : PropMsg := ⟨ifSensorValue, ({} : OMap String Variant).insert "Value" (.dbl (Dbl.ofInt t))⟩
def run103 (es : List DEvent) : Res Daemon := do
  let d ← Daemon.launch {} bus103 0 world99 sensors99 pids103 zones99
  d.run {} es

/-- the loop is switched off and on again, then the processor gets hot -/
def pre103 : List DEvent :=
  [.signal "cpu" 1 (temp103 40), .tick 1, .enable 1 "steps" false, .tick 1, .enable 1 "steps" true, .signal "cpu" 2 (temp103 72)]

/-- a computation of `ReadsThroughout` -/
def hotB (i : Int) (n : String) (hot : Dbl → Bool) : Daemon → List DEvent → Bool
  | _, [] => true
  | d, e :: es =>
    (match e with
      | .tick j => decide (j ≠ i) || (match d.w.sensors.find? n with
          | some s => (match s.read d.w d.w.nowThermals with | .ok r => hot r.value | .error _ => false)
          | none => false)
      | _ => true) &&
    (match d.step {} e with
      | .ok d' => hotB i n hot d' es
      | .error _ => true)

theorem hot_of {i : Int} {n : String} {names : List String} (hn : n ∈ names) {hot : Dbl → Bool} {P : Dbl → Prop}
    (hP : ∀ v, hot v = true → P v) :
    ∀ {es : List DEvent} {d : Daemon}, hotB i n hot d es = true → ReadsThroughout {} i names P d es
  | [], d, _ => by
    intro es1 es2 d1 h
    cases es1 <;> cases h
  | e :: es, d, hb => by
    intro es1 es2 d1 h hr
    simp only [hotB, Bool.and_eq_true] at hb
    cases es1 with
    | nil =>
      cases h
      cases hr
      have := hb.1
      simp only [ne_eq, not_true_eq_false, decide_false, Bool.false_or] at this
      cases hs : d.w.sensors.find? n with
      | none => simp [hs] at this
      | some s =>
        simp only [hs] at this
        cases hrd : s.read d.w d.w.nowThermals with
        | error x => simp [hrd] at this
        | ok r =>
          simp only [hrd] at this
          exact ⟨n, hn, s, r, hs, hrd, hP _ this⟩
    | cons e' es1 =>
      cases h
      obtain ⟨d2, h1, h2⟩ := bind_eq_ok.1 hr
      have hb2 := hb.2
      rw [h1] at hb2
      exact hot_of hn hP hb2 es1 es2 d1 rfl h2

/-- C103: before, 102 of 255 (40 percent) is written last; two cycles later full speed -/
example : (∃ d, run103 [.signal "cpu" 1 (temp103 40), .tick 1, .tick 1, .tick 1] = .ok d ∧
      decide (d.w.trace.getLast? = some (.sysfsWrite "/sys/class/hwmon/pwm1" 102)) = true) ∧
    ∃ d, run103 (pre103 ++ [.tick 1, .tick 1, .tick 1]) = .ok d ∧
      decide (d.w.trace.getLast? = some (.sysfsWrite "/sys/class/hwmon/pwm1" 255)) = true :=
  ⟨ok_of_any (P := fun d : Daemon => decide (d.w.trace.getLast? = some (.sysfsWrite "/sys/class/hwmon/pwm1" 102)))
    (by decide +kernel),
   ok_of_any (P := fun d : Daemon => decide (d.w.trace.getLast? = some (.sysfsWrite "/sys/class/hwmon/pwm1" 255)))
    (by decide +kernel)⟩

/-- C103: all hypotheses hold for this run -/
example : ∃ d2 d3, run103 (pre103 ++ [.tick 1, .tick 1]) = .ok d2 ∧ d2.step {} (.tick 1) = .ok d3 ∧
    FansAtLeast loops103.entries (100 / 100) d2.w d3.w := by
  obtain ⟨d3, h, _⟩ := ok_of_any (x := run103 ((pre103 ++ [.tick 1, .tick 1]) ++ [.tick 1])) (P := fun _ : Daemon => true)
    (by decide +kernel)
  obtain ⟨d1', hp, hb⟩ := ok_of_any (x := run103 pre103)
    (P := fun d : Daemon => hotB 1 "cpu" (fun v => decide (Passed exTable.positiveHysteresis (exTable.reading 2) v)) d
      ([.tick 1, .tick 1] ++ [.tick 1])) (by decide +kernel)
  obtain ⟨d0, hl, h⟩ := bind_eq_ok.1 h
  obtain ⟨d2, hr, h⟩ := run_append.1 h
  obtain ⟨d3', ht, h⟩ := bind_eq_ok.1 h
  cases h
  obtain ⟨d1, hr1, hr2⟩ := run_append.1 hr
  obtain ⟨d0', hl', hp⟩ := bind_eq_ok.1 hp
  rw [hl] at hl'
  cases hl'
  rw [hr1] at hp
  cases hp
  have hfind : pids103.find? 1 = some loops103 := by unfold pids103; rw [OMap.find?_insert_self]
  have g := C103_hot_sensor (o := {}) rfl rfl pids103_wf
    (fun e he => by
      have := (OMap.mem_entries_iff pids103_wf e.1 e.2).1 he
      unfold pids103 at this
      by_cases hi : e.1 = 1
      · rw [hi, OMap.find?_insert_self] at this
        rw [← Option.some.inj this]; exact loops103_wf
      · rw [OMap.find?_insert_ne _ hi, OMap.find?_empty] at this
        cases this) hl
    (i := 1) (conf := loops103) (c := zone99) hfind
    (by unfold zones99; rw [OMap.find?_insert_self]) rfl
    (e := ("steps", steps103))
    ((OMap.mem_entries_iff loops103_wf _ _).2 (by unfold loops103; rw [OMap.find?_insert_self])) rfl
    (by
      intro e he h
      rcases loops103_mem he with rfl | rfl
      · exact absurd h (by decide)
      · rfl) (n := 3) (k := 2) exTable_rising
    (by decide) (by decide)
    (by
      intro f hf hff
      rcases loops103_mem hf with rfl | rfl
      · exact ⟨⟨rfl, by decide +kernel, by decide +kernel, by decide +kernel⟩, by decide +kernel⟩
      · exact absurd hff (by decide))
    (by decide) hr1 hr2 (hot_of (n := "cpu") (by simp [steps103, loop99]) (fun v hv => of_decide_eq_true hv) hb)
    (by
      intro es1 es2 h
      have h3 : es1 = [] ∨ es1 = [.tick 1] ∨ es1 = [.tick 1, .tick 1] := by
        cases es1 with
        | nil => exact .inl rfl
        | cons a es1 =>
          cases es1 with
          | nil => cases h; exact .inr (.inl rfl)
          | cons b es1 =>
            cases es1 with
            | nil => cases h; exact .inr (.inr rfl)
            | cons x es1 => cases h
      rcases h3 with rfl | rfl | rfl <;> rfl)
    (by decide) rfl ht
  refine ⟨d2, d3, ?_, ht, g⟩
  show (Daemon.launch {} bus103 0 world99 sensors99 pids103 zones99 >>= _) = _
  rw [hl, ok_bind]
  exact hr

def run104 (es : List DEvent) : Res Daemon := do
  let d ← Daemon.launch {} bus103 0 world99 sensors99 pids99 zones99
  d.run {} es

instance (x : Dbl) : Decidable (Moderate x) := by unfold Moderate; infer_instance

/-- a computation of `ModerateThroughout` for one sensor -/
def modB (n : String) (d : Daemon) (es : List DEvent) : Bool :=
  (match d.w.sensors.find? n with
    | some s => (match s.read d.w d.w.nowThermals with | .ok r => decide (Moderate r.value) | .error _ => true)
    | none => true) &&
  (match es with
    | [] => true
    | e :: es => match d.step {} e with
      | .ok d' => modB n d' es
      | .error _ => true)

theorem mod_of {n : String} : ∀ {es : List DEvent} {d : Daemon}, modB n d es = true → ModerateThroughout {} [n] d es := by
  have base : ∀ {es : List DEvent} {d : Daemon}, modB n d es = true → ∀ m ∈ [n], ∀ s r, d.w.sensors.find? m = some s →
      s.read d.w d.w.nowThermals = .ok r → r.value.isFinite = true → Moderate r.value := by
    intro es d hb m hm s r hs hr _
    rw [List.mem_singleton] at hm
    subst hm
    unfold modB at hb
    rw [hs] at hb
    simp only [Bool.and_eq_true, hr, decide_eq_true_eq] at hb
    exact hb.1
  intro es
  induction es with
  | nil =>
    intro d hb es1 es2 d1 h hr
    cases es1 with
    | nil => cases hr; exact base hb
    | cons => cases h
  | cons e es ih =>
    intro d hb es1 es2 d1 h hr
    cases es1 with
    | nil => cases hr; exact base hb
    | cons e' es1 =>
      cases h
      obtain ⟨d2, h1, h2⟩ := bind_eq_ok.1 hr
      unfold modB at hb
      simp only [Bool.and_eq_true, h1] at hb
      exact ih hb.2 es1 es2 d1 rfl h2

/-- the processor gets hot: 110 degrees, with a set point of 80 and -2 percent per degree -/
def pre104 : List DEvent := [.signal "cpu" 1 (temp103 40), .tick 1, .tick 1, .signal "cpu" 2 (temp103 110)]

/-- C104: the loop asks for 60 percent: 153 of 255 is written -/
example : ∃ d, run104 (pre104 ++ [.tick 1, .tick 1, .tick 1]) = .ok d ∧
    decide (d.w.trace.getLast? = some (.sysfsWrite "/sys/class/hwmon/pwm1" 153)) = true :=
  ok_of_any (P := fun d : Daemon => decide (d.w.trace.getLast? = some (.sysfsWrite "/sys/class/hwmon/pwm1" 153)))
    (by decide +kernel)

/-- C104: all hypotheses hold for this run, with 110 degrees -/
example : ∃ d2 d3, run104 (pre104 ++ [.tick 1, .tick 1]) = .ok d2 ∧ d2.step {} (.tick 1) = .ok d3 ∧
    FansAtLeast loops99.entries (60 / 100) d2.w d3.w := by
  obtain ⟨d3, h, _⟩ := ok_of_any (x := run104 ((pre104 ++ [.tick 1, .tick 1]) ++ [.tick 1])) (P := fun _ : Daemon => true)
    (by decide +kernel)
  obtain ⟨d1', hp, hb⟩ := ok_of_any (x := run104 pre104)
    (P := fun d : Daemon => hotB 1 "cpu" (fun v => decide (v.isFinite = true ∧ (110 : Dbl) ≤ v)) d
      ([.tick 1, .tick 1] ++ [.tick 1])) (by decide +kernel)
  obtain ⟨d0', hp0, hmb⟩ := ok_of_any (x := run104 []) (P := fun d : Daemon => modB "cpu" d (pre104 ++ [.tick 1, .tick 1]))
    (by decide +kernel)
  obtain ⟨d0, hl, h⟩ := bind_eq_ok.1 h
  obtain ⟨d2, hr, h⟩ := run_append.1 h
  obtain ⟨d3', ht, h⟩ := bind_eq_ok.1 h
  cases h
  obtain ⟨d1, hr1, hr2⟩ := run_append.1 hr
  obtain ⟨d0'', hl', hp⟩ := bind_eq_ok.1 hp
  rw [hl] at hl'
  cases hl'
  rw [hr1] at hp
  cases hp
  obtain ⟨d0'', hl', hp⟩ := bind_eq_ok.1 hp0
  rw [hl] at hl'
  cases hl'
  cases hp
  have mem : ∀ {e : Entry}, e ∈ loops99.entries →
      e = ("fans", loop99 "fan" "fan0" 0 1 0) ∨ e = ("temps", loop99 "temp" "cpu" (-2) 0 90) := by
    intro e h
    have h := (OMap.mem_entries_iff loops99_wf e.1 e.2).1 h
    obtain ⟨n, x⟩ := e
    unfold loops99 at h
    dsimp only at h
    rw [OMap.find?_insert, OMap.find?_insert, OMap.find?_empty] at h
    split_ifs at h with h1 h2
    · cases h; rw [h1]; exact .inr rfl
    · cases h; rw [h2]; exact .inl rfl
  have h60 : proportionalAt (loop99 "temp" "cpu" (-2) 0 90).pidInfo 80 110 = 60 := by decide +kernel
  have g := C104_hot_sensor (o := {}) rfl rfl pids99_wf
    (fun e he => by rw [(pids99_find ((OMap.mem_entries_iff pids99_wf e.1 e.2).1 he)).2]; exact loops99_wf) hl
    (i := 1) (conf := loops99) (c := zone99) (by unfold pids99; rw [OMap.find?_insert_self])
    (by unfold zones99; rw [OMap.find?_insert_self]) rfl
    (e := ("temps", loop99 "temp" "cpu" (-2) 0 90))
    ((OMap.mem_entries_iff loops99_wf _ _).2 (by unfold loops99; rw [OMap.find?_insert_self])) (.inl rfl)
    (by
      intro e he h
      rcases mem he with rfl | rfl <;> exact absurd h (by decide))
    ⟨⟨rfl, by decide +kernel⟩, by decide +kernel, by decide +kernel, by decide +kernel, by decide +kernel,
      ⟨1, FloatModel.rep_one, one_eq, by norm_num⟩⟩
    (by decide +kernel) (x := 110) (by decide +kernel)
    (by
      intro f hf hff
      rcases mem hf with rfl | rfl
      · exact ⟨⟨rfl, by decide +kernel, by decide +kernel, by decide +kernel⟩, by decide +kernel⟩
      · exact absurd hff (by decide))
    (by decide) hr1 hr2 (mod_of hmb) (hot_of (n := "cpu") (by simp [loop99]) (fun v hv => of_decide_eq_true hv) hb)
    (by
      intro es1 es2 h
      have h3 : es1 = [] ∨ es1 = [.tick 1] ∨ es1 = [.tick 1, .tick 1] := by
        cases es1 with
        | nil => exact .inl rfl
        | cons a es1 =>
          cases es1 with
          | nil => cases h; exact .inr (.inl rfl)
          | cons b es1 =>
            cases es1 with
            | nil => cases h; exact .inr (.inr rfl)
            | cons x es1 => cases h
      rcases h3 with rfl | rfl | rfl <;> rfl)
    (by decide) rfl ht
  change FansAtLeast loops99.entries (proportionalAt (loop99 "temp" "cpu" (-2) 0 90).pidInfo 80 110 / 100) d2.w d3.w at g
  rw [h60] at g
  refine ⟨d2, d3, ?_, ht, g⟩
  show (Daemon.launch {} bus103 0 world99 sensors99 pids99 zones99 >>= _) = _
  rw [hl, ok_bind]
  exact hr

end
end Ex
end Verif
