import Verif.Spec.WarmStart
import Verif.Props.Demand
import Verif.Props.NoGap
import Verif.Lemmas.ReadWf

/-!
# C149: heat at a start or a reload

Before the first cycle of a zone its thermal loops are processed once (pid/pidloop.cpp:45-57). So loops whose output follows from
the present readings lose nothing at a reload. Loops that have gathered an integral do.
-/

namespace Verif
open Dbl
section
variable [F : FloatModel]

/-- a started zone is plain, and has the set point asked for -/
theorem warm_start {o : Opts} (ho : o.tuningEnabled = false) {P : ThermalCtl → Prop}
    {Q : ZoneData → Prop} (hP : ∀ z c v c', Q z → P c → CtlOut z c v c' → P c') {w : World} {id : Int} {c : ZoneConfig} {conf : List Entry} {zb z : Zone}
    (hN : NewZone id c conf zb) (hacc : c.accumulateSetPoint = false ∨ TablesOnly conf)
    (hceil : ∀ e ∈ conf, e.2.type = "stepwise" → e.2.stepwiseInfo.isCeiling = false)
    {e : Entry} (he : e ∈ conf) (hh : IsHeat e) (hPe : ∀ x, HeatLoop e x → x.id = e.1 ∧ P x)
    (hQ : Fine Q zb.d.thermalInputs w) {y : Dbl} (hy : Asks P zb.d.thermalInputs w y) (hs : zb.start o w = .ok z) :
    PlainZone P e.1 c.cycleTime zb.d.thermalInputs (zb.fans.map (Option.map fanKey)) true z ∧ y ≤ z.d.maximumSetPoint := by
  have eq := (initializeCache_spec zb.d).eq
  have e1 : zb.d.initializeCache.accumulateSetPoint = zb.d.accumulateSetPoint := by rw [eq]
  have e2 : zb.d.initializeCache.cycleTime = zb.d.cycleTime := by rw [eq]
  have e3 : zb.d.initializeCache.thermalInputs = zb.d.thermalInputs := by rw [eq]
  have e4 : zb.d.initializeCache.procs = zb.d.procs := by rw [eq]
  have h := PlainZone.thermals (z := { zb with d := zb.d.initializeCache }) (P := P) (nm := e.1) (ct := c.cycleTime)
    (ti := zb.d.thermalInputs) (fk := zb.fans.map (Option.map fanKey)) (on := true) ho hP ?_ (fun d hd => hQ _ d e3 hd) hs
  · exact ⟨h.1, h.2 rfl y (fun d hd => hy _ d e3 hd)⟩
  refine ⟨hacc.imp (fun h => e1.trans (hN.accumulateSetPoint.trans h)) (fun h x hx => positive_new hN h x hx),
    e2.trans hN.cycleTime, e3, ?_, ?_, rfl, ?_⟩
  · obtain ⟨x, hx, hl⟩ := forall₂_left hN.thermals (List.mem_filter.2 ⟨he, by simpa using hh⟩)
    exact ⟨x, hx, hPe x hl⟩
  · intro x hx
    obtain ⟨e', he', hl⟩ := forall₂_right hN.thermals hx
    have he' := (List.mem_filter.1 he').1
    cases hl with
    | stepwise ht => exact hceil e' he' ht
    | _ => trivial
  · have := (hN.processes e.1 _).2 ⟨e, he, hh, rfl, rfl⟩
    show (zb.d.initializeCache.procs.find? e.1).map _ = _
    rw [e4, this]
    rfl

/-- the way from what a loop asks for since the start to the fans -/
theorem warm_tick {o : Opts} (ho : o.tuningEnabled = false) (hst : o.strictFailsafePwm = false)
    {P : ThermalCtl → Prop} {Q : ZoneData → Prop} (hP : ∀ z c v c', Q z → P c → CtlOut z c v c' → P c') {bus : BuildBus} {now : Int} {w : World}
    {sensors : OMap String SensorConfig} {pids : OMap Int PIDConf} {configs : OMap Int ZoneConfig} (hw : pids.WF)
    (hc : ∀ e ∈ pids.entries, OMap.WF e.2) {d0 : Daemon} (hl : Daemon.launch o bus now w sensors pids configs = .ok d0)
    {i : Int} {conf : PIDConf} {c : ZoneConfig} (hp : pids.find? i = some conf) (hcc : configs.find? i = some c)
    (hacc : c.accumulateSetPoint = false ∨ TablesOnly conf.entries) {e : Entry} (he : e ∈ conf.entries) (hh : IsHeat e)
    (hPe : ∀ x, HeatLoop e x → x.id = e.1 ∧ P x)
    (hceil : ∀ e ∈ conf.entries, e.2.type = "stepwise" → e.2.stepwiseInfo.isCeiling = false) {y : Dbl}
    (hfan : ∀ f ∈ conf.entries, IsFan f → HandsOn f.2.pidInfo ∧ y ≤ f.2.pidInfo.outLim.max)
    (hF : 1 ≤ c.cycleTime.cycleIntervalTimeMS) {es : List DEvent} {d1 d2 : Daemon} (hr : d0.run o es = .ok d1)
    (hfine : ∀ ti, (∀ x, (∃ e ∈ conf.entries, IsHeat e ∧ ∃ i ∈ e.2.inputs, i.name = x) → x ∈ ti) →
      FineThroughout Q ti o d0 es)
    (hask : ∀ ti, (∀ x, (∃ e ∈ conf.entries, IsHeat e ∧ ∃ i ∈ e.2.inputs, i.name = x) → x ∈ ti) →
      Asks P ti d0.w y ∧ AsksThroughout P ti o i y d0 (es ++ [.tick i]))
    (hon : ∀ es1 es2, es = es1 ++ es2 → switchAfter i e.1 true es1 = true)
    (hm : modeAfter i false es = false) (ht : d1.step o (.tick i) = .ok d2) :
    FansAtLeast conf.entries (y / 100) d1.w d2.w := by
  obtain ⟨m, zones, hL⟩ := launch_spec hl
  obtain ⟨zb, c', hzb, hc', hN⟩ := (C64_zones hw hc hL.built i).1 conf hp
  rw [hcc] at hc'
  cases hc'
  obtain ⟨z0, hz0, hf0⟩ := hL.started i zb hzb
  have hfine := hfine zb.d.thermalInputs (fun x hx => (hN.thermalInputs_mem x).2 hx)
  obtain ⟨hask0, hask⟩ := hask zb.d.thermalInputs (fun x hx => (hN.thermalInputs_mem x).2 hx)
  obtain ⟨hp0, hy0⟩ := warm_start ho hP hN hacc hceil he hh hPe (hfine [] _ d0 rfl rfl) hask0 hz0
  obtain ⟨hm0, _⟩ := start_flags hz0
  rw [hN.manualMode] at hm0
  obtain ⟨z1', cnt1', hz1', _, hm1⟩ := plainZone_run ho hP hr hf0 hp0 hfine
  obtain ⟨z1, cnt1, hz1, hp1, hd1⟩ := asks_run ho hP (k := cnt1' + 1) hr hf0 hp0 hfine hon
    (fun es1 es2 d h hr => hask es1 (es2 ++ [.tick i]) d (by rw [h]; simp) hr) (.inl hy0)
  rw [hz1] at hz1'
  obtain ⟨rfl, rfl⟩ : z1 = z1' ∧ cnt1 = cnt1' := by simpa using hz1'
  rw [hm0] at hm1
  have hmode : z1.d.manualMode = false := by rw [hm1]; exact hm
  have hy1 : y ≤ z1.d.maximumSetPoint := by
    refine hd1.resolve_right (fun h => ?_)
    have h1 := Nat.le_mul_of_pos_right (cnt1 + 1 + autoTicks i z0.d.manualMode es) hF
    omega
  simp only [Daemon.step, hz1] at ht
  obtain ⟨⟨w', z3, cnt3⟩, htk, ht⟩ := bind_eq_ok.1 ht
  cases ht
  obtain ⟨_, q, _⟩ := hp1.tick ho hP (hfine es [] d1 (by simp) hr) hmode htk
  obtain ⟨_, zt, g1, g2, g3⟩ := q rfl y (hask es [] d1 rfl hr) (.inl hy1)
  exact fans_follow ho hst hN hfan g1 g2.fans g3

/-- a cycle when a sensor of a stepwise loop has been hot since the start -/
theorem warm_table {o : Opts} (ho : o.tuningEnabled = false) (hst : o.strictFailsafePwm = false) {bus : BuildBus}
    {now : Int} {w : World} {sensors : OMap String SensorConfig} {pids : OMap Int PIDConf} {configs : OMap Int ZoneConfig}
    (hw : pids.WF) (hc : ∀ e ∈ pids.entries, OMap.WF e.2) {d0 : Daemon}
    (hl : Daemon.launch o bus now w sensors pids configs = .ok d0) {i : Int} {conf : PIDConf} {c : ZoneConfig}
    (hp : pids.find? i = some conf) (hcc : configs.find? i = some c)
    (hacc : c.accumulateSetPoint = false ∨ TablesOnly conf.entries) {e : Entry}
    (he : e ∈ conf.entries) (hes : e.2.type = "stepwise")
    (hceil : ∀ e ∈ conf.entries, e.2.type = "stepwise" → e.2.stepwiseInfo.isCeiling = false)
    {n k : Nat} (htab : RisingTable e.2.stepwiseInfo n) (hk : k < 20) (hkn : k < n)
    (hfan : ∀ f ∈ conf.entries, IsFan f → HandsOn f.2.pidInfo ∧ e.2.stepwiseInfo.output ⟨k, hk⟩ ≤ f.2.pidInfo.outLim.max)
    (hF : 1 ≤ c.cycleTime.cycleIntervalTimeMS) {es : List DEvent} {d1 d2 : Daemon} (hr : d0.run o es = .ok d1)
    (hhot0 : ReadsNow (e.2.inputs.map SensorInput.name)
      (Passed e.2.stepwiseInfo.positiveHysteresis (e.2.stepwiseInfo.reading ⟨k, hk⟩)) d0.w)
    (hhot : ReadsThroughout o i (e.2.inputs.map SensorInput.name)
      (Passed e.2.stepwiseInfo.positiveHysteresis (e.2.stepwiseInfo.reading ⟨k, hk⟩)) d0 (es ++ [.tick i]))
    (hon : ∀ es1 es2, es = es1 ++ es2 → switchAfter i e.1 true es1 = true)
    (hm : modeAfter i false es = false) (ht : d1.step o (.tick i) = .ok d2) :
    FansAtLeast conf.entries (e.2.stepwiseInfo.output ⟨k, hk⟩ / 100) d1.w d2.w := by
  have hh : IsHeat e := by unfold IsHeat; rw [hes]; decide
  have key : ∀ ti, (∀ x, (∃ e ∈ conf.entries, IsHeat e ∧ ∃ i ∈ e.2.inputs, i.name = x) → x ∈ ti) → ∀ w,
      ReadsNow (e.2.inputs.map SensorInput.name)
        (Passed e.2.stepwiseInfo.positiveHysteresis (e.2.stepwiseInfo.reading ⟨k, hk⟩)) w →
      Asks (SoundSteps e.2.stepwiseInfo (e.2.inputs.map SensorInput.name)) ti w (e.2.stepwiseInfo.output ⟨k, hk⟩) := by
    rintro ti hti w ⟨nm, hnm, s, r, hs, hrd, hpass⟩ z zd hz hu x v x' hx hout
    obtain ⟨si, hsi, rfl⟩ := List.mem_map.1 hnm
    have hin : si.name ∈ z.thermalInputs := by rw [hz]; exact hti _ ⟨e, he, hh, si, hsi, rfl⟩
    obtain ⟨s', r', f', a1, a2, _, a4⟩ := (pollAll_spec hu).sensor si.name hin
    rw [hs] at a1
    cases a1
    rw [hrd] at a2
    cases a2
    exact soundSteps_hot hx hout htab hk hkn hnm a4 hpass
  refine warm_tick ho hst (P := SoundSteps e.2.stepwiseInfo (e.2.inputs.map SensorInput.name)) (Q := fun _ => True)
    (fun z c v c' _ h ho => soundSteps_out h ho) hw hc hl hp hcc hacc he hh ?_ hceil hfan hF hr
    (fun _ _ _ _ _ _ _ _ _ _ _ => trivial)
    (fun ti hti => ⟨key ti hti _ hhot0, fun es1 es2 d hes hr => key ti hti _ (hhot es1 es2 d hes hr)⟩) hon hm ht
  intro x hx
  cases hx with
  | margin h => rw [hes] at h; exact absurd h (by decide)
  | absolute h => rw [hes] at h; exact absurd h (by decide)
  | summation h => rw [hes] at h; exact absurd h (by decide)
  | stepwise h => exact ⟨rfl, _, rfl, rfl, rfl, .inl rfl⟩

/-- **C149** No gap at a start: if some sensor of a stepwise loop has passed a point of its table when the zones start, and some has
whenever the timer of the zone expires, every automatic cycle of the zone, from the first on and whatever else happens to the
daemon, commands all fan loops of the zone at least the output of the point. -/
theorem C149_table {o : Opts} (ho : o.tuningEnabled = false) (hst : o.strictFailsafePwm = false) {bus : BuildBus}
    {now : Int} {w : World} {sensors : OMap String SensorConfig} {pids : OMap Int PIDConf} {configs : OMap Int ZoneConfig}
    (hw : pids.WF) (hc : ∀ e ∈ pids.entries, OMap.WF e.2) {d0 : Daemon}
    (hl : Daemon.launch o bus now w sensors pids configs = .ok d0) {i : Int} {conf : PIDConf} {c : ZoneConfig}
    (hp : pids.find? i = some conf) (hcc : configs.find? i = some c) (hacc : c.accumulateSetPoint = false) {e : Entry}
    (he : e ∈ conf.entries) (hes : e.2.type = "stepwise")
    (hceil : ∀ e ∈ conf.entries, e.2.type = "stepwise" → e.2.stepwiseInfo.isCeiling = false)
    {n k : Nat} (htab : RisingTable e.2.stepwiseInfo n) (hk : k < 20) (hkn : k < n)
    (hfan : ∀ f ∈ conf.entries, IsFan f → HandsOn f.2.pidInfo ∧ e.2.stepwiseInfo.output ⟨k, hk⟩ ≤ f.2.pidInfo.outLim.max)
    (hF : 1 ≤ c.cycleTime.cycleIntervalTimeMS) {es : List DEvent} {d1 d2 : Daemon} (hr : d0.run o es = .ok d1)
    (hhot0 : ReadsNow (e.2.inputs.map SensorInput.name)
      (Passed e.2.stepwiseInfo.positiveHysteresis (e.2.stepwiseInfo.reading ⟨k, hk⟩)) d0.w)
    (hhot : ReadsThroughout o i (e.2.inputs.map SensorInput.name)
      (Passed e.2.stepwiseInfo.positiveHysteresis (e.2.stepwiseInfo.reading ⟨k, hk⟩)) d0 (es ++ [.tick i]))
    (hon : ∀ es1 es2, es = es1 ++ es2 → switchAfter i e.1 true es1 = true)
    (hm : modeAfter i false es = false) (ht : d1.step o (.tick i) = .ok d2) :
    FansAtLeast conf.entries (e.2.stepwiseInfo.output ⟨k, hk⟩ / 100) d1.w d2.w :=
  warm_table ho hst hw hc hl hp hcc (.inl hacc) he hes hceil htab hk hkn hfan hF hr hhot0 hhot hon hm ht

/-- **C149** The same for a proportional loop over temperatures or powers: if one of its sensors reads `x` or more when the zones
start and at every cycle, the fans get at least what the loop asks for at `x`, from the first cycle on. -/
theorem C149_proportional {o : Opts} (ho : o.tuningEnabled = false) (hst : o.strictFailsafePwm = false) {bus : BuildBus}
    {now : Int} {w : World} {sensors : OMap String SensorConfig} {pids : OMap Int PIDConf} {configs : OMap Int ZoneConfig}
    (hw : pids.WF) (hc : ∀ e ∈ pids.entries, OMap.WF e.2) {d0 : Daemon}
    (hl : Daemon.launch o bus now w sensors pids configs = .ok d0) {i : Int} {conf : PIDConf} {c : ZoneConfig}
    (hp : pids.find? i = some conf) (hcc : configs.find? i = some c) (hacc : c.accumulateSetPoint = false) {e : Entry}
    (he : e ∈ conf.entries) (hes : e.2.type = "temp" ∨ e.2.type = "power")
    (hceil : ∀ e ∈ conf.entries, e.2.type = "stepwise" → e.2.stepwiseInfo.isCeiling = false)
    (hprop : Proportional e.2.pidInfo) (hsp : Moderate e.2.setpoint) {x : Dbl} (hx : Moderate x)
    (hfan : ∀ f ∈ conf.entries, IsFan f →
      HandsOn f.2.pidInfo ∧ proportionalAt e.2.pidInfo e.2.setpoint x ≤ f.2.pidInfo.outLim.max)
    (hF : 1 ≤ c.cycleTime.cycleIntervalTimeMS) {es : List DEvent} {d1 d2 : Daemon} (hr : d0.run o es = .ok d1)
    (hmod : ModerateThroughout o (e.2.inputs.map SensorInput.name) d0 es)
    (hhot0 : ReadsNow (e.2.inputs.map SensorInput.name) (fun v => v.isFinite = true ∧ x ≤ v) d0.w)
    (hhot : ReadsThroughout o i (e.2.inputs.map SensorInput.name) (fun v => v.isFinite = true ∧ x ≤ v) d0 (es ++ [.tick i]))
    (hon : ∀ es1 es2, es = es1 ++ es2 → switchAfter i e.1 true es1 = true)
    (hm : modeAfter i false es = false) (ht : d1.step o (.tick i) = .ok d2) :
    FansAtLeast conf.entries (proportionalAt e.2.pidInfo e.2.setpoint x / 100) d1.w d2.w := by
  have hh : IsHeat e := by unfold IsHeat; rcases hes with h | h <;> (rw [h]; decide)
  have hfine : ∀ ti, (∀ x, (∃ e ∈ conf.entries, IsHeat e ∧ ∃ i ∈ e.2.inputs, i.name = x) → x ∈ ti) →
      FineThroughout (ModerateCache e.2.inputs) ti o d0 es := by
    intro ti hti es1 es2 d hes hr z zd hz hu j hj y hy hf
    have hin : j.name ∈ z.thermalInputs := by rw [hz]; exact hti _ ⟨e, he, hh, j, hj, rfl⟩
    obtain ⟨s, r, f, a1, a2, _, a4⟩ := (pollAll_spec hu).sensor j.name hin
    rw [hy] at a4
    cases a4
    exact hmod es1 es2 d hes hr j.name (List.mem_map.2 ⟨j, hj, rfl⟩) s r a1 a2 hf
  have key : ∀ ti, (∀ x, (∃ e ∈ conf.entries, IsHeat e ∧ ∃ i ∈ e.2.inputs, i.name = x) → x ∈ ti) → ∀ w,
      Fine (ModerateCache e.2.inputs) ti w → ReadsNow (e.2.inputs.map SensorInput.name) (fun v => v.isFinite = true ∧ x ≤ v) w →
      Asks (SoundProp e.2.pidInfo e.2.setpoint e.2.inputs) ti w (proportionalAt e.2.pidInfo e.2.setpoint x) := by
    rintro ti hti w hq ⟨nm, hnm, s, r, hs, hrd, hfin, hle⟩ z zd hz hu y v y' hy hout
    obtain ⟨si, hsi, rfl⟩ := List.mem_map.1 hnm
    have hin : si.name ∈ z.thermalInputs := by rw [hz]; exact hti _ ⟨e, he, hh, si, hsi, rfl⟩
    obtain ⟨s', r', f', a1, a2, _, a4⟩ := (pollAll_spec hu).sensor si.name hin
    rw [hs] at a1
    cases a1
    rw [hrd] at a2
    cases a2
    exact (soundProp_out hprop hsp (hq z zd hz hu) hy hout).2 x hx si hsi _ a4 hfin hle
  refine warm_tick ho hst (P := SoundProp e.2.pidInfo e.2.setpoint e.2.inputs) (Q := ModerateCache e.2.inputs)
    (fun z c v c' hq h ho => (soundProp_out hprop hsp hq h ho).1) hw hc hl hp hcc (.inl hacc) he hh ?_ hceil hfan hF hr
    hfine (fun ti hti => ⟨key ti hti _ (hfine ti hti [] es d0 rfl rfl) hhot0, fun es1 es2 d hes hr => ?_⟩) hon hm ht
  · have z0 : SizeUpTo 2097152 (0 : Dbl) := ⟨0, FloatModel.rep_zero, zero_eq, by norm_num⟩
    intro x hx
    cases hx with
    | margin h => rcases hes with h' | h' <;> (rw [h'] at h; exact absurd h (by decide))
    | absolute h => exact ⟨rfl, _, rfl, rfl, rfl, rfl, rfl, z0⟩
    | summation h => rcases hes with h' | h' <;> (rw [h'] at h; exact absurd h (by decide))
    | stepwise h => rcases hes with h' | h' <;> (rw [h'] at h; exact absurd h (by decide))
  · have hpre : ∃ es3, es = es1 ++ es3 := by
      rcases List.append_eq_append_iff.1 hes with ⟨as, h1, h2⟩ | ⟨bs, h1, h2⟩
      · cases as with
        | nil => exact ⟨[], by rw [h1]; simp⟩
        | cons a as => cases as <;> simp at h2
      · exact ⟨bs, h1⟩
    obtain ⟨es3, h3⟩ := hpre
    exact key ti hti _ (hfine ti hti es1 es3 d h3 hr) (hhot es1 es2 d hes hr)

/-- **C149** No gap at a reload: in any life of the process, if the last reload left all zones running from configuration `c`, and
some sensor of a stepwise loop had passed a point of its table when the zones were started and at every cycle since, every automatic
cycle of the zone since the reload, from the first on, commands its fans at least the output of the point. -/
theorem C149_reload {o : Opts} (ho : o.tuningEnabled = false) (hst : o.strictFailsafePwm = false) {w0 : World} {life : List WEvent}
    {r : Found} {c : Config} (hread : r.read = .got c) {i : Int} {conf : PIDConf} {zc : ZoneConfig}
    (hp : c.pids.find? i = some conf) (hcc : c.zones.find? i = some zc) (hacc : zc.accumulateSetPoint = false) {e : Entry}
    (he : e ∈ conf.entries) (hty : e.2.type = "stepwise")
    (hceil : ∀ e ∈ conf.entries, e.2.type = "stepwise" → e.2.stepwiseInfo.isCeiling = false)
    {n k : Nat} (htab : RisingTable e.2.stepwiseInfo n) (hk : k < 20) (hkn : k < n)
    (hfan : ∀ f ∈ conf.entries, IsFan f → HandsOn f.2.pidInfo ∧ e.2.stepwiseInfo.output ⟨k, hk⟩ ≤ f.2.pidInfo.outLim.max)
    (hF : 1 ≤ zc.cycleTime.cycleIntervalTimeMS) {s0 s s' : Whole} (h0 : (Whole.init w0).run o (life ++ [.reload r]) = .ok s0)
    (hall : s0.AllRun) {es : List DEvent} (h : s0.run o (es.map .event) = .ok s)
    (hhot0 : ReadsNow (e.2.inputs.map SensorInput.name)
      (Passed e.2.stepwiseInfo.positiveHysteresis (e.2.stepwiseInfo.reading ⟨k, hk⟩)) s0.d.w)
    (hhot : ReadsThroughout o i (e.2.inputs.map SensorInput.name)
      (Passed e.2.stepwiseInfo.positiveHysteresis (e.2.stepwiseInfo.reading ⟨k, hk⟩)) s0.d (es ++ [.tick i]))
    (hon : ∀ es1 es2, es = es1 ++ es2 → switchAfter i e.1 true es1 = true)
    (hm : modeAfter i false es = false) (ht : s.step o (.event (.tick i)) = .ok s') :
    FansAtLeast conf.entries (e.2.stepwiseInfo.output ⟨k, hk⟩ / 100) s.d.w s'.d.w := by
  obtain ⟨hws, hw, hl⟩ := read_wf hread
  obtain ⟨s1, -, h2⟩ := wrun_append.1 h0
  unfold Whole.run at h2
  obtain ⟨s2, h3, h4⟩ := bind_eq_ok.1 h2
  cases h4
  obtain ⟨w, -, h7⟩ := C123_restart h3 hall
  rw [attempt_read hread, launched_running] at h7
  obtain ⟨d, h5, rfl⟩ := wrun_events.1 h
  unfold Whole.step at ht
  obtain ⟨d', h8, h9⟩ := bind_eq_ok.1 ht
  cases h9
  exact C149_table ho hst hw hl h7 hp hcc hacc he hty hceil htab hk hkn hfan hF h5 hhot0 hhot hon hm h8

end

namespace Ex
section
attribute [local instance] binary64

/-- the processor is at 72 degrees when the daemon looks for the first time -/
def bus149 : BuildBus := ⟨fun n => if n = "cpu" then ⟨true, some (⟨0, 72, 0, 0, true, false⟩, false)⟩ else bus103.passive n,
  bus103.writeService, bus103.dirs⟩
def run149 (bus : BuildBus) (es : List DEvent) : Res Daemon := do
  let d ← Daemon.launch {} bus 0 world99 sensors99 pids103 zones99
  d.run {} es

/-- The first cycle commands full speed; with a cool processor at the start it would have been 40 percent (102 of 255), also when the
processor gets hot just before the cycle: the thermal loops do not run before the second. -/
example : ((run149 bus149 [.tick 1]).toOption.map (·.w.trace)) = some [.sysfsWrite "/sys/class/hwmon/pwm1" 255] ∧
    ((run149 bus103 [.signal "cpu" 1 (temp103 72), .tick 1]).toOption.map (·.w.trace)) =
      some [.sysfsWrite "/sys/class/hwmon/pwm1" 102] := by
  constructor <;> decide +kernel

/-- a computation of `ReadsNow` -/
def nowB (n : String) (hot : Dbl → Bool) (w : World) : Bool :=
  match w.sensors.find? n with
    | some s => (match s.read w w.nowThermals with | .ok r => hot r.value | .error _ => false)
    | none => false

theorem now_of {n : String} {names : List String} (hn : n ∈ names) {hot : Dbl → Bool} {P : Dbl → Prop}
    (hP : ∀ v, hot v = true → P v) {w : World} (h : nowB n hot w = true) : ReadsNow names P w := by
  unfold nowB at h
  split at h
  · next s hs =>
    split at h
    · next r hr => exact ⟨n, hn, s, r, hs, hr, hP _ h⟩
    · cases h
  · cases h

/-- a file with a stepwise loop: 30 percent from 30 degrees, 80 from 60 -/
def zone149 : Json := .obj
  [("cycleIntervalTimeMS", .int 500), ("failsafePercent", .int 75), ("id", .int 3), ("minThermalOutput", .int 20),
   ("pids", .arr [jsonLoop108 "fans" "fan" "fan0" 1, .obj [("inputs", .arr [.str "cpu"]), ("name", .str "step"),
    ("pid", .obj [("isCeiling", .bool false), ("output", .obj [("0", .int 30), ("1", .int 80)]),
      ("reading", .obj [("0", .int 30), ("1", .int 60)]), ("samplePeriod", .int 1)]),
    ("setpoint", .int 0), ("type", .str "stepwise")]])]
def files149 : StartFiles := files108 ["/var/lib/swampd/config.json"]
  (some (.obj [("sensors", .arr [sensorFan113, sensorCpu113]), ("zones", .arr [zone149])])) (by decide) (by decide)
def warm149 : Found := ⟨"", files149, noConfig, asListed, bus149, 0, true⟩

/-- the daemon runs while the processor gets warm, then it is reloaded -/
def life149 : List WEvent := [.reload warm149, .event (.signal "cpu" 1 (temp103 40)), .event (.tick 3), .event (.tick 3), .event (.tick 3)]

/-- The first cycle after the reload commands 80% (204 of 255). -/
example : (((Whole.init world99).run {} (life149 ++ .reload warm149 :: [DEvent.tick 3].map .event)).toOption.map sum123) =
    some ([(3, false)], 0, false, [.sysfsWrite "/sys/class/hwmon/pwm1" 204, .sysfsWrite "/sys/class/hwmon/pwm1" 204,
      .sysfsWrite "/sys/class/hwmon/pwm1" 76, .sysfsWrite "/sys/class/hwmon/pwm1" 204]) := by
  decide +kernel

/-- C149_table for the run above -/
example : ∃ d1 d2, run149 bus149 [] = .ok d1 ∧ d1.step {} (.tick 1) = .ok d2 ∧
    FansAtLeast loops103.entries (100 / 100) d1.w d2.w := by
  obtain ⟨d0, hl, hP⟩ := ok_of_any (x := Daemon.launch {} bus149 0 world99 sensors99 pids103 zones99)
    (P := fun d : Daemon => nowB "cpu" (fun v => decide (Passed exTable.positiveHysteresis (exTable.reading 2) v)) d.w &&
      hotB 1 "cpu" (fun v => decide (Passed exTable.positiveHysteresis (exTable.reading 2) v)) d ([] ++ [.tick 1]) &&
      (d.step {} (.tick 1)).toOption.isSome) (by decide +kernel)
  simp only [Bool.and_eq_true] at hP
  cases hst : d0.step {} (.tick 1) with
  | error e => rw [hst] at hP; cases hP.2
  | ok d2 =>
  have hfind : pids103.find? 1 = some loops103 := by unfold pids103; rw [OMap.find?_insert_self]
  have g := C149_table (o := {}) rfl rfl pids103_wf
    (fun e he => by
      have := (OMap.mem_entries_iff pids103_wf e.1 e.2).1 he
      unfold pids103 at this
      by_cases hi : e.1 = 1
      · rw [hi, OMap.find?_insert_self] at this
        rw [← Option.some.inj this]; exact loops103_wf
      · rw [OMap.find?_insert_ne _ hi, OMap.find?_empty] at this
        cases this) hl
    (i := 1) (conf := loops103) (c := zone99) hfind
    (by unfold zones99; rw [OMap.find?_insert_self]) rfl
    (e := ("steps", steps103))
    ((OMap.mem_entries_iff loops103_wf _ _).2 (by unfold loops103; rw [OMap.find?_insert_self])) rfl
    (by
      intro e he h
      rcases loops103_mem he with rfl | rfl
      · exact absurd h (by decide)
      · rfl) (n := 3) (k := 2) exTable_rising
    (by decide) (by decide)
    (by
      intro f hf hff
      rcases loops103_mem hf with rfl | rfl
      · exact ⟨⟨rfl, by decide +kernel, by decide +kernel, by decide +kernel⟩, by decide +kernel⟩
      · exact absurd hff (by decide))
    (by decide) (es := []) rfl (now_of (n := "cpu") (by simp [steps103, loop99]) (fun v hv => of_decide_eq_true hv) hP.1.1)
    (hot_of (n := "cpu") (by simp [steps103, loop99]) (fun v hv => of_decide_eq_true hv) hP.1.2)
    (by
      intro es1 es2 h
      cases es1 with
      | nil => rfl
      | cons a es1 => cases h)
    rfl hst
  refine ⟨d0, d2, ?_, hst, g⟩
  show (Daemon.launch {} bus149 0 world99 sensors99 pids103 zones99 >>= _) = _
  rw [hl, ok_bind]
  rfl

/-- what C149_reload asks of a configuration with a table of two points -/
def fit149 (c : Config) : Bool :=
  match c.pids.find? 3, c.zones.find? 3 with
    | some conf, some zc =>
      !zc.accumulateSetPoint && decide (1 ≤ zc.cycleTime.cycleIntervalTimeMS) &&
      decide (∀ e ∈ conf.entries, e.2.type = "stepwise" → e.2.stepwiseInfo.isCeiling = false) &&
      decide (∀ f ∈ conf.entries, IsFan f → f.2.pidInfo.checkHysterWithSetpt = false ∧
        (f.2.pidInfo.proportionalCoeff = 0 ∧ f.2.pidInfo.integralCoeff = 0 ∧ f.2.pidInfo.derivativeCoeff = 0) ∧
        (f.2.pidInfo.feedFwdOffset = 0 ∧ f.2.pidInfo.feedFwdGain = 1) ∧ (f.2.pidInfo.slewNeg = 0 ∧ f.2.pidInfo.slewPos = 0) ∧
        80 ≤ f.2.pidInfo.outLim.max) &&
      decide (∃ e ∈ conf.entries, e.1 = "step" ∧ e.2.type = "stepwise" ∧ e.2.inputs.map SensorInput.name = ["cpu"] ∧
        e.2.stepwiseInfo.reading 2 = nan ∧ e.2.stepwiseInfo.reading 1 = 60 ∧ e.2.stepwiseInfo.reading 0 = 30 ∧
        e.2.stepwiseInfo.output 1 = 80 ∧ e.2.stepwiseInfo.output 0 = 30 ∧ e.2.stepwiseInfo.positiveHysteresis = 0)
    | _, _ => false

theorem rising149 {info : StepwiseInfo} (h2 : info.reading 2 = nan) (h1 : info.reading 1 = 60) (h0 : info.reading 0 = 30)
    (k1 : info.output 1 = 80) (k0 : info.output 0 = 30) : RisingTable info 2 := by
  refine ⟨⟨by decide, by decide, ?_, fun _ => h2⟩, ?_, ?_⟩
  · intro i h h3 h4
    have : i = 1 := by omega
    subst this
    change info.reading 1 ≠ nan
    rw [h1]; decide +kernel
  · intro i j hi hj h3 h4
    have : i = 0 ∧ j = 1 := by omega
    obtain ⟨rfl, rfl⟩ := this
    change info.reading 0 < info.reading 1
    rw [h1, h0]; decide +kernel
  · intro i j hi hj h3 h4
    have : (i = 0 ∧ j = 0) ∨ (i = 0 ∧ j = 1) ∨ (i = 1 ∧ j = 1) := by omega
    rcases this with ⟨rfl, rfl⟩ | ⟨rfl, rfl⟩ | ⟨rfl, rfl⟩
    · change info.output 0 ≤ info.output 0; rw [k0]; decide +kernel
    · change info.output 0 ≤ info.output 1; rw [k0, k1]; decide +kernel
    · change info.output 1 ≤ info.output 1; rw [k1]; decide +kernel

theorem read149 : ∃ c, warm149.read = .got c ∧ fit149 c = true := by
  have h : (match warm149.read with | .got c => fit149 c | _ => false) = true := by decide +kernel
  split at h
  · next c e => exact ⟨c, e, h⟩
  · cases h

/-- C149_reload for the life above -/
example : ∃ s s' conf, (Whole.init world99).run {} (life149 ++ [.reload warm149]) = .ok s ∧
    s.step {} (.event (.tick 3)) = .ok s' ∧ FansAtLeast conf (80 / 100) s.d.w s'.d.w := by
  obtain ⟨s, hs, hP⟩ := ok_of_any (x := (Whole.init world99).run {} (life149 ++ [.reload warm149]))
    (P := fun s : Whole => !s.again && s.idle.isEmpty && !s.d.zones.isEmpty &&
      nowB "cpu" (fun v => decide (Passed 0 60 v)) s.d.w &&
      hotB 3 "cpu" (fun v => decide (Passed 0 60 v)) s.d ([] ++ [.tick 3]) &&
      (s.step {} (.event (.tick 3))).toOption.isSome) (by decide +kernel)
  simp only [Bool.and_eq_true, Bool.not_eq_true', List.isEmpty_iff] at hP
  obtain ⟨⟨⟨⟨⟨p1, p2⟩, p3⟩, p4⟩, p5⟩, p6⟩ := hP
  cases hst : s.step {} (.event (.tick 3)) with
  | error e => rw [hst] at p6; cases p6
  | ok s' =>
  obtain ⟨c, hc, hf⟩ := read149
  unfold fit149 at hf
  split at hf
  · next conf zc e1 e2 =>
    simp only [Bool.and_eq_true, decide_eq_true_eq, Bool.not_eq_true'] at hf
    obtain ⟨⟨⟨⟨f1, f2⟩, f3⟩, f4⟩, e, he, he0, he1, he2, r2, r1, r0, o1, o0, hh⟩ := hf
    have g := C149_reload (o := {}) rfl rfl hc e1 e2 f1 he he1 f3 (n := 2) (k := 1) (rising149 r2 r1 r0 o1 o0) (by decide) (by decide)
      (fun f hf hff => by
        obtain ⟨a1, a2, a3, a4, a5⟩ := f4 f hf hff
        refine ⟨⟨a1, a2, a3, a4⟩, ?_⟩
        change e.2.stepwiseInfo.output 1 ≤ _
        rw [o1]; exact a5) f2 hs ⟨p1, p2, p3⟩ (es := []) rfl
      (now_of (n := "cpu") (by rw [he2]; simp)
        (fun v hv => by change Passed _ (e.2.stepwiseInfo.reading 1) v; rw [hh, r1]; exact of_decide_eq_true hv) p4)
      (hot_of (n := "cpu") (by rw [he2]; simp)
        (fun v hv => by change Passed _ (e.2.stepwiseInfo.reading 1) v; rw [hh, r1]; exact of_decide_eq_true hv) p5)
      (by
        intro es1 es2 h
        cases es1 with
        | nil => rfl
        | cons a es1 => cases h)
      rfl hst
    change FansAtLeast conf.entries (e.2.stepwiseInfo.output 1 / 100) _ _ at g
    rw [o1] at g
    exact ⟨s, s', _, hs, hst, g⟩
  · cases hf

/-- the processor is at 110 degrees when the daemon looks for the first time -/
def busHot149 : BuildBus := { bus103 with
  passive := fun n => if n = "cpu" then ⟨true, some (⟨0, 110, 0, 0, true, false⟩, false)⟩ else bus103.passive n }
def launch149 : Res Daemon := Daemon.launch {} busHot149 0 world99 sensors99 pids99 zones99

/-- C149_proportional: with a set point of 80 and -2 percent per degree, the first cycle commands 60 percent (153 of 255) -/
example : ∃ d1 d2, launch149 = .ok d1 ∧ d1.step {} (.tick 1) = .ok d2 ∧ FansAtLeast loops99.entries (60 / 100) d1.w d2.w ∧
    d2.w.trace = [.sysfsWrite "/sys/class/hwmon/pwm1" 153] := by
  obtain ⟨d0, hl, hP⟩ := ok_of_any (x := launch149)
    (P := fun d : Daemon => nowB "cpu" (fun v => decide (v.isFinite = true ∧ (110 : Dbl) ≤ v)) d.w &&
      hotB 1 "cpu" (fun v => decide (v.isFinite = true ∧ (110 : Dbl) ≤ v)) d ([] ++ [.tick 1]) && modB "cpu" d [] &&
      (d.step {} (.tick 1)).toOption.any (fun d : Daemon => decide (d.w.trace = [.sysfsWrite "/sys/class/hwmon/pwm1" 153]))) (by decide +kernel)
  simp only [Bool.and_eq_true] at hP
  cases hst : d0.step {} (.tick 1) with
  | error e => rw [hst] at hP; cases hP.2
  | ok d2 =>
  rw [hst] at hP
  have mem : ∀ {e : Entry}, e ∈ loops99.entries →
      e = ("fans", loop99 "fan" "fan0" 0 1 0) ∨ e = ("temps", loop99 "temp" "cpu" (-2) 0 90) := by
    intro e h
    have h := (OMap.mem_entries_iff loops99_wf e.1 e.2).1 h
    obtain ⟨n, x⟩ := e
    unfold loops99 at h
    dsimp only at h
    rw [OMap.find?_insert, OMap.find?_insert, OMap.find?_empty] at h
    split_ifs at h with h1 h2
    · cases h; rw [h1]; exact .inr rfl
    · cases h; rw [h2]; exact .inl rfl
  have h60 : proportionalAt (loop99 "temp" "cpu" (-2) 0 90).pidInfo 80 110 = 60 := by decide +kernel
  have g := C149_proportional (o := {}) rfl rfl pids99_wf
    (fun e he => by rw [(pids99_find ((OMap.mem_entries_iff pids99_wf e.1 e.2).1 he)).2]; exact loops99_wf) hl
    (i := 1) (conf := loops99) (c := zone99) (by unfold pids99; rw [OMap.find?_insert_self])
    (by unfold zones99; rw [OMap.find?_insert_self]) rfl
    (e := ("temps", loop99 "temp" "cpu" (-2) 0 90))
    ((OMap.mem_entries_iff loops99_wf _ _).2 (by unfold loops99; rw [OMap.find?_insert_self])) (.inl rfl)
    (by
      intro e he h
      rcases mem he with rfl | rfl <;> exact absurd h (by decide))
    ⟨⟨rfl, by decide +kernel⟩, by decide +kernel, by decide +kernel, by decide +kernel, by decide +kernel,
      ⟨1, FloatModel.rep_one, one_eq, by norm_num⟩⟩
    (by decide +kernel) (x := 110) (by decide +kernel)
    (by
      intro f hf hff
      rcases mem hf with rfl | rfl
      · exact ⟨⟨rfl, by decide +kernel, by decide +kernel, by decide +kernel⟩, by decide +kernel⟩
      · exact absurd hff (by decide))
    (by decide) (es := []) rfl (mod_of hP.1.2)
    (now_of (n := "cpu") (by simp [loop99]) (fun v hv => of_decide_eq_true hv) hP.1.1.1)
    (hot_of (n := "cpu") (by simp [loop99]) (fun v hv => of_decide_eq_true hv) hP.1.1.2)
    (by
      intro es1 es2 h
      cases es1 with
      | nil => rfl
      | cons a es1 => cases h)
    rfl hst
  change FansAtLeast loops99.entries (proportionalAt (loop99 "temp" "cpu" (-2) 0 90).pidInfo 80 110 / 100) d0.w d2.w at g
  rw [h60] at g
  exact ⟨d0, d2, hl, hst, g, of_decide_eq_true hP.2⟩

/-- a loop with an integral of twenty percent for each degree and second above 70, up to 100 -/
def zoneInt149 : Json := .obj
  [("cycleIntervalTimeMS", .int 500), ("failsafePercent", .int 75), ("id", .int 3), ("minThermalOutput", .int 20),
   ("pids", .arr [jsonLoop108 "fans" "fan" "fan0" 1, .obj [("inputs", .arr [.str "cpu"]), ("name", .str "temps"),
    ("pid", .obj [("feedFwdGainCoeff", .int 0), ("feedFwdOffsetCoeff", .int 0), ("integralCoeff", .int (-20)),
     ("integralLimit_max", .int 100), ("integralLimit_min", .int 0), ("outLim_max", .int 100), ("outLim_min", .int 0),
     ("proportionalCoeff", .int 0), ("samplePeriod", .int 1), ("slewNeg", .int 0), ("slewPos", .int 0)]),
    ("setpoint", .int 70), ("type", .str "temp")]])]
def filesInt149 : StartFiles := files108 ["/var/lib/swampd/config.json"]
  (some (.obj [("sensors", .arr [sensorFan113, sensorCpu113]), ("zones", .arr [zoneInt149])])) (by decide) (by decide)
def warmInt149 : Found := ⟨"", filesInt149, noConfig, asListed, bus149, 0, true⟩

/-- **C149_forgotten** Not so for a loop with an integral term: a reload forgets what the loop has gathered. The processor is at 72
degrees all the time; after five cycles the fan is at full speed; the first cycle after a reload takes it back to 40 percent. -/
theorem C149_forgotten :
    (((Whole.init world99).run {} (.reload warmInt149 :: (List.replicate 5 (.event (.tick 3)) ++
      [.reload warmInt149, .event (.tick 3)]))).toOption.map sum123) = some ([(3, false)], 0, false,
      [.sysfsWrite "/sys/class/hwmon/pwm1" 102, .sysfsWrite "/sys/class/hwmon/pwm1" 102, .sysfsWrite "/sys/class/hwmon/pwm1" 204,
        .sysfsWrite "/sys/class/hwmon/pwm1" 204, .sysfsWrite "/sys/class/hwmon/pwm1" 255,
        .sysfsWrite "/sys/class/hwmon/pwm1" 102]) := by
  decide +kernel

end
end Ex
end Verif
