import Verif.Lemmas.Quiet
import Verif.Props.Recovery
import Verif.Props.Timed

/-! # Quiet fans: property C112 -/

namespace Verif
open Dbl
section
variable [F : FloatModel]

theorem handsOn_le {c : PidCtl} (h : HandsOn c.info.toPidConf) {s i y : Dbl} (hy : s ≤ y) (h0 : 0 ≤ c.info.outLim.min)
    (h1 : 0 ≤ c.info.outLim.max) (hl : c.info.outLim.min ≤ y) (hn : (pidStep c s i).1 ≠ nan) :
    0 ≤ (pidStep c s i).1 ∧ (pidStep c s i).1 ≤ y := by
  have key : ∀ r, (pid c.info r s).1 ≠ nan → 0 ≤ (pid c.info r s).1 ∧ (pid c.info r s).1 ≤ y := by
    intro r hr
    rw [pid_out, slewed_off (.inr h.slew)] at hr ⊢
    rw [handsOn_sum h (ne_nan_of_clamp hr)]
    unfold clamp
    split_ifs with g1 g2
    · exact ⟨h0, hl⟩
    · exact ⟨h1, Dbl.le_trans (Dbl.le_of_lt g2) hy⟩
    · exact ⟨Dbl.le_trans h0 (Dbl.le_of_not_lt (Dbl.ne_nan_of_le_left hl) (Dbl.ne_nan_of_le_left hy) g1), hy⟩
  unfold pidStep calPIDOutput at hn ⊢
  dsimp only at hn ⊢
  rw [h.hysteresis] at hn ⊢
  simp only [Bool.false_eq_true, if_false] at hn ⊢
  by_cases hh : (c.info.positiveHysteresis.eqb 0 && c.info.negativeHysteresis.eqb 0) = true
  · simp only [hh, if_true] at hn ⊢
    exact key _ hn
  · simp only [hh] at hn ⊢
    exact key _ hn

/-- **C112** Quiet fans: in a launched daemon, let all inputs of a zone that have to be there work and all readings of its
loops be cool, for a demand `y`, whenever the zone's timer expires, from some point on. The zone adds up no set points, and
`y` is not below its minimum. Then, after ceil(T/F) automatic cycles of the zone, whatever happened before and whatever else
happens to the daemon, every automatic cycle commands the zone's fan loops, which hand their set point on, no more than `y`
percent. -/
theorem C112_quiet {o : Opts} (ho : o.tuningEnabled = false) {bus : BuildBus} {now : Int} {w : World}
    {sensors : OMap String SensorConfig} {pids : OMap Int PIDConf} {configs : OMap Int ZoneConfig} (hw : pids.WF)
    (hc : ∀ e ∈ pids.entries, OMap.WF e.2) {d0 : Daemon} (hl : Daemon.launch o bus now w sensors pids configs = .ok d0)
    {i : Int} {conf : PIDConf} {c : ZoneConfig} (hp : pids.find? i = some conf) (hcc : configs.find? i = some c)
    (hacc : c.accumulateSetPoint = false) {y : Dbl} (h0 : 0 ≤ y) (hmin : c.minThermalOutput ≤ y)
    {cool : Entry → Dbl → Prop} (hkeep : ∀ e ∈ conf.entries, IsHeat e → Keeps e y (cool e))
    (hfan : ∀ f ∈ conf.entries, IsFan f → HandsOn f.2.pidInfo ∧ 0 ≤ f.2.pidInfo.outLim.min ∧ 0 ≤ f.2.pidInfo.outLim.max ∧
      f.2.pidInfo.outLim.min ≤ y)
    (hF : 1 ≤ c.cycleTime.cycleIntervalTimeMS) {pre post : List DEvent} {d1 d2 d3 : Daemon}
    (hr1 : d0.run o pre = .ok d1) (hr2 : d1.run o post = .ok d2)
    (hmod : ∀ e ∈ conf.entries, e.2.type = "temp" ∨ e.2.type = "power" → Proportional e.2.pidInfo →
      ModerateThroughout o (e.2.inputs.map SensorInput.name) d0 (pre ++ post))
    (hwork : WorkThroughout o i conf.entries d1 (post ++ [.tick i]))
    (hcool : CoolThroughout o i conf.entries cool d1 (post ++ [.tick i]))
    (hn : (c.cycleTime.updateThermalsTimeMS + c.cycleTime.cycleIntervalTimeMS - 1) / c.cycleTime.cycleIntervalTimeMS ≤
      autoTicks i (modeAfter i false pre) post)
    (hm : modeAfter i false (pre ++ post) = false) (ht : d2.step o (.tick i) = .ok d3) :
    FansWithin conf.entries 0 (y / 100) d2.w d3.w := by
  obtain ⟨m, zones, hL⟩ := launch_spec hl
  obtain ⟨zb, c', hzb, hc', hN⟩ := (C64_zones hw hc hL.built i).1 conf hp
  rw [hcc] at hc'
  cases hc'
  obtain ⟨z0, hz0, hf0⟩ := hL.started i zb hzb
  -- recovery
  have hh0 := C80_hist hw hL.built hzb hz0
  obtain ⟨hm0, hfa0⟩ := start_flags hz0
  rw [hN.manualMode] at hm0
  obtain ⟨z1, cnt1, log1, hz1, hh1, hm1, hfa1⟩ := mode_run hr1 hf0 hh0
  rw [hm0] at hm1
  obtain ⟨z2, cnt2, log2, hz2, hh2, hm2, hfa2⟩ := mode_run hr2 hz1 hh1
  obtain ⟨z2', cnt2', hz2', hfl⟩ := working_run (fun n => (required_new hN n).1) hr2 hz1 .start
    (fun es1 es2 d he hr => hwork es1 (es2 ++ [.tick i]) d (by rw [he]; simp) hr)
  rw [hz2] at hz2'
  cases hz2'
  have hmode : z2.d.manualMode = false := by rw [hm2, hm1, ← modeAfter_append]; exact hm
  -- the loops
  let R : Entry → ThermalCtl → Prop := fun e => Keeping y (cool e) e
  let Q : ZoneData → Prop := fun z => ∀ e ∈ conf.entries, e.2.type = "temp" ∨ e.2.type = "power" →
    Proportional e.2.pidInfo → ModerateCache e.2.inputs z
  have hin : ∀ e ∈ conf.entries, IsHeat e → ∀ j ∈ e.2.inputs, j.name ∈ zb.d.thermalInputs :=
    fun e he hh j hj => (hN.thermalInputs_mem _).2 ⟨e, he, hh, j, hj, rfl⟩
  have hfine : FineThroughout Q zb.d.thermalInputs o d0 (pre ++ post) := by
    intro es1 es2 d hes hr z zd hz hu e he t hpr j hj x hx hf
    have hh : IsHeat e := by unfold IsHeat; rcases t with h | h <;> (rw [h]; decide)
    obtain ⟨s, r, f, a1, a2, _, a4⟩ := (pollAll_spec hu).sensor j.name (by rw [hz]; exact hin e he hh j hj)
    rw [hx] at a4
    cases a4
    exact hmod e he t hpr es1 es2 d hes hr j.name (List.mem_map.2 ⟨j, hj, rfl⟩) s r a1 a2 hf
  have hfine1 : FineThroughout Q zb.d.thermalInputs o d1 post := fun es1 es2 d h hr =>
    hfine (pre ++ es1) es2 d (by rw [h, List.append_assoc]) (run_append.2 ⟨d1, hr1, hr⟩)
  have hheats : ∀ e ∈ conf.entries.filter IsHeat, e ∈ conf.entries ∧ IsHeat e := fun e he => by
    obtain ⟨a, b⟩ := List.mem_filter.1 he
    exact ⟨a, by simpa using b⟩
  have hR : ∀ z, ∀ e ∈ conf.entries.filter IsHeat, ∀ c v c', Q z → R e c → CtlOut z c v c' → R e c' :=
    fun z e he c v c' hq hr hout => (keeping_out h0 (hq e (hheats e he).1) hr hout).1
  have hlit : LittleThroughout R (conf.entries.filter IsHeat) zb.d.thermalInputs o i y d1 (post ++ [.tick i]) := by
    intro es1 es2 d hes hr z zd hz hu e he x v x' hx hout
    obtain ⟨a, hh⟩ := hheats e he
    have hpre : ∃ es3, pre ++ post = (pre ++ es1) ++ es3 := by
      rcases List.append_eq_append_iff.1 hes with ⟨as, h1, h2⟩ | ⟨bs, h1, h2⟩
      · cases as with
        | nil => exact ⟨[], by rw [h1]; simp⟩
        | cons a as => cases as <;> simp at h2
      · exact ⟨bs, by rw [h1, List.append_assoc]⟩
    obtain ⟨es3, h3⟩ := hpre
    have hq := hfine (pre ++ es1) es3 d h3 (run_append.2 ⟨d1, hr1, hr⟩) z zd hz hu
    refine (keeping_out h0 (hq e a) hx hout).2 (fun j hj r hrr => ?_)
    obtain ⟨s, rd, f, a1, a2, _, a4⟩ := (pollAll_spec hu).sensor j.name (by rw [hz]; exact hin e a hh j hj)
    rw [hrr] at a4
    cases a4
    exact hcool es1 es2 d hes hr e a hh j hj s rd a1 a2
  have hq0 : QuietZone R (conf.entries.filter IsHeat) c.cycleTime zb.d.thermalInputs c.minThermalOutput
      (zb.fans.map (Option.map fanKey)) false z0 := by
    have eq := (initializeCache_spec zb.d).eq
    have e1 : zb.d.initializeCache.accumulateSetPoint = zb.d.accumulateSetPoint := by rw [eq]
    have e2 : zb.d.initializeCache.cycleTime = zb.d.cycleTime := by rw [eq]
    have e3 : zb.d.initializeCache.thermalInputs = zb.d.thermalInputs := by rw [eq]
    have e4 : zb.d.initializeCache.minThermalOutputSetPt = zb.d.minThermalOutputSetPt := by rw [eq]
    refine (QuietZone.thermals (z := { zb with d := zb.d.initializeCache }) ho hR ?_ (hfine [] _ d0 rfl rfl) hz0).1
    refine ⟨e1.trans (hN.accumulateSetPoint.trans hacc), e2.trans hN.cycleTime, e3, e4.trans hN.minThermalOutput, ?_, rfl⟩
    have key : ∀ {es : List Entry} {cs : List ThermalCtl}, (∀ e ∈ es, e ∈ conf.entries.filter IsHeat) →
        List.Forall₂ HeatLoop es cs → List.Forall₂ R es cs := by
      intro es cs hes h
      induction h with
      | nil => exact .nil
      | cons hx _ ih =>
        obtain ⟨a, b⟩ := hheats _ (hes _ List.mem_cons_self)
        exact .cons (keeping_start h0 (hkeep _ a b) hx) (ih (fun e he => hes e (List.mem_cons_of_mem _ he)))
    exact key (fun _ h => h) hN.thermals
  obtain ⟨z1', cnt1', hz1', hq1⟩ := quietZone_run ho hR hr1 hf0 hq0
    (fun es1 es2 d h hr => hfine es1 (es2 ++ post) d (by rw [h, List.append_assoc]) hr)
  rw [hz1] at hz1'
  cases hz1'
  obtain ⟨z2', cnt2', hz2', hq2, hd2⟩ := little_run ho rfl hR h0 hmin (k := 0) hr2 hz1 hq1 hfine1
    (fun es1 es2 d h hr => hlit es1 (es2 ++ [.tick i]) d (by rw [h]; simp) hr) (.inr (by simp))
  rw [hz2] at hz2'
  cases hz2'
  -- the cycle
  simp only [Daemon.step, hz2] at ht
  obtain ⟨⟨w', z3, cnt3⟩, htk, ht⟩ := bind_eq_ok.1 ht
  cases ht
  rw [hm1, Nat.zero_add] at hd2 hfl
  have hmax : z3.d.maximumSetPoint ≤ y :=
    (hq2.tick ho hR (hfine (pre ++ post) [] d2 (by simp) (run_append.2 ⟨d1, hr1, hr2⟩)) hmode htk).2.1 rfl y h0 hmin
      (hlit post [] d2 rfl hr2) (hd2.imp_right (fun h => due_after hF hn h))
  have f := hwork post [] d2 rfl hr2
  obtain ⟨-, l, b, g1, g2, g3⟩ := C102_zone hh1 hfl (by rw [hN.cycleTime]; exact hF) (by rw [hN.cycleTime]; exact hn) hmode
    (fun s hs => f s ((required_new hN s).1 hs)) htk
  refine ⟨l, b, fans_as_configured (by rw [hfa2, hfa1, hfa0, hN.fans]) g1, g2, ?_⟩
  rintro x hx ⟨mm, hm1, hm2⟩
  have hnn : x.2 ≠ nan := fun hv => hm2 (drives_nan g2 x hx hv mm hm1)
  obtain ⟨input, _, hv⟩ := g3 x hx
  have hkey : some (fanKey x.1) ∈ z2.fans.map (Option.map fanKey) := by
    rw [g1, List.map_map]
    exact List.mem_map.2 ⟨x, hx, rfl⟩
  rw [hq2.fans, hN.fans, List.map_map] at hkey
  obtain ⟨e', he', h2⟩ := List.mem_map.1 hkey
  obtain ⟨a, b'⟩ := List.mem_filter.1 he'
  have h3 : x.1.ctl.info.toPidConf = e'.2.pidInfo := by
    simp only [Function.comp, fanOf] at h2
    split_ifs at h2
    · cases h2
    · exact (congrArg Prod.snd (Option.some.inj h2)).symm
  obtain ⟨k1, k2, k3, k4⟩ := hfan e' a (by simpa using b')
  rw [← h3] at k1 k2 k3 k4
  rw [hv] at hnn ⊢
  obtain ⟨q1, q2⟩ := handsOn_le (i := input) k1 hmax k2 k3 k4 (div_ne_nan_left hnn)
  exact ⟨percent_nonneg q1, div_le_div_of_pos pos100 q2 (div100_ne_nan (Dbl.ne_nan_of_le_left q2))
    (div100_ne_nan (Dbl.ne_nan_of_le_right q2))⟩

/-- a fan told within bounds -/
theorem told_within {o : Opts} {bus : BuildBus} {now : Int} {w : World} {sensors : OMap String SensorConfig}
    {pids : OMap Int PIDConf} {configs : OMap Int ZoneConfig} {d d1 : Daemon} (hw : sensors.WF) (htr : w.trace = [])
    (hl : Daemon.launch o bus now w sensors pids configs = .ok d) {es : List DEvent} (hr : d.run o es = .ok d1)
    {n p : String} {c : SensorConfig} (hfo : FanOn bus.dirs sensors n c p) (hb : w.busOk p = true)
    (hbs : ∀ e ∈ es, BusWorks p e) {conf : List Entry} {v : Dbl} {w2 : World} (h : FansWithin conf 0 v d1.w w2)
    (hin : ∃ e ∈ conf, IsFan e ∧ ∃ x ∈ e.2.inputs, x.name = n) :
    ToldAtMost c p v w2 := by
  obtain ⟨hc, hfan, hlim, hp, honly⟩ := hfo
  have hf := fanAt_run hr hbs (fanAt_launched hw hl hc hfan hp honly hb htr)
  obtain ⟨l, b, h1, h2, h3⟩ := h
  have hex : ∃ x ∈ l, n ∈ x.1.inputs := by
    obtain ⟨e, he, hF, x, hx, rfl⟩ := hin
    have : e.2.inputs.map SensorInput.name ∈ l.map (fun x => x.1.inputs) := by
      rw [h1]
      exact List.mem_map.2 ⟨e, List.mem_filter.2 ⟨he, by simpa using hF⟩, rfl⟩
    obtain ⟨y, hy, hy2⟩ := List.mem_map.1 this
    exact ⟨y, hy, by rw [hy2]; exact List.mem_map.2 ⟨x, hx, rfl⟩⟩
  obtain ⟨x, hx, hx2, raw, hraw, hval⟩ := (fanAt_drives h2 hf).2.2 hex
  have htn : targetOf d1.w n ≠ none := by
    obtain ⟨s, rd, wr, hs, hi, hwr⟩ := hf.fan
    unfold targetOf
    rw [hs]
    dsimp only
    rw [hi]
    dsimp only
    rw [hwr.target]
    simp
  obtain ⟨k1, k2⟩ := h3 x hx ⟨n, hx2, htn⟩
  obtain ⟨s, hs1, hs2, hs3⟩ := rawCommand_mono hlim k1 (Dbl.le_refl (Dbl.ne_nan_of_le_right k1)) hraw
  rw [hraw] at hs1
  cases hs1
  refine ⟨raw, hval (by omega), hs2, fun r hr => ?_⟩
  obtain ⟨s, hs1, _, hs3⟩ := rawCommand_mono hlim k1 k2 hr
  rw [hraw] at hs1
  cases hs1
  exact hs3

/-- what a fan of the one zone was told stays until the next tick of the zone -/
theorem value_kept {o : Opts} {bus : BuildBus} {now : Int} {w : World} (htr : w.trace = []) {sensors : OMap String SensorConfig}
    (hws : sensors.WF) {pids : OMap Int PIDConf} {configs : OMap Int ZoneConfig} (hw : pids.WF)
    (hc : ∀ e ∈ pids.entries, OMap.WF e.2) {d0 : Daemon} (hl : Daemon.launch o bus now w sensors pids configs = .ok d0) {i : Int}
    {es rest : List DEvent} {d1 d2 d3 : Daemon} (h1 : d0.run o es = .ok d1) (h2 : d1.step o (.tick i) = .ok d2)
    (h3 : d2.run o rest = .ok d3) (hno : ∀ e ∈ rest, e ≠ .tick i) {n path : String} {fc : SensorConfig}
    (hfo : FanOn bus.dirs sensors n fc path) (hz : OnlyZone pids i n) (hb : w.busOk path = true)
    (hbs : ∀ e ∈ es ++ .tick i :: rest, BusWorks path e) : valueAt path d3.w = valueAt path d2.w := by
  have hf0 := fanAt_launched hws hl hfo.configured hfo.fan hfo.written hfo.only hb htr
  have h12 : d0.run o (es ++ [.tick i]) = .ok d2 := run_append.2 ⟨d1, h1, by unfold Daemon.run; rw [h2, ok_bind]; rfl⟩
  have hbs1 : ∀ e ∈ es ++ [DEvent.tick i], BusWorks path e := fun e he => hbs e (by
    rw [List.mem_append] at he ⊢
    rcases he with he | he
    · exact .inl he
    · exact .inr (List.mem_cons.2 (.inl (by simpa using he))))
  have hf2 := fanAt_run h12 hbs1 hf0
  have ha2 := (told_run (i := i) h12 hbs1 hf0 (fun j z cnt => away_launched hw hc hl hz j z cnt)).1
  exact (told_run h3 (fun e he => hbs e (List.mem_append_right _ (List.mem_cons_of_mem _ he))) hf2 ha2).2 hno

/-- **C112** The same for the numbers the fans get: what the D-Bus object or file of a fan of the zone got last does not
exceed the number that stands for `y` percent. -/
theorem C112_told {o : Opts} (ho : o.tuningEnabled = false) {bus : BuildBus} {now : Int} {w : World} (htr : w.trace = [])
    {sensors : OMap String SensorConfig} (hws : sensors.WF) {pids : OMap Int PIDConf} {configs : OMap Int ZoneConfig} (hw : pids.WF)
    (hc : ∀ e ∈ pids.entries, OMap.WF e.2) {d0 : Daemon} (hl : Daemon.launch o bus now w sensors pids configs = .ok d0)
    {i : Int} {conf : PIDConf} {c : ZoneConfig} (hp : pids.find? i = some conf) (hcc : configs.find? i = some c)
    (hacc : c.accumulateSetPoint = false) {y : Dbl} (h0 : 0 ≤ y) (hmin : c.minThermalOutput ≤ y)
    {cool : Entry → Dbl → Prop} (hkeep : ∀ e ∈ conf.entries, IsHeat e → Keeps e y (cool e))
    (hfan : ∀ f ∈ conf.entries, IsFan f → HandsOn f.2.pidInfo ∧ 0 ≤ f.2.pidInfo.outLim.min ∧ 0 ≤ f.2.pidInfo.outLim.max ∧
      f.2.pidInfo.outLim.min ≤ y)
    (hF : 1 ≤ c.cycleTime.cycleIntervalTimeMS) {pre post : List DEvent} {d1 d2 d3 : Daemon}
    (hr1 : d0.run o pre = .ok d1) (hr2 : d1.run o post = .ok d2)
    (hmod : ∀ e ∈ conf.entries, e.2.type = "temp" ∨ e.2.type = "power" → Proportional e.2.pidInfo →
      ModerateThroughout o (e.2.inputs.map SensorInput.name) d0 (pre ++ post))
    (hwork : WorkThroughout o i conf.entries d1 (post ++ [.tick i]))
    (hcool : CoolThroughout o i conf.entries cool d1 (post ++ [.tick i]))
    (hn : (c.cycleTime.updateThermalsTimeMS + c.cycleTime.cycleIntervalTimeMS - 1) / c.cycleTime.cycleIntervalTimeMS ≤
      autoTicks i (modeAfter i false pre) post)
    (hm : modeAfter i false (pre ++ post) = false) (ht : d2.step o (.tick i) = .ok d3) :
    ∀ e ∈ conf.entries, IsFan e → ∀ x ∈ e.2.inputs, ∀ fc path, FanOn bus.dirs sensors x.name fc path → w.busOk path = true →
      (∀ e ∈ pre ++ post, BusWorks path e) → ToldAtMost fc path (y / 100) d3.w := by
  have key := C112_quiet ho hw hc hl hp hcc hacc h0 hmin hkeep hfan hF hr1 hr2 hmod hwork hcool hn hm ht
  intro e he hFe x hx fc path hfo hb hbs
  exact told_within hws htr hl (run_append.2 ⟨d1, hr1, hr2⟩) hfo hb hbs key ⟨e, he, hFe, x, hx, rfl⟩

/-- **C112** The time until the fans are quiet. While everything the zone needs works and is cool from time `ta` on and the
zone is in automatic mode, every fan of the zone has been told at most `y` percent once the thermal interval, two fan
intervals and the lateness of the event loop have passed, whatever alarm there was before. -/
theorem C112_time {o : Opts} (ho : o.tuningEnabled = false) {bus : BuildBus} {now : Int} {started : Int → Int} {w : World}
    (htr : w.trace = []) {sensors : OMap String SensorConfig} (hws : sensors.WF) {pids : OMap Int PIDConf}
    {configs : OMap Int ZoneConfig} (hw : pids.WF) (hc : ∀ e ∈ pids.entries, OMap.WF e.2) {td : Timed}
    (hl : Timed.launch o bus now started w sensors pids configs = .ok td)
    {i : Int} {conf : PIDConf} {c : ZoneConfig} (hp : pids.find? i = some conf) (hcc : configs.find? i = some c)
    (hacc : c.accumulateSetPoint = false) {y : Dbl} (h0 : 0 ≤ y) (hmin : c.minThermalOutput ≤ y)
    {cool : Entry → Dbl → Prop} (hkeep : ∀ e ∈ conf.entries, IsHeat e → Keeps e y (cool e))
    (hfan : ∀ f ∈ conf.entries, IsFan f → HandsOn f.2.pidInfo ∧ 0 ≤ f.2.pidInfo.outLim.min ∧ 0 ≤ f.2.pidInfo.outLim.max ∧
      f.2.pidInfo.outLim.min ≤ y)
    (hF : 1 ≤ c.cycleTime.cycleIntervalTimeMS) {late t0 ta : Int} (hst : started i ≤ t0) (hta : t0 ≤ ta)
    {pre post : List TEvent} {t : Int} {e' : DEvent} {tda td1 : Timed} (hsv : Served o late t0 td (pre ++ post ++ [(t, e')]))
    (hra : td.run o pre = .ok tda) (hrb : tda.run o post = .ok td1) (hpre : ∀ x ∈ pre, x.1 ≤ ta)
    (hmod : ∀ e ∈ conf.entries, e.2.type = "temp" ∨ e.2.type = "power" → Proportional e.2.pidInfo →
      ModerateThroughout o (e.2.inputs.map SensorInput.name) td.d (eventsOf pre ++ eventsOf post))
    (hwork : WorkThroughout o i conf.entries tda.d (eventsOf post))
    (hcool : CoolThroughout o i conf.entries cool tda.d (eventsOf post))
    (hauto : Automatic i (eventsOf pre) (eventsOf post))
    (ht : ta + ms (c.cycleTime.updateThermalsTimeMS + 2 * c.cycleTime.cycleIntervalTimeMS) + late ≤ t) :
    ∀ f ∈ conf.entries, IsFan f → ∀ x ∈ f.2.inputs, ∀ fc path, FanOn bus.dirs sensors x.name fc path →
      OnlyZone pids i x.name → w.busOk path = true → (∀ e ∈ eventsOf (pre ++ post), BusWorks path e) →
      ToldAtMost fc path (y / 100) td1.d.w := by
  obtain ⟨l1, -⟩ := timed_launch hw hc hl
  obtain ⟨mid, t', rest, td3, td4, b1, b2, b3, b4, b5, b6⟩ :=
    last_of_history hw hc hl hp hcc hF hst hsv hta hpre hra hrb ht
  have hmid : eventsOf post = (eventsOf mid ++ [.tick i]) ++ eventsOf rest := by
    rw [b1, eventsOf_append]; simp [eventsOf]
  have hmid' : eventsOf post = eventsOf mid ++ .tick i :: eventsOf rest := by rw [hmid]; simp
  rw [hmid'] at hauto
  have hau := automatic_prefix hauto
  have hstp := (timed_step b3).1
  have key := C112_quiet ho hw hc l1 hp hcc hacc h0 hmin hkeep hfan hF (timed_run hra) (timed_run b2)
    (fun e he t hpr es1 es2 d hes hr => hmod e he t hpr es1 (es2 ++ .tick i :: eventsOf rest) d
      (by rw [hmid', ← List.append_assoc, hes]; simp) hr)
    (fun es1 es2 d1 hsp hr => hwork es1 (es2 ++ eventsOf rest) d1 (by rw [hmid, hsp]; simp) hr)
    (fun es1 es2 d1 hsp hr => hcool es1 (es2 ++ eventsOf rest) d1 (by rw [hmid, hsp]; simp) hr)
    (by rw [autoTicks_all hau]; exact b6) (hau _ [] (by simp)) hstp
  intro f hf hFf x hx fc path hfo hz hb hbs
  have hrun := run_append.2 ⟨_, timed_run hra, timed_run b2⟩
  have hbs' : ∀ e ∈ (eventsOf pre ++ eventsOf mid) ++ .tick i :: eventsOf rest, BusWorks path e := by
    intro e he
    refine hbs e ?_
    rw [b1]
    simpa [eventsOf] using he
  obtain ⟨u, a1, a2, a3⟩ := told_within hws htr l1 hrun hfo hb (fun e he => hbs' e (List.mem_append_left _ he)) key
    ⟨f, hf, hFf, x, hx, rfl⟩
  exact ⟨u, by rw [value_kept htr hws hw hc l1 hrun hstp (timed_run b4) b5 hfo hz hb hbs']; exact a1, a2, a3⟩

end

namespace Ex
section
attribute [local instance] binary64

instance (p x v : Dbl) : Decidable (ClearOf p x v) := by unfold ClearOf; infer_instance

/-- well below the second point of the table -/
def cool112 (v : Dbl) : Prop := v.isFinite = true ∧ ClearOf exTable.negativeHysteresis (exTable.reading 1) v
instance (v : Dbl) : Decidable (cool112 v) := by unfold cool112; infer_instance

theorem keeps112 : ∀ e ∈ loops103.entries, IsHeat e → Keeps e 40 cool112 := by
  intro e he hh
  rcases loops103_mem he with rfl | rfl
  · exact absurd hh (by decide)
  · exact .table rfl 3 0 exTable_rising (by decide) (by decide) (by decide +kernel) (by decide)
      (fun v hv => ⟨hv.1, fun _ _ => hv.2⟩)

theorem fans112 : ∀ f ∈ loops103.entries, IsFan f → HandsOn f.2.pidInfo ∧ 0 ≤ f.2.pidInfo.outLim.min ∧
    0 ≤ f.2.pidInfo.outLim.max ∧ f.2.pidInfo.outLim.min ≤ 40 := by
  intro f hf hff
  rcases loops103_mem hf with rfl | rfl
  · exact ⟨⟨rfl, by decide +kernel, by decide +kernel, by decide +kernel⟩, by decide +kernel, by decide +kernel,
      by decide +kernel⟩
  · exact absurd hff (by decide)

/-- the processor gets hot and raises an alarm, then cools down and withdraws it -/
def pre112 : List DEvent :=
  [.signal "cpu" 1 (temp103 72), .signal "cpu" 1 (alarm99 true), .tick 1, .tick 1, .tick 1, .signal "cpu" 2 (temp103 40),
   .signal "cpu" 2 (alarm99 false)]

/-- C112: while it is hot the fan gets 255 of 255; two cycles later it gets 102, 40 percent -/
example : (∃ d, run103 pre112 = .ok d ∧
      decide (d.w.trace.getLast? = some (.sysfsWrite "/sys/class/hwmon/pwm1" 255)) = true) ∧
    ∃ d, run103 (pre112 ++ [.tick 1, .tick 1, .tick 1]) = .ok d ∧
      decide (d.w.trace.getLast? = some (.sysfsWrite "/sys/class/hwmon/pwm1" 102)) = true :=
  ⟨ok_of_any (P := fun d : Daemon => decide (d.w.trace.getLast? = some (.sysfsWrite "/sys/class/hwmon/pwm1" 255)))
    (by decide +kernel),
   ok_of_any (P := fun d : Daemon => decide (d.w.trace.getLast? = some (.sysfsWrite "/sys/class/hwmon/pwm1" 102)))
    (by decide +kernel)⟩

/-- C112: all hypotheses hold for this run -/
example : ∃ d2 d3, run103 (pre112 ++ [.tick 1, .tick 1]) = .ok d2 ∧ d2.step {} (.tick 1) = .ok d3 ∧
    FansWithin loops103.entries 0 (40 / 100) d2.w d3.w := by
  obtain ⟨d3, h, _⟩ := ok_of_any (x := run103 ((pre112 ++ [.tick 1, .tick 1]) ++ [.tick 1])) (P := fun _ : Daemon => true)
    (by decide +kernel)
  obtain ⟨d1', hp, hb⟩ := ok_of_any (x := run103 pre112)
    (P := fun d : Daemon => hotB 1 "cpu" (fun v => decide (cool112 v)) d ([.tick 1, .tick 1] ++ [.tick 1]) &&
      worksB 1 ["fan0", "cpu"] d ([.tick 1, .tick 1] ++ [.tick 1])) (by decide +kernel)
  rw [Bool.and_eq_true] at hb
  obtain ⟨d0, hl, h⟩ := bind_eq_ok.1 h
  obtain ⟨d2, hr, h⟩ := run_append.1 h
  obtain ⟨d3', ht, h⟩ := bind_eq_ok.1 h
  cases h
  obtain ⟨d1, hr1, hr2⟩ := run_append.1 hr
  obtain ⟨d0', hl', hp⟩ := bind_eq_ok.1 hp
  rw [hl] at hl'
  cases hl'
  rw [hr1] at hp
  cases hp
  have hfind : pids103.find? 1 = some loops103 := by unfold pids103; rw [OMap.find?_insert_self]
  have hneed : ∀ n, NeededBy loops103.entries n → n ∈ ["fan0", "cpu"] := by
    rintro n ⟨⟨e, he, _, x, hx, rfl⟩, _⟩
    have key : ∀ e ∈ loops103.entries, ∀ x ∈ e.2.inputs, x.name ∈ ["fan0", "cpu"] := by decide +kernel
    exact key e he x hx
  have hcool : CoolThroughout {} 1 loops103.entries (fun _ => cool112) d1' ([.tick 1, .tick 1] ++ [.tick 1]) := by
    intro es1 es2 d hes hr e he hh j hj s r hs hrd
    rcases loops103_mem he with rfl | rfl
    · exact absurd hh (by decide)
    · have hj : j = { name := "cpu" } := by simpa [steps103, loop99] using hj
      subst hj
      obtain ⟨n, hn, s', r', h1, h2, h3⟩ := hot_of (n := "cpu") (names := ["cpu"]) (by simp) (P := cool112)
        (fun v hv => of_decide_eq_true hv) hb.1 es1 es2 d hes hr
      have hn : n = "cpu" := by simpa using hn
      subst hn
      rw [hs] at h1
      cases h1
      rw [hrd] at h2
      cases h2
      exact h3
  have g := C112_quiet (o := {}) rfl pids103_wf
    (fun e he => by
      have := (OMap.mem_entries_iff pids103_wf e.1 e.2).1 he
      unfold pids103 at this
      by_cases hi : e.1 = 1
      · rw [hi, OMap.find?_insert_self] at this
        rw [← Option.some.inj this]; exact loops103_wf
      · rw [OMap.find?_insert_ne _ hi, OMap.find?_empty] at this
        cases this) hl
    (i := 1) (conf := loops103) (c := zone99) hfind
    (by unfold zones99; rw [OMap.find?_insert_self]) rfl (y := 40) (by decide +kernel) (by decide +kernel)
    keeps112 fans112 (by decide) hr1 hr2
    (by
      intro e he t
      rcases loops103_mem he with rfl | rfl <;> exact absurd t (by decide))
    (works_of hneed hb.2) hcool (by decide) rfl ht
  refine ⟨d2, d3, ?_, ht, g⟩
  show (Daemon.launch {} bus103 0 world99 sensors99 pids103 zones99 >>= _) = _
  rw [hl, ok_bind]
  exact hr

/-- the other two ways to keep below a demand: the loop over the processor's temperature never asks for more than 100, and
while the processor reads at most 65 degrees for no more than 30, as the loop asks for 2 percent per degree -/
example : Keeps ("temps", loop99 "temp" "cpu" (-2) 0 90) 100 (fun _ => True) ∧
    Keeps ("temps", loop99 "temp" "cpu" (-2) 0 90) 30 (fun v => v ≤ 65) := by
  refine ⟨.limits (by decide) ⟨by decide +kernel, by decide +kernel, by decide +kernel⟩ (by decide +kernel), ?_⟩
  refine .proportional (.inl rfl) ⟨by decide +kernel, by decide +kernel, by decide +kernel, by decide +kernel,
    by decide +kernel, ?_⟩ (by decide +kernel) 65 (by decide +kernel) (by decide +kernel) (fun v hv _ => hv)
  exact ⟨1, FloatModel.rep_one, one_eq, by norm_num⟩

/-- C112: at 700 ms the processor reports 72 degrees, at 2600 ms 40 degrees. At 2500 ms the fan has been told 255, at 4620 ms
102. The history is served -/
def cooling112 : List TEvent := [at111 2600 (.signal "cpu" (ms 2600) (temp103 40)), at111 3000 (.tick 1), at111 3510 (.tick 1),
  at111 4000 (.tick 1), at111 4500 (.tick 1)]
def launch112 : Res Timed := Timed.launch {} bus103 0 (fun _ => 0)
  { world99 with nowFans := 4900000000, nowThermals := 4900000000 } sensors106 pids103 zones99
example : (∃ td, (do let td ← launch112; td.run {} hot111) = .ok td ∧
      decide (valueAt "/xyz/openbmc_project/control/fanpwm/pwm1" td.d.w = some 255) = true) ∧
    ∃ td, (do let td ← launch112; td.run {} (hot111 ++ cooling112)) = .ok td ∧
      decide (valueAt "/xyz/openbmc_project/control/fanpwm/pwm1" td.d.w = some 102) = true :=
  ⟨ok_of_any (P := fun td : Timed => decide (valueAt "/xyz/openbmc_project/control/fanpwm/pwm1" td.d.w = some 255))
    (by decide +kernel),
   ok_of_any (P := fun td : Timed => decide (valueAt "/xyz/openbmc_project/control/fanpwm/pwm1" td.d.w = some 102))
    (by decide +kernel)⟩
example : ∃ td, launch112 = .ok td ∧
    servedCheck {} 20000000 td (hot111 ++ cooling112 ++ [at111 4620 (.manual 1 true)]) = true :=
  ok_of_any (P := fun td : Timed => servedCheck {} 20000000 td (hot111 ++ cooling112 ++ [at111 4620 (.manual 1 true)]))
    (by decide +kernel)

end
end Ex
end Verif
