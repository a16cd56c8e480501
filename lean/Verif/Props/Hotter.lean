import Verif.Lemmas.Hotter
import Verif.Props.Integral
import Verif.Props.Recovery

/-! # Hotter sensors never slow the fans -/

namespace Verif
open Dbl

section
variable [F : FloatModel]

theorem heatLoop_unique {e : Entry} {c c' : ThermalCtl} (h : HeatLoop e c) (h' : HeatLoop e c') : c = c' := by
  cases h with
  | margin h => cases h' with
    | margin => rfl
    | absolute h' => rw [h] at h'; exact absurd h' (by decide)
    | summation h' => rw [h] at h'; exact absurd h' (by decide)
    | stepwise h' => rw [h] at h'; exact absurd h' (by decide)
  | absolute h => cases h' with
    | margin h' => rw [h'] at h; exact absurd h (by decide)
    | absolute => rfl
    | summation h' => rw [h'] at h; exact absurd h (by decide)
    | stepwise h' => rw [h'] at h; exact absurd h (by decide)
  | summation h => cases h' with
    | margin h' => rw [h] at h'; exact absurd h' (by decide)
    | absolute h' => rw [h] at h'; exact absurd h' (by decide)
    | summation => rfl
    | stepwise h' => rw [h] at h'; exact absurd h' (by decide)
  | stepwise h => cases h' with
    | margin h' => rw [h] at h'; exact absurd h' (by decide)
    | absolute h' => rw [h] at h'; exact absurd h' (by decide)
    | summation h' => rw [h] at h'; exact absurd h' (by decide)
    | stepwise => rfl

/-- the two runs at the final cycle -/
theorem hotter_tick {o : Opts} (ho : o.tuningEnabled = false) {bus bus' : BuildBus} {now now' : Int} {w w' : World}
    {sensors sensors' : OMap String SensorConfig} {pids pids' : OMap Int PIDConf} {configs configs' : OMap Int ZoneConfig}
    (hw : pids.WF) (hw' : pids'.WF) (hc : ∀ e ∈ pids.entries, OMap.WF e.2) (hc' : ∀ e ∈ pids'.entries, OMap.WF e.2) {d0 d0' : Daemon} (hl : Daemon.launch o bus now w sensors pids configs = .ok d0)
    (hl' : Daemon.launch o bus' now' w' sensors' pids' configs' = .ok d0') {i : Int} {conf conf' : PIDConf} {c c' : ZoneConfig}
    (hp : pids.find? i = some conf) (hp' : pids'.find? i = some conf') (hcc : configs.find? i = some c)
    (hcc' : configs'.find? i = some c') (hmore : AsMuchCooling c c' conf.entries conf'.entries)
    (hacc : c.accumulateSetPoint = false) (hacc' : c'.accumulateSetPoint = false)
    (hceil : ∀ e ∈ conf.entries, e.2.type = "stepwise" → e.2.stepwiseInfo.isCeiling = false)
    (hceil' : ∀ e ∈ conf'.entries, e.2.type = "stepwise" → e.2.stepwiseInfo.isCeiling = false)
    (hnum : ∀ e ∈ conf.entries, e.2.failSafePercent ≠ nan) (hnum' : ∀ e ∈ conf'.entries, e.2.failSafePercent ≠ nan)
    (hzn : c.failsafePercent ≠ nan) (hzn' : c'.failsafePercent ≠ nan) {es es' : List DEvent}
    {d1 d1' d2 d2' : Daemon} (hr : d0.run o es = .ok d1) (hr' : d0'.run o es' = .ok d1') (hor : orders i es = orders i es')
    {S : ControllerInfo → Prop} (hS : ∀ e ∈ conf.entries, S e.2 → RisesWithHeat e.2)
    (hstart : HotterAt S conf.entries d0.w d0'.w)
    (hhot : HotterThroughout S o i conf.entries d0 d0' (es ++ [.tick i]) (es' ++ [.tick i]))
    (hm : modeAfter i false es = false) (ht : d1.step o (.tick i) = .ok d2) (ht' : d1'.step o (.tick i) = .ok d2') :
    ∃ (zb zb' zt zt' z2 z2' : Zone), NewZone i c conf.entries zb ∧ ConfPair conf.entries conf'.entries zb.d zb'.d ∧
      Hotter S conf.entries zb.d zb'.d (zb.fans.map (Option.map fanKey)) zt zt' ∧
      zt.processFans o d1.w = .ok (d2.w, z2) ∧ zt'.processFans o d1'.w = .ok (d2'.w, z2') := by
  obtain ⟨m, zones, hL⟩ := launch_spec hl
  obtain ⟨m', zones', hL'⟩ := launch_spec hl'
  obtain ⟨zb, c1, hzb, hc1, hN⟩ := (C64_zones hw hc hL.built i).1 conf hp
  rw [hcc] at hc1
  cases hc1
  obtain ⟨zb', c1', hzb', hc1', hN'⟩ := (C64_zones hw' hc' hL'.built i).1 conf' hp'
  rw [hcc'] at hc1'
  cases hc1'
  obtain ⟨z0, hz0, hf0⟩ := hL.started i zb hzb
  obtain ⟨z0', hz0', hf0'⟩ := hL'.started i zb' hzb'
  have hfm : ∀ {cf : PIDConf} {cz : ZoneConfig} {zz : Zone}, NewZone i cz cf.entries zz → ∀ n,
      n ∈ zz.d.fanInputs ↔ ReadBy IsFan cf.entries n := by
    intro cf cz zz hN n
    rw [hN.fanInputs]
    constructor
    · intro hn
      obtain ⟨e, he, hx⟩ := List.mem_flatMap.1 hn
      obtain ⟨j, hj, rfl⟩ := List.mem_map.1 hx
      obtain ⟨h1, h2⟩ := List.mem_filter.1 he
      exact ⟨e, h1, by simpa using h2, j, hj, rfl⟩
    · rintro ⟨e, he, hF, j, hj, rfl⟩
      exact List.mem_flatMap.2 ⟨e, List.mem_filter.2 ⟨he, by simpa using hF⟩, List.mem_map.2 ⟨j, hj, rfl⟩⟩
  have hin : ∀ n, n ∈ zb.d.fanInputs ∨ n ∈ zb.d.thermalInputs → ReadBy (fun e => IsFan e ∨ IsHeat e) conf.entries n := by
    rintro n (hn | hn)
    · obtain ⟨e, he, hF, h⟩ := (hfm hN n).1 hn
      exact ⟨e, he, .inl hF, h⟩
    · obtain ⟨e, he, hF, h⟩ := (hN.thermalInputs_mem n).1 hn
      exact ⟨e, he, .inr hF, h⟩
  have hper : ∀ n, PercentFor c conf.entries n (percentOf zb.d n) := fun n => percentOf_of hN (percentsFor_ne_nan hnum n)
  have hper' : ∀ n, PercentFor c' conf'.entries n (percentOf zb'.d n) := fun n => percentOf_of hN' (percentsFor_ne_nan hnum' n)
  have hfin : zb'.d.fanInputs = zb.d.fanInputs := by
    have := congrArg (List.flatMap (fun x : List SensorInput × PidConf => x.1.map SensorInput.name)) hmore.fans
    rw [List.flatMap_map, List.flatMap_map] at this
    rw [hN.fanInputs, hN'.fanInputs]
    exact this
  have hk : ConfPair conf.entries conf'.entries zb.d zb'.d :=
    { acc := hN.accumulateSetPoint.trans hacc
      acc' := hN'.accumulateSetPoint.trans hacc'
      ceil := hceil
      thermals := hN.thermalInputs_mem
      thermals' := hN'.thermalInputs_mem
      fans := fun n hn => (hfm hN n).1 hn
      fanInputs := hfin
      more := hmore.loops
      apart := fun n h1 h2 => (hN.thermalInputs_mem n).2 (hmore.apart n ((hN'.thermalInputs_mem n).1 h1) ((hfm hN n).1 h2))
      missing := fun n h1 h2 => by
        obtain ⟨e', he', hk', i', hi', rfl, ha⟩ := (hN'.missing n).1 h2
        exact (hN.missing _).2 (hmore.missing e' he' hk' i' hi' ha (hin _ h1))
      percent := fun n => (hper n).holds (P := (· ≠ nan)) hnum hzn
      percent' := fun n => (hper' n).holds (P := (· ≠ nan)) hnum' hzn'
      percents := fun n hn => hmore.percents n (hin n hn.1) _ _ (hper n) (hper' n)
      cycleTime := by rw [hN.cycleTime, hN'.cycleTime]; exact hmore.cycleTime
      lowest := by rw [hN.minThermalOutput, hN'.minThermalOutput]; exact hmore.lowest }
  have hbuilt : ∀ {pids : OMap Int PIDConf} {configs : OMap Int ZoneConfig} {zones : OMap Int Zone} {conf : PIDConf} {zb : Zone},
      pids.WF → buildZones pids configs = .ok zones → pids.find? i = some conf → zones.find? i = some zb → Built zb.d := by
    intro pids configs zones conf zb hw hb hp hzb
    obtain ⟨h1, _⟩ := buildZoneList_find? (OMap.wf_nodup hw) hb i
    obtain ⟨z', hz', hb⟩ := h1 conf ((OMap.mem_entries_iff hw i conf).2 hp)
    rw [hzb] at hz'
    injection hz' with hz'
    subst hz'
    exact buildZone_built hb
  have hsp : ∀ {cf : PIDConf} {cz : ZoneConfig} {zz : Zone}, NewZone i cz cf.entries zz →
      zz.d.initializeCache.maximumSetPoint = 0 := by
    intro cf cz zz hN
    rw [(initializeCache_spec zz.d).eq]
    exact hN.requested.2.2
  have hprocs : ∀ zz : Zone, zz.d.initializeCache.procs = zz.d.procs := fun zz => by rw [(initializeCache_spec zz.d).eq]
  have hini : Hotter S conf.entries zb.d zb'.d (zb.fans.map (Option.map fanKey)) { zb with d := zb.d.initializeCache }
      { zb' with d := zb'.d.initializeCache } :=
    { inv := ⟨_, inited_inv (hbuilt hw hL.built hp hzb)⟩
      inv' := ⟨_, inited_inv (hbuilt hw' hL'.built hp' hzb')⟩
      manual := by
        have e1 : zb.d.initializeCache.manualMode = zb.d.manualMode := by rw [(initializeCache_spec zb.d).eq]
        have e2 : zb'.d.initializeCache.manualMode = zb'.d.manualMode := by rw [(initializeCache_spec zb'.d).eq]
        dsimp only
        rw [e1, e2, hN.manualMode, hN'.manualMode]
      switches := fun e he hh => by
        obtain ⟨e', he', hs⟩ := hmore.loops e he hh
        dsimp only
        rw [hprocs, hprocs, (hN.processes e.1 _).2 ⟨e, he, hh, rfl, rfl⟩, (hN'.processes e.1 _).2 ⟨e', he', hs.heat hh, hs.1, rfl⟩]
        rfl
      loops := fun x hx => by
        obtain ⟨e, he, hx⟩ := forall₂_right hN.thermals hx
        obtain ⟨h1, h2⟩ := List.mem_filter.1 he
        have h2 : IsHeat e := by simpa using h2
        obtain ⟨e', he', hs⟩ := hmore.loops e h1 h2
        obtain ⟨x', hx', hl⟩ := forall₂_left hN'.thermals (List.mem_filter.2 ⟨he', by simpa using hs.heat h2⟩)
        have := heatLoop_unique hx (hs.loop hl)
        subst this
        exact ⟨x, hx', e, h1, h2, pair_start (hS e h1) hx⟩
      loops' := fun x hx => by
        obtain ⟨e, he, hx⟩ := forall₂_right hN'.thermals hx
        exact ((pair_start (S := fun _ => False) False.elim hx).notCeiling (hceil' e (List.mem_filter.1 he).1)).1
      setPoint := by dsimp only; rw [hsp hN, hsp hN']; exact Dbl.le_refl Dbl.zero_ne_nan
      failed := fun n hF => by
        have i1 := inited_inv (hbuilt hw hL.built hp hzb)
        have i2 := inited_inv (hbuilt hw' hL'.built hp' hzb')
        obtain ⟨h1, h2⟩ := ((i1.failed n).1 hF).1
        refine (i2.failed n).2 ⟨⟨?_, fun h => h2 (hk.missing n h1 h)⟩, by simp [lastPoll_nil]⟩
        rcases h1 with h1 | h1
        · exact .inl (by rw [hfin]; exact h1)
        · obtain ⟨e, he, hh, j, hj, rfl⟩ := (hN.thermalInputs_mem n).1 h1
          obtain ⟨e', he', hs⟩ := hmore.loops e he hh
          exact .inr ((hN'.thermalInputs_mem _).2 ⟨e', he', hs.heat hh, j, by rw [hs.inputs]; exact hj, rfl⟩)
      fans := rfl
      fans' := by
        have key : ∀ l : List Entry, (l.map fanOf).map (Option.map fanKey) = (l.map (fun e => (e.2.inputs, e.2.pidInfo))).map
            (fun x => if x.1 = [] then none else some (x.1.map SensorInput.name, x.2)) := by
          intro l
          rw [List.map_map, List.map_map]
          refine List.map_congr_left (fun e _ => ?_)
          simp only [Function.comp, fanOf]
          split_ifs <;> rfl
        dsimp only
        rw [hN.fans, hN'.fans, key, key, hmore.fans] }
  have h0 := hini.thermals hk ho hstart (show Zone.processThermals o d0.w _ = .ok z0 from hz0)
    (show Zone.processThermals o d0'.w _ = .ok z0' from hz0')
  have hpre : HotterThroughout S o i conf.entries d0 d0' es es' := by
    intro a b a' b' x x' h1 h2 h3 h4 h5
    exact hhot a (b ++ [.tick i]) a' (b' ++ [.tick i]) x x' (by rw [h1]; simp) (by rw [h2]; simp) h3 h4 h5
  obtain ⟨z1, z1', cnt1, g1, g2, g3⟩ := hotter_run hk ho hor hr hr' hf0 hf0' h0 hpre
  have hmode : z1.d.manualMode = false := by
    obtain ⟨hm0, _⟩ := start_flags hz0
    rw [hN.manualMode] at hm0
    obtain ⟨z1x, cntx, logx, q1, q2, q3, _⟩ := mode_run hr hf0 (C80_hist hw hL.built hzb hz0)
    rw [g1] at q1
    cases q1
    rw [q3, hm0]
    exact hm
  have hat := hhot es [] es' [] d1 d1' rfl rfl hor hr hr'
  simp only [Daemon.step, g1] at ht
  obtain ⟨⟨w2, z2, cnt2⟩, htk, ht⟩ := bind_eq_ok.1 ht
  cases ht
  simp only [Daemon.step, g2] at ht'
  obtain ⟨⟨w2', z2', cnt2'⟩, htk', ht'⟩ := bind_eq_ok.1 ht'
  cases ht'
  obtain ⟨_, _, k⟩ := g3.tick hk ho hat htk htk'
  obtain ⟨zt, zt', k1, k2, k3⟩ := k hmode
  exact ⟨zb, zb', zt, zt', z2, z2', hN, hk, k1, k2, k3⟩

/-- the commands of the two runs at the final cycle -/
theorem hotter_commands {o : Opts} (ho : o.tuningEnabled = false) (hst : o.strictFailsafePwm = false) {i : Int} {c : ZoneConfig}
    {S : ControllerInfo → Prop} {conf conf' : List Entry} {zb zb' zt zt' z2 z2' : Zone} (hN : NewZone i c conf zb) (hk : ConfPair conf conf' zb.d zb'.d)
    (hfan : ∀ f ∈ conf, IsFan f → HandsOn f.2.pidInfo ∧ f.2.pidInfo.outLim.min ≤ f.2.pidInfo.outLim.max)
    (h : Hotter S conf zb.d zb'.d (zb.fans.map (Option.map fanKey)) zt zt') {w1 w2 w1' w2' : World}
    (h1 : zt.processFans o w1 = .ok (w2, z2)) (h2 : zt'.processFans o w1' = .ok (w2', z2')) :
    ∃ (l l' : List (FanPid × Dbl)) (b b' : Bool),
      l.map (fun x => x.1.inputs) = (conf.filter IsFan).map (fun e => e.2.inputs.map SensorInput.name) ∧
      l'.map (fun x => x.1.inputs) = (conf.filter IsFan).map (fun e => e.2.inputs.map SensorInput.name) ∧
      Drives b w1 l w2 ∧ Drives b' w1' l' w2' ∧
      List.Forall₂ (fun x x' => x.1.inputs = x'.1.inputs ∧ ((∃ m ∈ x.1.inputs, targetOf w1 m ≠ none) →
        (∃ m ∈ x'.1.inputs, targetOf w1' m ≠ none) → x.2 ≤ x'.2)) l l' ∧
      ((∀ f ∈ conf, IsFan f → 0 ≤ f.2.pidInfo.outLim.min) → ∀ x ∈ l, (∃ m ∈ x.1.inputs, targetOf w1 m ≠ none) → 0 ≤ x.2) := by
  have hfk : ∀ {zt : Zone}, zt.fans.map (Option.map fanKey) = zb.fans.map (Option.map fanKey) → ∀ f, some f ∈ zt.fans →
      ∃ e ∈ conf, IsFan e ∧ f.ctl.info.toPidConf = e.2.pidInfo := by
    intro zt g2 f hf
    have h1 : some (fanKey f) ∈ zt.fans.map (Option.map fanKey) := List.mem_map.2 ⟨_, hf, rfl⟩
    rw [g2, hN.fans, List.map_map] at h1
    obtain ⟨e', he', h2⟩ := List.mem_map.1 h1
    obtain ⟨a, b⟩ := List.mem_filter.1 he'
    refine ⟨e', a, by simpa using b, ?_⟩
    simp only [Function.comp, fanOf] at h2
    split_ifs at h2
    · cases h2
    · exact (congrArg Prod.snd (Option.some.inj h2)).symm
  have hin : ∀ {zt : Zone}, zt.fans.map (Option.map fanKey) = zb.fans.map (Option.map fanKey) →
      zt.fans.map (Option.map FanPid.inputs) = ((conf.filter IsFan).map fanOf).map (Option.map FanPid.inputs) := by
    intro zt g2
    have := congrArg (List.map (Option.map Prod.fst)) g2
    rw [List.map_map, List.map_map] at this
    rw [← hN.fans]
    have e : ∀ x : Option FanPid, (Option.map Prod.fst ∘ Option.map fanKey) x = Option.map FanPid.inputs x := by
      intro x; cases x <;> rfl
    simpa only [funext e] using this
  obtain ⟨l, l', b, b', a1, a2, a3, a4, a5, a6⟩ := h.commands hk ho hst (fun f hf => by
    obtain ⟨e, he, hF, hc⟩ := hfk h.fans f hf
    have := hfan e he hF
    rw [hc]
    exact this) h1 h2
  refine ⟨l, l', b, b', fans_as_configured (hin h.fans) a1, fans_as_configured (hin h.fans') a2, a3, a4,
    a5.imp (fun x x' hx => ⟨congrArg Prod.fst hx.1, hx.2⟩), fun h0 x hx htx => a6 x hx htx ?_⟩
  obtain ⟨e, he, hF, hc⟩ := hfk h.fans x.1 (by rw [a1]; exact List.mem_map.2 ⟨x, hx, rfl⟩)
  have := h0 e he hF
  rw [hc]
  exact this

/-- two configurations: the commands -/
theorem hotter_fans {o : Opts} (ho : o.tuningEnabled = false) (hst : o.strictFailsafePwm = false) {bus bus' : BuildBus}
    {now now' : Int} {w w' : World} {sensors sensors' : OMap String SensorConfig} {pids pids' : OMap Int PIDConf}
    {configs configs' : OMap Int ZoneConfig} (hw : pids.WF) (hw' : pids'.WF) (hc : ∀ e ∈ pids.entries, OMap.WF e.2)
    (hc' : ∀ e ∈ pids'.entries, OMap.WF e.2) {d0 d0' : Daemon}
    (hl : Daemon.launch o bus now w sensors pids configs = .ok d0)
    (hl' : Daemon.launch o bus' now' w' sensors' pids' configs' = .ok d0') {i : Int} {conf conf' : PIDConf}
    {c c' : ZoneConfig} (hp : pids.find? i = some conf) (hp' : pids'.find? i = some conf') (hcc : configs.find? i = some c)
    (hcc' : configs'.find? i = some c') (hmore : AsMuchCooling c c' conf.entries conf'.entries)
    (hacc : c.accumulateSetPoint = false) (hacc' : c'.accumulateSetPoint = false)
    (hceil : ∀ e ∈ conf.entries, e.2.type = "stepwise" → e.2.stepwiseInfo.isCeiling = false)
    (hceil' : ∀ e ∈ conf'.entries, e.2.type = "stepwise" → e.2.stepwiseInfo.isCeiling = false)
    (hfan : ∀ f ∈ conf.entries, IsFan f → HandsOn f.2.pidInfo ∧ f.2.pidInfo.outLim.min ≤ f.2.pidInfo.outLim.max)
    (hnum : ∀ e ∈ conf.entries, e.2.failSafePercent ≠ nan) (hnum' : ∀ e ∈ conf'.entries, e.2.failSafePercent ≠ nan)
    (hzn : c.failsafePercent ≠ nan) (hzn' : c'.failsafePercent ≠ nan) {es es' : List DEvent}
    {d1 d1' d2 d2' : Daemon} (hr : d0.run o es = .ok d1) (hr' : d0'.run o es' = .ok d1') (hor : orders i es = orders i es')
    {S : ControllerInfo → Prop} (hS : ∀ e ∈ conf.entries, S e.2 → RisesWithHeat e.2)
    (hstart : HotterAt S conf.entries d0.w d0'.w)
    (hhot : HotterThroughout S o i conf.entries d0 d0' (es ++ [.tick i]) (es' ++ [.tick i]))
    (hm : modeAfter i false es = false) (ht : d1.step o (.tick i) = .ok d2) (ht' : d1'.step o (.tick i) = .ok d2') :
    FansFaster conf.entries d1.w d2.w d1'.w d2'.w := by
  obtain ⟨zb, zb', zt, zt', z2, z2', hN, hk, g1, g2, g3⟩ := hotter_tick ho hw hw' hc hc' hl hl' hp hp' hcc hcc' hmore hacc hacc'
    hceil hceil' hnum hnum' hzn hzn' hr hr' hor hS hstart hhot hm ht ht'
  obtain ⟨l, l', b, b', a1, a2, a3, a4, a5, _⟩ := hotter_commands ho hst hN hk hfan g1 g2 g3
  exact ⟨l, l', b, b', a1, a2, a3, a4, a5.imp (fun x x' hx => hx.2)⟩

/-- a zone asks for as much cooling as itself -/
theorem AsMuchCooling.refl {c : ZoneConfig} {conf : List Entry} (hnum : ∀ e ∈ conf, e.2.failSafePercent ≠ nan)
    (hzn : c.failsafePercent ≠ nan) : AsMuchCooling c c conf conf where
  fans := rfl
  loops e he _ := ⟨e, he, rfl, rfl⟩
  lowest := .inl rfl
  percents n _ p p' h h' := by
    rw [percentFor_unique h h']
    exact Dbl.le_refl (h'.holds (P := (· ≠ nan)) hnum hzn)
  apart _ h _ := h
  missing e he hk i hi ha _ := ⟨e, he, hk, i, hi, rfl, ha⟩
  cycleTime := rfl

/-- **C124** Two daemons with the same zones and loops are launched and run; the same is ordered for the zone, and its timer
expires as often. Everything else may differ: other zones, signals, clocks, even the sensors behind the names. At the launch
and whenever the timer expires, the second one is hotter, or as hot: no input of a loop is cooler, and every sensor that fails
in the first fails in the second. Then no fan loop of the second one is ever commanded a smaller fraction than that of the
first. The zone adds up no set points and has no ceilings; only loops `S` whose output rises with heat may see different
inputs; the fan loops hand their set point on. -/
theorem C124_commands {o : Opts} (ho : o.tuningEnabled = false) (hst : o.strictFailsafePwm = false) {bus bus' : BuildBus}
    {now now' : Int} {w w' : World} {sensors sensors' : OMap String SensorConfig} {pids : OMap Int PIDConf}
    {configs : OMap Int ZoneConfig} (hw : pids.WF) (hc : ∀ e ∈ pids.entries, OMap.WF e.2) {d0 d0' : Daemon}
    (hl : Daemon.launch o bus now w sensors pids configs = .ok d0)
    (hl' : Daemon.launch o bus' now' w' sensors' pids configs = .ok d0') {i : Int} {conf : PIDConf} {c : ZoneConfig}
    (hp : pids.find? i = some conf) (hcc : configs.find? i = some c) (hacc : c.accumulateSetPoint = false)
    (hceil : ∀ e ∈ conf.entries, e.2.type = "stepwise" → e.2.stepwiseInfo.isCeiling = false)
    (hfan : ∀ f ∈ conf.entries, IsFan f → HandsOn f.2.pidInfo ∧ f.2.pidInfo.outLim.min ≤ f.2.pidInfo.outLim.max)
    (hnum : ∀ e ∈ conf.entries, e.2.failSafePercent ≠ nan) (hzn : c.failsafePercent ≠ nan) {es es' : List DEvent}
    {d1 d1' d2 d2' : Daemon} (hr : d0.run o es = .ok d1) (hr' : d0'.run o es' = .ok d1') (hor : orders i es = orders i es')
    {S : ControllerInfo → Prop} (hS : ∀ e ∈ conf.entries, S e.2 → RisesWithHeat e.2)
    (hstart : HotterAt S conf.entries d0.w d0'.w)
    (hhot : HotterThroughout S o i conf.entries d0 d0' (es ++ [.tick i]) (es' ++ [.tick i]))
    (hm : modeAfter i false es = false) (ht : d1.step o (.tick i) = .ok d2) (ht' : d1'.step o (.tick i) = .ok d2') :
    FansFaster conf.entries d1.w d2.w d1'.w d2'.w :=
  hotter_fans ho hst hw hw hc hc hl hl' hp hp hcc hcc (.refl hnum hzn) hacc hacc hceil hceil hfan hnum hnum hzn hzn hr hr' hor
    hS hstart hhot hm ht ht'

theorem one_match {α β : Type} {n : String} {f : α → List String} {g : β → List String} {R : α → β → Prop} :
    ∀ {l : List α} {l' : List β}, List.Forall₂ (fun x y => f x = g y ∧ R x y) l l' →
      (l.map f).Pairwise (fun a b => n ∉ a ∨ n ∉ b) → ∀ x ∈ l, ∀ y ∈ l', n ∈ f x → n ∈ g y → R x y
  | _, _, .nil, _, x, hx, _, _, _, _ => by cases hx
  | _, _, .cons (l₁ := l) (l₂ := l') h hs, hp, x, hx, y, hy, hnx, hny => by
    rw [List.map_cons, List.pairwise_cons] at hp
    rcases List.mem_cons.1 hx with rfl | hx
    · rcases List.mem_cons.1 hy with rfl | hy
      · exact h.2
      · obtain ⟨a, ha, h1, _⟩ := forall₂_right hs hy
        rcases hp.1 (f a) (List.mem_map.2 ⟨a, ha, rfl⟩) with q | q
        · exact absurd hnx q
        · exact absurd hny (h1 ▸ q)
    · rcases List.mem_cons.1 hy with rfl | hy
      · rcases hp.1 (f x) (List.mem_map.2 ⟨x, hx, rfl⟩) with q | q
        · exact absurd hny (h.1 ▸ q)
        · exact absurd hnx q
      · exact one_match hs hp.2 x hx y hy hnx hny

/-- two configurations: what fans are told -/
theorem hotter_told {o : Opts} (ho : o.tuningEnabled = false) (hst : o.strictFailsafePwm = false) {bus bus' : BuildBus}
    {now now' : Int} {w w' : World} (htr : w.trace = []) (htr' : w'.trace = []) {sensors sensors' : OMap String SensorConfig}
    (hws : sensors.WF) (hws' : sensors'.WF) {pids pids' : OMap Int PIDConf} {configs configs' : OMap Int ZoneConfig} (hw : pids.WF) (hw' : pids'.WF)
    (hc : ∀ e ∈ pids.entries, OMap.WF e.2)
    (hc' : ∀ e ∈ pids'.entries, OMap.WF e.2) {d0 d0' : Daemon} (hl : Daemon.launch o bus now w sensors pids configs = .ok d0)
    (hl' : Daemon.launch o bus' now' w' sensors' pids' configs' = .ok d0') {i : Int} {conf conf' : PIDConf}
    {c c' : ZoneConfig} (hp : pids.find? i = some conf) (hp' : pids'.find? i = some conf') (hcc : configs.find? i = some c)
    (hcc' : configs'.find? i = some c') (hmore : AsMuchCooling c c' conf.entries conf'.entries)
    (hacc : c.accumulateSetPoint = false) (hacc' : c'.accumulateSetPoint = false)
    (hceil : ∀ e ∈ conf.entries, e.2.type = "stepwise" → e.2.stepwiseInfo.isCeiling = false)
    (hceil' : ∀ e ∈ conf'.entries, e.2.type = "stepwise" → e.2.stepwiseInfo.isCeiling = false)
    (hfan : ∀ f ∈ conf.entries, IsFan f → HandsOn f.2.pidInfo ∧ f.2.pidInfo.outLim.min ≤ f.2.pidInfo.outLim.max)
    (hpos : ∀ f ∈ conf.entries, IsFan f → 0 ≤ f.2.pidInfo.outLim.min)
    (hnum : ∀ e ∈ conf.entries, e.2.failSafePercent ≠ nan) (hnum' : ∀ e ∈ conf'.entries, e.2.failSafePercent ≠ nan)
    (hzn : c.failsafePercent ≠ nan) (hzn' : c'.failsafePercent ≠ nan) {es es' : List DEvent}
    {d1 d1' d2 d2' : Daemon} (hr : d0.run o es = .ok d1) (hr' : d0'.run o es' = .ok d1') (hor : orders i es = orders i es')
    {S : ControllerInfo → Prop} (hS : ∀ e ∈ conf.entries, S e.2 → RisesWithHeat e.2)
    (hstart : HotterAt S conf.entries d0.w d0'.w)
    (hhot : HotterThroughout S o i conf.entries d0 d0' (es ++ [.tick i]) (es' ++ [.tick i]))
    (hm : modeAfter i false es = false) (ht : d1.step o (.tick i) = .ok d2) (ht' : d1'.step o (.tick i) = .ok d2')
    {n path path' : String} {fc : SensorConfig} (hfo : FanOn bus.dirs sensors n fc path)
    (hfo' : FanOn bus'.dirs sensors' n fc path') (hb : w.busOk path = true) (hb' : w'.busOk path' = true)
    (hbs : ∀ e ∈ es, BusWorks path e) (hbs' : ∀ e ∈ es', BusWorks path' e)
    (hin : ∃ e ∈ conf.entries, IsFan e ∧ ∃ x ∈ e.2.inputs, x.name = n) (hone : OneLoop conf.entries n) :
    ∃ u u', valueAt path d2.w = some u ∧ valueAt path' d2'.w = some u' ∧ u ≤ u' := by
  obtain ⟨zb, zb', zt, zt', z2, z2', hN, hk, g1, g2, g3⟩ := hotter_tick ho hw hw' hc hc' hl hl' hp hp' hcc hcc' hmore hacc hacc'
    hceil hceil' hnum hnum' hzn hzn' hr hr' hor hS hstart hhot hm ht ht'
  obtain ⟨l, l', b, b', a1, a2, a3, a4, a5, a6⟩ := hotter_commands ho hst hN hk hfan g1 g2 g3
  have hf := fanAt_run hr hbs (fanAt_launched hws hl hfo.configured hfo.fan hfo.written hfo.only hb htr)
  have hf' := fanAt_run hr' hbs' (fanAt_launched hws' hl' hfo'.configured hfo'.fan hfo'.written hfo'.only hb' htr')
  have hex : ∀ {l : List (FanPid × Dbl)},
      l.map (fun x => x.1.inputs) = (conf.entries.filter IsFan).map (fun e => e.2.inputs.map SensorInput.name) →
      ∃ x ∈ l, n ∈ x.1.inputs := by
    intro l h1
    obtain ⟨e, he, hF, x, hx, rfl⟩ := hin
    have : e.2.inputs.map SensorInput.name ∈ l.map (fun x => x.1.inputs) := by
      rw [h1]
      exact List.mem_map.2 ⟨e, List.mem_filter.2 ⟨he, by simpa using hF⟩, rfl⟩
    obtain ⟨y, hy, hy2⟩ := List.mem_map.1 this
    exact ⟨y, hy, by rw [hy2]; exact List.mem_map.2 ⟨x, hx, rfl⟩⟩
  have htn : ∀ {p : String} {lim : Option (Int × Int)} {w : World}, FanAt n p lim w → targetOf w n ≠ none := by
    intro p lim w hf
    obtain ⟨s, rd, wr, hs, hi, hwr⟩ := hf.fan
    unfold targetOf
    rw [hs]
    dsimp only
    rw [hi]
    dsimp only
    rw [hwr.target]
    simp
  obtain ⟨x, hx, hx2, raw, hraw, hval⟩ := (fanAt_drives a3 hf).2.2 (hex a1)
  obtain ⟨x', hx', hx2', raw', hraw', hval'⟩ := (fanAt_drives a4 hf').2.2 (hex a2)
  have hle := one_match (f := fun x : FanPid × Dbl => x.1.inputs) (g := fun x : FanPid × Dbl => x.1.inputs) a5
    (by rw [a1]; exact hone) x hx x' hx' hx2 hx2' ⟨n, hx2, htn hf⟩ ⟨n, hx2', htn hf'⟩
  have h0 := a6 hpos x hx ⟨n, hx2, htn hf⟩
  obtain ⟨s, hs1, hs2, hs3⟩ := rawCommand_mono hfo.limits h0 hle hraw'
  rw [hs1] at hraw
  cases hraw
  exact ⟨_, _, hval (by omega), hval' (by omega), hs3⟩

/-- **C124** … and no fan of the zone that has its D-Bus object or file for itself is ever told a smaller number. -/
theorem C124_told {o : Opts} (ho : o.tuningEnabled = false) (hst : o.strictFailsafePwm = false) {bus bus' : BuildBus}
    {now now' : Int} {w w' : World} (htr : w.trace = []) (htr' : w'.trace = []) {sensors sensors' : OMap String SensorConfig}
    (hws : sensors.WF) (hws' : sensors'.WF) {pids : OMap Int PIDConf} {configs : OMap Int ZoneConfig} (hw : pids.WF)
    (hc : ∀ e ∈ pids.entries, OMap.WF e.2) {d0 d0' : Daemon} (hl : Daemon.launch o bus now w sensors pids configs = .ok d0)
    (hl' : Daemon.launch o bus' now' w' sensors' pids configs = .ok d0') {i : Int} {conf : PIDConf} {c : ZoneConfig}
    (hp : pids.find? i = some conf) (hcc : configs.find? i = some c) (hacc : c.accumulateSetPoint = false)
    (hceil : ∀ e ∈ conf.entries, e.2.type = "stepwise" → e.2.stepwiseInfo.isCeiling = false)
    (hfan : ∀ f ∈ conf.entries, IsFan f → HandsOn f.2.pidInfo ∧ f.2.pidInfo.outLim.min ≤ f.2.pidInfo.outLim.max)
    (hpos : ∀ f ∈ conf.entries, IsFan f → 0 ≤ f.2.pidInfo.outLim.min)
    (hnum : ∀ e ∈ conf.entries, e.2.failSafePercent ≠ nan) (hzn : c.failsafePercent ≠ nan) {es es' : List DEvent}
    {d1 d1' d2 d2' : Daemon} (hr : d0.run o es = .ok d1) (hr' : d0'.run o es' = .ok d1') (hor : orders i es = orders i es')
    {S : ControllerInfo → Prop} (hS : ∀ e ∈ conf.entries, S e.2 → RisesWithHeat e.2)
    (hstart : HotterAt S conf.entries d0.w d0'.w)
    (hhot : HotterThroughout S o i conf.entries d0 d0' (es ++ [.tick i]) (es' ++ [.tick i]))
    (hm : modeAfter i false es = false) (ht : d1.step o (.tick i) = .ok d2) (ht' : d1'.step o (.tick i) = .ok d2')
    {n path path' : String} {fc : SensorConfig} (hfo : FanOn bus.dirs sensors n fc path)
    (hfo' : FanOn bus'.dirs sensors' n fc path') (hb : w.busOk path = true) (hb' : w'.busOk path' = true)
    (hbs : ∀ e ∈ es, BusWorks path e) (hbs' : ∀ e ∈ es', BusWorks path' e)
    (hin : ∃ e ∈ conf.entries, IsFan e ∧ ∃ x ∈ e.2.inputs, x.name = n) (hone : OneLoop conf.entries n) :
    ∃ u u', valueAt path d2.w = some u ∧ valueAt path' d2'.w = some u' ∧ u ≤ u' :=
  hotter_told ho hst htr htr' hws hws' hw hw hc hc hl hl' hp hp hcc hcc (.refl hnum hzn) hacc hacc hceil hceil hfan hpos hnum hnum
    hzn hzn hr hr' hor hS hstart hhot hm ht ht' hfo hfo' hb hb' hbs hbs' hin hone

/-! ## Sensors -/

theorem counted_pairs {type : String} {w w' : World} {P : SensorInput → Dbl → Dbl → Prop} {R : Dbl → Dbl → Prop}
    (hR : ∀ i r r', P i r r' → R (if type = "margin" ∧ i.convertTempToMargin = true then i.convertMarginZero - r else r)
      (if type = "margin" ∧ i.convertTempToMargin = true then i.convertMarginZero - r' else r')) :
    ∀ {is : List SensorInput} {rs rs' : List Dbl}, List.Forall₂ (fun i r => GivesReading w (SensorInput.name i) r) is rs →
      List.Forall₂ (fun i r => GivesReading w' (SensorInput.name i) r) is rs' →
      (∀ i ∈ is, ∀ r r', GivesReading w i.name r → GivesReading w' i.name r' →
        (r.isFinite = true ↔ r'.isFinite = true) ∧ P i r r') →
      List.Forall₂ R (counted type is rs) (counted type is rs')
  | _, _, _, .nil, .nil, _ => .nil
  | _, _, _, .cons (l₁ := is) (b := r) h hs, .cons (b := r') h' hs', hp => by
    obtain ⟨q1, q2⟩ := hp _ List.mem_cons_self _ _ h h'
    have ih := counted_pairs hR hs hs' (fun i hi => hp i (List.mem_cons_of_mem _ hi))
    rw [counted, counted]
    by_cases hf : r.isFinite = true
    · rw [if_pos hf, if_pos (q1.1 hf)]
      exact .cons (hR _ _ _ q2) ih
    · rw [if_neg hf, if_neg (fun h => hf (q1.2 h))]
      exact ih

theorem sums_le : ∀ {l l' : List Dbl} {a a' : Dbl}, List.Forall₂ (fun u u' => 0 ≤ u ∧ u ≤ u') l l' → 0 ≤ a → a ≤ a' →
    l.foldl (· + ·) a ≤ l'.foldl (· + ·) a'
  | _, _, _, _, .nil, _, h => h
  | u :: l, u' :: l', a, a', .cons h hs, h0, hle => by
    obtain ⟨q1, _, _⟩ := nonneg_add h0 h.1
    obtain ⟨q1', _, _⟩ := nonneg_add (Dbl.le_trans h0 hle) (Dbl.le_trans h.1 h.2)
    exact sums_le (l := l) (l' := l') hs q1 (Dbl.add_le_add hle h.2 (Dbl.ne_nan_of_le_right q1) (Dbl.ne_nan_of_le_right q1'))

/-- **C124** The input of a loop is hotter when all its sensors are. -/
theorem C124_sensors {e : ControllerInfo} {w w' : World} (h : HotterReadings e w w') (hs : e.setpoint ≠ nan) {v v' : Dbl}
    (hv : LoopInput w e v) (hv' : LoopInput w' e v') : AsHot e.type v v' := by
  have hsub : ∀ (i : SensorInput) {r r' : Dbl}, i.convertMarginZero ≠ nan → r.isFinite = true → r'.isFinite = true → r ≤ r' →
      i.convertMarginZero - r' ≤ i.convertMarginZero - r := by
    intro i r r' hz hf hf' hle
    have nn : ∀ {r : Dbl}, r.isFinite = true → i.convertMarginZero - r ≠ nan := by
      intro r hf
      cases r with
      | fin q hq =>
        generalize i.convertMarginZero = m at hz
        cases m with
        | nan => exact absurd rfl hz
        | ninf => simp [sub_def, Dbl.add, Dbl.neg, HAdd.hAdd, Add.add]
        | pinf => simp [sub_def, Dbl.add, Dbl.neg, HAdd.hAdd, Add.add]
        | fin p hp => rw [fin_sub_fin]; exact ofRat_ne_nan _
      | _ => cases hf
    exact sub_le_sub (Dbl.le_refl hz) hle (nn hf') (nn hf)
  cases hv with
  | stepwise ht h1 h2 =>
    cases hv' with
    | pid hp' => rw [ht] at hp'; rcases hp' with h | h | h | h <;> exact absurd h (by decide)
    | stepwise _ h1' h2' =>
      unfold AsHot
      rw [ht, if_neg (by decide)]
      rcases h2.1 with rfl | ⟨hm, hn⟩
      · exact h2'.2 _ (.inl rfl)
      · obtain ⟨j, hj, hg⟩ := forall₂_right h1 hm
        obtain ⟨r', hr', hg'⟩ := forall₂_left h1' hj
        obtain ⟨_, _, q⟩ := h.readings j hj _ _ hg hg'
        unfold HotterReading at q
        rw [if_neg (fun hh => absurd (ht.symm.trans hh.1) (by decide))] at q
        exact Dbl.le_trans q (h2'.2 _ (.inr ⟨hr', Dbl.ne_nan_of_le_right q⟩))
  | pid hp h1 =>
    cases hv' with
    | stepwise ht => rw [ht] at hp; rcases hp with h | h | h | h <;> exact absurd h (by decide)
    | pid _ h1' =>
      obtain ⟨rs, a1, a2⟩ := h1
      obtain ⟨rs', b1, b2⟩ := h1'
      by_cases hm : e.type = "margin"
      · have hpairs : List.Forall₂ (fun u u' => u' ≤ u) (counted e.type e.inputs rs) (counted e.type e.inputs rs') := by
          refine counted_pairs (P := fun i r r' => r.isFinite = true ∧ r'.isFinite = true ∧ HotterReading e.type i r r' ∧
            (i.convertTempToMargin = true → i.convertMarginZero ≠ nan)) ?_ a1 b1 (fun i hi r r' hg hg' => ?_)
          · rintro i r r' ⟨f1, f2, hh, hz⟩
            unfold HotterReading at hh
            by_cases hc : i.convertTempToMargin = true
            · rw [if_neg (by simp [hc])] at hh
              rw [if_pos ⟨hm, hc⟩, if_pos ⟨hm, hc⟩]
              exact hsub i (hz hc) f1 f2 hh
            · rw [if_pos ⟨hm, by simpa using hc⟩] at hh
              rw [if_neg (fun h => hc h.2), if_neg (fun h => hc h.2)]
              exact hh
          · obtain ⟨f1, f2, hh⟩ := h.readings i hi r r' hg hg'
            exact ⟨by simp [f1, f2], f1, f2, hh, h.margins hm i hi⟩
        unfold AsHot
        rw [if_pos hm]
        generalize counted e.type e.inputs rs = l at a2 hpairs
        generalize counted e.type e.inputs rs' = l' at b2 hpairs
        cases a2 with
        | nothing =>
          cases hpairs
          cases b2 with
          | nothing => exact Dbl.le_refl hs
          | largest _ h => cases h
          | smallest _ h => exact absurd rfl h
          | sum _ h => exact absurd rfl h
        | largest h => rw [hm] at h; exact absurd h (by decide)
        | sum h => rw [hm] at h; exact absurd h (by decide)
        | smallest _ hne q1 q2 =>
          cases b2 with
          | nothing => cases hpairs; exact absurd rfl hne
          | largest h => rw [hm] at h; exact absurd h (by decide)
          | sum h => rw [hm] at h; exact absurd h (by decide)
          | smallest _ _ q1' q2' =>
            rcases List.mem_cons.1 q1 with rfl | q1
            · exact q2' _ List.mem_cons_self
            · obtain ⟨u', hu', hle⟩ := forall₂_left hpairs q1
              exact Dbl.le_trans (q2' _ (List.mem_cons_of_mem _ hu')) hle
      · have hpairs : List.Forall₂ (fun u u' => (e.type = "powersum" → 0 ≤ u) ∧ u ≤ u') (counted e.type e.inputs rs)
            (counted e.type e.inputs rs') := by
          refine counted_pairs (P := fun i r r' => (e.type = "powersum" → 0 ≤ r) ∧ HotterReading e.type i r r') ?_ a1 b1
            (fun i hi r r' hg hg' => ?_)
          · rintro i r r' ⟨f1, hh⟩
            unfold HotterReading at hh
            rw [if_neg (fun h => hm h.1)] at hh ⊢
            rw [if_neg (fun h => hm h.1)]
            exact ⟨f1, hh⟩
          · obtain ⟨f1, f2, hh⟩ := h.readings i hi r r' hg hg'
            exact ⟨by simp [f1, f2], fun ht => h.powers ht i hi r hg, hh⟩
        unfold AsHot
        rw [if_neg hm]
        generalize counted e.type e.inputs rs = l at a2 hpairs
        generalize counted e.type e.inputs rs' = l' at b2 hpairs
        cases a2 with
        | nothing =>
          cases hpairs
          cases b2 with
          | nothing => exact Dbl.le_refl hs
          | largest _ h => cases h
          | smallest _ h => exact absurd rfl h
          | sum _ h => exact absurd rfl h
        | smallest h => exact absurd h hm
        | largest ht q1 q2 =>
          obtain ⟨u', hu', _, hle⟩ := forall₂_left hpairs q1
          cases b2 with
          | nothing => cases hu'
          | largest _ q1' q2' => exact Dbl.le_trans hle (q2' _ hu')
          | smallest h => exact absurd h hm
          | sum h => rcases ht with ht | ht <;> (rw [ht] at h; exact absurd h (by decide))
        | sum ht hne =>
          cases b2 with
          | nothing => cases hpairs; exact absurd rfl hne
          | largest h => rw [ht] at h; exact absurd h (by decide)
          | smallest h => exact absurd h hm
          | sum =>
            have h0 : (0 : Dbl) ≤ 0 := Dbl.le_refl Dbl.zero_ne_nan
            exact sums_le (hpairs.imp (fun u u' hu => ⟨hu.1 ht, hu.2⟩)) h0 h0

/-- **C124** … and the same when all its sensors read the same. -/
theorem C124_same {e : ControllerInfo} {w w' : World} (h : SameReadings e w w') {v v' : Dbl} (hv : LoopInput w e v)
    (hv' : LoopInput w' e v') : v = v' := by
  have heq : ∀ {is : List SensorInput} {rs rs' : List Dbl}, (∀ i ∈ is, i ∈ e.inputs) →
      List.Forall₂ (fun i r => GivesReading w (SensorInput.name i) r) is rs →
      List.Forall₂ (fun i r => GivesReading w' (SensorInput.name i) r) is rs' → rs = rs' := by
    intro is rs rs' hi h1
    induction h1 generalizing rs' with
    | nil => intro h2; cases h2; rfl
    | cons q _ ih =>
      intro h2
      cases h2 with
      | cons q' qs' =>
        rw [h _ (hi _ List.mem_cons_self) _ _ q q', ih (fun i hh => hi i (List.mem_cons_of_mem _ hh)) qs']
  cases hv with
  | stepwise ht h1 h2 =>
    cases hv' with
    | pid hp' => rw [ht] at hp'; rcases hp' with h | h | h | h <;> exact absurd h (by decide)
    | stepwise _ h1' h2' =>
      cases heq (fun _ h => h) h1 h1'
      exact Dbl.le_antisymm (h2'.2 _ h2.1) (h2.2 _ h2'.1)
  | pid hp h1 =>
    cases hv' with
    | stepwise ht => rw [ht] at hp; rcases hp with h | h | h | h <;> exact absurd h (by decide)
    | pid _ h1' =>
      obtain ⟨rs, a1, a2⟩ := h1
      obtain ⟨rs', b1, b2⟩ := h1'
      cases heq (fun _ h => h) a1 b1
      generalize counted e.type e.inputs rs = l at a2 b2
      generalize e.type = t at a2 b2
      generalize e.setpoint = s at a2 b2
      cases a2 with
      | nothing =>
        cases b2 with
        | nothing => rfl
        | largest _ h => cases h
        | smallest _ h => exact absurd rfl h
        | sum _ h => exact absurd rfl h
      | largest ht q1 q2 =>
        cases b2 with
        | nothing => cases q1
        | largest _ q1' q2' => exact Dbl.le_antisymm (q2' _ q1) (q2 _ q1')
        | smallest h => subst h; exact absurd ht (by decide)
        | sum h => subst h; exact absurd ht (by decide)
      | smallest ht hne q1 q2 =>
        cases b2 with
        | nothing => exact absurd rfl hne
        | largest h => subst ht; exact absurd h (by decide)
        | smallest _ _ q1' q2' => exact Dbl.le_antisymm (q2 _ q1') (q2' _ q1)
        | sum h => subst h; exact absurd ht (by decide)
      | sum ht hne =>
        cases b2 with
        | nothing => exact absurd rfl hne
        | largest h => subst ht; exact absurd h (by decide)
        | smallest h => subst ht; exact absurd h (by decide)
        | sum => rfl

/-- **C124** So a world is hotter when the sensors of all loops that rise with heat are, as long as the inputs of the PIDs among
them are of moderate size, all other sensors read the same, and no sensor works that failed before. -/
theorem C124_world {conf : List Entry} {w w' : World}
    (hin : ∀ e ∈ conf, IsHeat e → (RisesWithHeat e.2 ∧ e.2.setpoint ≠ nan ∧ HotterReadings e.2 w w' ∧
      (∀ v, Sees w e.2 v → Moderate v) ∧ ∀ v, Sees w' e.2 v → Moderate v) ∨ (¬ RisesWithHeat e.2 ∧ SameReadings e.2 w w'))
    (hth : ∀ e ∈ conf, IsHeat e → ∀ j ∈ e.2.inputs, FailsAt w w.nowThermals j.name → FailsAt w' w'.nowThermals j.name)
    (hfan : ∀ e ∈ conf, IsFan e → ∀ j ∈ e.2.inputs, FailsAt w w.nowFans j.name → FailsAt w' w'.nowFans j.name) :
    HotterAt RisesWithHeat conf w w' := by
  refine ⟨fun e he hh v v' hv hv' => ?_, hth, hfan⟩
  rcases hin e he hh with ⟨h1, h2, h3, h4, h5⟩ | ⟨h1, h2⟩
  · refine .hotter h1 (C124_sensors h3 h2 hv hv') (fun hp => ⟨?_, ?_⟩)
    · cases hv with
      | pid _ h => exact h4 v h
      | stepwise ht => rw [ht] at hp; rcases hp with h | h | h | h <;> exact absurd h (by decide)
    · cases hv' with
      | pid _ h => exact h5 v' h
      | stepwise ht => rw [ht] at hp; rcases hp with h | h | h | h <;> exact absurd h (by decide)
  · exact .same h1 (C124_same h2 hv hv')

end

namespace Ex
section
attribute [local instance] binary64

def launch124 : Res Daemon := Daemon.launch {} bus103 0 world99 sensors106 pids117 zones99
/-- the processor gets warm -/
def cool124 : List DEvent := [.signal "cpu" 1 (temp103 40), .tick 1, .tick 1, .signal "cpu" 2 (temp103 88), .tick 1, .tick 1, .tick 1,
  .tick 1]
/-- it is hotter, reports at other times … -/
def warm124 : List DEvent := [.signal "cpu" 1 (temp103 40), .tick 1, .signal "cpu" 1 (temp103 84), .tick 1, .signal "cpu" 2 (temp103 90),
  .tick 1, .tick 1, .signal "cpu" 3 (temp103 95), .tick 1, .tick 1]
/-- … or raises an alarm as well -/
def alarm124 : List DEvent := [.signal "cpu" 1 (temp103 40), .tick 1, .signal "cpu" 1 (temp103 84), .tick 1, .signal "cpu" 2 (temp103 90),
  .tick 1, .tick 1, .signal "cpu" 4 (alarm99 true), .tick 1, .tick 1]

def path124 : String := "/xyz/openbmc_project/control/fanpwm/pwm1"

/-- the beginnings of a run before each expiry of the timer and each order -/
def before124 (i : Int) : List DEvent → List (List DEvent)
  | [] => []
  | e :: es => (if Concerns i e then [[]] else []) ++ (before124 i es).map (e :: ·)

theorem before124_mem {i : Int} : ∀ {a b : List DEvent}, a ∈ before124 i (a ++ .tick i :: b)
  | [], b => by rw [List.nil_append, before124, if_pos (by simp [Concerns])]; exact List.mem_append_left _ List.mem_cons_self
  | e :: a, b => by
    rw [List.cons_append, before124]
    exact List.mem_append_right _ (List.mem_map.2 ⟨a, before124_mem, rfl⟩)

/-- a computation of the readings in two worlds -/
def readings124 (n : String) (P : Dbl → Dbl → Bool) (w w' : World) : Bool :=
  match w.sensors.find? n, w'.sensors.find? n with
  | some s, some s' => (match s.read w w.nowThermals, s'.read w' w'.nowThermals with | .ok r, .ok r' => P r.value r'.value | _, _ => false)
  | _, _ => false

theorem readings124_of {n : String} {P : Dbl → Dbl → Bool} {w w' : World} (h : readings124 n P w w' = true) :
    ∃ r r', GivesReading w n r ∧ GivesReading w' n r' ∧ P r r' = true := by
  unfold readings124 at h
  split at h
  · rename_i s s' h1 h2
    split at h
    · rename_i r r' h3 h4
      exact ⟨_, _, ⟨s, r, h1, h3, rfl⟩, ⟨s', r', h2, h4, rfl⟩, h⟩
    · cases h
  · cases h

def hotterB (w w' : World) : Bool :=
  readings124 "cpu" (fun r r' => decide (r.isFinite = true ∧ r'.isFinite = true ∧ r ≤ r' ∧ Moderate r ∧ Moderate r')) w w' &&
  !failsB w w.nowThermals "cpu" && !failsB w w.nowFans "fan0"

/-- the input of the loop is the reading -/
theorem temps117_sees {w : World} {v : Dbl} (h : Sees w temps117 v) : ∃ r, GivesReading w "cpu" r ∧ (v = 80 ∨ v = r) := by
  obtain ⟨rs, h1, h2⟩ := h
  cases h1 with
  | cons hr hs =>
    cases hs
    refine ⟨_, hr, ?_⟩
    rename_i r
    change InputOver temps117.type temps117.setpoint (counted temps117.type [_] [r]) v at h2
    by_cases hf : r.isFinite = true
    · rw [counted, if_pos hf, show counted temps117.type [] [] = [] from rfl, if_neg (fun h => absurd (show temps117.type = "margin" from h.1) (by decide))] at h2
      cases h2 with
      | largest _ h => exact .inr (List.mem_singleton.1 h)
      | smallest h => exact absurd h (by decide)
      | sum h => exact absurd h (by decide)
    · rw [counted, if_neg hf, show counted temps117.type [] [] = [] from rfl] at h2
      cases h2 with
      | nothing => exact .inl rfl
      | largest _ h => cases h
      | smallest h => exact absurd h (by decide)
      | sum h => exact absurd h (by decide)

theorem hotter124 {w w' : World} (h : hotterB w w' = true) : HotterAt RisesWithHeat loops117.entries w w' := by
  simp only [hotterB, Bool.and_eq_true, Bool.not_eq_true'] at h
  obtain ⟨⟨ha, hb⟩, hc⟩ := h
  obtain ⟨r0, r0', hr0, hr0', q⟩ := readings124_of ha
  replace q := of_decide_eq_true q
  have h80 : Moderate (80 : Dbl) := by decide +kernel
  refine C124_world (fun e he hh => ?_) (fun e he hh j hj hf => ?_) (fun e he hh j hj hf => ?_)
  · rcases loops117_mem he with rfl | rfl
    · exact absurd hh (by decide)
    · refine .inl ⟨.integrating (.inl rfl) temps117_integrating (by unfold FacesHeat; decide +kernel)
        (by unfold FacesHeat; decide +kernel) h80, by decide +kernel, ⟨?_, fun h => absurd h (by decide), fun h => absurd h (by decide)⟩,
        ?_, ?_⟩
      · intro i hi r r' hr hr'
        rw [List.mem_singleton.1 hi] at hr hr'
        rw [gives_unique hr hr0, gives_unique hr' hr0']
        refine ⟨q.1, q.2.1, ?_⟩
        unfold HotterReading
        rw [if_neg (fun h => absurd h.1 (by decide))]
        exact q.2.2.1
      · intro v hv
        obtain ⟨r, hr, rfl | rfl⟩ := temps117_sees hv
        · exact h80
        · rw [gives_unique hr hr0]; exact q.2.2.2.1
      · intro v hv
        obtain ⟨r, hr, rfl | rfl⟩ := temps117_sees hv
        · exact h80
        · rw [gives_unique hr hr0']; exact q.2.2.2.2
  · rcases loops117_mem he with rfl | rfl
    · exact absurd hh (by decide)
    · rw [List.mem_singleton.1 hj] at hf
      rw [failsB_of hf] at hb
      cases hb
  · rcases loops117_mem he with rfl | rfl
    · rw [List.mem_singleton.1 hj] at hf
      rw [failsB_of hf] at hc
      cases hc
    · exact absurd hh (by decide)

def run124 (es : List DEvent) : Res Daemon := do
  let d ← launch124
  d.run {} es

/-- a computation of `HotterThroughout` for two runs of this daemon -/
def hotter124B (es es' : List DEvent) : Bool :=
  (before124 1 es).all (fun a => (before124 1 es').all (fun a' => decide ((orders 1 a).length ≠ (orders 1 a').length) ||
    (match run124 a, run124 a' with | .ok d, .ok d' => hotterB d.w d'.w | _, _ => true)))

theorem hotter124_of {es es' : List DEvent} (h : hotter124B es es' = true) {d0 : Daemon} (hl : launch124 = .ok d0) :
    HotterThroughout RisesWithHeat {} 1 loops117.entries d0 d0 es es' := by
  intro a b a' b' d1 d1' h1 h2 ho hr hr'
  subst h1 h2
  have := List.all_eq_true.1 (List.all_eq_true.1 h a before124_mem) a' before124_mem
  rw [ho] at this
  simp only [ne_eq, not_true_eq_false, decide_false, Bool.false_or, run124, hl, ok_bind, hr, hr'] at this
  exact hotter124 this

/-- C124: with the processor at 88 degrees 102 is written in the end; 178 in the hotter run, 229 in the one with the alarm … -/
example : (∃ d, run124 (cool124 ++ [.tick 1]) = .ok d ∧ decide (valueAt path124 d.w = some 102) = true) ∧
    (∃ d, run124 (warm124 ++ [.tick 1]) = .ok d ∧ decide (valueAt path124 d.w = some 178) = true) ∧
    ∃ d, run124 (alarm124 ++ [.tick 1]) = .ok d ∧ decide (valueAt path124 d.w = some 229) = true :=
  ⟨ok_of_any (P := fun d : Daemon => decide (valueAt path124 d.w = some 102)) (by decide +kernel),
   ok_of_any (P := fun d : Daemon => decide (valueAt path124 d.w = some 178)) (by decide +kernel),
   ok_of_any (P := fun d : Daemon => decide (valueAt path124 d.w = some 229)) (by decide +kernel)⟩

/-- … and all hypotheses hold for the first and the last of them -/
example : ∃ d d' u u', run124 (cool124 ++ [.tick 1]) = .ok d ∧ run124 (alarm124 ++ [.tick 1]) = .ok d' ∧
    valueAt path124 d.w = some u ∧ valueAt path124 d'.w = some u' ∧ u ≤ u' := by
  obtain ⟨d2, h, _⟩ := ok_of_any (x := run124 (cool124 ++ [.tick 1])) (P := fun _ : Daemon => true) (by decide +kernel)
  obtain ⟨d2', h', _⟩ := ok_of_any (x := run124 (alarm124 ++ [.tick 1])) (P := fun _ : Daemon => true) (by decide +kernel)
  obtain ⟨d0, hl, hat⟩ := ok_of_any (x := launch124) (P := fun d : Daemon => hotterB d.w d.w) (by decide +kernel)
  refine ⟨d2, d2', ?_⟩
  have hh := h
  have hh' := h'
  simp only [run124, hl, ok_bind] at h h'
  obtain ⟨d1, hr, h⟩ := run_append.1 h
  obtain ⟨x, ht, h⟩ := bind_eq_ok.1 h
  cases h
  obtain ⟨d1', hr', h'⟩ := run_append.1 h'
  obtain ⟨x', ht', h'⟩ := bind_eq_ok.1 h'
  cases h'
  obtain ⟨u, u', g⟩ := C124_told (o := {}) rfl rfl (i := 1) (conf := loops117) (c := zone99) (es := cool124) (es' := alarm124)
    (n := "fan0") (fc := fan106) (path := path124) (path' := path124) (show world99.trace = [] from rfl)
    (show world99.trace = [] from rfl) sensors106_wf sensors106_wf pids117_wf
    (fun e he => by
      have := (OMap.mem_entries_iff pids117_wf e.1 e.2).1 he
      unfold pids117 at this
      by_cases hi : e.1 = 1
      · rw [hi, OMap.find?_insert_self] at this
        rw [← Option.some.inj this]; exact loops117_wf
      · rw [OMap.find?_insert_ne _ hi, OMap.find?_empty] at this
        cases this)
    hl hl (by unfold pids117; rw [OMap.find?_insert_self]) (by unfold zones99; rw [OMap.find?_insert_self]) rfl
    (by
      intro e he h
      rcases loops117_mem he with rfl | rfl <;> exact absurd h (by decide))
    (by
      intro f hf hff
      rcases loops117_mem hf with rfl | rfl
      · exact ⟨⟨rfl, by decide +kernel, by decide +kernel, by decide +kernel⟩, by decide +kernel⟩
      · exact absurd hff (by decide))
    (by
      intro f hf hff
      rcases loops117_mem hf with rfl | rfl
      · decide +kernel
      · exact absurd hff (by decide))
    (by
      intro e he
      rcases loops117_mem he with rfl | rfl <;> decide +kernel)
    (by decide +kernel) hr hr' rfl (fun _ _ h => h) (hotter124 hat)
    (hotter124_of (by decide +kernel) hl) rfl ht ht' fanOn106 fanOn106 rfl rfl
    (by
      intro e he
      simp only [cool124, List.mem_cons, List.not_mem_nil, or_false] at he
      rcases he with rfl | rfl | rfl | rfl | rfl | rfl | rfl | rfl <;> trivial)
    (by
      intro e he
      simp only [alarm124, List.mem_cons, List.not_mem_nil, or_false] at he
      rcases he with rfl | rfl | rfl | rfl | rfl | rfl | rfl | rfl | rfl | rfl <;> trivial)
    ⟨("fans", loop99 "fan" "fan0" 0 1 0), (OMap.mem_entries_iff loops117_wf _ _).2 (by
      unfold loops117
      rw [OMap.find?_insert_ne _ (by decide), OMap.find?_insert_self]), by decide, { name := "fan0" }, List.mem_cons_self, rfl⟩
    (by unfold OneLoop; decide +kernel)
  exact ⟨u, u', hh, hh', g⟩

/-- **C124** Without the condition on the hysteresis this is false. The same stepwise loop sees 68 and then 70 degrees in one run
and has the fans at full speed (255); in the other it sees 69 and then 70 degrees and leaves them at 60 percent (153), since
70 is within the hysteresis around 69. -/
theorem C124_hysteresis :
    (∃ d, run103 [.signal "cpu" 1 (temp103 68), .tick 1, .tick 1, .tick 1, .signal "cpu" 1 (temp103 70), .tick 1, .tick 1, .tick 1]
      = .ok d ∧ decide (d.w.trace.getLast? = some (.sysfsWrite "/sys/class/hwmon/pwm1" 255)) = true) ∧
    ∃ d, run103 [.signal "cpu" 1 (temp103 69), .tick 1, .tick 1, .tick 1, .signal "cpu" 1 (temp103 70), .tick 1, .tick 1, .tick 1]
      = .ok d ∧ decide (d.w.trace.getLast? = some (.sysfsWrite "/sys/class/hwmon/pwm1" 153)) = true :=
  ⟨ok_of_any (P := fun d : Daemon => decide (d.w.trace.getLast? = some (.sysfsWrite "/sys/class/hwmon/pwm1" 255)))
    (by decide +kernel),
   ok_of_any (P := fun d : Daemon => decide (d.w.trace.getLast? = some (.sysfsWrite "/sys/class/hwmon/pwm1" 153)))
    (by decide +kernel)⟩

end
end Ex
end Verif
