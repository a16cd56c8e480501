import Verif.Lemmas.Steady
import Verif.Props.Hotter

/-! # The steady state -/

namespace Verif
open Dbl

section
variable [F : FloatModel]

/-- what a thermal pass in the steady state means for the set point, in a zone that accumulates if `a` says so -/
def PassMeans (o : Opts) (conf : List Entry) (on : String → Bool) (val : String → Dbl) (a : Bool) (min : Dbl) (P : Dbl → Prop) : Prop :=
  ∀ {ct : CycleTime} {ti : List String} {fk : List (Option (List String × PidConf))} {w : World} {z zt : Zone},
    (∀ e ∈ conf, IsHeat e → ∀ j ∈ e.2.inputs, j.name ∈ ti) → QuietZone SteadyLoop (conf.filter IsHeat) ct ti min fk a z →
    Fine (ModeratePids conf) ti w → (∀ e ∈ conf, IsHeat e → switchOf z.d e.1 = some (on e.1)) →
    (∀ e ∈ conf, HasSay on e → ∀ v, LoopInput w e.2 v → v = val e.1) → z.processThermals o w = .ok zt → P zt.d.maximumSetPoint

/-- a thermal pass in the steady state -/
theorem steady_pass {conf : List Entry} {on : String → Bool} {val : String → Dbl} {min : Dbl} {o : Opts}
    (ho : o.tuningEnabled = false) (hml : ∀ e ∈ conf, HasSay on e → Memoryless e.2) :
    PassMeans o conf on val false min (SteadyPoint conf on val min) := by
  intro ct ti fk w z zt hti hz hq hsw hin h
  obtain ⟨d, subs, h1, h2, h3⟩ := thermals_arbitrated ho hz.acc h
  have hqd := hq z.d d hz.inputs h1
  have hti' : ∀ e ∈ conf, IsHeat e → ∀ j ∈ e.2.inputs, j.name ∈ z.d.thermalInputs := fun e he hh j hj => by
    rw [hz.inputs]; exact hti e he hh j hj
  have hheats : ∀ e ∈ conf.filter IsHeat, e ∈ conf ∧ IsHeat e := fun e he => by
    obtain ⟨a, b⟩ := List.mem_filter.1 he
    exact ⟨a, by simpa using b⟩
  have hask : ∀ e ∈ conf, HasSay on e → ∀ c v c', SteadyLoop e c → CtlOut d c v c' → AsksAt e.2 (val e.1) v ∧ v ≠ nan := by
    intro e he hs c v c' hc hco
    obtain ⟨x, a1, a2, a3⟩ := steadyLoop_asks he hs.1 (hml e he hs) h1 (hti' e he hs.1) hqd hc hco
    rw [← hin e he hs x a1]
    exact ⟨a2, a3⟩
  have hen : ∀ e ∈ conf, IsHeat e → (Enabled z.d e.1 ↔ on e.1 = true) := by
    intro e he hh
    have := hsw e he hh
    unfold switchOf at this
    unfold Enabled
    cases hp : z.d.procs.find? e.1 with
    | none => rw [hp] at this; cases this
    | some p =>
      rw [hp] at this
      have := Option.some.inj this
      rw [← this]
      exact ⟨fun ⟨q, h, h'⟩ => by cases h; exact h', fun h => ⟨p, rfl, h⟩⟩
  -- the submissions of the loops
  have hsub : ∀ s ∈ subs, ∃ e ∈ conf, IsHeat e ∧ ∃ v, (¬ SetsCeiling e ∧ s = .setPoint e.1 v ∨ SetsCeiling e ∧ s = .ceiling v) ∧
      (HasSay on e → AsksAt e.2 (val e.1) v ∧ v ≠ nan) := by
    intro s hs
    obtain ⟨c, hc, v, c', hco, hcs⟩ := forall₂_right h2 hs
    obtain ⟨e, he, hl⟩ := forall₂_right hz.loops hc
    obtain ⟨he1, he2⟩ := hheats e he
    refine ⟨e, he1, he2, v, ?_, fun hsay => hask e he1 hsay c v c' hl hco⟩
    rcases hcs with ⟨a, b⟩ | ⟨a, b⟩
    · exact .inl ⟨hl.ceiling.1 a, by rw [b, hl.id]⟩
    · exact .inr ⟨not_not.1 (fun hn => a (hl.ceiling.2 hn)), b⟩
  have hof : ∀ e ∈ conf, IsHeat e → ∃ s ∈ subs, ∃ v, (¬ SetsCeiling e ∧ s = .setPoint e.1 v ∨ SetsCeiling e ∧ s = .ceiling v) ∧
      (HasSay on e → AsksAt e.2 (val e.1) v ∧ v ≠ nan) := by
    intro e he hh
    obtain ⟨c, hc, hl⟩ := forall₂_left hz.loops (List.mem_filter.2 ⟨he, by simpa using hh⟩)
    obtain ⟨s, hs, v, c', hco, hcs⟩ := forall₂_left h2 hc
    refine ⟨s, hs, v, ?_, fun hsay => hask e he hsay c v c' hl hco⟩
    rcases hcs with ⟨a, b⟩ | ⟨a, b⟩
    · exact .inl ⟨hl.ceiling.1 a, by rw [b, hl.id]⟩
    · exact .inr ⟨not_not.1 (fun hn => a (hl.ceiling.2 hn)), b⟩
  have hreq : ∀ x, (x ≠ nan ∧ Requested z.d subs x) ↔ ∃ e ∈ conf, HasSay on e ∧ ¬ SetsCeiling e ∧ AsksAt e.2 (val e.1) x := by
    intro x
    constructor
    · rintro ⟨hx, n, hs, hE⟩
      obtain ⟨e, he, hh, v, hv, hsay⟩ := hsub _ hs
      rcases hv with ⟨a, b⟩ | ⟨a, b⟩
      · cases b
        have hS : HasSay on e := ⟨hh, .inr ((hen e he hh).1 hE)⟩
        exact ⟨e, he, hS, a, (hsay hS).1⟩
      · cases b
    · rintro ⟨e, he, hS, hc, hA⟩
      obtain ⟨s, hs, v, hv, hsay⟩ := hof e he hS.1
      obtain ⟨k1, k2⟩ := hsay hS
      rcases hv with ⟨a, b⟩ | ⟨a, b⟩
      · cases k1.unique hA
        subst b
        exact ⟨k2, e.1, hs, (hen e he hS.1).2 (hS.2.resolve_left hc)⟩
      · exact absurd a hc
  have hcei : ∀ x, CeilingOf subs x → x ≠ nan ∧ ∃ e ∈ conf, IsHeat e ∧ SetsCeiling e ∧ AsksAt e.2 (val e.1) x := by
    intro x hx
    obtain ⟨e, he, hh, v, hv, hsay⟩ := hsub _ hx
    rcases hv with ⟨a, b⟩ | ⟨a, b⟩
    · cases b
    · cases b
      obtain ⟨k1, k2⟩ := hsay ⟨hh, .inl a⟩
      exact ⟨k2, e, he, hh, a, k1⟩
  have hcei' : ∀ x, (∃ e ∈ conf, IsHeat e ∧ SetsCeiling e ∧ AsksAt e.2 (val e.1) x) → CeilingOf subs x := by
    rintro x ⟨e, he, hh, hc, hA⟩
    obtain ⟨s, hs, v, hv, hsay⟩ := hof e he hh
    rcases hv with ⟨a, b⟩ | ⟨a, b⟩
    · exact absurd hc a
    · cases (hsay ⟨hh, .inl hc⟩).1.unique hA
      subst b
      exact hs
  obtain ⟨req, cap, k1, k2, k3⟩ := h3 (fun hn => (hcei _ hn).1 rfl)
  refine ⟨req, cap, k1.congr (fun x => or_congr_right (hreq x)), k2.congr (fun x => or_congr_right
    ⟨fun hx => (hcei x hx.2).2, fun hx => ⟨(hcei x (hcei' x hx)).1, hcei' x hx⟩⟩), ?_⟩
  rw [hz.minimum] at k3
  exact k3

/-- the set point in the steady state -/
theorem steady_core {o : Opts} (ho : o.tuningEnabled = false) {bus : BuildBus} {now : Int} {w : World}
    {sensors : OMap String SensorConfig} {pids : OMap Int PIDConf} {configs : OMap Int ZoneConfig} (hw : pids.WF)
    (hc : ∀ e ∈ pids.entries, OMap.WF e.2) {d0 : Daemon} (hl : Daemon.launch o bus now w sensors pids configs = .ok d0)
    {i : Int} {conf : PIDConf} {c : ZoneConfig} (hp : pids.find? i = some conf) (hcc : configs.find? i = some c)
    {on : String → Bool} {val : String → Dbl} {P : Dbl → Prop}
    (hP : PassMeans o conf.entries on val c.accumulateSetPoint c.minThermalOutput P)
    (hF : 1 ≤ c.cycleTime.cycleIntervalTimeMS)
    {pre post : List DEvent} {d1 d2 d3 : Daemon} (hr1 : d0.run o pre = .ok d1) (hr2 : d1.run o post = .ok d2)
    (hmod : ∀ e ∈ conf.entries, IsPid e.2.type → Memoryless e.2 → ModerateInput o e.2 d0 (pre ++ post))
    (hst : SteadyThroughout o i conf.entries on val pre d1 (post ++ [.tick i]))
    (hn : (c.cycleTime.updateThermalsTimeMS + c.cycleTime.cycleIntervalTimeMS - 1) / c.cycleTime.cycleIntervalTimeMS ≤
      autoTicks i (modeAfter i false pre) post)
    (hm : modeAfter i false (pre ++ post) = false) (ht : d2.step o (.tick i) = .ok d3) :
    ∃ (zb z1 z2 z3 : Zone) (cnt1 cnt2 cnt3 : Nat) (log : List Poll), NewZone i c conf.entries zb ∧
      d1.zones.find? i = some (z1, cnt1) ∧ z1.d.manualMode = modeAfter i false pre ∧ Hist o zb.d z1 cnt1 log ∧
      d2.zones.find? i = some (z2, cnt2) ∧ z2.d.manualMode = false ∧ z2.tick o d2.w cnt2 = .ok (d3.w, z3, cnt3) ∧
      z2.fans.map (Option.map fanKey) = (conf.entries.filter IsFan).map (fun f => Option.map fanKey (fanOf f)) ∧
      P z3.d.maximumSetPoint := by
  obtain ⟨m, zones, hL⟩ := launch_spec hl
  obtain ⟨zb, c', hzb, hc', hN⟩ := (C64_zones hw hc hL.built i).1 conf hp
  rw [hcc] at hc'
  cases hc'
  obtain ⟨z0, hz0, hf0⟩ := hL.started i zb hzb
  -- recovery
  have hh0 := C80_hist hw hL.built hzb hz0
  obtain ⟨hm0, hfa0⟩ := start_flags hz0
  rw [hN.manualMode] at hm0
  obtain ⟨z1, cnt1, log1, hz1, hh1, hm1, hfa1⟩ := mode_run hr1 hf0 hh0
  rw [hm0] at hm1
  obtain ⟨z2, cnt2, log2, hz2, hh2, hm2, hfa2⟩ := mode_run hr2 hz1 hh1
  have hmode : z2.d.manualMode = false := by rw [hm2, hm1, ← modeAfter_append]; exact hm
  -- the loops
  have hti : ∀ e ∈ conf.entries, IsHeat e → ∀ j ∈ e.2.inputs, j.name ∈ zb.d.thermalInputs :=
    fun e he hh j hj => (hN.thermalInputs_mem _).2 ⟨e, he, hh, j, hj, rfl⟩
  have hfine : FineThroughout (ModeratePids conf.entries) zb.d.thermalInputs o d0 (pre ++ post) := by
    intro es1 es2 d hes hr z zd hz hu e he hh hme x y1 y2 v hpo hca hio
    have := pid_sees hpo hu (by rw [hz]; exact hti e he hh) hca hio
    cases this with
    | pid hp hs => exact hmod e he hp hme es1 es2 d hes hr v hs
    | stepwise h =>
      have := hpo.kind.isPid
      rw [h] at this
      rcases this with h | h | h | h <;> exact absurd h (by decide)
  have hfine1 : FineThroughout (ModeratePids conf.entries) zb.d.thermalInputs o d1 post := fun es1 es2 d h hr =>
    hfine (pre ++ es1) es2 d (by rw [h, List.append_assoc]) (run_append.2 ⟨d1, hr1, hr⟩)
  have hheats : ∀ e ∈ conf.entries.filter IsHeat, e ∈ conf.entries ∧ IsHeat e := fun e he => by
    obtain ⟨a, b⟩ := List.mem_filter.1 he
    exact ⟨a, by simpa using b⟩
  have hR : ∀ z, ∀ e ∈ conf.entries.filter IsHeat, ∀ c v c', ModeratePids conf.entries z → SteadyLoop e c → CtlOut z c v c' →
      SteadyLoop e c' :=
    fun z e he c v c' hq hr hout => steadyLoop_out (hheats e he).1 (hheats e he).2 hq hr hout
  have hsw0 : ∀ e ∈ conf.entries, IsHeat e → switchOf z0.d e.1 = some true := by
    intro e he hh
    have h1 := thermals_switch (show Zone.processThermals o d0.w _ = .ok z0 from hz0) e.1
    rw [h1]
    unfold switchOf
    dsimp only
    rw [(initializeCache_spec zb.d).eq]
    rw [(hN.processes e.1 _).2 ⟨e, he, hh, rfl, rfl⟩]
    rfl
  have hq0 : QuietZone SteadyLoop (conf.entries.filter IsHeat) c.cycleTime zb.d.thermalInputs c.minThermalOutput
      (zb.fans.map (Option.map fanKey)) c.accumulateSetPoint z0 := by
    have eq := (initializeCache_spec zb.d).eq
    have e1 : zb.d.initializeCache.accumulateSetPoint = zb.d.accumulateSetPoint := by rw [eq]
    have e2 : zb.d.initializeCache.cycleTime = zb.d.cycleTime := by rw [eq]
    have e3 : zb.d.initializeCache.thermalInputs = zb.d.thermalInputs := by rw [eq]
    have e4 : zb.d.initializeCache.minThermalOutputSetPt = zb.d.minThermalOutputSetPt := by rw [eq]
    refine (QuietZone.thermals (z := { zb with d := zb.d.initializeCache }) ho hR ?_ (hfine [] _ d0 rfl rfl) hz0).1
    exact ⟨e1.trans hN.accumulateSetPoint, e2.trans hN.cycleTime, e3, e4.trans hN.minThermalOutput,
      hN.thermals.imp (fun _ _ h => steadyLoop_start h), rfl⟩
  obtain ⟨z1', cnt1', hz1', hq1⟩ := quietZone_run ho hR hr1 hf0 hq0
    (fun es1 es2 d h hr => hfine es1 (es2 ++ post) d (by rw [h, List.append_assoc]) hr)
  rw [hz1] at hz1'
  cases hz1'
  -- what passes give
  have hpass : ∀ (es1 es2 : List DEvent) (d : Daemon) (z : Zone) (cnt : Nat) (p : ZoneData) (zt : Zone),
      post ++ [.tick i] = es1 ++ .tick i :: es2 → d1.run o es1 = .ok d → d.zones.find? i = some (z, cnt) → p.procs = z.d.procs →
      QuietZone SteadyLoop (conf.entries.filter IsHeat) c.cycleTime zb.d.thermalInputs c.minThermalOutput
        (zb.fans.map (Option.map fanKey)) c.accumulateSetPoint { z with d := p } → Zone.processThermals o d.w { z with d := p } = .ok zt →
      P zt.d.maximumSetPoint := by
    intro es1 es2 d z cnt p zt hes hr hz hpp hqz hth
    have hpre : ∃ es3, pre ++ post = (pre ++ es1) ++ es3 := by
      rcases List.append_eq_append_iff.1 hes with ⟨as, h1, h2⟩ | ⟨bs, h1, h2⟩
      · cases as with
        | nil => exact ⟨[], by rw [h1]; simp⟩
        | cons a as => cases as <;> simp at h2
      · exact ⟨bs, by rw [h1, List.append_assoc]⟩
    obtain ⟨es3, h3⟩ := hpre
    have hrr : d0.run o (pre ++ es1) = .ok d := run_append.2 ⟨d1, hr1, hr⟩
    have hsd := hst es1 es2 d hes hr
    refine hP hti hqz (hfine (pre ++ es1) es3 d h3 hrr) (fun e he hh => ?_) (fun e he hs => (hsd e he hs.1).2 hs) hth
    obtain ⟨zz, cc, g1, g2⟩ := switch_run (k := e.1) hrr hf0 (hsw0 e he hh)
    rw [hz] at g1
    cases g1
    rw [(hsd e he hh).1] at g2
    unfold switchOf at g2 ⊢
    dsimp only
    rw [hpp]
    exact g2
  obtain ⟨z2', cnt2', hz2', hq2, hd2⟩ := settle_run ho hR (P := P) (k := 0) hr2 hz1
    hq1 hfine1 (fun es1 es2 d z cnt p zt h => hpass es1 (es2 ++ [.tick i]) d z cnt p zt (by rw [h]; simp)) (.inr (by simp))
  rw [hz2] at hz2'
  cases hz2'
  -- the cycle
  simp only [Daemon.step, hz2] at ht
  obtain ⟨⟨w', z3, cnt3⟩, htk, ht⟩ := bind_eq_ok.1 ht
  cases ht
  rw [hm1, Nat.zero_add] at hd2
  have hsp : P z3.d.maximumSetPoint := by
    rcases (hq2.tick_cases ho hR (hfine (pre ++ post) [] d2 (by simp) (run_append.2 ⟨d1, hr1, hr2⟩)) hmode htk).2 with
      ⟨_, p, zt, q3, q4, q5, q6⟩ | ⟨hT, q3, q4⟩
    · rw [q6]; exact hpass post [] d2 z2 cnt2 p zt rfl hr2 hz2 q3 q4 q5
    · rw [q3]; exact hd2.resolve_right (fun h => hT (due_after hF hn h))
  refine ⟨zb, z1, z2, z3, cnt1, cnt2, cnt3, log1, hN, hz1, hm1, hh1, hz2, hmode, htk, ?_, hsp⟩
  have := hq2.fans
  rw [hN.fans, List.map_map] at this
  exact this

/-- **C125** Whatever happened before, in the steady state the fans get exactly what the configuration says. A launched daemon has
run for some time. From then on the switches of the loops of a zone stay as they are, every loop that has a say sees the same
input at every expiry of the timer, and nothing that the zone needs fails. After ceil(T/F) automatic cycles every further one
commands every fan loop the percentage that follows from these inputs by the tables, the proportional parts, the ceilings and
the minimum of the configuration, within the limits of the fan loop. The loops with a say have no memory, and the inputs of the
PIDs among them have been of moderate size; the zone does not add up set points; the fan loops hand their set point on. -/
theorem C125_exact {o : Opts} (ho : o.tuningEnabled = false) {bus : BuildBus} {now : Int} {w : World}
    {sensors : OMap String SensorConfig} {pids : OMap Int PIDConf} {configs : OMap Int ZoneConfig} (hw : pids.WF)
    (hc : ∀ e ∈ pids.entries, OMap.WF e.2) {d0 : Daemon} (hl : Daemon.launch o bus now w sensors pids configs = .ok d0)
    {i : Int} {conf : PIDConf} {c : ZoneConfig} (hp : pids.find? i = some conf) (hcc : configs.find? i = some c)
    (hacc : c.accumulateSetPoint = false) {on : String → Bool} {val : String → Dbl}
    (hml : ∀ e ∈ conf.entries, HasSay on e → Memoryless e.2)
    (hfan : ∀ f ∈ conf.entries, IsFan f → HandsOn f.2.pidInfo) (hF : 1 ≤ c.cycleTime.cycleIntervalTimeMS)
    {pre post : List DEvent} {d1 d2 d3 : Daemon} (hr1 : d0.run o pre = .ok d1) (hr2 : d1.run o post = .ok d2)
    (hmod : ∀ e ∈ conf.entries, IsPid e.2.type → Memoryless e.2 → ModerateInput o e.2 d0 (pre ++ post))
    (hst : SteadyThroughout o i conf.entries on val pre d1 (post ++ [.tick i]))
    (hwork : WorkThroughout o i conf.entries d1 (post ++ [.tick i]))
    (hn : (c.cycleTime.updateThermalsTimeMS + c.cycleTime.cycleIntervalTimeMS - 1) / c.cycleTime.cycleIntervalTimeMS ≤
      autoTicks i (modeAfter i false pre) post)
    (hm : modeAfter i false (pre ++ post) = false) (ht : d2.step o (.tick i) = .ok d3) :
    ∃ m, SteadyPoint conf.entries on val c.minThermalOutput m ∧ FansGet conf.entries m d2.w d3.w := by
  obtain ⟨zb, z1, z2, z3, cnt1, cnt2, cnt3, log1, hN, hz1, hm1, hh1, hz2, hmode, htk, hfans, hsp⟩ :=
    steady_core ho hw hc hl hp hcc (by rw [hacc]; exact steady_pass ho hml) hF hr1 hr2 hmod hst hn hm ht
  obtain ⟨z2', cnt2', hz2', hfl⟩ := working_run (fun n => (required_new hN n).1) hr2 hz1 .start
    (fun es1 es2 d he hr => hwork es1 (es2 ++ [.tick i]) d (by rw [he]; simp) hr)
  rw [hz2] at hz2'
  cases hz2'
  rw [hm1, Nat.zero_add] at hfl
  refine ⟨_, hsp, ?_⟩
  have f := hwork post [] d2 rfl hr2
  obtain ⟨-, l, b, g1, g2, g3⟩ := C102_zone hh1 hfl (by rw [hN.cycleTime]; exact hF) (by rw [hN.cycleTime]; exact hn) hmode
    (fun s hs => f s ((required_new hN s).1 hs)) htk
  refine ⟨l, b, g2, ?_⟩
  have hkeys : (conf.entries.filter IsFan).map (fun f => Option.map fanKey (fanOf f)) = l.map (fun x => some (fanKey x.1)) := by
    rw [g1, List.map_map] at hfans
    exact hfans.symm
  refine (forall₂_of_map hkeys).imp (fun fe x ⟨q1, q2, q3⟩ => ?_)
  obtain ⟨a, b'⟩ := List.mem_filter.1 q1
  have hk : fe.2.inputs.map SensorInput.name = x.1.inputs ∧ fe.2.pidInfo = x.1.ctl.info.toPidConf := by
    simp only [fanOf] at q3
    split_ifs at q3
    · cases q3
    · have := Option.some.inj q3
      exact ⟨congrArg Prod.fst this, congrArg Prod.snd this⟩
  refine ⟨hk.1, ?_⟩
  rintro ⟨mm, k1, k2⟩
  have hnn : x.2 ≠ nan := fun hv => k2 (drives_nan g2 x q2 hv mm k1)
  obtain ⟨input, _, hv⟩ := g3 x q2
  rw [hv] at hnn ⊢
  have := handsOn_out (by rw [← hk.2]; exact hfan fe a (by simpa using b')) (div_ne_nan_left hnn)
  rw [this, hk.2]
  rfl

/-- **C125** There is only one such set point. -/
theorem C125_unique {conf : List Entry} {on : String → Bool} {val : String → Dbl} {min m m' : Dbl}
    (h : SteadyPoint conf on val min m) (h' : SteadyPoint conf on val min m') : m = m' := h.unique h'

/-- **C125** So two daemons with the same zone in the same steady state command the same, however they got there: launched with
other sensors, on another board, with another past. In particular a daemon does not change its commands while the readings
stay. -/
theorem C125_forgets {o : Opts} (ho : o.tuningEnabled = false) {bus bus' : BuildBus} {now now' : Int} {w w' : World}
    {sensors sensors' : OMap String SensorConfig} {pids pids' : OMap Int PIDConf} {configs configs' : OMap Int ZoneConfig}
    (hw : pids.WF) (hc : ∀ e ∈ pids.entries, OMap.WF e.2) (hw' : pids'.WF) (hc' : ∀ e ∈ pids'.entries, OMap.WF e.2)
    {d0 d0' : Daemon} (hl : Daemon.launch o bus now w sensors pids configs = .ok d0)
    (hl' : Daemon.launch o bus' now' w' sensors' pids' configs' = .ok d0') {i : Int} {conf : PIDConf} {c : ZoneConfig}
    (hp : pids.find? i = some conf) (hcc : configs.find? i = some c) (hp' : pids'.find? i = some conf)
    (hcc' : configs'.find? i = some c) (hacc : c.accumulateSetPoint = false) {on : String → Bool} {val : String → Dbl}
    (hml : ∀ e ∈ conf.entries, HasSay on e → Memoryless e.2)
    (hfan : ∀ f ∈ conf.entries, IsFan f → HandsOn f.2.pidInfo) (hF : 1 ≤ c.cycleTime.cycleIntervalTimeMS)
    {d2 d3 d2' d3' : Daemon} (hs : SteadyFor o i conf.entries c.cycleTime on val d0 d2)
    (hs' : SteadyFor o i conf.entries c.cycleTime on val d0' d2') (ht : d2.step o (.tick i) = .ok d3)
    (ht' : d2'.step o (.tick i) = .ok d3') :
    ∃ m, SteadyPoint conf.entries on val c.minThermalOutput m ∧ FansGet conf.entries m d2.w d3.w ∧
      FansGet conf.entries m d2'.w d3'.w := by
  obtain ⟨pre, post, d1, a1, a2, a3, a4, a5, a6, a7⟩ := hs
  obtain ⟨pre', post', d1', b1, b2, b3, b4, b5, b6, b7⟩ := hs'
  obtain ⟨m, g1, g2⟩ := C125_exact ho hw hc hl hp hcc hacc hml hfan hF a1 a2 a3 a4 a5 a6 a7 ht
  obtain ⟨m', g1', g2'⟩ := C125_exact ho hw' hc' hl' hp' hcc' hacc hml hfan hF b1 b2 b3 b4 b5 b6 b7 ht'
  cases g1.unique g1'
  exact ⟨m, g1, g2, g2'⟩

/-- **C125** A fan of the zone that has its D-Bus object or file for itself, and is listed by one fan loop only, is told exactly
what its configuration makes of this percentage. -/
theorem C125_told {o : Opts} (ho : o.tuningEnabled = false) {bus : BuildBus} {now : Int} {w : World} (htr : w.trace = [])
    {sensors : OMap String SensorConfig} (hws : sensors.WF) {pids : OMap Int PIDConf} {configs : OMap Int ZoneConfig} (hw : pids.WF)
    (hc : ∀ e ∈ pids.entries, OMap.WF e.2) {d0 : Daemon} (hl : Daemon.launch o bus now w sensors pids configs = .ok d0)
    {i : Int} {conf : PIDConf} {c : ZoneConfig} (hp : pids.find? i = some conf) (hcc : configs.find? i = some c)
    (hacc : c.accumulateSetPoint = false) {on : String → Bool} {val : String → Dbl}
    (hml : ∀ e ∈ conf.entries, HasSay on e → Memoryless e.2)
    (hfan : ∀ f ∈ conf.entries, IsFan f → HandsOn f.2.pidInfo) (hF : 1 ≤ c.cycleTime.cycleIntervalTimeMS)
    {pre post : List DEvent} {d1 d2 d3 : Daemon} (hr1 : d0.run o pre = .ok d1) (hr2 : d1.run o post = .ok d2)
    (hmod : ∀ e ∈ conf.entries, IsPid e.2.type → Memoryless e.2 → ModerateInput o e.2 d0 (pre ++ post))
    (hst : SteadyThroughout o i conf.entries on val pre d1 (post ++ [.tick i]))
    (hwork : WorkThroughout o i conf.entries d1 (post ++ [.tick i]))
    (hn : (c.cycleTime.updateThermalsTimeMS + c.cycleTime.cycleIntervalTimeMS - 1) / c.cycleTime.cycleIntervalTimeMS ≤
      autoTicks i (modeAfter i false pre) post)
    (hm : modeAfter i false (pre ++ post) = false) (ht : d2.step o (.tick i) = .ok d3)
    {n path : String} {fc : SensorConfig} (hfo : FanOn bus.dirs sensors n fc path) (hb : w.busOk path = true)
    (hbs : ∀ e ∈ pre ++ post, BusWorks path e) {f : Entry} (hf : f ∈ conf.entries) (hff : IsFan f)
    (hin : ∃ x ∈ f.2.inputs, x.name = n) (hone : OneLoop conf.entries n)
    (hlim : 0 ≤ f.2.pidInfo.outLim.min ∧ f.2.pidInfo.outLim.min ≤ f.2.pidInfo.outLim.max) :
    ∃ m u, SteadyPoint conf.entries on val c.minThermalOutput m ∧ valueAt path d3.w = some u ∧
      rawCommand (limitsOf fc) (limited m f.2.pidInfo.outLim.min f.2.pidInfo.outLim.max / 100) = some u := by
  obtain ⟨m, g1, l, b, g2, g3⟩ := C125_exact ho hw hc hl hp hcc hacc hml hfan hF hr1 hr2 hmod hst hwork hn hm ht
  have hfa := fanAt_run (run_append.2 ⟨d1, hr1, hr2⟩) hbs
    (fanAt_launched hws hl hfo.configured hfo.fan hfo.written hfo.only hb htr)
  have hnf : n ∈ f.2.inputs.map SensorInput.name := by
    obtain ⟨x, hx, rfl⟩ := hin
    exact List.mem_map.2 ⟨x, hx, rfl⟩
  have hmemf : f ∈ conf.entries.filter IsFan := List.mem_filter.2 ⟨hf, by simpa using hff⟩
  obtain ⟨x0, hx0, hk0, _⟩ := forall₂_left g3 hmemf
  obtain ⟨x, hx, hxn, raw, hraw, hval⟩ := (fanAt_drives g2 hfa).2.2 ⟨x0, hx0, by rw [← hk0]; exact hnf⟩
  have hv := one_match (f := fun f : Entry => f.2.inputs.map SensorInput.name) (g := fun x : FanPid × Dbl => x.1.inputs) g3
    hone f hmemf x hx hnf hxn
  have htn : targetOf d2.w n ≠ none := by
    obtain ⟨s, rd, wr, hs, hi, hwr⟩ := hfa.fan
    unfold targetOf
    rw [hs]
    dsimp only
    rw [hi]
    dsimp only
    rw [hwr.target]
    simp
  have hx2 := hv ⟨n, hxn, htn⟩
  have hnn : x.2 ≠ nan := fun hv => htn (drives_nan g2 x hx hv n hxn)
  have h0 : 0 ≤ x.2 := by
    rw [hx2] at hnn ⊢
    have := div_ne_nan_left hnn
    refine percent_nonneg ?_
    unfold limited at this ⊢
    split_ifs at this ⊢ with q1 q2
    · exact hlim.1
    · exact Dbl.le_trans hlim.1 hlim.2
    · exact Dbl.le_trans hlim.1 (Dbl.le_of_not_lt (Dbl.ne_nan_of_le_right hlim.1) this q1)
  obtain ⟨s, hs1, hs2, _⟩ := rawCommand_mono hfo.limits h0 (Dbl.le_refl hnn) hraw
  rw [hs1] at hraw
  cases hraw
  refine ⟨m, raw, g1, hval (by omega), ?_⟩
  rw [← hx2]
  exact hs1

end

namespace Ex
section
attribute [local instance] binary64

/-- 2 % per degree above 80 -/
def temps125 : ControllerInfo := loop99 "temp" "cpu" (-2) 0 90
/-- a ceiling: not more than 50 %, and not more than 25 % from 90 degrees on -/
def cap125 : ControllerInfo :=
  { loop99 "stepwise" "cpu" 0 0 90 with
    stepwiseInfo :=
      { ts := 1
        reading := fun i => if i.1 = 0 then 30 else if i.1 = 1 then 90 else nan
        output := fun i => if i.1 = 0 then 50 else if i.1 = 1 then 25 else nan
        positiveHysteresis := 0, negativeHysteresis := 0, isCeiling := true } }
def loops125 : PIDConf :=
  ((({} : PIDConf).insert "fans" (loop99 "fan" "fan0" 0 1 0)).insert "temps" temps125).insert "cap" cap125
def pids125 : OMap Int PIDConf := ({} : OMap Int PIDConf).insert 1 loops125
def launch125 : Res Daemon := Daemon.launch {} bus103 0 world99 sensors106 pids125 zones99
def run125 (es : List DEvent) : Res Daemon := do
  let d ← launch125
  d.run {} es

/-- a daemon that just started -/
def short125 : List DEvent := [.signal "cpu" 1 (temp103 95)]
/-- one with cold times, an alarm, manual mode and a disabled loop behind it -/
def long125 : List DEvent := [.signal "cpu" 1 (temp103 40), .tick 1, .tick 1, .tick 1, .signal "cpu" 2 (alarm99 true), .manual 1 true,
  .tick 1, .enable 1 "temps" false, .manual 1 false, .tick 1, .signal "cpu" 3 (alarm99 false), .signal "cpu" 4 (temp103 95),
  .enable 1 "temps" true]

/-- C125: the loop asks for 30 percent at 95 degrees, the ceiling allows 25, so 63 is written, with either past -/
example : (∃ d, run125 (short125 ++ [.tick 1, .tick 1, .tick 1]) = .ok d ∧ decide (valueAt path124 d.w = some 63) = true) ∧
    (∃ d, run125 (long125 ++ [.tick 1, .tick 1, .tick 1]) = .ok d ∧ decide (valueAt path124 d.w = some 63) = true) ∧
    ∃ d, run125 long125 = .ok d ∧ decide (valueAt path124 d.w = some 51) = true :=
  ⟨ok_of_any (P := fun d : Daemon => decide (valueAt path124 d.w = some 63)) (by decide +kernel),
   ok_of_any (P := fun d : Daemon => decide (valueAt path124 d.w = some 63)) (by decide +kernel),
   ok_of_any (P := fun d : Daemon => decide (valueAt path124 d.w = some 51)) (by decide +kernel)⟩

theorem loops125_wf : loops125.WF := OMap.wf_insert (OMap.wf_insert (OMap.wf_insert OMap.wf_empty _ _) _ _) _ _
theorem pids125_wf : pids125.WF := OMap.wf_insert OMap.wf_empty _ _
theorem pids125_wfs : ∀ e ∈ pids125.entries, OMap.WF e.2 := fun e he => by
  have := (OMap.mem_entries_iff pids125_wf e.1 e.2).1 he
  unfold pids125 at this
  by_cases hi : e.1 = 1
  · rw [hi, OMap.find?_insert_self] at this
    rw [← Option.some.inj this]; exact loops125_wf
  · rw [OMap.find?_insert_ne _ hi, OMap.find?_empty] at this
    cases this

theorem loops125_mem {e : Entry} (h : e ∈ loops125.entries) :
    e = ("fans", loop99 "fan" "fan0" 0 1 0) ∨ e = ("temps", temps125) ∨ e = ("cap", cap125) := by
  have h := (OMap.mem_entries_iff loops125_wf e.1 e.2).1 h
  obtain ⟨n, x⟩ := e
  unfold loops125 at h
  dsimp only at h
  rw [OMap.find?_insert, OMap.find?_insert, OMap.find?_insert, OMap.find?_empty] at h
  split_ifs at h with h1 h2 h3
  · cases h; rw [h1]; exact .inr (.inr rfl)
  · cases h; rw [h2]; exact .inr (.inl rfl)
  · cases h; rw [h3]; exact .inl rfl

theorem temps125_memoryless : Memoryless temps125 :=
  .pid (.inl rfl) ⟨⟨rfl, by decide +kernel⟩, by decide +kernel, by decide +kernel, by decide +kernel, by decide +kernel,
    by decide +kernel, by decide +kernel, ⟨1, FloatModel.rep_one, one_eq, by norm_num, by norm_num⟩⟩ (by decide +kernel)
    (by decide +kernel)

theorem cap125_memoryless : Memoryless cap125 :=
  .table (n := 2) rfl ⟨by decide, by decide, by decide +kernel, by decide +kernel⟩
    (by
      intro i j hi hj h1 h2
      have h : i = 0 ∧ j = 1 := by omega
      obtain ⟨rfl, rfl⟩ := h
      revert hi hj
      decide +kernel)
    (by decide +kernel) rfl rfl

/-- the input of the loop is the reading -/
theorem temps125_sees {w : World} {v : Dbl} (h : Sees w temps125 v) :
    ∃ r, GivesReading w "cpu" r ∧ ((v = 80 ∧ ¬ r.isFinite = true) ∨ (v = r ∧ r.isFinite = true)) := by
  obtain ⟨rs, h1, h2⟩ := h
  cases h1 with
  | cons hr hs =>
    cases hs
    refine ⟨_, hr, ?_⟩
    rename_i r
    change InputOver temps125.type temps125.setpoint (counted temps125.type [_] [r]) v at h2
    by_cases hf : r.isFinite = true
    · rw [counted, if_pos hf, show counted temps125.type [] [] = [] from rfl,
        if_neg (fun h => absurd (show temps125.type = "margin" from h.1) (by decide))] at h2
      cases h2 with
      | largest _ h => exact .inr ⟨List.mem_singleton.1 h, hf⟩
      | smallest h => exact absurd h (by decide)
      | sum h => exact absurd h (by decide)
    · rw [counted, if_neg hf, show counted temps125.type [] [] = [] from rfl] at h2
      cases h2 with
      | nothing => exact .inl ⟨rfl, hf⟩
      | largest _ h => cases h
      | smallest h => exact absurd h (by decide)
      | sum h => exact absurd h (by decide)

/-- the input of the ceiling is the reading -/
theorem cap125_sees {w : World} {v : Dbl} (h : LoopInput w cap125 v) (hr : GivesReading w "cpu" 95) : v = 95 := by
  cases h with
  | pid h => rcases h with h | h | h | h <;> exact absurd h (by decide)
  | stepwise _ h1 h2 =>
    cases h1 with
    | cons hr' hs =>
      cases hs
      cases gives_unique hr' hr
      refine h2.unique ⟨.inr ⟨List.mem_singleton.2 rfl, by decide +kernel⟩, ?_⟩
      rintro x (rfl | ⟨hx, _⟩)
      · decide +kernel
      · rw [List.mem_singleton.1 hx]; decide +kernel

/-- a computation of `SteadyThroughout` for this zone with the processor at 95 degrees -/
def steady125B (pre : List DEvent) (d : Daemon) (es : List DEvent) : Bool :=
  (before124 1 es).all (fun a => switchAfter 1 "temps" true (pre ++ a) && switchAfter 1 "cap" true (pre ++ a) &&
    (match d.run {} a with | .ok d => readings124 "cpu" (fun r _ => decide (r = 95)) d.w d.w | .error _ => true))

theorem steady125_of {pre es : List DEvent} {d : Daemon} (h : steady125B pre d es = true) :
    SteadyThroughout {} 1 loops125.entries (fun _ => true) (fun _ => 95) pre d es := by
  intro a b d1 hes hr e he hh
  subst hes
  have := List.all_eq_true.1 h a before124_mem
  simp only [hr, Bool.and_eq_true] at this
  obtain ⟨⟨s1, s2⟩, s3⟩ := this
  obtain ⟨r, _, hg, _, hr95⟩ := readings124_of s3
  replace hr95 := of_decide_eq_true hr95
  subst hr95
  rcases loops125_mem he with rfl | rfl | rfl
  · exact absurd hh (by decide)
  · refine ⟨s1, fun _ v hv => ?_⟩
    cases hv with
    | pid _ hs =>
      obtain ⟨r, hr, ⟨_, hf⟩ | ⟨rfl, _⟩⟩ := temps125_sees hs
      · rw [gives_unique hr hg] at hf; exact absurd (by decide +kernel) hf
      · exact gives_unique hr hg
    | stepwise h => exact absurd h (by decide)
  · exact ⟨s2, fun _ v hv => cap125_sees hv hg⟩

theorem moderate125 {d : Daemon} {es : List DEvent} (h : modB "cpu" d es = true) :
    ∀ e ∈ loops125.entries, IsPid e.2.type → Memoryless e.2 → ModerateInput {} e.2 d es := by
  intro e he hp _ es1 es2 d1 hes hr v hv
  rcases loops125_mem he with rfl | rfl | rfl
  · rcases hp with h | h | h | h <;> exact absurd h (by decide)
  · obtain ⟨r, ⟨s, rr, h1, h2, rfl⟩, ⟨rfl, _⟩ | ⟨rfl, hf⟩⟩ := temps125_sees hv
    · decide +kernel
    · exact mod_of h es1 es2 d1 hes hr "cpu" (List.mem_singleton.2 rfl) s rr h1 h2 hf
  · rcases hp with h | h | h | h <;> exact absurd h (by decide)

/-- … all hypotheses of the theorem hold for the long one -/
example : ∃ d m u, run125 (long125 ++ [.tick 1, .tick 1] ++ [.tick 1]) = .ok d ∧
    SteadyPoint loops125.entries (fun _ => true) (fun _ => 95) 20 m ∧ valueAt path124 d.w = some u ∧
    rawCommand (limitsOf fan106) (limited m 0 100 / 100) = some u := by
  obtain ⟨d3, h, _⟩ := ok_of_any (x := run125 (long125 ++ [.tick 1, .tick 1] ++ [.tick 1])) (P := fun _ : Daemon => true)
    (by decide +kernel)
  obtain ⟨d1', hp, hb⟩ := ok_of_any (x := run125 long125)
    (P := fun d : Daemon => worksB 1 ["fan0", "cpu"] d ([.tick 1, .tick 1] ++ [.tick 1]) &&
      steady125B long125 d ([.tick 1, .tick 1] ++ [.tick 1])) (by decide +kernel)
  obtain ⟨d0, hl, hmo⟩ := ok_of_any (x := launch125) (P := fun d : Daemon => modB "cpu" d (long125 ++ [.tick 1, .tick 1]))
    (by decide +kernel)
  have hh := h
  simp only [run125, hl, ok_bind] at h hp
  obtain ⟨d2, hr, h⟩ := run_append.1 h
  obtain ⟨x, ht, h⟩ := bind_eq_ok.1 h
  cases h
  obtain ⟨d1, hr1, hr2⟩ := run_append.1 hr
  rw [hr1] at hp
  cases hp
  rw [Bool.and_eq_true] at hb
  have hneed : ∀ n, NeededBy loops125.entries n → n ∈ ["fan0", "cpu"] := by
    rintro n ⟨⟨e, he, _, x, hx, rfl⟩, _⟩
    have key : ∀ e ∈ loops125.entries, ∀ x ∈ e.2.inputs, x.name ∈ ["fan0", "cpu"] := by decide +kernel
    exact key e he x hx
  obtain ⟨m, u, g1, g2, g3⟩ := C125_told (o := {}) rfl (show world99.trace = [] from rfl) sensors106_wf pids125_wf pids125_wfs
    hl (i := 1) (conf := loops125) (c := zone99) (n := "fan0") (fc := fan106) (path := path124)
    (f := ("fans", loop99 "fan" "fan0" 0 1 0)) (by unfold pids125; rw [OMap.find?_insert_self])
    (by unfold zones99; rw [OMap.find?_insert_self]) rfl (on := fun _ => true) (val := fun _ => 95)
    (by
      intro e he hs
      rcases loops125_mem he with rfl | rfl | rfl
      · exact absurd hs.1 (by decide)
      · exact temps125_memoryless
      · exact cap125_memoryless)
    (by
      intro f hf hff
      rcases loops125_mem hf with rfl | rfl | rfl
      · exact ⟨rfl, by decide +kernel, by decide +kernel, by decide +kernel⟩
      · exact absurd hff (by decide)
      · exact absurd hff (by decide))
    (by decide) hr1 hr2 (moderate125 hmo) (steady125_of hb.2) (works_of hneed hb.1) (by decide) rfl ht fanOn106 rfl
    (by
      intro e he
      simp only [long125, List.cons_append, List.nil_append, List.mem_cons, List.not_mem_nil, or_false] at he
      rcases he with rfl | rfl | rfl | rfl | rfl | rfl | rfl | rfl | rfl | rfl | rfl | rfl | rfl | rfl | rfl <;> trivial)
    ((OMap.mem_entries_iff loops125_wf _ _).2 (by
      unfold loops125
      rw [OMap.find?_insert_ne _ (by decide), OMap.find?_insert_ne _ (by decide), OMap.find?_insert_self]))
    (by decide) ⟨{ name := "fan0" }, List.mem_cons_self, rfl⟩ (by unfold OneLoop; decide +kernel) (by decide +kernel)
  exact ⟨d3, m, u, hh, g1, g2, g3⟩

/-- … and the set point is the 25 percent of the ceiling -/
example : SteadyPoint loops125.entries (fun _ => true) (fun _ => 95) 20 25 := by
  have hT : ("temps", temps125) ∈ loops125.entries := (OMap.mem_entries_iff loops125_wf _ _).2 (by
    unfold loops125
    rw [OMap.find?_insert_ne _ (by decide), OMap.find?_insert_self])
  have hC : ("cap", cap125) ∈ loops125.entries := (OMap.mem_entries_iff loops125_wf _ _).2 (by
    unfold loops125
    rw [OMap.find?_insert_self])
  have aT : AsksAt temps125 95 30 := .pid (.inl rfl) (by decide +kernel)
  have aC : AsksAt cap125 95 25 := .table rfl ⟨2, ⟨by decide, by decide, by decide +kernel, by decide +kernel⟩,
    .inl ⟨1, by decide, by decide, by decide +kernel, by decide +kernel, fun j hj h1 h2 => by omega⟩⟩
  have nT : ¬ SetsCeiling ("temps", temps125) := fun h => absurd h.1 (by decide)
  refine ⟨30, 25, ⟨.inr ⟨_, hT, ⟨by decide, .inr rfl⟩, nT, aT⟩, ?_⟩, ⟨.inr ⟨_, hC, by decide, ⟨rfl, rfl⟩, aC⟩, ?_⟩, ⟨.inl rfl, ?_⟩⟩
  · rintro x (rfl | ⟨e, he, hs, hn, hx⟩)
    · decide +kernel
    · rcases loops125_mem he with rfl | rfl | rfl
      · exact absurd hs.1 (by decide)
      · rw [hx.unique aT]; decide +kernel
      · exact absurd ⟨rfl, rfl⟩ hn
  · rintro x (rfl | ⟨e, he, hh, hs, hx⟩)
    · decide +kernel
    · rcases loops125_mem he with rfl | rfl | rfl
      · exact absurd hh (by decide)
      · exact absurd hs nT
      · rw [hx.unique aC]; decide +kernel
  · rintro x (rfl | ⟨_, rfl⟩) <;> decide +kernel

end
end Ex
end Verif
