import Verif.Spec.Steady
import Verif.Lemmas.Hotter

/-! # Helper lemmas: the steady state -/

namespace Verif
variable [F : FloatModel]
open Dbl

/-! ## One thermal pass -/

/-- how a loop submits its output `v` -/
def CtlSub (c : ThermalCtl) (v : Dbl) (s : Submission) : Prop :=
  (NotCeiling c ∧ s = .setPoint c.id v) ∨ (¬ NotCeiling c ∧ s = .ceiling v)

theorem process_sub {z z' : ZoneData} {c c' : ThermalCtl} (h : c.process z = .ok (z', c')) :
    ∃ v s, CtlOut z c v c' ∧ CtlSub c v s ∧ DebugOnly (sub1 z s) z' := by
  cases c with
  | pid c =>
    obtain ⟨⟨z1, c1⟩, h1, h⟩ := bind_eq_ok.1 h
    cases h
    obtain ⟨⟨z2, input⟩, h2, h1⟩ := bind_eq_ok.1 h1
    obtain ⟨z3, h3, h1⟩ := bind_eq_ok.1 h1
    obtain ⟨z4, h4, h1⟩ := bind_eq_ok.1 h1
    cases h1
    obtain ⟨_, h3⟩ := submit_ok (s := .setPoint _ _) h3
    refine ⟨_, _, .pid rfl h2, .inl ⟨trivial, rfl⟩, ?_⟩
    have d1 := sub1_debug (inputProc_only h2) (.setPoint c.id (pidStep c.ctl c.setpoint input).1)
    have d2 := updateDebug_only h4
    subst h3
    exact d1.trans d2
  | stepwise c =>
    obtain ⟨⟨z1, c1⟩, h1, h⟩ := bind_eq_ok.1 h
    cases h
    obtain ⟨input, h2, h1⟩ := bind_eq_ok.1 h1
    dsimp only at h1
    split_ifs at h1 with hc
    · cases h1
      exact ⟨_, _, .stepwise h2, .inr ⟨fun h => (by rw [show c.info.isCeiling = false from h] at hc; cases hc), rfl⟩, .refl _⟩
    · obtain ⟨z3, h3, h1⟩ := bind_eq_ok.1 h1
      cases h1
      obtain ⟨_, h3⟩ := submit_ok (s := .setPoint _ _) h3
      refine ⟨_, _, .stepwise h2, .inl ⟨show c.info.isCeiling = false by simpa using hc, rfl⟩, ?_⟩
      rw [h3]
      exact .refl _

theorem list_subs : ∀ {cs cs' : List ThermalCtl} {z z' : ZoneData}, processThermalList z cs = .ok (z', cs') →
    ∃ subs, List.Forall₂ (fun c s => ∃ v c', CtlOut z c v c' ∧ CtlSub c v s) cs subs ∧ DebugOnly (subs.foldl sub1 z) z'
  | [], _, z, z', h => by
    cases h
    exact ⟨[], .nil, .refl _⟩
  | c :: cs, _, z, z', h => by
    unfold processThermalList at h
    obtain ⟨⟨z1, c1⟩, h1, h⟩ := bind_eq_ok.1 h
    obtain ⟨⟨z2, cs2⟩, h2, h⟩ := bind_eq_ok.1 h
    cases h
    obtain ⟨v, s, h3, h4, h5⟩ := process_sub h1
    have hc := (process_out h1).1
    obtain ⟨subs, h6, h7⟩ := list_subs h2
    exact ⟨s :: subs, .cons ⟨v, _, h3, h4⟩ (h6.imp (fun c s ⟨v, c', q, r⟩ => ⟨v, c', q.congr hc, r⟩)),
      (foldl_sub1_debug subs h5).trans h7⟩

/-- a thermal pass: the loops submit their outputs, which are then settled -/
theorem thermals_settled {o : Opts} (ho : o.tuningEnabled = false) {w : World} {z z' : Zone} (h : z.processThermals o w = .ok z') :
    ∃ (d : ZoneData) (subs : List Submission) (ids : List String), z.d.updateSensors w = .ok d ∧
      List.Forall₂ (fun c s => ∃ v c', CtlOut d c v c' ∧ CtlSub c v s) z.thermals subs ∧
      d.accumulateSetPoint = z.d.accumulateSetPoint ∧ d.minThermalOutputSetPt = z.d.minThermalOutputSetPt ∧ d.procs = z.d.procs ∧
      z'.d.maximumSetPoint = (settled ids (subs.foldl sub1 (cleared d))).maximumSetPoint := by
  unfold Zone.processThermals at h
  obtain ⟨d, h1, h⟩ := bind_eq_ok.1 h
  obtain ⟨⟨d1, ts⟩, h2, h⟩ := bind_eq_ok.1 h
  obtain ⟨d2, h3, h⟩ := bind_eq_ok.1 h
  cases h
  have e := (pollAll_spec h1).frame.eq
  have ea : d.accumulateSetPoint = z.d.accumulateSetPoint := by rw [e]
  have em : d.minThermalOutputSetPt = z.d.minThermalOutputSetPt := by rw [e]
  have ep : d.procs = z.d.procs := by rw [e]
  obtain ⟨subs, h4, h5⟩ := list_subs h2
  refine ⟨d, subs, ts.map ThermalCtl.id, h1, h4.imp (fun c s ⟨v, c', q, r⟩ =>
    ⟨v, c', q.congr (z := d) (z' := d.clearSetPoints.clearRPMCeilings) rfl, r⟩), ea, em, ep, ?_⟩
  rw [determine_eq, ho] at h3
  have h3 : settled (ts.map ThermalCtl.id) d1 = d2 := by simpa using h3
  have hd := settled_debug (ts.map ThermalCtl.id) h5
  rw [h3] at hd
  exact hd.max

/-- … if the zone does not accumulate, the set point follows the arbitration rule -/
theorem thermals_arbitrated {o : Opts} (ho : o.tuningEnabled = false) {w : World} {z z' : Zone}
    (hacc : z.d.accumulateSetPoint = false) (h : z.processThermals o w = .ok z') :
    ∃ d subs, z.d.updateSensors w = .ok d ∧
      List.Forall₂ (fun c s => ∃ v c', CtlOut d c v c' ∧ CtlSub c v s) z.thermals subs ∧
      (¬ CeilingOf subs nan → ArbitratedTo z.d subs z'.d.maximumSetPoint) := by
  obtain ⟨d, subs, ids, h1, h4, ea, em, ep, e⟩ := thermals_settled ho h
  refine ⟨d, subs, h1, h4, fun hn => ?_⟩
  have := settled_arbitrated ids (ea.trans hacc) subs (firstNum_of_no_nan hn)
  rw [e]
  unfold ArbitratedTo Requested Enabled at this ⊢
  rw [← em, ← ep]
  exact this

/-- the rule for a zone that accumulates -/
def AccumulatedTo (z : ZoneData) (subs : List Submission) (m : Dbl) : Prop :=
  ∃ req cap, Largest (fun x => x = 0 ∨ (x ≠ nan ∧ RunningSum z subs x)) req ∧
    Smallest (fun x => x = req ∨ (x ≠ nan ∧ CeilingOf subs x)) cap ∧
    Largest (fun x => x = cap ∨ (x ≠ nan ∧ x = z.minThermalOutputSetPt)) m

theorem settled_accumulated (ids : List String) {z : ZoneData} (hacc : z.accumulateSetPoint = true) (subs : List Submission)
    (hn : ¬ CeilingOf subs nan) : AccumulatedTo z subs (settled ids (subs.foldl sub1 (cleared z))).maximumSetPoint := by
  have hr := (acc_spec hacc subs).2
  have hrn := ne_nan_of_le_right (hr.2 0 (.inl rfl))
  have hc := capBy_smallest hrn (firstNum_of_no_nan hn)
  have hcn := ne_nan_of_le_left (hc.2 _ (.inl rfl))
  refine ⟨_, _, hr, hc.congr (fun x => by rw [mem_ceilings]), ?_⟩
  have hf := floorBy_largest (min := z.minThermalOutputSetPt) hcn
  have e : (settled ids (subs.foldl sub1 (cleared z))).maximumSetPoint = floorBy z.minThermalOutputSetPt
      (capBy (subs.foldl sub1 (cleared z)).maximumSetPoint (ceilings subs)) := by
    simp only [settled, round_ceilings, (foldl_sub1_same subs (cleared z)).minT]
    rfl
  rw [e]
  exact hf

/-- … if it accumulates, that of the running sums -/
theorem thermals_accumulated {o : Opts} (ho : o.tuningEnabled = false) {w : World} {z z' : Zone}
    (hacc : z.d.accumulateSetPoint = true) (h : z.processThermals o w = .ok z') :
    ∃ d subs, z.d.updateSensors w = .ok d ∧
      List.Forall₂ (fun c s => ∃ v c', CtlOut d c v c' ∧ CtlSub c v s) z.thermals subs ∧
      (¬ CeilingOf subs nan → AccumulatedTo z.d subs z'.d.maximumSetPoint) := by
  obtain ⟨d, subs, ids, h1, h4, ea, em, ep, e⟩ := thermals_settled ho h
  refine ⟨d, subs, h1, h4, fun hn => ?_⟩
  have := settled_accumulated ids (ea.trans hacc) subs hn
  rw [e]
  unfold AccumulatedTo RunningSum profileValues Enabled at *
  rw [← em, ← ep]
  exact this

/-! ## Zones along events -/

variable {R : Entry → ThermalCtl → Prop} {heats : List Entry} {ct : CycleTime} {ti : List String} {min : Dbl}
  {fk : List (Option (List String × PidConf))} {a : Bool} {Q : ZoneData → Prop}

theorem QuietZone.tick_cases {o : Opts} (ho : o.tuningEnabled = false)
    (hR : ∀ z, ∀ e ∈ heats, ∀ c v c', Q z → R e c → CtlOut z c v c' → R e c')
    {w w' : World} {z z' : Zone} {cnt cnt' : Nat} (hz : QuietZone R heats ct ti min fk a z) (hQ : Fine Q ti w)
    (hm : z.d.manualMode = false) (h : z.tick o w cnt = .ok (w', z', cnt')) :
    QuietZone R heats ct ti min fk a z' ∧
    ((ct.updateThermalsTimeMS ≤ cnt ∧ ∃ (d : ZoneData) (zt : Zone), d.procs = z.d.procs ∧
        QuietZone R heats ct ti min fk a { z with d := d } ∧ Zone.processThermals o w { z with d := d } = .ok zt ∧
        z'.d.maximumSetPoint = zt.d.maximumSetPoint) ∨
      (¬ ct.updateThermalsTimeMS ≤ cnt ∧ z'.d.maximumSetPoint = z.d.maximumSetPoint ∧ cnt' = cnt + ct.cycleIntervalTimeMS)) := by
  obtain ⟨d, h1, h2⟩ := tick_auto hm h
  have p1 := hz.poll h1
  have e5 : d.maximumSetPoint = z.d.maximumSetPoint := by rw [(pollAll_spec h1).frame.eq]
  have e6 : d.procs = z.d.procs := by rw [(pollAll_spec h1).frame.eq]
  rw [hz.cycle] at h2
  rcases h2 with ⟨hT, zt, h3, h4, _⟩ | ⟨hT, h3, hcnt⟩
  · obtain ⟨p2, -⟩ := p1.thermals ho hR hQ h3
    obtain ⟨p3, q3⟩ := p2.fansPass h4
    exact ⟨p3, .inl ⟨hT, d, zt, e6, p1, h3, q3⟩⟩
  · obtain ⟨p3, q3⟩ := p1.fansPass h3
    exact ⟨p3, .inr ⟨hT, q3.trans e5, hcnt⟩⟩

/-- a thermal pass at any expiry of the timer while the events happen leaves a set point with `P` -/
def PassesGive (R : Entry → ThermalCtl → Prop) (heats : List Entry) (ct : CycleTime) (ti : List String) (min : Dbl)
    (fk : List (Option (List String × PidConf))) (a : Bool) (o : Opts) (i : Int) (P : Dbl → Prop) (d : Daemon) (es : List DEvent) : Prop :=
  ∀ (es1 es2 : List DEvent) (d1 : Daemon) (z : Zone) (cnt : Nat) (p : ZoneData) (zt : Zone), es = es1 ++ .tick i :: es2 →
    d.run o es1 = .ok d1 → d1.zones.find? i = some (z, cnt) → p.procs = z.d.procs →
    QuietZone R heats ct ti min fk a { z with d := p } → Zone.processThermals o d1.w { z with d := p } = .ok zt →
    P zt.d.maximumSetPoint

theorem settle_run {o : Opts} (ho : o.tuningEnabled = false)
    (hR : ∀ z, ∀ e ∈ heats, ∀ c v c', Q z → R e c → CtlOut z c v c' → R e c') {i : Int} {P : Dbl → Prop} :
    ∀ {es : List DEvent} {d d' : Daemon} {z : Zone} {cnt k : Nat}, d.run o es = .ok d' →
    d.zones.find? i = some (z, cnt) → QuietZone R heats ct ti min fk a z → FineThroughout Q ti o d es →
    PassesGive R heats ct ti min fk a o i P d es →
    (P z.d.maximumSetPoint ∨ k * ct.cycleIntervalTimeMS ≤ cnt) →
    ∃ z' cnt', d'.zones.find? i = some (z', cnt') ∧ QuietZone R heats ct ti min fk a z' ∧
      (P z'.d.maximumSetPoint ∨ (k + autoTicks i z.d.manualMode es) * ct.cycleIntervalTimeMS ≤ cnt')
  | [], d, d', z, cnt, k, h, hz, hp, _, _, hk => by
    cases h
    exact ⟨z, cnt, hz, hp, hk⟩
  | e :: es, d, d', z, cnt, k, h, hz, hp, hq, hy, hk => by
    obtain ⟨d1, h1, h2⟩ := bind_eq_ok.1 h
    have hq' := hq.tail h1
    have hy' : PassesGive R heats ct ti min fk a o i P d1 es := by
      intro es1 es2 d2 z2 cnt2 p zt he hr
      refine hy (e :: es1) es2 d2 z2 cnt2 p zt (by rw [he]; rfl) ?_
      unfold Daemon.run
      rw [h1, ok_bind]
      exact hr
    obtain ⟨z1, cnt1, hz1, hst⟩ := step_zone h1 hz
    cases hst with
    | manual b =>
      have := settle_run ho hR h2 hz1 ⟨hp.acc, hp.cycle, hp.inputs, hp.minimum, hp.loops, hp.fans⟩ hq' hy' hk
      simpa [autoTicks, ZoneData.setManualMode] using this
    | enable l b =>
      have := settle_run ho hR h2 hz1 (hp.setEnabled l b).1 hq' hy' (by rw [(hp.setEnabled l b).2]; exact hk)
      rw [setEnabled_manual] at this
      exact this
    | tick ht =>
      obtain ⟨hm, _⟩ := tick_flags ht
      by_cases hmm : z.d.manualMode = true
      · rw [tick_manual hmm] at ht; cases ht
        have := settle_run ho hR h2 hz1 hp hq' hy' hk
        simpa [autoTicks, hmm] using this
      · have hmm' : z.d.manualMode = false := by simpa using hmm
        obtain ⟨q1, q2⟩ := hp.tick_cases ho hR (hq [] _ d rfl rfl) hmm' ht
        have hk' : P z1.d.maximumSetPoint ∨ (k + 1) * ct.cycleIntervalTimeMS ≤ cnt1 := by
          rcases q2 with ⟨_, p, zt, q3, q4, q5, q6⟩ | ⟨hT, q3, q4⟩
          · exact .inl (by rw [q6]; exact hy [] es d z cnt p zt rfl rfl hz q3 q4 q5)
          · rcases hk with hk | hk
            · exact .inl (by rw [q3]; exact hk)
            · right
              rw [q4, Nat.add_mul]
              omega
        have := settle_run ho hR h2 hz1 q1 hq' hy' hk'
        rw [hm] at this
        simpa [autoTicks, hmm, Nat.add_assoc] using this
    | other q1 q2 q3 =>
      have := settle_run ho hR h2 hz1 hp hq' hy' hk
      cases e with
      | manual j b =>
        have hj : j ≠ i := fun hj => q1 b (by rw [hj])
        simpa [autoTicks, hj] using this
      | tick j =>
        have hj : j ≠ i := fun hj => q3 (by rw [hj])
        simpa [autoTicks, hj] using this
      | outside | signal | hostWrite | enable => exact this

/-! ## Switches -/

/-- the position of the switch of a loop -/
def switchOf (z : ZoneData) (k : String) : Option Bool := (z.procs.find? k).map (·.enabled)

theorem thermals_switch {o : Opts} {w : World} {z z' : Zone} (h : z.processThermals o w = .ok z') (k : String) :
    switchOf z'.d k = switchOf z.d k := by
  unfold Zone.processThermals at h
  obtain ⟨d, h1, h⟩ := bind_eq_ok.1 h
  obtain ⟨⟨d1, ts⟩, h2, h⟩ := bind_eq_ok.1 h
  obtain ⟨d2, h3, h⟩ := bind_eq_ok.1 h
  cases h
  obtain ⟨subs, _, h5⟩ := list_subs h2
  have e1 : d2.procs = d1.procs := by
    rw [determine_eq] at h3
    split_ifs at h3
    · obtain ⟨_, _, h3⟩ := bind_eq_ok.1 h3
      obtain ⟨_, _, h3⟩ := bind_eq_ok.1 h3
      cases h3
      rfl
    · cases h3; rfl
  have e2 : d.procs = z.d.procs := by rw [(pollAll_spec h1).frame.eq]
  unfold switchOf
  dsimp only
  rw [e1, h5.keys, (foldl_sub1_same subs _).procs]
  show (d.procs.find? k).map _ = _
  rw [e2]

theorem tick_switch {o : Opts} {w w' : World} {z z' : Zone} {cnt cnt' : Nat} (h : z.tick o w cnt = .ok (w', z', cnt'))
    (k : String) : switchOf z'.d k = switchOf z.d k := by
  by_cases hmm : z.d.manualMode = true
  · rw [tick_manual hmm] at h; cases h; rfl
  · obtain ⟨d, h1, h2⟩ := tick_auto (by simpa using hmm) h
    have e6 : d.procs = z.d.procs := by rw [(pollAll_spec h1).frame.eq]
    have hf : ∀ {z z' : Zone} {w w' : World}, z.processFans o w = .ok (w', z') → z'.d.procs = z.d.procs := by
      intro z z' w w' h
      obtain ⟨_, _, _, _, _, a5, _⟩ := processFans_spec h
      rw [a5]
    rcases h2 with ⟨_, zt, h3, h4, _⟩ | ⟨_, h3, _⟩
    · have := thermals_switch h3 k
      unfold switchOf at this ⊢
      rw [hf h4, this, ← e6]
    · unfold switchOf
      rw [hf h3, ← e6]

/-- the switches along events -/
theorem switch_run {o : Opts} {i : Int} {k : String} : ∀ {es : List DEvent} {d d' : Daemon} {z : Zone} {cnt : Nat} {on : Bool},
    d.run o es = .ok d' → d.zones.find? i = some (z, cnt) → switchOf z.d k = some on →
    ∃ z' cnt', d'.zones.find? i = some (z', cnt') ∧ switchOf z'.d k = some (switchAfter i k on es)
  | [], d, d', z, cnt, on, h, hz, hs => by
    cases h
    exact ⟨z, cnt, hz, hs⟩
  | e :: es, d, d', z, cnt, on, h, hz, hs => by
    obtain ⟨d1, h1, h2⟩ := bind_eq_ok.1 h
    obtain ⟨z1, cnt1, hz1, hst⟩ := step_zone h1 hz
    cases hst with
    | manual b =>
      have := switch_run h2 hz1 (k := k) (on := on) hs
      exact this
    | enable l b =>
      have h3 : switchOf (z.d.setEnabled l b) k = some (if l = k then b else on) := by
        unfold switchOf at hs ⊢
        rw [setEnabled_switch, hs]
        by_cases hk : k = l
        · rw [if_pos hk, if_pos hk.symm]; rfl
        · rw [if_neg hk, if_neg (fun h => hk h.symm)]
      have := switch_run h2 hz1 h3
      simpa [switchAfter] using this
    | tick ht =>
      have := switch_run h2 hz1 ((tick_switch ht k).trans hs)
      exact this
    | other q1 q2 q3 =>
      have := switch_run h2 hz1 hs
      cases e with
      | enable j l b =>
        have hj : j ≠ i := fun hj => q2 l b (by rw [hj])
        simpa [switchAfter, hj] using this
      | manual | outside | signal | hostWrite | tick => exact this

/-! ## Loops -/

/-- the loop of entry `e`; if it has no memory, its state is sound -/
inductive SteadyLoop (e : Entry) : ThermalCtl → Prop
  | pid {c : ThermalPid} : PidOf e c → (Memoryless e.2 → c.ctl.info.toPidConf = e.2.pidInfo ∧ SizeUpTo 2097152 c.ctl.info.lastError) →
      SteadyLoop e (.pid c)
  | steps {c : StepwiseCtl} : StepOf e c → StepSound e.2.stepwiseInfo c.st → SteadyLoop e (.stepwise c)

theorem SteadyLoop.id {e : Entry} {c : ThermalCtl} (h : SteadyLoop e c) : c.id = e.1 := by
  cases h with
  | pid h => exact h.id
  | steps h => exact h.id

theorem SteadyLoop.ceiling {e : Entry} {c : ThermalCtl} (h : SteadyLoop e c) : NotCeiling c ↔ ¬ SetsCeiling e := by
  unfold SetsCeiling
  cases h with
  | pid h =>
    refine ⟨fun _ hc => ?_, fun _ => trivial⟩
    have := h.kind.isPid
    rw [hc.1] at this
    rcases this with h | h | h | h <;> exact absurd h (by decide)
  | @steps c h _ =>
    show c.info.isCeiling = false ↔ _
    rw [h.info]
    simp [h.type]

theorem steadyLoop_start {e : Entry} {c : ThermalCtl} (h : HeatLoop e c) : SteadyLoop e c := by
  have z0 : SizeUpTo 2097152 (0 : Dbl) := ⟨0, FloatModel.rep_zero, zero_eq, by norm_num⟩
  cases h with
  | margin ht => exact .pid ⟨rfl, rfl, .inl ⟨rfl, ht⟩, rfl⟩ (fun _ => ⟨rfl, z0⟩)
  | absolute ht => exact .pid ⟨rfl, rfl, .inr (.inl ⟨rfl, ht⟩), rfl⟩ (fun _ => ⟨rfl, z0⟩)
  | summation ht => exact .pid ⟨rfl, rfl, .inr (.inr ⟨rfl, ht⟩), rfl⟩ (fun _ => ⟨rfl, z0⟩)
  | stepwise ht => exact .steps ⟨rfl, rfl, ht, rfl⟩ (.inl rfl)

theorem Memoryless.pidConf {e : ControllerInfo} (h : Memoryless e) (hp : IsPid e.type) :
    Slewing e.pidInfo ∧ (e.pidInfo.slewNeg = 0 ∧ e.pidInfo.slewPos = 0) ∧ Moderate e.setpoint := by
  cases h with
  | pid _ a b c => exact ⟨a, b, c⟩
  | table ht => rw [ht] at hp; rcases hp with h | h | h | h <;> exact absurd h (by decide)

/-- the inputs of the PIDs without memory are of moderate size -/
def ModeratePids (conf : List Entry) (z : ZoneData) : Prop :=
  ∀ e ∈ conf, IsHeat e → Memoryless e.2 → ∀ (c : ThermalPid) (z1 z2 : ZoneData) (v : Dbl), PidOf e c →
    z1.cachedValuesByName = z.cachedValuesByName → c.inputProc z1 = .ok (z2, v) → Moderate v

theorem steadyLoop_out {conf : List Entry} {e : Entry} (he : e ∈ conf) (hh : IsHeat e) {z : ZoneData} (hq : ModeratePids conf z)
    {c c' : ThermalCtl} {v : Dbl} (h : SteadyLoop e c) (ho : CtlOut z c v c') : SteadyLoop e c' := by
  cases h with
  | @pid c hp hm =>
    cases ho with
    | @pid _ z1 z2 x h1 h2 =>
      refine .pid ⟨hp.id, hp.inputs, hp.kind, hp.setpoint⟩ (fun hml => ?_)
      obtain ⟨a, b⟩ := hm hml
      obtain ⟨k1, k2, k3⟩ := hml.pidConf hp.kind.isPid
      have e1 := hp.setpoint
      exact ⟨(pidStep_conf _ _ _).trans a, (slewing_step (c := c.ctl) (s := c.setpoint) (by rw [a]; exact k1)
        (hq e he hh hml c z1 z2 x hp h1 h2) (by rw [e1]; exact k3) b).2.1⟩
  | @steps c hs hst =>
    cases ho with
    | stepwise h1 =>
      have n1 := Dbl.ne_nan_of_le_right (stepInput_ge lowest_ne_nan h1).1
      refine .steps ⟨hs.id, hs.inputs, hs.type, hs.info⟩ ?_
      dsimp only
      rw [hs.info]
      exact stepSound_step hst n1

theorem Listed.unique {info : StepwiseInfo} {n m : Nat} (h : Listed info n) (h' : Listed info m) : n = m := by
  have key : ∀ {n m : Nat}, Listed info n → Listed info m → ¬ n < m := by
    intro n m h h' hlt
    have := h'.le
    exact h'.set n (by omega) h.pos hlt (h.unset (by omega))
  have := key h h'
  have := key h' h
  omega

theorem TableSays.unique {info : StepwiseInfo} {v y y' : Dbl} (h : TableSays info v y) (h' : TableSays info v y') : y = y' := by
  obtain ⟨n, hn, h⟩ := h
  obtain ⟨m, hm, h'⟩ := h'
  cases hn.unique hm
  rcases h with ⟨k, hk, hkn, e, h1, h2⟩ | ⟨e, h1⟩ <;> rcases h' with ⟨k', hk', hkn', e', h1', h2'⟩ | ⟨e', h1'⟩
  · rcases Nat.lt_trichotomy k k' with hlt | rfl | hlt
    · exact absurd (h2 k' hk' hlt hkn') h1'
    · rw [e, e']
    · exact absurd (h2' k hk hlt hkn) h1
  · exact absurd (h1' k hk hkn) h1
  · exact absurd (h1 k' hk' hkn') h1'
  · rw [e, e']

theorem AsksAt.unique {e : ControllerInfo} {v y y' : Dbl} (h : AsksAt e v y) (h' : AsksAt e v y') : y = y' := by
  cases h with
  | pid hp h =>
    cases h' with
    | pid _ h' => rw [h, h']
    | table ht => rw [ht] at hp; rcases hp with h | h | h | h <;> exact absurd h (by decide)
  | table ht h =>
    cases h' with
    | pid hp => rw [ht] at hp; rcases hp with h | h | h | h <;> exact absurd h (by decide)
    | table _ h' => exact h.unique h'

theorem SteadyPoint.unique {conf : List Entry} {on : String → Bool} {val : String → Dbl} {min m m' : Dbl}
    (h : SteadyPoint conf on val min m) (h' : SteadyPoint conf on val min m') : m = m' := by
  obtain ⟨r, c, h1, h2, h3⟩ := h
  obtain ⟨r', c', h1', h2', h3'⟩ := h'
  cases h1.unique h1'
  cases h2.unique h2'
  exact h3.unique h3'

/-- what a loop without memory submits -/
theorem steadyLoop_asks {conf : List Entry} {e : Entry} (he : e ∈ conf) (hh : IsHeat e) (hml : Memoryless e.2) {w : World}
    {z d : ZoneData} (hu : z.updateSensors w = .ok d) (hti : ∀ j ∈ e.2.inputs, j.name ∈ z.thermalInputs)
    (hq : ModeratePids conf d) {c c' : ThermalCtl} {v : Dbl} (h : SteadyLoop e c) (ho : CtlOut d c v c') :
    ∃ x, LoopInput w e.2 x ∧ AsksAt e.2 x v ∧ v ≠ nan := by
  cases h with
  | @pid c hp hm =>
    cases ho with
    | @pid _ z1 z2 x h1 h2 =>
      obtain ⟨a, b⟩ := hm hml
      obtain ⟨k1, k2, k3⟩ := hml.pidConf hp.kind.isPid
      have e1 := hp.setpoint
      have hmx := hq e he hh hml c z1 z2 x hp h1 h2
      obtain ⟨g1, _⟩ := slewing_step (c := c.ctl) (s := c.setpoint) (by rw [a]; exact k1) hmx (by rw [e1]; exact k3) b
      rw [slewed_off (.inr (by rw [a]; exact k2)), a, e1] at g1
      refine ⟨x, pid_sees hp hu hti h1 h2, .pid hp.kind.isPid (by rw [e1]; exact g1), ?_⟩
      rw [e1, g1]
      exact Dbl.ne_nan_of_le_left (proportionalAt_inside k1 hmx k3).2
  | @steps c hs hst =>
    cases ho with
    | @stepwise _ x h1 =>
      have n1 := Dbl.ne_nan_of_le_right (stepInput_ge lowest_ne_nan h1).1
      cases hml with
      | pid hp => rw [hs.type] at hp; rcases hp with h | h | h | h <;> exact absurd h (by decide)
      | @table n _ k1 k2 k3 k4 k5 =>
        rw [hs.info, step_exact k4 k5 hst n1]
        have hl := C11_lookup _ n k1 k2 x
        refine ⟨x, steps_see hs hu hti h1, .table hs.type ⟨n, k1, ?_⟩, ?_⟩
        · rcases hl with ⟨k, hk, a, b, p, q⟩ | ⟨a, b⟩
          · exact .inl ⟨k, hk, a, b, p, q⟩
          · exact .inr ⟨a, b⟩
        · rcases hl with ⟨k, hk, a, b, _⟩ | ⟨a, _⟩
          · rw [b]; exact k3 k hk a
          · rw [a]; exact k3 0 (by decide) k1.pos

end Verif
