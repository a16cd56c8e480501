import Verif.Spec.Quiet
import Verif.Lemmas.Proportional

/-! # Helper lemmas: when no loop asks for much -/

namespace Verif
variable [F : FloatModel]
open Dbl

theorem cmax_le {a b y : Dbl} (ha : a ≤ y) (hb : b = nan ∨ b ≤ y) : cmax a b ≤ y := by
  unfold cmax
  split_ifs with h
  · exact hb.resolve_left (Dbl.ne_nan_of_lt_right h)
  · exact ha

theorem capBy_le {m y : Dbl} (h : m ≤ y) (cs : List Dbl) : capBy m cs ≤ y := by
  cases cs with
  | nil => exact h
  | cons c cs =>
    show cmin m _ ≤ y
    unfold cmin
    split_ifs with h1
    · exact Dbl.le_trans (Dbl.le_of_lt h1) h
    · exact h

/-- what the loops of a zone leave behind when none asks for more than `y` -/
structure AskedLittle (y : Dbl) (z z' : ZoneData) : Prop where
  inv : NonAccInv z'
  le : z'.maximumSetPoint ≤ y
  cache : z'.cachedValuesByName = z.cachedValuesByName
  minimum : z'.minThermalOutputSetPt = z.minThermalOutputSetPt

theorem submit_little {z z' : ZoneData} (hi : NonAccInv z) {s : Submission} {y : Dbl} (hy : z.maximumSetPoint ≤ y)
    (hv : ∀ n v, s = .setPoint n v → v = nan ∨ v ≤ y) (h : submit z s = .ok z') : AskedLittle y z z' := by
  obtain ⟨_, rfl⟩ := submit_ok h
  have hs := sub1_same z s
  refine ⟨hi.sub1 _, ?_, by rw [hs.eq], hs.minT⟩
  cases s with
  | setPoint n v =>
    rw [sub1_max_nonacc hi n v]
    split_ifs
    · exact cmax_le hy (hv n v rfl)
    · exact hy
  | ceiling v => exact hy

theorem process_little {z z' : ZoneData} (hi : NonAccInv z) {c c' : ThermalCtl} {y : Dbl} (hy : z.maximumSetPoint ≤ y)
    (hv : ∀ v c', CtlOut z c v c' → v = nan ∨ v ≤ y) (h : c.process z = .ok (z', c')) :
    AskedLittle y z z' ∧ ∃ v, CtlOut z c v c' := by
  cases c with
  | pid c =>
    obtain ⟨⟨z1, c1⟩, h1, h⟩ := bind_eq_ok.1 h
    cases h
    obtain ⟨⟨z2, input⟩, h2, h1⟩ := bind_eq_ok.1 h1
    obtain ⟨z3, h3, h1⟩ := bind_eq_ok.1 h1
    obtain ⟨z4, h4, h1⟩ := bind_eq_ok.1 h1
    cases h1
    have d1 := inputProc_only h2
    have d2 := updateDebug_only h4
    have ho : CtlOut z (.pid c) _ _ := .pid rfl h2
    have a := submit_little (s := .setPoint _ _) (hi.debug d1) (y := y) (by rw [d1.max]; exact hy)
      (fun n v hs => by cases hs; exact hv _ _ ho) h3
    refine ⟨⟨a.inv.debug d2, by rw [d2.max]; exact a.le, by rw [d2.cache, a.cache, d1.cache], ?_⟩, _, ho⟩
    have e1 : z'.minThermalOutputSetPt = z3.minThermalOutputSetPt := by rw [d2.eq]
    have e2 : z2.minThermalOutputSetPt = z.minThermalOutputSetPt := by rw [d1.eq]
    rw [e1, a.minimum, e2]
  | stepwise c =>
    obtain ⟨⟨z1, c1⟩, h1, h⟩ := bind_eq_ok.1 h
    cases h
    obtain ⟨input, h2, h1⟩ := bind_eq_ok.1 h1
    dsimp only at h1
    have ho : CtlOut z (.stepwise c) _ _ := .stepwise h2
    split_ifs at h1
    · obtain ⟨z3, h3, h1⟩ := bind_eq_ok.1 h1
      cases h1
      refine ⟨?_, _, ho⟩
      exact submit_little (s := .ceiling _) hi hy (fun n v hs => by cases hs) h3
    · obtain ⟨z3, h3, h1⟩ := bind_eq_ok.1 h1
      cases h1
      refine ⟨?_, _, ho⟩
      exact submit_little (s := .setPoint _ _) hi hy (fun n v hs => by cases hs; exact hv _ _ ho) h3

theorem process_out {z z' : ZoneData} {c c' : ThermalCtl} (h : c.process z = .ok (z', c')) :
    z'.cachedValuesByName = z.cachedValuesByName ∧ ∃ v, CtlOut z c v c' := by
  cases c with
  | pid c =>
    obtain ⟨⟨z1, c1⟩, h1, h⟩ := bind_eq_ok.1 h
    cases h
    obtain ⟨⟨z2, input⟩, h2, h1⟩ := bind_eq_ok.1 h1
    obtain ⟨z3, h3, h1⟩ := bind_eq_ok.1 h1
    obtain ⟨z4, h4, h1⟩ := bind_eq_ok.1 h1
    cases h1
    obtain ⟨_, h3⟩ := submit_ok (s := .setPoint _ _) h3
    have e : z3.cachedValuesByName = z2.cachedValuesByName := by rw [h3, (sub1_same z2 _).eq]
    exact ⟨by rw [(updateDebug_only h4).cache, e, (inputProc_only h2).cache], _, .pid rfl h2⟩
  | stepwise c =>
    obtain ⟨⟨z1, c1⟩, h1, h⟩ := bind_eq_ok.1 h
    cases h
    obtain ⟨input, h2, h1⟩ := bind_eq_ok.1 h1
    dsimp only at h1
    split_ifs at h1
    · cases h1
      exact ⟨rfl, _, .stepwise h2⟩
    · obtain ⟨z3, h3, h1⟩ := bind_eq_ok.1 h1
      cases h1
      refine ⟨?_, _, .stepwise h2⟩
      obtain ⟨_, h3⟩ := submit_ok (s := .setPoint _ _) h3
      rw [h3, (sub1_same z _).eq]

theorem list_little {y : Dbl} : ∀ {cs cs' : List ThermalCtl} {z z' : ZoneData}, NonAccInv z → z.maximumSetPoint ≤ y →
    (∀ c ∈ cs, ∀ v c', CtlOut z c v c' → v = nan ∨ v ≤ y) → processThermalList z cs = .ok (z', cs') →
    AskedLittle y z z' ∧ List.Forall₂ (fun c c' => ∃ v, CtlOut z c v c') cs cs'
  | [], _, z, z', hi, hy, _, h => by
    cases h
    exact ⟨⟨hi, hy, rfl, rfl⟩, .nil⟩
  | c :: cs, _, z, z', hi, hy, hc, h => by
    unfold processThermalList at h
    obtain ⟨⟨z1, c1⟩, h1, h⟩ := bind_eq_ok.1 h
    obtain ⟨⟨z2, cs2⟩, h2, h⟩ := bind_eq_ok.1 h
    cases h
    obtain ⟨a, b⟩ := process_little hi hy (hc c List.mem_cons_self) h1
    obtain ⟨a', b'⟩ := list_little a.inv a.le
      (fun x hx v c' ho => hc x (List.mem_cons_of_mem _ hx) v c' (ho.congr a.cache)) h2
    refine ⟨⟨a'.inv, a'.le, a'.cache.trans a.cache, a'.minimum.trans a.minimum⟩, .cons b ?_⟩
    exact b'.imp (fun x x' ⟨v, q⟩ => ⟨v, q.congr a.cache⟩)

theorem list_outs : ∀ {cs cs' : List ThermalCtl} {z z' : ZoneData}, processThermalList z cs = .ok (z', cs') →
    List.Forall₂ (fun c c' => ∃ v, CtlOut z c v c') cs cs'
  | [], _, z, z', h => by
    cases h
    exact .nil
  | c :: cs, _, z, z', h => by
    unfold processThermalList at h
    obtain ⟨⟨z1, c1⟩, h1, h⟩ := bind_eq_ok.1 h
    obtain ⟨⟨z2, cs2⟩, h2, h⟩ := bind_eq_ok.1 h
    cases h
    obtain ⟨hc, v, ho⟩ := process_out h1
    exact .cons ⟨v, ho⟩ ((list_outs h2).imp (fun x x' ⟨v, q⟩ => ⟨v, q.congr hc⟩))

/-- a thermal pass of a zone in which no loop asks for more than `y` -/
theorem thermals_little {o : Opts} (ho : o.tuningEnabled = false) {w : World} {z z' : Zone} {y : Dbl}
    (hacc : z.d.accumulateSetPoint = false) (h0 : 0 ≤ y) (hm : z.d.minThermalOutputSetPt ≤ y)
    (hv : ∀ d, z.d.updateSensors w = .ok d → ∀ c ∈ z.thermals, ∀ v c', CtlOut d c v c' → v = nan ∨ v ≤ y)
    (h : z.processThermals o w = .ok z') : z'.d.maximumSetPoint ≤ y := by
  unfold Zone.processThermals at h
  obtain ⟨d, h1, h⟩ := bind_eq_ok.1 h
  obtain ⟨⟨d1, ts⟩, h2, h⟩ := bind_eq_ok.1 h
  obtain ⟨d2, h3, h⟩ := bind_eq_ok.1 h
  cases h
  have e := (pollAll_spec h1).frame.eq
  have ea : d.accumulateSetPoint = z.d.accumulateSetPoint := by rw [e]
  have em : d.minThermalOutputSetPt = z.d.minThermalOutputSetPt := by rw [e]
  obtain ⟨a, -⟩ := list_little (nonAccInv_clear (ea.trans hacc)) (y := y) h0
    (fun c hc v c' hco => hv d h1 c hc v c' (hco.congr (z := d) (z' := d.clearSetPoints.clearRPMCeilings) rfl)) h2
  rw [determine_eq, ho] at h3
  have h3 : settled (ts.map ThermalCtl.id) d1 = d2 := by simpa using h3
  rw [← h3]
  show floorBy _ (capBy d1.maximumSetPoint d1.rpmCeilings) ≤ y
  unfold floorBy
  split_ifs
  · rw [a.minimum]
    exact em ▸ hm
  · exact capBy_le a.le _

/-- a thermal pass asks every loop once -/
theorem thermals_outs {o : Opts} {w : World} {z z' : Zone} (h : z.processThermals o w = .ok z') :
    ∃ d, z.d.updateSensors w = .ok d ∧ List.Forall₂ (fun c c' => ∃ v, CtlOut d c v c') z.thermals z'.thermals := by
  unfold Zone.processThermals at h
  obtain ⟨d, h1, h⟩ := bind_eq_ok.1 h
  obtain ⟨⟨d1, ts⟩, h2, h⟩ := bind_eq_ok.1 h
  obtain ⟨d2, h3, h⟩ := bind_eq_ok.1 h
  cases h
  exact ⟨d, h1, (list_outs h2).imp (fun x x' ⟨v, q⟩ =>
    ⟨v, q.congr (z := d) (z' := d.clearSetPoints.clearRPMCeilings) rfl⟩)⟩

/-! ## Zones along events -/

/-- a zone that accumulates set points if `a` says so, whose loops satisfy `R` -/
structure QuietZone (R : Entry → ThermalCtl → Prop) (heats : List Entry) (ct : CycleTime) (ti : List String) (min : Dbl)
    (fk : List (Option (List String × PidConf))) (a : Bool) (z : Zone) : Prop where
  acc : z.d.accumulateSetPoint = a
  cycle : z.d.cycleTime = ct
  inputs : z.d.thermalInputs = ti
  minimum : z.d.minThermalOutputSetPt = min
  loops : List.Forall₂ R heats z.thermals
  fans : z.fans.map (Option.map fanKey) = fk

variable {R : Entry → ThermalCtl → Prop} {heats : List Entry} {ct : CycleTime} {ti : List String} {min : Dbl}
  {fk : List (Option (List String × PidConf))} {a : Bool} {Q : ZoneData → Prop}

/-- the readings the loops get in a thermal pass at `w` make no loop ask for more than `y` -/
def AsksLittle (R : Entry → ThermalCtl → Prop) (heats : List Entry) (ti : List String) (w : World) (y : Dbl) : Prop :=
  ∀ z d : ZoneData, z.thermalInputs = ti → z.updateSensors w = .ok d → ∀ e ∈ heats, ∀ c v c', R e c → CtlOut d c v c' →
    v = nan ∨ v ≤ y

theorem QuietZone.thermals {o : Opts} (ho : o.tuningEnabled = false)
    (hR : ∀ z, ∀ e ∈ heats, ∀ c v c', Q z → R e c → CtlOut z c v c' → R e c') {w : World} {z z' : Zone}
    (hz : QuietZone R heats ct ti min fk a z) (hQ : Fine Q ti w) (h : z.processThermals o w = .ok z') :
    QuietZone R heats ct ti min fk a z' ∧
      (a = false → ∀ y, 0 ≤ y → min ≤ y → AsksLittle R heats ti w y → z'.d.maximumSetPoint ≤ y) := by
  obtain ⟨d, h1, h3⟩ := thermals_outs h
  obtain ⟨d', h1', h4⟩ := processThermals_rest h
  rw [h1] at h1'
  cases h1'
  have e := (pollAll_spec h1).frame.eq
  have e1 : d.accumulateSetPoint = z.d.accumulateSetPoint := by rw [e]
  have e2 : d.cycleTime = z.d.cycleTime := by rw [e]
  have e3 : d.thermalInputs = z.d.thermalInputs := by rw [e]
  have e4 : d.minThermalOutputSetPt = z.d.minThermalOutputSetPt := by rw [e]
  have f1 : z'.d.accumulateSetPoint = d.accumulateSetPoint := by rw [h4]
  have f2 : z'.d.cycleTime = d.cycleTime := by rw [h4]
  have f3 : z'.d.thermalInputs = d.thermalInputs := by rw [h4]
  have f4 : z'.d.minThermalOutputSetPt = d.minThermalOutputSetPt := by rw [h4]
  refine ⟨⟨f1.trans (e1.trans hz.acc), f2.trans (e2.trans hz.cycle), f3.trans (e3.trans hz.inputs),
    f4.trans (e4.trans hz.minimum), ?_, ?_⟩, ?_⟩
  · have key : ∀ {es : List Entry} {cs cs' : List ThermalCtl}, (∀ e ∈ es, e ∈ heats) → List.Forall₂ R es cs →
        List.Forall₂ (fun c c' => ∃ v, CtlOut d c v c') cs cs' → List.Forall₂ R es cs' := by
      intro es cs cs' hes ha hb
      induction ha generalizing cs' with
      | nil => cases hb; exact .nil
      | cons hx _ ih =>
        cases hb with
        | cons hy hb =>
          obtain ⟨v, hy⟩ := hy
          exact .cons (hR _ _ (hes _ List.mem_cons_self) _ _ _ (hQ z.d d hz.inputs h1) hx hy)
            (ih (fun e he => hes e (List.mem_cons_of_mem _ he)) hb)
    exact key (fun _ h => h) hz.loops h3
  · rw [(thermalTick_flags h).2.2]; exact hz.fans
  · intro hacc y h0 hy ha
    refine thermals_little ho (hz.acc.trans hacc) h0 (by rw [hz.minimum]; exact hy) (fun d hd c hc v c' hco => ?_) h
    obtain ⟨e, he, hr⟩ := forall₂_right hz.loops hc
    exact ha z.d d hz.inputs hd e he c v c' hr hco

theorem QuietZone.fansPass {o : Opts} {w w' : World} {z z' : Zone} (hz : QuietZone R heats ct ti min fk a z)
    (h : z.processFans o w = .ok (w', z')) : QuietZone R heats ct ti min fk a z' ∧ z'.d.maximumSetPoint = z.d.maximumSetPoint := by
  obtain ⟨l, a1, a2, _, a4, a5, a6⟩ := processFans_spec h
  have e1 : z'.d.accumulateSetPoint = z.d.accumulateSetPoint := by rw [a5]
  have e2 : z'.d.cycleTime = z.d.cycleTime := by rw [a5]
  have e3 : z'.d.thermalInputs = z.d.thermalInputs := by rw [a5]
  have e4 : z'.d.minThermalOutputSetPt = z.d.minThermalOutputSetPt := by rw [a5]
  refine ⟨⟨e1.trans hz.acc, e2.trans hz.cycle, e3.trans hz.inputs, e4.trans hz.minimum, by rw [a6]; exact hz.loops, ?_⟩,
    by rw [a5]⟩
  rw [← hz.fans, a1, a2, List.map_map, List.map_map]
  refine List.map_congr_left (fun x hx => congrArg some ?_)
  obtain ⟨⟨i, _, _, _, hctl⟩, hsame⟩ := a4 x hx
  show (x.2.2.inputs, _) = (x.1.inputs, _)
  rw [hsame.1, hctl, pidStep_conf]

theorem QuietZone.poll {w : World} {now : Int} {ns : List String} {z : Zone} {d : ZoneData}
    (hz : QuietZone R heats ct ti min fk a z) (h : z.d.processSensorInputs w now ns = .ok d) :
    QuietZone R heats ct ti min fk a { z with d := d } := by
  have e := (pollAll_spec h).frame.eq
  have e1 : d.accumulateSetPoint = z.d.accumulateSetPoint := by rw [e]
  have e2 : d.cycleTime = z.d.cycleTime := by rw [e]
  have e3 : d.thermalInputs = z.d.thermalInputs := by rw [e]
  have e4 : d.minThermalOutputSetPt = z.d.minThermalOutputSetPt := by rw [e]
  exact ⟨e1.trans hz.acc, e2.trans hz.cycle, e3.trans hz.inputs, e4.trans hz.minimum, hz.loops, hz.fans⟩

theorem QuietZone.tick {o : Opts} (ho : o.tuningEnabled = false)
    (hR : ∀ z, ∀ e ∈ heats, ∀ c v c', Q z → R e c → CtlOut z c v c' → R e c')
    {w w' : World} {z z' : Zone} {cnt cnt' : Nat} (hz : QuietZone R heats ct ti min fk a z) (hQ : Fine Q ti w)
    (hm : z.d.manualMode = false) (h : z.tick o w cnt = .ok (w', z', cnt')) :
    QuietZone R heats ct ti min fk a z' ∧
    (a = false → ∀ y, 0 ≤ y → min ≤ y → AsksLittle R heats ti w y → (z.d.maximumSetPoint ≤ y ∨ ct.updateThermalsTimeMS ≤ cnt) →
        z'.d.maximumSetPoint ≤ y) ∧
    (¬ ct.updateThermalsTimeMS ≤ cnt → cnt' = cnt + ct.cycleIntervalTimeMS) := by
  obtain ⟨d, h1, h2⟩ := tick_auto hm h
  have p1 := hz.poll h1
  have e5 : d.maximumSetPoint = z.d.maximumSetPoint := by rw [(pollAll_spec h1).frame.eq]
  rw [hz.cycle] at h2
  rcases h2 with ⟨hT, zt, h3, h4, _⟩ | ⟨hT, h3, hcnt⟩
  · obtain ⟨p2, q⟩ := p1.thermals ho hR hQ h3
    obtain ⟨p3, q3⟩ := p2.fansPass h4
    refine ⟨p3, fun hacc y h0 hy ha _ => ?_, fun hn => absurd hT hn⟩
    rw [q3]
    exact q hacc y h0 hy ha
  · obtain ⟨p3, q3⟩ := p1.fansPass h3
    refine ⟨p3, fun _ y _ _ _ hle => ?_, fun _ => hcnt⟩
    rw [q3]
    exact e5 ▸ hle.resolve_right hT

theorem QuietZone.setEnabled {z : Zone} (hz : QuietZone R heats ct ti min fk a z) (l : String) (b : Bool) :
    QuietZone R heats ct ti min fk a { z with d := z.d.setEnabled l b } ∧
      (z.d.setEnabled l b).maximumSetPoint = z.d.maximumSetPoint := by
  have hr : ∃ ps, z.d.setEnabled l b = { z.d with procs := ps } := by
    unfold ZoneData.setEnabled
    cases hp : z.d.procs.find? l with
    | none => exact ⟨z.d.procs, rfl⟩
    | some p => exact ⟨_, rfl⟩
  obtain ⟨ps, e⟩ := hr
  rw [e]
  exact ⟨⟨hz.acc, hz.cycle, hz.inputs, hz.minimum, hz.loops, hz.fans⟩, rfl⟩

/-- such a zone along events -/
theorem quietZone_run {o : Opts} (ho : o.tuningEnabled = false)
    (hR : ∀ z, ∀ e ∈ heats, ∀ c v c', Q z → R e c → CtlOut z c v c' → R e c') {i : Int} :
    ∀ {es : List DEvent} {d d' : Daemon} {z : Zone} {cnt : Nat}, d.run o es = .ok d' →
    d.zones.find? i = some (z, cnt) → QuietZone R heats ct ti min fk a z → FineThroughout Q ti o d es →
    ∃ z' cnt', d'.zones.find? i = some (z', cnt') ∧ QuietZone R heats ct ti min fk a z'
  | [], d, d', z, cnt, h, hz, hp, _ => by
    cases h
    exact ⟨z, cnt, hz, hp⟩
  | e :: es, d, d', z, cnt, h, hz, hp, hq => by
    obtain ⟨d1, h1, h2⟩ := bind_eq_ok.1 h
    have hq' := hq.tail h1
    obtain ⟨z1, cnt1, hz1, hst⟩ := step_zone h1 hz
    refine quietZone_run ho hR h2 hz1 ?_ hq'
    cases hst with
    | manual b => exact ⟨hp.acc, hp.cycle, hp.inputs, hp.minimum, hp.loops, hp.fans⟩
    | enable l b => exact (hp.setEnabled l b).1
    | tick ht =>
      by_cases hmm : z.d.manualMode = true
      · rw [tick_manual hmm] at ht; cases ht; exact hp
      · exact (hp.tick ho hR (hq [] _ d rfl rfl) (by simpa using hmm) ht).1
    | other _ _ _ => exact hp

/-- whenever the timer of zone `i` expires the readings make no loop ask for more than `y` -/
def LittleThroughout (R : Entry → ThermalCtl → Prop) (heats : List Entry) (ti : List String) (o : Opts) (i : Int) (y : Dbl)
    (d : Daemon) (es : List DEvent) : Prop :=
  ∀ es1 es2 d1, es = es1 ++ .tick i :: es2 → d.run o es1 = .ok d1 → AsksLittle R heats ti d1.w y

theorem little_run {o : Opts} (ho : o.tuningEnabled = false) (ha : a = false)
    (hR : ∀ z, ∀ e ∈ heats, ∀ c v c', Q z → R e c → CtlOut z c v c' → R e c') {i : Int} {y : Dbl} (h0 : 0 ≤ y) (hmin : min ≤ y) :
    ∀ {es : List DEvent} {d d' : Daemon} {z : Zone} {cnt k : Nat}, d.run o es = .ok d' →
    d.zones.find? i = some (z, cnt) → QuietZone R heats ct ti min fk a z → FineThroughout Q ti o d es →
    LittleThroughout R heats ti o i y d es →
    (z.d.maximumSetPoint ≤ y ∨ k * ct.cycleIntervalTimeMS ≤ cnt) →
    ∃ z' cnt', d'.zones.find? i = some (z', cnt') ∧ QuietZone R heats ct ti min fk a z' ∧
      (z'.d.maximumSetPoint ≤ y ∨ (k + autoTicks i z.d.manualMode es) * ct.cycleIntervalTimeMS ≤ cnt')
  | [], d, d', z, cnt, k, h, hz, hp, _, _, hk => by
    cases h
    exact ⟨z, cnt, hz, hp, hk⟩
  | e :: es, d, d', z, cnt, k, h, hz, hp, hq, hy, hk => by
    obtain ⟨d1, h1, h2⟩ := bind_eq_ok.1 h
    have hq' := hq.tail h1
    have hy' : LittleThroughout R heats ti o i y d1 es := by
      intro es1 es2 d2 he hr
      refine hy (e :: es1) es2 d2 (by rw [he]; rfl) ?_
      unfold Daemon.run
      rw [h1, ok_bind]
      exact hr
    obtain ⟨z1, cnt1, hz1, hst⟩ := step_zone h1 hz
    cases hst with
    | manual b =>
      have := little_run ho ha hR h0 hmin h2 hz1 ⟨hp.acc, hp.cycle, hp.inputs, hp.minimum, hp.loops, hp.fans⟩ hq' hy' hk
      simpa [autoTicks, ZoneData.setManualMode] using this
    | enable l b =>
      have := little_run ho ha hR h0 hmin h2 hz1 (hp.setEnabled l b).1 hq' hy' (by rw [(hp.setEnabled l b).2]; exact hk)
      rw [setEnabled_manual] at this
      exact this
    | tick ht =>
      obtain ⟨hm, _⟩ := tick_flags ht
      by_cases hmm : z.d.manualMode = true
      · rw [tick_manual hmm] at ht; cases ht
        have := little_run ho ha hR h0 hmin h2 hz1 hp hq' hy' hk
        simpa [autoTicks, hmm] using this
      · have hmm' : z.d.manualMode = false := by simpa using hmm
        obtain ⟨q1, q2, q3⟩ := hp.tick ho hR (hq [] _ d rfl rfl) hmm' ht
        have hask := hy [] es d rfl rfl
        have hk' : z1.d.maximumSetPoint ≤ y ∨ (k + 1) * ct.cycleIntervalTimeMS ≤ cnt1 := by
          by_cases hc : z.d.maximumSetPoint ≤ y ∨ ct.updateThermalsTimeMS ≤ cnt
          · exact .inl (q2 ha y h0 hmin hask hc)
          · rw [not_or] at hc
            right
            have := hk.resolve_left hc.1
            rw [q3 hc.2, Nat.add_mul]
            omega
        have := little_run ho ha hR h0 hmin h2 hz1 q1 hq' hy' hk'
        rw [hm] at this
        simpa [autoTicks, hmm, Nat.add_assoc] using this
    | other q1 q2 q3 =>
      have := little_run ho ha hR h0 hmin h2 hz1 hp hq' hy' hk
      cases e with
      | manual j b =>
        have hj : j ≠ i := fun hj => q1 b (by rw [hj])
        simpa [autoTicks, hj] using this
      | tick j =>
        have hj : j ≠ i := fun hj => q3 (by rw [hj])
        simpa [autoTicks, hj] using this
      | outside | signal | hostWrite | enable => exact this

/-! ## Loops -/

theorem stepwise_le {info : StepwiseInfo} {n k : Nat} (h : RisingTable info n) (hk : k < 20) (hkn : k < n) {v : Dbl}
    (hv : ∀ h : k + 1 < 20, k + 1 < n → v < info.reading ⟨k + 1, h⟩) : stepwise info v ≤ info.output ⟨k, hk⟩ := by
  rcases C11_lookup info n h.listed h.readings v with ⟨j, hj, hjn, e, h1, _⟩ | ⟨h1, _⟩
  · rw [e]
    refine h.outputs j k hj hk ?_ hkn
    by_contra hlt
    rw [not_le] at hlt
    have hk1 : k + 1 < 20 := by omega
    refine h1 ?_
    by_cases he : k + 1 = j
    · subst he; exact hv hk1 hjn
    · exact Dbl.lt_trans (hv hk1 (by omega)) (h.readings _ _ hk1 hj (by omega) hjn)
  · rw [h1]
    exact h.outputs 0 k (by decide) hk (by omega) hkn

theorem step_le {info : StepwiseInfo} {n k : Nat} (ht : RisingTable info n) (hk : k < 20) (hkn : k < n) {st : StepState}
    {v : Dbl} (h : StepSound info st)
    (hv : ∀ h : k + 1 < 20, k + 1 < n → ClearOf info.negativeHysteresis (info.reading ⟨k + 1, h⟩) v) :
    (stepwiseStep info st v).1 ≤ info.output ⟨k, hk⟩ := by
  have hv1 := fun h hn => (hv h hn).1
  unfold stepwiseStep
  dsimp only
  split_ifs with h1 h2 h3
  · exact stepwise_le ht hk hkn hv1
  · exact stepwise_le ht hk hkn hv1
  · exact stepwise_le ht hk hkn hv1
  · have h := h.resolve_left (by rw [← isNaN_iff]; exact h1)
    rw [h.1]
    refine stepwise_le ht hk hkn (fun hk1 hkn1 => ?_)
    obtain ⟨c1, c2⟩ := hv hk1 hkn1
    by_contra hle
    have hrn := Dbl.ne_nan_of_lt_right c1
    have hle := Dbl.le_of_not_lt hrn h.2 hle
    apply h3
    have hlt := Dbl.lt_of_lt_of_le c1 hle
    rcases c2 with c2 | c2
    · rw [c2]; exact sub_pos_of_lt' hlt
    · have n1 := Dbl.ne_nan_of_lt_right c2
      have n2 := Dbl.ne_nan_of_lt_right (sub_pos_of_lt' hlt)
      exact Dbl.lt_of_lt_of_le c2 (sub_le_sub hle (Dbl.le_refl (Dbl.ne_nan_of_lt_left c1)) n1 n2)

theorem ClearOf.mono {p x v v' : Dbl} (h : ClearOf p x v) (hv : v' ≤ v) : ClearOf p x v' := by
  have hlt := Dbl.lt_of_le_of_lt hv h.1
  refine ⟨hlt, h.2.imp_right (fun h0 => ?_)⟩
  exact Dbl.lt_of_lt_of_le h0 (sub_le_sub (Dbl.le_refl (Dbl.ne_nan_of_lt_right h.1)) hv (Dbl.ne_nan_of_lt_right h0)
    (Dbl.ne_nan_of_lt_right (sub_pos_of_lt' hlt)))

/-- the input of a stepwise loop is one of the readings, or the lowest number -/
theorem stepInput_one {z : ZoneData} : ∀ {ns : List String} {v0 v : Dbl}, StepwiseCtl.inputLoop z v0 ns = .ok v →
    v = v0 ∨ ∃ n ∈ ns, ∃ e, z.cachedValuesByName.find? n = some e ∧ v = e.scaled
  | [], v0, v, h => by
    cases h
    exact .inl rfl
  | n :: ns, v0, v, h => by
    unfold StepwiseCtl.inputLoop at h
    obtain ⟨e, h1, h2⟩ := bind_eq_ok.1 h
    have he : z.cachedValuesByName.find? n = some e := (OMap.atKey_ok_iff _ _ _).1 h1
    rcases stepInput_one h2 with h3 | ⟨m, hm, e', h3, h4⟩
    · rw [h3]
      unfold cmax
      split_ifs
      · exact .inr ⟨n, List.mem_cons_self, e, he, rfl⟩
      · exact .inl rfl
    · exact .inr ⟨m, List.mem_cons_of_mem _ hm, e', h3, h4⟩

theorem stepInput_all {z : ZoneData} : ∀ {ns : List String} {v0 v : Dbl}, StepwiseCtl.inputLoop z v0 ns = .ok v →
    ∀ n ∈ ns, ∃ e, z.cachedValuesByName.find? n = some e
  | [], v0, v, h, n, hn => by cases hn
  | m :: ns, v0, v, h, n, hn => by
    unfold StepwiseCtl.inputLoop at h
    obtain ⟨e, h1, h2⟩ := bind_eq_ok.1 h
    rcases List.mem_cons.1 hn with rfl | hn
    · exact ⟨e, (OMap.atKey_ok_iff _ _ _).1 h1⟩
    · exact stepInput_all h2 n hn

theorem ninf_le {x : Dbl} (h : x ≠ nan) : ninf ≤ x := by
  cases x <;> simp at h ⊢

theorem clamp_le {x lo hi y : Dbl} (h1 : lo ≤ y) (h2 : hi ≤ y) : clamp x lo hi = nan ∨ clamp x lo hi ≤ y := by
  unfold clamp
  split_ifs with g1 g2
  · exact .inr h1
  · exact .inr h2
  · by_cases hx : x = nan
    · exact .inl hx
    · exact .inr (Dbl.le_trans (Dbl.le_of_not_lt hx (Dbl.ne_nan_of_le_left h2) g2) h2)

theorem pid_le {i : PidInfo} {r s y : Dbl} (hs : SaneSlew i.toPidConf) (h1 : i.outLim.min ≤ y) (h2 : i.outLim.max ≤ y)
    (hl : i.lastOutput = nan ∨ i.lastOutput ≤ y) : (pid i r s).1 = nan ∨ (pid i r s).1 ≤ y := by
  have key : ∀ x : Dbl, InLimits ⟨ninf, y⟩ x ↔ x = nan ∨ x ≤ y := by
    intro x
    exact or_congr_right ⟨fun h => h.2, fun h => ⟨ninf_le (Dbl.ne_nan_of_le_left h), h⟩⟩
  rw [pid_out, ← key]
  exact slewed_inLimits hs (fun _ => (key _).2 hl) ((key _).2 (clamp_le h1 h2))

theorem pidStep_le {c : PidCtl} {s x y : Dbl} (hs : SaneSlew c.info.toPidConf) (h1 : c.info.outLim.min ≤ y)
    (h2 : c.info.outLim.max ≤ y) (h0 : 0 ≤ y) (hl : c.info.lastOutput = nan ∨ c.info.lastOutput ≤ y) :
    ((pidStep c s x).1 = nan ∨ (pidStep c s x).1 ≤ y) ∧ (pidStep c s x).2.info.lastOutput = (pidStep c s x).1 := by
  refine ⟨?_, rfl⟩
  unfold pidStep calPIDOutput
  dsimp only
  split_ifs
  · exact pid_le hs h1 h2 hl
  · exact .inr h0
  · exact hl
  · exact pid_le hs h1 h2 hl
  · exact pid_le hs h1 h2 hl
  · exact pid_le hs h1 h2 hl
  · exact pid_le hs h1 h2 hl
  · exact pid_le hs h1 h2 hl

theorem inputLoop_one {c : ThermalPid} (ht : c.type = .absolute) {P : Dbl → Prop} :
    ∀ {is : List SensorInput} {z z' : ZoneData} {v v' : Dbl} {a a' : Bool}, c.inputLoop z v a is = .ok (z', v', a') →
    (∀ i ∈ is, ∀ e, z.cachedValuesByName.find? i.name = some e → e.scaled.isFinite = true → P e.scaled) →
    ((a = false ∧ v = lowest) ∨ (a = true ∧ P v)) → (a' = false ∧ v' = lowest) ∨ (a' = true ∧ P v')
  | [], _, _, v, _, _, _, h, _, hv => by
    cases h
    exact hv
  | i :: is, z, z', v, v', a, a', h, hm, hv => by
    unfold ThermalPid.inputLoop at h
    obtain ⟨⟨z1, v1, a1⟩, h1, h2⟩ := bind_eq_ok.1 h
    have hc := (inputOne_only h1).cache
    obtain ⟨e, he, hcase⟩ := inputOne_absolute ht h1
    refine inputLoop_one ht h2 (fun j hj e' he' => hm j (List.mem_cons_of_mem _ hj) e' (by rw [← hc]; exact he')) ?_
    rcases hcase with ⟨hf, rfl, rfl⟩ | ⟨hf, rfl, rfl⟩
    · exact hv
    · right
      refine ⟨rfl, ?_⟩
      have hem := hm i List.mem_cons_self e he hf
      unfold cmax
      split_ifs with hlt
      · exact hem
      · rcases hv with ⟨_, rfl⟩ | ⟨_, hv⟩
        · have h2 : lowest ≤ e.scaled := lowest_le_finite hf
          have h1 : e.scaled ≤ lowest := Dbl.le_of_not_lt (Dbl.ne_nan_of_le_right h2) lowest_ne_nan hlt
          rw [← Dbl.le_antisymm h1 h2]
          exact hem
        · exact hv

/-- the input of such a loop is one of the readings, or the set point -/
theorem inputProc_one {c : ThermalPid} (ht : c.type = .absolute) {z z' : ZoneData} {v : Dbl}
    (h : c.inputProc z = .ok (z', v)) : v = c.setpoint ∨
      ∃ i ∈ c.inputs, ∃ e, z.cachedValuesByName.find? i.name = some e ∧ e.scaled.isFinite = true ∧ v = e.scaled := by
  unfold ThermalPid.inputProc at h
  split_ifs at h
  obtain ⟨⟨z1, v1, a1⟩, h1, h2⟩ := bind_eq_ok.1 h
  cases h2
  simp only [ht] at h1
  rcases inputLoop_one ht (P := fun v => ∃ i ∈ c.inputs, ∃ e, z.cachedValuesByName.find? i.name = some e ∧
    e.scaled.isFinite = true ∧ v = e.scaled) h1 (fun i hi e he hf => ⟨i, hi, e, he, hf, rfl⟩) (.inl ⟨rfl, rfl⟩) with
    ⟨rfl, _⟩ | ⟨rfl, hv⟩
  · exact .inl rfl
  · exact .inr hv

/-- the state of a loop that keeps below `y` -/
inductive Keeping (y : Dbl) (cool : Dbl → Prop) (e : Entry) (c : ThermalCtl) : Prop
  | table (n k : Nat) (rising : RisingTable e.2.stepwiseInfo n) (hk : k < 20) (hkn : k < n)
      (output : e.2.stepwiseInfo.output ⟨k, hk⟩ ≤ y) (some : e.2.inputs ≠ [])
      (clear : ∀ v, cool v → v.isFinite = true ∧ ∀ h : k + 1 < 20, k + 1 < n →
        ClearOf e.2.stepwiseInfo.negativeHysteresis (e.2.stepwiseInfo.reading ⟨k + 1, h⟩) v)
      (state : SoundSteps e.2.stepwiseInfo (e.2.inputs.map SensorInput.name) c)
  | limits (slew : SaneSlew e.2.pidInfo) (bounds : e.2.pidInfo.outLim.min ≤ y ∧ e.2.pidInfo.outLim.max ≤ y)
      (state : ∃ p : ThermalPid, c = .pid p ∧ p.ctl.info.toPidConf = e.2.pidInfo ∧
        (p.ctl.info.lastOutput = nan ∨ p.ctl.info.lastOutput ≤ y))
  | proportional (conf : Proportional e.2.pidInfo) (type : e.2.type = "temp" ∨ e.2.type = "power")
      (setpoint : Moderate e.2.setpoint) (x : Dbl) (hx : Moderate x)
      (output : proportionalAt e.2.pidInfo e.2.setpoint x ≤ y ∧ proportionalAt e.2.pidInfo e.2.setpoint e.2.setpoint ≤ y)
      (below : ∀ v, cool v → v.isFinite = true → v ≤ x) (state : SoundProp e.2.pidInfo e.2.setpoint e.2.inputs c)

theorem keeping_start {y : Dbl} (h0 : 0 ≤ y) {cool : Dbl → Prop} {e : Entry} {c : ThermalCtl} (h : Keeps e y cool)
    (hc : HeatLoop e c) : Keeping y cool e c := by
  cases h with
  | table t n k h1 h2 h3 h4 h5 h6 =>
    refine .table n k h1 h2 h3 h4 h5 h6 ?_
    cases hc with
    | margin h => rw [t] at h; exact absurd h (by decide)
    | absolute h => rw [t] at h; exact absurd h (by decide)
    | summation h => rw [t] at h; exact absurd h (by decide)
    | stepwise h => exact ⟨_, rfl, rfl, rfl, .inl rfl⟩
  | limits t h1 h2 =>
    refine .limits h1 h2 ?_
    cases hc with
    | margin h => exact ⟨_, rfl, rfl, .inr h0⟩
    | absolute h => exact ⟨_, rfl, rfl, .inr h0⟩
    | summation h => exact ⟨_, rfl, rfl, .inr h0⟩
    | stepwise h => exact absurd h t
  | proportional t h1 h2 x hx h3 h4 =>
    refine .proportional h1 t h2 x hx h3 h4 ?_
    have z0 : SizeUpTo 2097152 (0 : Dbl) := ⟨0, FloatModel.rep_zero, zero_eq, by norm_num⟩
    cases hc with
    | margin h => rcases t with h' | h' <;> (rw [h'] at h; exact absurd h (by decide))
    | absolute h => exact ⟨_, rfl, rfl, rfl, rfl, rfl, z0⟩
    | summation h => rcases t with h' | h' <;> (rw [h'] at h; exact absurd h (by decide))
    | stepwise h => rcases t with h' | h' <;> (rw [h'] at h; exact absurd h (by decide))

theorem keeping_out {y : Dbl} (h0 : 0 ≤ y) {cool : Dbl → Prop} {e : Entry} {c c' : ThermalCtl} {z : ZoneData} {v : Dbl}
    (hq : e.2.type = "temp" ∨ e.2.type = "power" → Proportional e.2.pidInfo → ModerateCache e.2.inputs z)
    (h : Keeping y cool e c) (ho : CtlOut z c v c') :
    Keeping y cool e c' ∧
      ((∀ j ∈ e.2.inputs, ∀ x, z.cachedValuesByName.find? j.name = some x → cool x.scaled) → v = nan ∨ v ≤ y) := by
  cases h with
  | table n k h1 h2 h3 h4 h5 h6 st =>
    refine ⟨.table n k h1 h2 h3 h4 h5 h6 (soundSteps_out st ho), fun hc => .inr ?_⟩
    obtain ⟨s, rfl, q1, q2, q3⟩ := st
    cases ho with
    | @stepwise _ input hi =>
      rw [q1, q2] at *
      refine Dbl.le_trans (step_le h1 h2 h3 q3 (fun hk1 hkn1 => ?_)) h4
      have hcl : ∀ m ∈ e.2.inputs.map SensorInput.name, ∀ x, z.cachedValuesByName.find? m = some x →
          x.scaled.isFinite = true ∧
          ClearOf e.2.stepwiseInfo.negativeHysteresis (e.2.stepwiseInfo.reading ⟨k + 1, hk1⟩) x.scaled := by
        intro m hm x hx
        obtain ⟨j, hj, rfl⟩ := List.mem_map.1 hm
        obtain ⟨a, b⟩ := h6 _ (hc j hj x hx)
        exact ⟨a, b hk1 hkn1⟩
      rcases stepInput_one hi with hlow | ⟨m, hm, x, hx, hv⟩
      · obtain ⟨j, hj⟩ := List.exists_mem_of_ne_nil _ h5
        have hjm : j.name ∈ e.2.inputs.map SensorInput.name := List.mem_map.2 ⟨j, hj, rfl⟩
        obtain ⟨x, hx⟩ := stepInput_all hi j.name hjm
        obtain ⟨a, b⟩ := hcl _ hjm x hx
        rw [hlow]
        exact b.mono (lowest_le_finite a)
      · rw [hv]; exact (hcl m hm x hx).2
  | limits h1 h2 st =>
    obtain ⟨p, rfl, q1, q2⟩ := st
    cases ho with
    | @pid _ z1 z2 input hz hi =>
      obtain ⟨a, b⟩ := pidStep_le (c := p.ctl) (s := p.setpoint) (x := input) (y := y) (by rw [q1]; exact h1)
        (by rw [q1]; exact h2.1) (by rw [q1]; exact h2.2) h0 q2
      exact ⟨.limits h1 h2 ⟨_, rfl, (pidStep_conf _ _ _).trans q1, by rw [b]; exact a⟩, fun _ => a⟩
  | proportional h1 t h2 x hx h3 h4 st =>
    have hm := hq t h1
    refine ⟨.proportional h1 t h2 x hx h3 h4 (soundProp_out h1 h2 hm st ho).1, fun hc => .inr ?_⟩
    obtain ⟨p, rfl, q1, q2, q3, q4, q5⟩ := st
    cases ho with
    | @pid _ z1 z2 input hz hi =>
      have hm1 : ModerateCache p.inputs z1 := by unfold ModerateCache; rw [hz, q3]; exact hm
      have hin := (inputProc_absolute q1 (by rw [q2]; exact h2) hi hm1).1
      obtain ⟨st1, _⟩ := proportional_step (c := p.ctl) (s := p.setpoint) (by rw [q4]; exact h1) hin
        (by rw [q2]; exact h2) q5
      rw [st1, q4, q2]
      rcases inputProc_one q1 hi with hs | ⟨j, hj, r, hr, hf, hv⟩
      · rw [hs, q2]; exact h3.2
      · have hle : input ≤ x := by
          rw [hv]
          exact h4 _ (hc j (by rw [← q3]; exact hj) r (by rw [← hz]; exact hr)) hf
        exact Dbl.le_trans (proportional_mono h1 hin hx h2 hle) h3.1

end Verif
