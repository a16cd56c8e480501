import Verif.Spec.MoreCooling
import Verif.Lemmas.Slew
import Verif.Lemmas.Integral
import Verif.Lemmas.Quiet
import Verif.Lemmas.Sees
import Verif.Props.Failsafe
import Verif.Props.Daemon
import Verif.Props.Register

/-! # Helper lemmas: two runs, one hotter than the other -/

namespace Verif
variable [F : FloatModel]
open Dbl

/-! ## The set point -/

theorem addSetPoint_upto {z z' : ZoneData} (hi : NonAccInv z) {v y : Dbl} {n : String} (hy : z.maximumSetPoint ≤ y)
    (hv : enabledB z n = true → v = nan ∨ v ≤ y) (h : z.addSetPoint v n = .ok z') : z'.maximumSetPoint ≤ y := by
  obtain ⟨_, rfl⟩ := submit_ok (s := .setPoint n v) h
  rw [sub1_max_nonacc hi n v]
  split_ifs with he
  · exact cmax_le hy (hv he)
  · exact hy

theorem process_upto {z z' : ZoneData} (hi : NonAccInv z) {c c' : ThermalCtl} (hc : NotCeiling c) {y : Dbl}
    (hy : z.maximumSetPoint ≤ y) (hv : enabledB z c.id = true → ∀ v c', CtlOut z c v c' → v = nan ∨ v ≤ y)
    (h : c.process z = .ok (z', c')) : z'.maximumSetPoint ≤ y := by
  cases c with
  | pid c =>
    obtain ⟨⟨z1, c1⟩, h1, h⟩ := bind_eq_ok.1 h
    cases h
    obtain ⟨⟨z2, input⟩, h2, h1⟩ := bind_eq_ok.1 h1
    obtain ⟨z3, h3, h1⟩ := bind_eq_ok.1 h1
    obtain ⟨z4, h4, h1⟩ := bind_eq_ok.1 h1
    cases h1
    have d1 := inputProc_only h2
    have d2 := updateDebug_only h4
    rw [d2.max]
    exact addSetPoint_upto (hi.debug d1) (by rw [d1.max]; exact hy)
      (fun he => hv ((enabledB_debug d1 _).symm.trans he) _ _ (.pid rfl h2)) h3
  | stepwise c =>
    have hc : c.info.isCeiling = false := hc
    obtain ⟨⟨z1, c1⟩, h1, h⟩ := bind_eq_ok.1 h
    cases h
    obtain ⟨input, h2, h1⟩ := bind_eq_ok.1 h1
    dsimp only at h1
    rw [hc] at h1
    obtain ⟨z3, h3, h1⟩ := bind_eq_ok.1 h1
    cases h1
    exact addSetPoint_upto hi hy (fun he => hv he _ _ (.stepwise h2)) (show z.addSetPoint _ c.id = .ok z' from h3)

theorem list_upto : ∀ {cs cs' : List ThermalCtl} {z z' : ZoneData} {y : Dbl}, NonAccInv z → (∀ c ∈ cs, NotCeiling c) →
    z.maximumSetPoint ≤ y → (∀ c ∈ cs, enabledB z c.id = true → ∀ v c', CtlOut z c v c' → v = nan ∨ v ≤ y) →
    processThermalList z cs = .ok (z', cs') → z'.maximumSetPoint ≤ y
  | [], _, z, z', y, _, _, hy, _, h => by
    cases h
    exact hy
  | c :: cs, _, z, z', y, hi, hc, hy, hv, h => by
    unfold processThermalList at h
    obtain ⟨⟨z1, c1⟩, h1, h⟩ := bind_eq_ok.1 h
    obtain ⟨⟨z2, cs2⟩, h2, h⟩ := bind_eq_ok.1 h
    cases h
    obtain ⟨a, _⟩ := process_asked hi (hc c List.mem_cons_self) h1
    have hy1 := process_upto hi (hc c List.mem_cons_self) hy (hv c List.mem_cons_self) h1
    exact list_upto a.inv (fun x hx => hc x (List.mem_cons_of_mem _ hx)) hy1
      (fun x hx he v c' ho => hv x (List.mem_cons_of_mem _ hx) (by rw [← a.enabledB]; exact he) v c' (ho.congr a.cache)) h2

/-- the set point after a thermal pass of a zone without ceilings: the minimum of the zone, or the largest output of the loops
that are switched on -/
theorem thermals_exact {o : Opts} (ho : o.tuningEnabled = false) {w : World} {z z' : Zone}
    (hacc : z.d.accumulateSetPoint = false) (hc : ∀ c ∈ z.thermals, NotCeiling c) (h : z.processThermals o w = .ok z') :
    ∃ d m, z.d.updateSensors w = .ok d ∧ z'.d.maximumSetPoint = floorBy z.d.minThermalOutputSetPt m ∧ 0 ≤ m ∧
      (∀ k, (z'.d.procs.find? k).map (·.enabled) = (z.d.procs.find? k).map (·.enabled)) ∧
      List.Forall₂ (fun c c' => ∃ v, CtlOut d c v c' ∧ (enabledB z.d c.id = true → v = nan ∨ v ≤ m)) z.thermals z'.thermals ∧
      ∀ y, 0 ≤ y → (∀ c ∈ z.thermals, enabledB z.d c.id = true → ∀ v c', CtlOut d c v c' → v = nan ∨ v ≤ y) → m ≤ y := by
  unfold Zone.processThermals at h
  obtain ⟨d, h1, h⟩ := bind_eq_ok.1 h
  obtain ⟨⟨d1, ts⟩, h2, h⟩ := bind_eq_ok.1 h
  obtain ⟨d2, h3, h⟩ := bind_eq_ok.1 h
  cases h
  have e := (pollAll_spec h1).frame.eq
  have ep : d.procs = z.d.procs := by rw [e]
  have ea : d.accumulateSetPoint = z.d.accumulateSetPoint := by rw [e]
  have em : d.minThermalOutputSetPt = z.d.minThermalOutputSetPt := by rw [e]
  have hi := nonAccInv_clear (ea.trans hacc)
  obtain ⟨a, b⟩ := list_asked hi hc h2
  rw [determine_eq, ho] at h3
  have h3 : settled (ts.map ThermalCtl.id) d1 = d2 := by simpa using h3
  have hcl : d1.rpmCeilings = [] := a.ceilings
  have hen : ∀ k, enabledB d.clearSetPoints.clearRPMCeilings k = enabledB z.d k := by
    intro k
    unfold enabledB
    rw [← ep]
    rfl
  refine ⟨d, d1.maximumSetPoint, h1, ?_, a.le, fun k => ?_,
    b.imp (fun c c' ⟨v, q1, q2⟩ => ⟨v, q1.congr (z := d) (z' := d.clearSetPoints.clearRPMCeilings) rfl,
      fun he => q2 ((hen _).trans he)⟩), fun y hy hv => ?_⟩
  · show d2.maximumSetPoint = _
    rw [← h3, ← em]
    show floorBy d1.minThermalOutputSetPt (capBy d1.maximumSetPoint d1.rpmCeilings) = _
    rw [hcl, a.minimum]
    rfl
  · have : d2.procs = d1.procs := by rw [← h3]; rfl
    show (d2.procs.find? k).map _ = _
    rw [this, a.keys, ← ep]
    rfl
  · refine list_upto hi hc hy (fun c hc' he v c' ho => hv c hc' ((hen _).symm.trans he) v c' ?_) h2
    exact ho.congr (z := d) (z' := d.clearSetPoints.clearRPMCeilings) rfl

theorem floorBy_mono {m m' x y : Dbl} (hm : m = m' ∨ m ≤ m') (h : x ≤ y) : floorBy m x ≤ floorBy m' y := by
  rcases hm with rfl | hm
  · unfold floorBy
    split_ifs with h1 h2 h2
    · exact Dbl.le_refl (Dbl.ne_nan_of_le_right h1)
    · exact Dbl.le_of_lt (Dbl.lt_of_not_le (Dbl.ne_nan_of_le_right h1) (Dbl.ne_nan_of_le_right h) h2)
    · exact Dbl.le_trans h h2
    · exact h
  · unfold floorBy
    split_ifs with h1 h2 h2
    · exact hm
    · exact Dbl.le_trans hm (Dbl.le_of_lt (Dbl.lt_of_not_le (Dbl.ne_nan_of_le_right hm) (Dbl.ne_nan_of_le_right h) h2))
    · exact Dbl.le_trans h h2
    · exact h

/-! ## The loops -/

theorem slewed_mono2 {i i' : PidInfo} (hc : i'.toPidConf = i.toPidConf) (hi : i'.initialized = i.initialized) {x x' : Dbl}
    (hx : x ≤ x') (hl : i.initialized = true →
      i.lastOutput + i.slewNeg * i.ts ≤ i'.lastOutput + i.slewNeg * i.ts ∧
      i.lastOutput + i.slewPos * i.ts ≤ i'.lastOutput + i.slewPos * i.ts) :
    slewed i x ≤ slewed i' x' := by
  have e1 : i'.slewNeg = i.slewNeg := by rw [hc]
  have e2 : i'.slewPos = i.slewPos := by rw [hc]
  have e3 : i'.ts = i.ts := by rw [hc]
  have up : ∀ {a a' b b' : Dbl}, a ≤ a' → b ≤ b' → (if b < a then a else b) ≤ (if b' < a' then a' else b') := by
    intro a a' b b' ha hb
    split_ifs with h1 h2 h2
    · exact ha
    · exact Dbl.le_trans ha (Dbl.le_of_not_lt (Dbl.ne_nan_of_le_right ha) (Dbl.ne_nan_of_le_right hb) h2)
    · exact Dbl.le_trans hb (Dbl.le_of_lt h2)
    · exact hb
  have dn : ∀ {a a' b b' : Dbl}, a ≤ a' → b ≤ b' → (if a < b then a else b) ≤ (if a' < b' then a' else b') := by
    intro a a' b b' ha hb
    split_ifs with h1 h2 h2
    · exact ha
    · exact Dbl.le_trans (Dbl.le_of_lt h1) hb
    · exact Dbl.le_trans (Dbl.le_of_not_lt (Dbl.ne_nan_of_le_left hb) (Dbl.ne_nan_of_le_left ha) h1) ha
    · exact hb
  unfold slewed
  dsimp only
  rw [e1, e2, e3, hi]
  cases hb : i.initialized with
  | false => simpa using hx
  | true =>
    obtain ⟨l1, l2⟩ := hl hb
    simp only [Bool.true_and]
    by_cases n1 : nonZero i.slewNeg = true <;> by_cases n2 : nonZero i.slewPos = true <;>
      simp only [n1, n2, if_true, Bool.false_eq_true, if_false]
    · exact dn l2 (up l1 hx)
    · exact up l1 hx
    · exact dn l2 hx
    · exact hx

/-- two states of a loop with slew rates -/
structure SlewPair (conf : PidConf) (c c' : PidCtl) : Prop where
  ofConf : c.info.toPidConf = conf
  ofConf' : c'.info.toPidConf = conf
  error : SizeUpTo 2097152 c.info.lastError
  error' : SizeUpTo 2097152 c'.info.lastError
  initialized : c'.info.initialized = c.info.initialized
  last : c.info.initialized = true →
    Inside conf.outLim c.info.lastOutput ∧ Inside conf.outLim c'.info.lastOutput ∧ c.info.lastOutput ≤ c'.info.lastOutput

theorem slewPair_step {type : String} {conf : PidConf} (hc : Slewing conf) (hf : FacesHeat type conf.proportionalCoeff)
    {s v v' : Dbl} (hs : Moderate s) (hv : Moderate v) (hv' : Moderate v') (hle : AsHot type v v') {c c' : PidCtl}
    (h : SlewPair conf c c') : SlewPair conf (pidStep c s v).2 (pidStep c' s v').2 ∧ (pidStep c s v).1 ≤ (pidStep c' s v').1 := by
  obtain ⟨rfl, h2, h3, h4, h5, h6⟩ := h
  obtain ⟨q, hq, hts, hq1, hq2⟩ := hc.period
  have ht0 : (0 : Dbl) ≤ c.info.ts := by rw [hts, zero_eq, fin_le_fin]; linarith
  have ht : SizeUpTo 1024 c.info.ts := ⟨q, hq, hts, abs_le.2 ⟨by push_cast; linarith, by push_cast; linarith⟩⟩
  have hsane : SaneSlew c.info.toPidConf := ⟨hc.slew.1, hc.slew.2, ht0⟩
  have hsp : SizeUpTo (1048576 * 1024) (c.info.slewPos * c.info.ts) := hc.moderateSlew.2.sizeUpTo.mul ht (by norm_num)
  have hsn : SizeUpTo (1048576 * 1024) (c.info.slewNeg * c.info.ts) := hc.moderateSlew.1.sizeUpTo.mul ht (by norm_num)
  have hst0 : (0 : Dbl) ≤ c.info.slewPos * c.info.ts := by
    have := mul_le_mul_left_of_nonneg ht0 hc.slew.2 (by
      rw [hts, zero_eq, fin_mul_fin]; exact ofRat_ne_nan _) (by rw [mul_comm']; exact hsp.ne_nan)
    rw [mul_comm' c.info.ts c.info.slewPos] at this
    have h0 : c.info.ts * 0 = 0 := by rw [hts, zero_eq, fin_mul_fin, mul_zero]; exact ofRat_rep _
    rwa [h0] at this
  have hlast : ∀ {u : Dbl}, Inside c.info.outLim u → SizeUpTo 1048576 u := fun hi =>
    Moderate.sizeUpTo ⟨Dbl.le_trans hc.moderateLimits.1.1 hi.1, Dbl.le_trans hi.2 hc.moderateLimits.2.2⟩
  have hinside : ∀ (i : PidInfo) (o : Dbl), i.toPidConf = c.info.toPidConf →
      (i.initialized = true → Inside c.info.outLim i.lastOutput) → Inside c.info.outLim o → Inside c.info.outLim (slewed i o) := by
    intro i o he hi ho
    have e1 : i.outLim = c.info.outLim := by rw [he]
    have h1 : c.info.outLim.min ≤ slewed i o := slewed_ge ho.1 (fun h _ => by
      have e2 : i.slewPos = c.info.slewPos := by rw [he]
      have e3 : i.ts = c.info.ts := by rw [he]
      rw [e2, e3]
      exact Dbl.le_trans (hi h).1 (le_add_nonneg hst0 ((hlast (hi h)).add hsp (by norm_num)).ne_nan))
    refine ⟨h1, ?_⟩
    have := slewed_inLimits (i := i) (o := o) (l := c.info.outLim) (by rw [he]; exact hsane)
      (fun h => .inr (hi h)) (.inr ho)
    exact (this.resolve_left (Dbl.ne_nan_of_le_right h1)).2
  have hc' : Slewing c'.info.toPidConf := by rw [h2]; exact hc
  obtain ⟨a1, a2, a3, a4⟩ := slewing_step hc hv hs h3
  obtain ⟨b1, b2, b3, b4⟩ := slewing_step hc' hv' hs h4
  rw [h2] at b1
  have hmono := slewing_mono hc hf hv hv' hs hle
  have hout : (pidStep c s v).1 ≤ (pidStep c' s v').1 := by
    rw [a1, b1]
    refine slewed_mono2 h2 h5 hmono (fun hi => ?_)
    obtain ⟨l1, l2, l3⟩ := h6 hi
    exact ⟨Dbl.add_le_add l3 (Dbl.le_refl hsn.ne_nan) ((hlast l1).add hsn (by norm_num)).ne_nan
        ((hlast l2).add hsn (by norm_num)).ne_nan,
      Dbl.add_le_add l3 (Dbl.le_refl hsp.ne_nan) ((hlast l1).add hsp (by norm_num)).ne_nan
        ((hlast l2).add hsp (by norm_num)).ne_nan⟩
  refine ⟨⟨pidStep_conf _ _ _, (pidStep_conf _ _ _).trans h2, a2, b2, b3.trans a3.symm, fun _ => ⟨?_, ?_, ?_⟩⟩, hout⟩
  · rw [a4, a1]
    exact hinside _ _ rfl (fun hi => (h6 hi).1) (proportionalAt_inside hc hv hs)
  · rw [b4, b1]
    exact hinside _ _ h2 (fun hi => (h6 (h5.symm.trans hi)).2.1) (proportionalAt_inside hc hv' hs)
  · rw [a4, b4]; exact hout

/-- two states of a loop with an integral part -/
structure IntPair (conf : PidConf) (c c' : PidCtl) : Prop where
  ofConf : c.info.toPidConf = conf
  ofConf' : c'.info.toPidConf = conf
  error : SizeUpTo 2097152 c.info.lastError
  error' : SizeUpTo 2097152 c'.info.lastError
  size : SizeUpTo 1048576 c.info.integral
  size' : SizeUpTo 1048576 c'.info.integral
  integral : c.info.integral ≤ c'.info.integral

theorem intPair_step {type : String} {conf : PidConf} (hc : Integrating conf) (hkp : FacesHeat type conf.proportionalCoeff)
    (hki : FacesHeat type conf.integralCoeff) {s v v' : Dbl} (hs : Moderate s) (hv : Moderate v) (hv' : Moderate v')
    (hle : AsHot type v v') {c c' : PidCtl} (h : IntPair conf c c') :
    IntPair conf (pidStep c s v).2 (pidStep c' s v').2 ∧ (pidStep c s v).1 ≤ (pidStep c' s v').1 := by
  obtain ⟨rfl, h2, h3, h4, h5, h6, h7⟩ := h
  have hc' : Integrating c'.info.toPidConf := by rw [h2]; exact hc
  obtain ⟨a1, a2, a3⟩ := integrating_step hc hv hs h3 h5
  obtain ⟨b1, b2, b3⟩ := integrating_step hc' hv' hs h4 h6
  obtain ⟨_, a5, _, _⟩ := integrating_sum hc hv hs h3 h5
  obtain ⟨_, b5, _, _⟩ := integrating_sum hc' hv' hs h4 h6
  have hI : nextIntegral c.info s v ≤ nextIntegral c'.info s v' := by
    unfold nextIntegral
    rw [h2]
    refine clamp_mono hc.integralLimits (Dbl.add_le_add h7 (increment_mono hc hki hs hv hv' hle) ?_ ?_)
    · exact (h5.add (increment_size hc hs hv).2 (by norm_num)).ne_nan
    · exact (h6.add (increment_size hc hs hv').2 (by norm_num)).ne_nan
  refine ⟨⟨pidStep_conf _ _ _, (pidStep_conf _ _ _).trans h2, a2, b2, by rw [a3]; exact a5, by rw [b3]; exact b5,
    by rw [a3, b3]; exact hI⟩, ?_⟩
  rw [a1, b1, h2]
  obtain ⟨kp, _, fo, fg⟩ := hc.moderate
  have e4 := kp.sizeUpTo.mul (hs.sizeUpTo.sub hv.sizeUpTo (by norm_num)) (by norm_num)
  have e4' := kp.sizeUpTo.mul (hs.sizeUpTo.sub hv'.sizeUpTo (by norm_num)) (by norm_num)
  have e5 := (hs.sizeUpTo.add fo.sizeUpTo (by norm_num)).mul fg.sizeUpTo (by norm_num)
  have f1 := e4.add a5 (by norm_num)
  have f2 := e4'.add b5 (by norm_num)
  exact clamp_mono hc.limits (Dbl.add_le_add (Dbl.add_le_add (more_heat kp hkp hs hv hv' hle) hI f1.ne_nan f2.ne_nan)
    (Dbl.le_refl e5.ne_nan) (f1.add e5 (by norm_num)).ne_nan (f2.add e5 (by norm_num)).ne_nan)

/-- a PID of entry `e` -/
structure PidOf (e : Entry) (c : ThermalPid) : Prop where
  id : c.id = e.1
  inputs : c.inputs = e.2.inputs
  kind : KindOf e.2.type c.type
  setpoint : c.setpoint = e.2.setpoint

/-- a stepwise loop of entry `e` -/
structure StepOf (e : Entry) (c : StepwiseCtl) : Prop where
  id : c.id = e.1
  inputs : c.inputs = e.2.inputs.map SensorInput.name
  type : e.2.type = "stepwise"
  info : c.info = e.2.stepwiseInfo

/-- the loop of entry `e` in two runs -/
inductive Pair (S : ControllerInfo → Prop) (e : Entry) : ThermalCtl → ThermalCtl → Prop
  | samePid {c : ThermalPid} : ¬ S e.2 → PidOf e c → Pair S e (.pid c) (.pid c)
  | sameSteps {c : StepwiseCtl} : ¬ S e.2 → StepOf e c → Pair S e (.stepwise c) (.stepwise c)
  | steps {n : Nat} {c c' : StepwiseCtl} : S e.2 → RisingTable e.2.stepwiseInfo n → e.2.stepwiseInfo.positiveHysteresis = 0 →
      e.2.stepwiseInfo.negativeHysteresis = 0 → StepOf e c → StepOf e c' → StepSound e.2.stepwiseInfo c.st →
      StepSound e.2.stepwiseInfo c'.st → Pair S e (.stepwise c) (.stepwise c')
  | slewing {c c' : ThermalPid} : S e.2 → Slewing e.2.pidInfo → FacesHeat e.2.type e.2.pidInfo.proportionalCoeff →
      Moderate e.2.setpoint → PidOf e c → PidOf e c' → SlewPair e.2.pidInfo c.ctl c'.ctl → Pair S e (.pid c) (.pid c')
  | integrating {c c' : ThermalPid} : S e.2 → Integrating e.2.pidInfo → FacesHeat e.2.type e.2.pidInfo.proportionalCoeff →
      FacesHeat e.2.type e.2.pidInfo.integralCoeff → Moderate e.2.setpoint → PidOf e c → PidOf e c' →
      IntPair e.2.pidInfo c.ctl c'.ctl → Pair S e (.pid c) (.pid c')

variable {S : ControllerInfo → Prop}

theorem Pair.ids {e : Entry} {c c' : ThermalCtl} (h : Pair S e c c') : c.id = e.1 ∧ c'.id = e.1 := by
  cases h with
  | samePid _ h => exact ⟨h.id, h.id⟩
  | sameSteps _ h => exact ⟨h.id, h.id⟩
  | steps _ _ _ _ h h' => exact ⟨h.id, h'.id⟩
  | slewing _ _ _ _ h h' => exact ⟨h.id, h'.id⟩
  | integrating _ _ _ _ _ h h' => exact ⟨h.id, h'.id⟩

theorem KindOf.isPid {type : String} {t : ThermalType} (h : KindOf type t) : IsPid type := by
  rcases h with ⟨_, h⟩ | ⟨_, h | h⟩ | ⟨_, h⟩
  · exact .inr (.inr (.inl h))
  · exact .inl h
  · exact .inr (.inl h)
  · exact .inr (.inr (.inr h))

theorem pid_sees {e : Entry} {c : ThermalPid} (hc : PidOf e c) {w : World} {z d : ZoneData} (hu : z.updateSensors w = .ok d)
    (hti : ∀ j ∈ e.2.inputs, j.name ∈ z.thermalInputs) {z1 z2 : ZoneData} (h1 : z1.cachedValuesByName = d.cachedValuesByName)
    {v : Dbl} (h2 : c.inputProc z1 = .ok (z2, v)) : LoopInput w e.2 v :=
  .pid hc.kind.isPid (fed_of (e := e.2) hc.kind hti (G := fun v => Sees w e.2 v) (fun _ h => h) z d rfl hu c z1 z2 v rfl
    hc.setpoint hc.inputs h1 h2)

theorem stepInput_fold {z : ZoneData} : ∀ {ns : List String} {v0 v : Dbl}, StepwiseCtl.inputLoop z v0 ns = .ok v →
    ∃ rs, List.Forall₂ (fun n r => ∃ e, z.cachedValuesByName.find? n = some e ∧ e.scaled = r) ns rs ∧ v = rs.foldl cmax v0
  | [], v0, v, h => by
    cases h
    exact ⟨[], .nil, rfl⟩
  | n :: ns, v0, v, h => by
    unfold StepwiseCtl.inputLoop at h
    obtain ⟨e, h1, h2⟩ := bind_eq_ok.1 h
    obtain ⟨rs, a, b⟩ := stepInput_fold h2
    exact ⟨e.scaled :: rs, .cons ⟨e, (OMap.atKey_ok_iff _ _ _).1 h1, rfl⟩ a, b⟩

theorem steps_see {e : Entry} {c : StepwiseCtl} (hc : StepOf e c) {w : World} {z d : ZoneData} (hu : z.updateSensors w = .ok d)
    (hti : ∀ j ∈ e.2.inputs, j.name ∈ z.thermalInputs) {v : Dbl} (h : StepwiseCtl.inputLoop d lowest c.inputs = .ok v) :
    LoopInput w e.2 v := by
  obtain ⟨rs, h1, rfl⟩ := stepInput_fold h
  rw [hc.inputs] at h1
  refine .stepwise hc.type ?_ (foldl_cmax_largest rs lowest_ne_nan)
  have hp := (pollAll_spec hu).sensor
  rw [List.forall₂_map_left_iff] at h1
  generalize e.2.inputs = is at h1 hti
  clear h
  induction h1 with
  | nil => exact .nil
  | @cons i r is rs q _ ih =>
    refine .cons ?_ (ih (fun j hj => hti j (List.mem_cons_of_mem _ hj)))
    obtain ⟨y, hy1, hy2⟩ := q
    obtain ⟨s, rr, f, a1, a2, _, a4⟩ := hp i.name (hti i List.mem_cons_self)
    rw [hy1] at a4
    cases a4
    exact ⟨s, rr, a1, a2, hy2⟩

/-- without hysteresis the output belongs to the input -/
theorem step_exact {info : StepwiseInfo} (hp : info.positiveHysteresis = 0) (hn : info.negativeHysteresis = 0) {st : StepState}
    (h : StepSound info st) {v : Dbl} (hv : v ≠ nan) : (stepwiseStep info st v).1 = stepwise info v := by
  unfold stepwiseStep
  dsimp only
  split_ifs with h1 h2 h3
  · rfl
  · rfl
  · rfl
  · have h := h.resolve_left (by rw [← isNaN_iff]; exact h1)
    rw [hp] at h2
    rw [hn] at h3
    have a : ¬ st.lastInput < v := fun hlt => h2 (sub_pos_of_lt' hlt)
    have b : ¬ v < st.lastInput := fun hlt => h3 (sub_pos_of_lt' hlt)
    rw [h.1, Dbl.le_antisymm (Dbl.le_of_not_lt hv h.2 a) (Dbl.le_of_not_lt h.2 hv b)]

theorem largest_ne_nan {S : Dbl → Prop} {m : Dbl} (h : Largest S m) : m ≠ nan := Dbl.ne_nan_of_le_left (h.2 m h.1)

theorem pair_step {e : Entry} {c c' c1 c1' : ThermalCtl} (h : Pair S e c c') {w w' : World} {z z' d d' : ZoneData}
    (hu : z.updateSensors w = .ok d) (hu' : z'.updateSensors w' = .ok d') (hti : ∀ j ∈ e.2.inputs, j.name ∈ z.thermalInputs)
    (hti' : ∀ j ∈ e.2.inputs, j.name ∈ z'.thermalInputs)
    (hw : ∀ v v', LoopInput w e.2 v → LoopInput w' e.2 v' → Warmer S e.2 v v') {v v' : Dbl} (ho : CtlOut d c v c1)
    (ho' : CtlOut d' c' v' c1') : Pair S e c1 c1' ∧ (v = v' ∨ v ≤ v') := by
  cases h with
  | samePid hr hc =>
    cases ho with
    | @pid _ z1 z2 x h1 h2 =>
      cases ho' with
      | @pid _ z1' z2' x' h1' h2' =>
        cases hw _ _ (pid_sees hc hu hti h1 h2) (pid_sees hc hu' hti' h1' h2') with
        | hotter hh => exact absurd hh hr
        | same _ he =>
          subst he
          exact ⟨.samePid hr ⟨hc.id, hc.inputs, hc.kind, hc.setpoint⟩, .inl rfl⟩
  | sameSteps hr hc =>
    cases ho with
    | stepwise h1 =>
      cases ho' with
      | stepwise h1' =>
        cases hw _ _ (steps_see hc hu hti h1) (steps_see hc hu' hti' h1') with
        | hotter hh => exact absurd hh hr
        | same _ he =>
          subst he
          exact ⟨.sameSteps hr ⟨hc.id, hc.inputs, hc.type, hc.info⟩, .inl rfl⟩
  | @steps n c c' hS ht hp hn hc hc' hs hs' =>
    cases ho with
    | stepwise h1 =>
      cases ho' with
      | stepwise h1' =>
        cases hw _ _ (steps_see hc hu hti h1) (steps_see hc' hu' hti' h1') with
        | same hh => exact absurd hS hh
        | hotter _ hle _ =>
          have n1 := Dbl.ne_nan_of_le_right (stepInput_ge lowest_ne_nan h1).1
          have n1' := Dbl.ne_nan_of_le_right (stepInput_ge lowest_ne_nan h1').1
          unfold AsHot at hle
          rw [hc.type, if_neg (by decide)] at hle
          refine ⟨.steps hS ht hp hn ⟨hc.id, hc.inputs, hc.type, hc.info⟩ ⟨hc'.id, hc'.inputs, hc'.type, hc'.info⟩ ?_ ?_, .inr ?_⟩
          · rw [hc.info]; exact stepSound_step hs n1
          · rw [hc'.info]; exact stepSound_step hs' n1'
          · rw [hc.info, hc'.info, step_exact hp hn hs n1, step_exact hp hn hs' n1']
            exact C12_monotone _ n ht.listed ht.outputs hle
  | slewing hS hc hf hs hp hp' hpair =>
    cases ho with
    | @pid _ z1 z2 x h1 h2 =>
      cases ho' with
      | @pid _ z1' z2' x' h1' h2' =>
        cases hw _ _ (pid_sees hp hu hti h1 h2) (pid_sees hp' hu' hti' h1' h2') with
        | same hh => exact absurd hS hh
        | hotter _ hle hm =>
          obtain ⟨m1, m2⟩ := hm hp.kind.isPid
          have e1 := hp.setpoint
          have e2 := hp'.setpoint
          obtain ⟨a, b⟩ := slewPair_step hc hf hs m1 m2 hle hpair
          exact ⟨.slewing hS hc hf hs ⟨hp.id, hp.inputs, hp.kind, e1⟩ ⟨hp'.id, hp'.inputs, hp'.kind, e2⟩ (by rw [e1, e2]; exact a),
            .inr (by rw [e1, e2]; exact b)⟩
  | integrating hS hc hf hf2 hs hp hp' hpair =>
    cases ho with
    | @pid _ z1 z2 x h1 h2 =>
      cases ho' with
      | @pid _ z1' z2' x' h1' h2' =>
        cases hw _ _ (pid_sees hp hu hti h1 h2) (pid_sees hp' hu' hti' h1' h2') with
        | same hh => exact absurd hS hh
        | hotter _ hle hm =>
          obtain ⟨m1, m2⟩ := hm hp.kind.isPid
          have e1 := hp.setpoint
          have e2 := hp'.setpoint
          obtain ⟨a, b⟩ := intPair_step hc hf hf2 hs m1 m2 hle hpair
          exact ⟨.integrating hS hc hf hf2 hs ⟨hp.id, hp.inputs, hp.kind, e1⟩ ⟨hp'.id, hp'.inputs, hp'.kind, e2⟩
            (by rw [e1, e2]; exact a), .inr (by rw [e1, e2]; exact b)⟩

theorem pair_start {e : Entry} {c : ThermalCtl} (hS : S e.2 → RisesWithHeat e.2) (h : HeatLoop e c) : Pair S e c c := by
  have z0 : ∀ n, SizeUpTo n (0 : Dbl) := fun n => ⟨0, FloatModel.rep_zero, zero_eq, by simp⟩
  have hpid : ∀ {t : ThermalType}, KindOf e.2.type t →
      Pair S e (.pid ⟨e.1, e.2.inputs, t, e.2.setpoint, ⟨⟨e.2.pidInfo, false, 0, 0, 0⟩, nan⟩⟩)
        (.pid ⟨e.1, e.2.inputs, t, e.2.setpoint, ⟨⟨e.2.pidInfo, false, 0, 0, 0⟩, nan⟩⟩) := by
    intro t hk
    have hp : PidOf e ⟨e.1, e.2.inputs, t, e.2.setpoint, ⟨⟨e.2.pidInfo, false, 0, 0, 0⟩, nan⟩⟩ := ⟨rfl, rfl, hk, rfl⟩
    by_cases hr : S e.2
    · cases hS hr with
      | table ht =>
        exfalso
        rw [ht] at hk
        rcases hk with ⟨_, h⟩ | ⟨_, h | h⟩ | ⟨_, h⟩ <;> exact absurd h (by decide)
      | slewing _ hc hf hs =>
        exact .slewing hr hc hf hs hp hp ⟨rfl, rfl, z0 _, z0 _, rfl, fun h => absurd h (by simp)⟩
      | integrating _ hc hf hf2 hs =>
        exact .integrating hr hc hf hf2 hs hp hp ⟨rfl, rfl, z0 _, z0 _, z0 _, z0 _, Dbl.le_refl Dbl.zero_ne_nan⟩
    · exact .samePid hr hp
  cases h with
  | margin ht => exact hpid (.inl ⟨rfl, ht⟩)
  | absolute ht => exact hpid (.inr (.inl ⟨rfl, ht⟩))
  | summation ht => exact hpid (.inr (.inr ⟨rfl, ht⟩))
  | stepwise ht =>
    have hs : StepOf e ⟨e.1, e.2.inputs.map SensorInput.name, e.2.stepwiseInfo, ⟨nan, nan⟩⟩ := ⟨rfl, rfl, ht, rfl⟩
    by_cases hr : S e.2
    · cases hS hr with
      | table _ h1 h2 h3 => exact .steps hr h1 h2 h3 hs hs (.inl rfl) (.inl rfl)
      | slewing hk =>
        exfalso
        rw [ht] at hk
        rcases hk with h | h | h | h <;> exact absurd h (by decide)
      | integrating hk =>
        exfalso
        rw [ht] at hk
        rcases hk with h | h | h | h <;> exact absurd h (by decide)
    · exact .sameSteps hr hs


/-! ## The zone -/

theorem inited_inv {z : ZoneData} (hb : Built z) : HistInv z z.initializeCache [] := by
  have a := initializeCache_spec z
  refine ⟨?_, a.percent, a.wf ?_, fun n e he => ?_, fun n => ?_, by simp⟩
  · rw [a.eq]; simp
  · rw [built_failed hb]; exact OMap.wf_empty
  · rw [a.failed, built_failed hb] at he
    split_ifs at he
    · cases he; rfl
    · cases he
  · simp only [Failed, a.failed, built_failed hb, lastPoll_nil, Required, List.mem_append]
    constructor
    · rintro ⟨e, he⟩
      split_ifs at he with h1
      · exact ⟨h1, by simp⟩
      · cases he
    · rintro ⟨h1, _⟩
      exact ⟨_, by rw [if_pos h1]⟩

/-- the percentage that is set for a sensor is one of a loop or the one of the zone -/
theorem PercentFor.holds {c : ZoneConfig} {conf : List Entry} {s : String} {p : Dbl} {P : Dbl → Prop} (h : PercentFor c conf s p)
    (hP : ∀ e ∈ conf, P e.2.failSafePercent) (hz : P c.failsafePercent) : P p := by
  cases h with
  | own h1 _ =>
    obtain ⟨⟨a, b⟩, hab, rfl⟩ := List.mem_map.1 h1.1
    obtain ⟨e, he, hx⟩ := List.mem_flatMap.1 (List.mem_filter.1 hab).1
    obtain ⟨i, -, hx⟩ := List.mem_map.1 hx
    obtain ⟨-, rfl⟩ := Prod.mk.inj hx
    exact hP e (List.mem_filter.1 he).1
  | zero _ => exact hz
  | zone _ => exact hz

theorem percentsFor_ne_nan {conf : List Entry} (hnum : ∀ e ∈ conf, e.2.failSafePercent ≠ nan) (s : String) :
    ∀ p ∈ percentsFor s conf, p ≠ nan := by
  intro p hp
  obtain ⟨⟨a, b⟩, hab, rfl⟩ := List.mem_map.1 hp
  obtain ⟨e, he, hx⟩ := List.mem_flatMap.1 (List.mem_filter.1 hab).1
  obtain ⟨i, -, hx⟩ := List.mem_map.1 hx
  obtain ⟨-, rfl⟩ := Prod.mk.inj hx
  exact hnum e (List.mem_filter.1 he).1

theorem SameLoop.inputs {e e' : Entry} (h : SameLoop e e') : e'.2.inputs = e.2.inputs := by rw [h.2]

theorem SameLoop.heat {e e' : Entry} (h : SameLoop e e') (hh : IsHeat e) : IsHeat e' := by
  unfold IsHeat at *
  rw [h.2]
  exact hh

theorem SameLoop.loop {e e' : Entry} (h : SameLoop e e') {c : ThermalCtl} (hc : HeatLoop e' c) : HeatLoop e c := by
  obtain ⟨n, x⟩ := e
  obtain ⟨n', x'⟩ := e'
  obtain ⟨h1, h2⟩ := h
  dsimp only at h1 h2
  subst h1
  rw [h2] at hc
  cases hc with
  | margin h => exact .margin h
  | absolute h => exact .absolute h
  | summation h => exact .summation h
  | stepwise h => exact .stepwise h

/-- what two zones have of their configurations; the second one asks for as much cooling -/
structure ConfPair (conf conf' : List Entry) (d0 d0' : ZoneData) : Prop where
  acc : d0.accumulateSetPoint = false
  acc' : d0'.accumulateSetPoint = false
  ceil : ∀ e ∈ conf, e.2.type = "stepwise" → e.2.stepwiseInfo.isCeiling = false
  thermals : ∀ n, n ∈ d0.thermalInputs ↔ ∃ e ∈ conf, IsHeat e ∧ ∃ i ∈ e.2.inputs, i.name = n
  thermals' : ∀ n, n ∈ d0'.thermalInputs ↔ ∃ e ∈ conf', IsHeat e ∧ ∃ i ∈ e.2.inputs, i.name = n
  fans : ∀ n ∈ d0.fanInputs, ∃ e ∈ conf, IsFan e ∧ ∃ i ∈ e.2.inputs, i.name = n
  fanInputs : d0'.fanInputs = d0.fanInputs
  more : ∀ e ∈ conf, IsHeat e → ∃ e' ∈ conf', SameLoop e e'
  apart : ∀ n ∈ d0'.thermalInputs, n ∈ d0.fanInputs → n ∈ d0.thermalInputs
  missing : ∀ n, n ∈ d0.fanInputs ∨ n ∈ d0.thermalInputs → n ∈ d0'.missingAcceptable → n ∈ d0.missingAcceptable
  percent : ∀ n, percentOf d0 n ≠ nan
  percent' : ∀ n, percentOf d0' n ≠ nan
  percents : ∀ n, Required d0 n → percentOf d0 n ≤ percentOf d0' n
  cycleTime : d0'.cycleTime = d0.cycleTime
  lowest : d0.minThermalOutputSetPt = d0'.minThermalOutputSetPt ∨ d0.minThermalOutputSetPt ≤ d0'.minThermalOutputSetPt

/-- the zone in two runs, the second one hotter -/
structure Hotter (S : ControllerInfo → Prop) (conf : List Entry) (d0 d0' : ZoneData)
    (fk : List (Option (List String × PidConf))) (z z' : Zone) : Prop where
  inv : ∃ log, HistInv d0 z.d log
  inv' : ∃ log, HistInv d0' z'.d log
  manual : z.d.manualMode = z'.d.manualMode
  switches : ∀ e ∈ conf, IsHeat e → (z.d.procs.find? e.1).map (·.enabled) = (z'.d.procs.find? e.1).map (·.enabled)
  loops : ∀ c ∈ z.thermals, ∃ c' ∈ z'.thermals, ∃ e ∈ conf, IsHeat e ∧ Pair S e c c'
  loops' : ∀ c' ∈ z'.thermals, NotCeiling c'
  setPoint : z.d.maximumSetPoint ≤ z'.d.maximumSetPoint
  failed : ∀ n, Failed z.d n → Failed z'.d n
  fans : z.fans.map (Option.map fanKey) = fk
  fans' : z'.fans.map (Option.map fanKey) = fk

theorem forall₂_square {α β : Type} {R R' : α → β → Prop} {S : α → α → Prop} {S' : β → β → Prop}
    (k : ∀ x y x' y', R x y → S x x' → S' y y' → R' x' y') : ∀ {a a' : List α} {b b' : List β}, List.Forall₂ R a b →
    List.Forall₂ S a a' → List.Forall₂ S' b b' → List.Forall₂ R' a' b'
  | _, _, _, _, .nil, .nil, .nil => .nil
  | _, _, _, _, .cons r rs, .cons s ss, .cons s' ss' => .cons (k _ _ _ _ r s s') (forall₂_square k rs ss ss')

theorem Pair.notCeiling {e : Entry} (hc : e.2.type = "stepwise" → e.2.stepwiseInfo.isCeiling = false) {c c' : ThermalCtl}
    (h : Pair S e c c') : NotCeiling c ∧ NotCeiling c' := by
  cases h with
  | samePid _ h => exact ⟨trivial, trivial⟩
  | sameSteps _ h =>
    have : NotCeiling (ThermalCtl.stepwise _) := show _ = false by rw [h.info]; exact hc h.type
    exact ⟨this, this⟩
  | steps _ _ _ _ h h' =>
    exact ⟨show _ = false by rw [h.info]; exact hc h.type, show _ = false by rw [h'.info]; exact hc h.type⟩
  | slewing => exact ⟨trivial, trivial⟩
  | integrating => exact ⟨trivial, trivial⟩

theorem failed_poll {d0 d0' z z' d d' : ZoneData} {log log' : List Poll} (h : HistInv d0 z log) (h' : HistInv d0' z' log')
    (hmi : ∀ n, n ∈ d0.fanInputs ∨ n ∈ d0.thermalInputs → n ∈ d0'.missingAcceptable → n ∈ d0.missingAcceptable)
    (hf : ∀ n, Failed z n → Failed z' n) {names names' : List String}
    (hn : ∀ n ∈ names, n ∈ d0.fanInputs ∨ n ∈ d0.thermalInputs) (hsub : ∀ n ∈ names, n ∈ names')
    (hnew : ∀ n ∈ names', n ∈ d0.fanInputs ∨ n ∈ d0.thermalInputs → n ∈ names)
    {w w' : World} {now now' : Int} (hw : ∀ n ∈ names, FailsAt w now n → FailsAt w' now' n)
    (hp : z.processSensorInputs w now names = .ok d) (hp' : z'.processSensorInputs w' now' names' = .ok d') :
    ∀ n, Failed d n → Failed d' n := by
  intro n hF
  have a := pollAll_spec hp
  have a' := pollAll_spec hp'
  have i := h.poll hn hp
  obtain ⟨hr1, hr2⟩ := ((i.failed n).1 hF).1
  by_cases hin : n ∈ names
  · have h1 : FailsAt w now n := by
      by_contra hno
      obtain ⟨x, hx⟩ := hF
      rw [a.works n hin hno] at hx
      cases hx
    have h2 : n ∉ z'.missingAcceptable := by
      rw [h'.same.2.2.1]
      exact fun hm => hr2 (hmi n hr1 hm)
    obtain ⟨r, hr, _⟩ := a'.fails n (hsub n hin) (hw n hin h1) h2
    exact ⟨_, hr⟩
  · unfold Failed at hF ⊢
    rw [(a.other n hin).1] at hF
    rw [(a'.other n (fun hh => hin (hnew n hh hr1))).1]
    exact hf n hF

variable {conf conf' : List Entry} {d0 d0' : ZoneData} {fk : List (Option (List String × PidConf))}

theorem Hotter.thermals (hk : ConfPair conf conf' d0 d0') {o : Opts} (ho : o.tuningEnabled = false) {w w' : World} {z z' z1 z1' : Zone}
    (h : Hotter S conf d0 d0' fk z z') (hw : HotterAt S conf w w') (hp : z.processThermals o w = .ok z1)
    (hp' : z'.processThermals o w' = .ok z1') : Hotter S conf d0 d0' fk z1 z1' := by
  obtain ⟨log, i⟩ := h.inv
  obtain ⟨log', i'⟩ := h.inv'
  have hnc : ∀ c ∈ z.thermals, NotCeiling c := by
    intro c hc
    obtain ⟨c', _, e, he, _, hpr⟩ := h.loops c hc
    exact (hpr.notCeiling (hk.ceil e he)).1
  obtain ⟨d, m, a1, a2, a3, a4, a5, a6⟩ := thermals_exact ho (i.same.2.2.2.2.2.1.trans hk.acc) hnc hp
  obtain ⟨d', m', b1, b2, b3, b4, b5, b6⟩ := thermals_exact ho (i'.same.2.2.2.2.2.1.trans hk.acc') h.loops' hp'
  have hti : ∀ e ∈ conf, IsHeat e → ∀ j ∈ e.2.inputs, j.name ∈ z.d.thermalInputs := fun e he hh j hj => by
    rw [i.same.2.1]; exact (hk.thermals _).2 ⟨e, he, hh, j, hj, rfl⟩
  have hti' : ∀ e ∈ conf, IsHeat e → ∀ j ∈ e.2.inputs, j.name ∈ z'.d.thermalInputs := fun e he hh j hj => by
    rw [i'.same.2.1]
    obtain ⟨e', he', hs⟩ := hk.more e he hh
    exact (hk.thermals' _).2 ⟨e', he', hs.heat hh, j, by rw [hs.inputs]; exact hj, rfl⟩
  have hen : ∀ e ∈ conf, IsHeat e → enabledB z.d e.1 = enabledB z'.d e.1 := fun e he hh => by
    unfold enabledB; rw [h.switches e he hh]
  have hm : m ≤ m' := by
    refine a6 m' b3 (fun c hc he v c1 hout => ?_)
    obtain ⟨c', hc', e, hee, hh, hpr⟩ := h.loops c hc
    obtain ⟨c1', _, v', hout', hv'⟩ := forall₂_left b5 hc'
    have hid := hpr.ids
    have hv' := hv' (by rw [hid.2, ← hen e hee hh, ← hid.1]; exact he)
    rcases (pair_step hpr a1 b1 (hti e hee hh) (hti' e hee hh) (hw.inputs e hee hh) hout hout').2 with rfl | hle
    · exact hv'
    · exact .inr (Dbl.le_trans hle (hv'.resolve_left (Dbl.ne_nan_of_le_right hle)))
  obtain ⟨g1, g2, g3⟩ := thermalTick_flags hp
  obtain ⟨g1', g2', g3'⟩ := thermalTick_flags hp'
  refine ⟨⟨_, i.thermals hp⟩, ⟨_, i'.thermals hp'⟩, ?_, fun e he hh => by rw [a4, b4]; exact h.switches e he hh, ?_, ?_, ?_, ?_, ?_, ?_⟩
  · rw [g2, g2']; exact h.manual
  · intro c1 hc1
    obtain ⟨c, hc, v, hout, _⟩ := forall₂_right a5 hc1
    obtain ⟨c', hc', e, he, hh, hpr⟩ := h.loops c hc
    obtain ⟨c1', hc1', v', hout', _⟩ := forall₂_left b5 hc'
    exact ⟨c1', hc1', e, he, hh, (pair_step hpr a1 b1 (hti e he hh) (hti' e he hh) (hw.inputs e he hh) hout hout').1⟩
  · intro c1 hc1
    obtain ⟨c, hc, v, hout, _⟩ := forall₂_right b5 hc1
    exact hout.notCeiling (h.loops' c hc)
  · rw [a2, b2, i.same.2.2.2.2.2.2.1, i'.same.2.2.2.2.2.2.1]
    exact floorBy_mono hk.lowest hm
  · obtain ⟨d2, h2, h3⟩ := processThermals_rest hp
    obtain ⟨d2', h2', h3'⟩ := processThermals_rest hp'
    unfold ZoneData.updateSensors at h2 h2'
    intro n hF
    unfold Failed at hF ⊢
    rw [h3.failed] at hF
    rw [h3'.failed]
    refine failed_poll i i' hk.missing h.failed (fun n hn => .inr (by rw [← i.same.2.1]; exact hn)) (fun n hn => ?_)
      (fun n hn hn0 => ?_) (fun n hn hfa => ?_) h2 h2' n hF
    · rw [i.same.2.1] at hn
      rw [i'.same.2.1]
      obtain ⟨e, he, hh, j, hj, rfl⟩ := (hk.thermals n).1 hn
      obtain ⟨e', he', hs⟩ := hk.more e he hh
      exact (hk.thermals' _).2 ⟨e', he', hs.heat hh, j, by rw [hs.inputs]; exact hj, rfl⟩
    · rw [i'.same.2.1] at hn
      rw [i.same.2.1]
      exact hn0.elim (hk.apart n hn) id
    rw [i.same.2.1] at hn
    obtain ⟨e, he, hh, j, hj, rfl⟩ := (hk.thermals n).1 hn
    exact hw.thermals e he hh j hj hfa
  · rw [g3]; exact h.fans
  · rw [g3']; exact h.fans'

theorem Hotter.telemetry (hk : ConfPair conf conf' d0 d0') {w w' : World} {z z' : Zone} {d d' : ZoneData} (h : Hotter S conf d0 d0' fk z z')
    (hw : HotterAt S conf w w') (hp : z.d.updateFanTelemetry w = .ok d) (hp' : z'.d.updateFanTelemetry w' = .ok d') :
    Hotter S conf d0 d0' fk { z with d := d } { z' with d := d' } := by
  obtain ⟨log, i⟩ := h.inv
  obtain ⟨log', i'⟩ := h.inv'
  have e := (pollAll_spec hp).frame.eq
  have e' := (pollAll_spec hp').frame.eq
  have hn : ∀ n ∈ z.d.fanInputs, n ∈ d0.fanInputs ∨ n ∈ d0.thermalInputs := fun n hn => .inl (by rw [← i.same.1]; exact hn)
  have hn' : ∀ n ∈ z'.d.fanInputs, n ∈ d0'.fanInputs ∨ n ∈ d0'.thermalInputs := fun n hn => .inl (by rw [← i'.same.1]; exact hn)
  have p1 : d.procs = z.d.procs := by rw [e]
  have p2 : d'.procs = z'.d.procs := by rw [e']
  have q1 : d.manualMode = z.d.manualMode := by rw [e]
  have q2 : d'.manualMode = z'.d.manualMode := by rw [e']
  have s1 : d.maximumSetPoint = z.d.maximumSetPoint := by rw [e]
  have s2 : d'.maximumSetPoint = z'.d.maximumSetPoint := by rw [e']
  refine ⟨⟨_, i.poll hn hp⟩, ⟨_, i'.poll hn' hp'⟩, q1.trans (h.manual.trans q2.symm),
    fun k => by dsimp only; rw [p1, p2]; exact h.switches k, h.loops, h.loops', by dsimp only; rw [s1, s2]; exact h.setPoint, ?_, h.fans, h.fans'⟩
  have e1 : z'.d.fanInputs = z.d.fanInputs := by rw [i.same.1, i'.same.1, hk.fanInputs]
  unfold ZoneData.updateFanTelemetry at hp hp'
  rw [e1] at hp'
  refine failed_poll i i' hk.missing h.failed hn (fun _ h => h) (fun _ h _ => h) (fun n hn hfa => ?_) hp hp'
  rw [i.same.1] at hn
  obtain ⟨e, he, hh, j, hj, rfl⟩ := hk.fans n hn
  exact hw.fans e he hh j hj hfa

theorem fansPass_keys {o : Opts} {w w' : World} {z z' : Zone} (h : z.processFans o w = .ok (w', z')) :
    z'.fans.map (Option.map fanKey) = z.fans.map (Option.map fanKey) := by
  obtain ⟨l, a1, a2, _, a4, _, _⟩ := processFans_spec h
  rw [a1, a2, List.map_map, List.map_map]
  refine List.map_congr_left (fun x hx => congrArg some ?_)
  obtain ⟨⟨i, _, _, _, hctl⟩, hsame⟩ := a4 x hx
  show (x.2.2.inputs, _) = (x.1.inputs, _)
  rw [hsame.1, hctl, pidStep_conf]

theorem Hotter.fansPass {o : Opts} {w w' w1 w1' : World} {z z' z1 z1' : Zone} (h : Hotter S conf d0 d0' fk z z')
    (hp : z.processFans o w = .ok (w1, z1)) (hp' : z'.processFans o w' = .ok (w1', z1')) : Hotter S conf d0 d0' fk z1 z1' := by
  obtain ⟨log, i⟩ := h.inv
  obtain ⟨log', i'⟩ := h.inv'
  obtain ⟨_, _, _, _, _, a5, a6⟩ := processFans_spec hp
  obtain ⟨_, _, _, _, _, b5, b6⟩ := processFans_spec hp'
  refine ⟨⟨_, i.rest (processFans_rest hp).1⟩, ⟨_, i'.rest (processFans_rest hp').1⟩, ?_, ?_, by rw [a6, b6]; exact h.loops, by rw [b6]; exact h.loops', ?_, ?_,
    (fansPass_keys hp).trans h.fans, (fansPass_keys hp').trans h.fans'⟩
  · rw [a5, b5]; exact h.manual
  · rw [a5, b5]; exact h.switches
  · rw [a5, b5]; exact h.setPoint
  · rw [a5, b5]; exact h.failed

theorem Hotter.mode (h : Hotter S conf d0 d0' fk z z') (b : Bool) :
    Hotter S conf d0 d0' fk { z with d := z.d.setManualMode b } { z' with d := z'.d.setManualMode b } := by
  obtain ⟨log, i⟩ := h.inv
  obtain ⟨log', i'⟩ := h.inv'
  exact ⟨⟨_, i.rest (setManual_rest _ b)⟩, ⟨_, i'.rest (setManual_rest _ b)⟩, rfl, h.switches, h.loops, h.loops', h.setPoint, h.failed, h.fans,
    h.fans'⟩

theorem setEnabled_switch (z : ZoneData) (n : String) (b : Bool) (k : String) :
    ((z.setEnabled n b).procs.find? k).map (·.enabled) =
      if k = n then ((z.procs.find? k).map (·.enabled)).map (fun _ => b) else (z.procs.find? k).map (·.enabled) := by
  unfold ZoneData.setEnabled
  cases hf : z.procs.find? n with
  | none =>
    dsimp only
    by_cases hk : k = n
    · subst hk; rw [if_pos rfl, hf]; rfl
    · rw [if_neg hk]
  | some p =>
    dsimp only
    by_cases hk : k = n
    · subst hk; rw [if_pos rfl, hf, OMap.find?_insert_self]; rfl
    · rw [if_neg hk, OMap.find?_insert_ne _ hk]

theorem Hotter.setEnabled (h : Hotter S conf d0 d0' fk z z') (n : String) (b : Bool) :
    Hotter S conf d0 d0' fk { z with d := z.d.setEnabled n b } { z' with d := z'.d.setEnabled n b } := by
  obtain ⟨log, i⟩ := h.inv
  obtain ⟨log', i'⟩ := h.inv'
  have m : ∀ z : ZoneData, (z.setEnabled n b).maximumSetPoint = z.maximumSetPoint := fun z => by
    unfold ZoneData.setEnabled; cases z.procs.find? n <;> rfl
  have f : ∀ z : ZoneData, (z.setEnabled n b).failSafeSensors = z.failSafeSensors := fun z => (setEnabled_rest z n b).failed
  refine ⟨⟨_, i.rest (setEnabled_rest _ n b)⟩, ⟨_, i'.rest (setEnabled_rest _ n b)⟩, ?_, fun e he hh => ?_, h.loops, h.loops', ?_, ?_,
    h.fans, h.fans'⟩
  · dsimp only; rw [setEnabled_manual, setEnabled_manual]; exact h.manual
  · dsimp only; rw [setEnabled_switch, setEnabled_switch, h.switches e he hh]
  · dsimp only; rw [m, m]; exact h.setPoint
  · dsimp only; unfold Failed; rw [f, f]; exact h.failed

/-! ## The fans -/

theorem handsOn_out {c : PidCtl} (h : HandsOn c.info.toPidConf) {s i : Dbl} (hn : (pidStep c s i).1 ≠ nan) :
    (pidStep c s i).1 = clamp s c.info.outLim.min c.info.outLim.max := by
  have key : ∀ r, (pid c.info r s).1 ≠ nan → (pid c.info r s).1 = clamp s c.info.outLim.min c.info.outLim.max := by
    intro r hr
    rw [pid_out, slewed_off (.inr h.slew)] at hr ⊢
    rw [handsOn_sum h (ne_nan_of_clamp hr)]
  unfold pidStep calPIDOutput at hn ⊢
  dsimp only at hn ⊢
  rw [h.hysteresis] at hn ⊢
  simp only [Bool.false_eq_true, if_false] at hn ⊢
  by_cases hh : (c.info.positiveHysteresis.eqb 0 && c.info.negativeHysteresis.eqb 0) = true
  · simp only [hh, if_true] at hn ⊢
    exact key _ hn
  · simp only [hh] at hn ⊢
    exact key _ hn

theorem fanPercent_num {o : Opts} (ho : o.tuningEnabled = false) (hs : o.strictFailsafePwm = false) {z : ZoneData} {v : Dbl}
    (h : fanPercent o z v ≠ nan) : v ≠ nan := by
  rintro rfl
  unfold fanPercent at h
  rw [ho, hs] at h
  simp only [Bool.false_eq_true, if_false] at h
  split_ifs at h with h1 h2
  · exact Dbl.ne_nan_of_lt_left h2 rfl
  · exact h rfl
  · exact h rfl

theorem Hotter.fanPercent (hk : ConfPair conf conf' d0 d0') {o : Opts} (ho : o.tuningEnabled = false) (hs : o.strictFailsafePwm = false)
    {z z' : Zone} (h : Hotter S conf d0 d0' fk z z') {v v' : Dbl} (hv : v ≤ v') :
    Verif.fanPercent o z.d v ≤ Verif.fanPercent o z'.d v' := by
  obtain ⟨log, i⟩ := h.inv
  obtain ⟨log', i'⟩ := h.inv'
  unfold Verif.fanPercent
  rw [ho, hs]
  simp only [Bool.false_eq_true, if_false]
  have n2 := Dbl.ne_nan_of_le_right hv
  by_cases m1 : z.d.getFailSafeMode = true
  · obtain ⟨⟨n, hn, e1⟩, _⟩ := i.selection (fun n _ => hk.percent n) m1
    have m2 : z'.d.getFailSafeMode = true := by
      unfold ZoneData.getFailSafeMode
      rw [(OMap.isEmpty_false_iff _).2 ⟨n, h.failed n hn⟩]
      rfl
    have sel := i'.selection (fun n _ => hk.percent' n) m2
    have hle : z.d.getFailSafePercent ≤ z'.d.getFailSafePercent := by
      rw [e1]
      exact Dbl.le_trans (hk.percents n ((i.failed n).1 hn).1) (sel.2 _ ⟨n, h.failed n hn, rfl⟩)
    rw [if_pos m1, if_pos m2]
    split_ifs with h1 h2 h2
    · exact hle
    · exact Dbl.le_trans hle (Dbl.le_of_not_lt (Dbl.ne_nan_of_le_right hle) n2 h2)
    · exact Dbl.le_trans hv (Dbl.le_of_lt h2)
    · exact hv
  · rw [if_neg m1]
    split_ifs with m2 h2
    · exact Dbl.le_trans hv (Dbl.le_of_lt h2)
    · exact hv
    · exact hv

theorem forall₂_of_map {α β γ : Type} {f : α → γ} {g : β → γ} : ∀ {l : List α} {l' : List β}, l.map f = l'.map g →
    List.Forall₂ (fun x y => x ∈ l ∧ y ∈ l' ∧ f x = g y) l l'
  | [], [], _ => .nil
  | [], _ :: _, h => by simp at h
  | _ :: _, [], h => by simp at h
  | x :: l, y :: l', h => by
    simp only [List.map_cons, List.cons.injEq] at h
    refine .cons ⟨List.mem_cons_self, List.mem_cons_self, h.1⟩ ((forall₂_of_map h.2).imp ?_)
    rintro a b ⟨h1, h2, h3⟩
    exact ⟨List.mem_cons_of_mem _ h1, List.mem_cons_of_mem _ h2, h3⟩

/-- the commands of the two runs -/
theorem Hotter.commands (hk : ConfPair conf conf' d0 d0') {o : Opts} (ho : o.tuningEnabled = false) (hs : o.strictFailsafePwm = false)
    {w w' w1 w1' : World} {z z' z1 z1' : Zone} (h : Hotter S conf d0 d0' fk z z')
    (hf : ∀ c, some c ∈ z.fans → HandsOn c.ctl.info.toPidConf ∧ c.ctl.info.outLim.min ≤ c.ctl.info.outLim.max)
    (hp : z.processFans o w = .ok (w1, z1)) (hp' : z'.processFans o w' = .ok (w1', z1')) :
    ∃ (l l' : List (FanPid × Dbl)) (b b' : Bool), z.fans = l.map (fun x => some x.1) ∧ z'.fans = l'.map (fun x => some x.1) ∧
      Drives b w l w1 ∧ Drives b' w' l' w1' ∧
      List.Forall₂ (fun x x' => fanKey x.1 = fanKey x'.1 ∧ ((∃ m ∈ x.1.inputs, targetOf w m ≠ none) →
        (∃ m ∈ x'.1.inputs, targetOf w' m ≠ none) → x.2 ≤ x'.2)) l l' ∧
      ∀ x ∈ l, (∃ m ∈ x.1.inputs, targetOf w m ≠ none) → 0 ≤ x.1.ctl.info.outLim.min → 0 ≤ x.2 := by
  obtain ⟨l, a1, _, a2, a3, _, _⟩ := processFans_spec hp
  obtain ⟨l', b1, _, b2, b3, _, _⟩ := processFans_spec hp'
  have hkeys : (l.map (fun x => (x.1, x.2.1))).map (fun x => fanKey x.1) =
      (l'.map (fun x => (x.1, x.2.1))).map (fun x => fanKey x.1) := by
    have := h.fans.trans h.fans'.symm
    rw [a1, b1, List.map_map, List.map_map] at this
    rw [List.map_map, List.map_map]
    have inj : Function.Injective (some : List String × PidConf → _) := fun _ _ h => Option.some.inj h
    apply (List.map_injective_iff.2 inj)
    rw [List.map_map, List.map_map]
    exact this
  have val : ∀ {w w1 : World} {z : Zone} {l : List (FanPid × Dbl × FanPid)} {b : Bool},
      Drives b w (l.map (fun x => (x.1, x.2.1))) w1 → (∀ x ∈ l, FanResult o z.d x.1 x.2.1 x.2.2) →
      ∀ x ∈ l.map (fun x => (x.1, x.2.1)), (∃ m ∈ x.1.inputs, targetOf w m ≠ none) → HandsOn x.1.ctl.info.toPidConf →
        x.2 ≠ nan ∧ x.2 = Verif.fanPercent o z.d (clamp z.d.maximumSetPoint x.1.ctl.info.outLim.min x.1.ctl.info.outLim.max) / 100 ∧
        clamp z.d.maximumSetPoint x.1.ctl.info.outLim.min x.1.ctl.info.outLim.max ≠ nan := by
    intro w w1 z l b hd hr x hx hm hh
    obtain ⟨m, hm1, hm2⟩ := hm
    have hnn : x.2 ≠ nan := fun hv => hm2 (drives_nan hd x hx hv m hm1)
    obtain ⟨q, hq, rfl⟩ := List.mem_map.1 hx
    obtain ⟨⟨i, _, hv, _⟩, _⟩ := hr q hq
    have hnn' : q.2.1 ≠ nan := hnn
    rw [hv] at hnn'
    have h1 := fanPercent_num ho hs (div_ne_nan_left hnn')
    have h2 := handsOn_out hh h1
    rw [h2] at h1
    refine ⟨hnn, ?_, h1⟩
    show q.2.1 = _
    rw [hv, h2]
  refine ⟨_, _, _, _, by rw [a1, List.map_map]; rfl, by rw [b1, List.map_map]; rfl, a2, b2, ?_, ?_⟩
  · refine (forall₂_of_map hkeys).imp (fun x x' hx => ⟨hx.2.2, fun ht ht' => ?_⟩)
    obtain ⟨h1, h2, h3⟩ := hx
    have hmem : some x.1 ∈ z.fans := by
      obtain ⟨q, hq, rfl⟩ := List.mem_map.1 h1
      rw [a1]; exact List.mem_map.2 ⟨q, hq, rfl⟩
    obtain ⟨f1, f2⟩ := hf x.1 hmem
    have hc : x'.1.ctl.info.toPidConf = x.1.ctl.info.toPidConf := (congrArg Prod.snd h3).symm
    have hlim : x'.1.ctl.info.outLim = x.1.ctl.info.outLim := by rw [hc]
    obtain ⟨n1, v1, k1⟩ := val a2 a3 x h1 ht f1
    obtain ⟨n2, v2, k2⟩ := val b2 b3 x' h2 ht' (by rw [hc]; exact f1)
    rw [v1] at n1
    rw [v2] at n2
    rw [v1, v2]
    rw [hlim] at k2 n2 ⊢
    exact div_le_div_of_pos pos100 (h.fanPercent hk ho hs (clamp_mono f2 h.setPoint)) n1 n2
  · intro x hx ht h0
    have hmem : some x.1 ∈ z.fans := by
      obtain ⟨q, hq, rfl⟩ := List.mem_map.1 hx
      rw [a1]; exact List.mem_map.2 ⟨q, hq, rfl⟩
    obtain ⟨f1, f2⟩ := hf x.1 hmem
    obtain ⟨n1, v1, k1⟩ := val a2 a3 x hx ht f1
    have h1 : x.1.ctl.info.outLim.min ≤ clamp z.d.maximumSetPoint x.1.ctl.info.outLim.min x.1.ctl.info.outLim.max := by
      rcases clamp_inLimits (x := z.d.maximumSetPoint) f2 with h | h
      · exact absurd h k1
      · exact h.1
    have h2 : clamp z.d.maximumSetPoint x.1.ctl.info.outLim.min x.1.ctl.info.outLim.max ≤
        Verif.fanPercent o z.d (clamp z.d.maximumSetPoint x.1.ctl.info.outLim.min x.1.ctl.info.outLim.max) := by
      unfold Verif.fanPercent
      rw [ho, hs]
      simp only [Bool.false_eq_true, if_false]
      split_ifs with g1 g2
      · exact Dbl.le_of_lt g2
      · exact Dbl.le_refl k1
      · exact Dbl.le_refl k1
    have h3 := Dbl.le_trans h0 (Dbl.le_trans h1 h2)
    rw [v1]
    exact percent_nonneg h3

/-! ## Ticks and runs -/

theorem Hotter.tick (hk : ConfPair conf conf' d0 d0') {o : Opts} (ho : o.tuningEnabled = false) {w w' w1 w1' : World}
    {z z' z1 z1' : Zone} {cnt cnt1 cnt1' : Nat} (h : Hotter S conf d0 d0' fk z z') (hw : HotterAt S conf w w')
    (ht : z.tick o w cnt = .ok (w1, z1, cnt1)) (ht' : z'.tick o w' cnt = .ok (w1', z1', cnt1')) :
    Hotter S conf d0 d0' fk z1 z1' ∧ cnt1 = cnt1' ∧ (z.d.manualMode = false → ∃ zt zt', Hotter S conf d0 d0' fk zt zt' ∧
      zt.processFans o w = .ok (w1, z1) ∧ zt'.processFans o w' = .ok (w1', z1')) := by
  by_cases hm : z.d.manualMode = true
  · rw [tick_manual hm] at ht
    rw [tick_manual (h.manual.symm.trans hm)] at ht'
    cases ht
    cases ht'
    exact ⟨h, rfl, fun hno => by rw [hm] at hno; cases hno⟩
  · have hm : z.d.manualMode = false := by simpa using hm
    have hm' := h.manual.symm.trans hm
    obtain ⟨log, i⟩ := h.inv
    obtain ⟨log', i'⟩ := h.inv'
    have ct : z'.d.cycleTime = z.d.cycleTime := by rw [i.same.2.2.2.1, i'.same.2.2.2.1, hk.cycleTime]
    obtain ⟨d, a1, a2⟩ := tick_auto hm ht
    obtain ⟨d', b1, b2⟩ := tick_auto hm' ht'
    rw [ct] at b2
    have h1 := h.telemetry hk hw a1 b1
    rcases a2 with ⟨g, zt, a3, a4, a5⟩ | ⟨g, a3, a5⟩
    · rcases b2 with ⟨_, zt', b3, b4, b5⟩ | ⟨g', _⟩
      · have h2 := h1.thermals hk ho hw a3 b3
        exact ⟨h2.fansPass a4 b4, a5.trans b5.symm, fun _ => ⟨zt, zt', h2, a4, b4⟩⟩
      · exact absurd g g'
    · rcases b2 with ⟨g', _⟩ | ⟨_, b3, b5⟩
      · exact absurd g' g
      · exact ⟨h1.fansPass a3 b3, a5.trans b5.symm, fun _ => ⟨_, _, h1, a3, b3⟩⟩

theorem unconcerned_step {o : Opts} {i : Int} {e : DEvent} (he : Concerns i e = false) {d d' : Daemon} (h : d.step o e = .ok d')
    {z : Zone} {cnt : Nat} (hz : d.zones.find? i = some (z, cnt)) : d'.zones.find? i = some (z, cnt) := by
  obtain ⟨z1, cnt1, hz1, hst⟩ := step_zone h hz
  cases hst with
  | manual b => simp [Concerns] at he
  | enable l b => simp [Concerns] at he
  | tick ht => simp [Concerns] at he
  | other => exact hz1

theorem unconcerned_run {o : Opts} {i : Int} : ∀ {es : List DEvent} {d d' : Daemon}, (∀ e ∈ es, Concerns i e = false) →
    d.run o es = .ok d' → ∀ {z : Zone} {cnt : Nat}, d.zones.find? i = some (z, cnt) → d'.zones.find? i = some (z, cnt)
  | [], _, _, _, h, _, _, hz => by cases h; exact hz
  | e :: es, d, d', he, h, z, cnt, hz => by
    obtain ⟨d1, h1, h2⟩ := bind_eq_ok.1 h
    exact unconcerned_run (fun x hx => he x (List.mem_cons_of_mem _ hx)) h2 (unconcerned_step (he e List.mem_cons_self) h1 hz)

theorem HotterThroughout.shift {o : Opts} {i : Int} {d d' d1 d1' : Daemon} {a a' es es' : List DEvent}
    (h : HotterThroughout S o i conf d d' (a ++ es) (a' ++ es')) (ho : orders i a = orders i a') (ha : d.run o a = .ok d1)
    (ha' : d'.run o a' = .ok d1') : HotterThroughout S o i conf d1 d1' es es' := by
  intro x b x' b' d2 d2' h1 h2 h3 h4 h5
  refine h (a ++ x) b (a' ++ x') b' d2 d2' (by rw [h1, List.append_assoc]) (by rw [h2, List.append_assoc]) ?_
    (run_append.2 ⟨d1, ha, h4⟩) (run_append.2 ⟨d1', ha', h5⟩)
  unfold orders at *
  rw [List.filter_append, List.filter_append, ho, h3]

theorem run_one {o : Opts} {d d' : Daemon} {e : DEvent} (h : d.step o e = .ok d') : d.run o [e] = .ok d' := by
  unfold Daemon.run
  rw [h, ok_bind]
  rfl

theorem hotter_run (hk : ConfPair conf conf' d0 d0') {o : Opts} (ho : o.tuningEnabled = false) {i : Int} :
    ∀ {es es' : List DEvent} {d d' d1 d1' : Daemon} {z z' : Zone} {cnt : Nat}, orders i es = orders i es' →
      d.run o es = .ok d1 → d'.run o es' = .ok d1' → d.zones.find? i = some (z, cnt) → d'.zones.find? i = some (z', cnt) →
      Hotter S conf d0 d0' fk z z' → HotterThroughout S o i conf d d' es es' →
      ∃ z1 z1' cnt1, d1.zones.find? i = some (z1, cnt1) ∧ d1'.zones.find? i = some (z1', cnt1) ∧ Hotter S conf d0 d0' fk z1 z1'
  | [], es', d, d', d1, d1', z, z', cnt, hor, hr, hr', hz, hz', h, _ => by
    cases hr
    have hun : ∀ e ∈ es', Concerns i e = false := by
      have : es'.filter (Concerns i) = [] := hor.symm
      rw [List.filter_eq_nil_iff] at this
      exact fun e he => by simpa using this e he
    exact ⟨z, z', cnt, hz, unconcerned_run hun hr' hz', h⟩
  | e :: es, es', d, d', d1, d1', z, z', cnt, hor, hr, hr', hz, hz', h, hth => by
    obtain ⟨da, h1, h2⟩ := bind_eq_ok.1 hr
    by_cases hce : Concerns i e = true
    · have hor : e :: es.filter (Concerns i) = es'.filter (Concerns i) := by
        have := hor
        unfold orders at this
        rwa [List.filter_cons_of_pos hce] at this
      obtain ⟨a, b, rfl, hun, _, hb⟩ := List.filter_eq_cons_iff.1 hor.symm
      have hun : ∀ x ∈ a, Concerns i x = false := fun x hx => by simpa using hun x hx
      obtain ⟨db, k1, k2⟩ := run_append.1 hr'
      obtain ⟨dc, k3, k4⟩ := bind_eq_ok.1 k2
      have hzb := unconcerned_run hun k1 hz'
      have hoa : orders i a = [] := List.filter_eq_nil_iff.2 (fun x hx => by simp [hun x hx])
      have hth' : HotterThroughout S o i conf da dc es b := by
        refine HotterThroughout.shift (a := [e]) (a' := a ++ [e]) (d := d) (d' := d') (by simpa using hth) ?_ (run_one h1)
          (run_append.2 ⟨db, k1, run_one k3⟩)
        unfold orders at hoa ⊢
        rw [List.filter_append, hoa]
        rfl
      obtain ⟨z1, cnt1, hz1, hst⟩ := step_zone h1 hz
      obtain ⟨z1', cnt1', hz1', hst'⟩ := step_zone k3 hzb
      have key : cnt1 = cnt1' ∧ Hotter S conf d0 d0' fk z1 z1' := by
        cases hst with
        | manual bb =>
          cases hst' with
          | manual => exact ⟨rfl, h.mode bb⟩
          | other q => exact absurd rfl (q bb)
        | enable l bb =>
          cases hst' with
          | enable => exact ⟨rfl, h.setEnabled l bb⟩
          | other _ q => exact absurd rfl (q l bb)
        | tick ht =>
          cases hst' with
          | tick ht' =>
            obtain ⟨q1, q2, _⟩ := h.tick hk ho (hth [] es a b d db rfl rfl hoa.symm rfl k1) ht ht'
            exact ⟨q2, q1⟩
          | other _ _ q => exact absurd rfl q
        | other q1 q2 q3 =>
          exfalso
          cases e with
          | manual j bb => simp only [Concerns, beq_iff_eq] at hce; subst hce; exact q1 bb rfl
          | enable j l bb => simp only [Concerns, beq_iff_eq] at hce; subst hce; exact q2 l bb rfl
          | tick j => simp only [Concerns, beq_iff_eq] at hce; subst hce; exact q3 rfl
          | outside | signal | hostWrite => simp [Concerns] at hce
      obtain ⟨rfl, key⟩ := key
      exact hotter_run hk ho (show orders i es = orders i b from hb.symm) h2 k4 hz1 hz1' key hth'
    · have hce : Concerns i e = false := by simpa using hce
      have hor' : orders i es = orders i es' := by
        unfold orders at hor ⊢
        rwa [List.filter_cons_of_neg (by simp [hce])] at hor
      refine hotter_run hk ho hor' h2 hr' (unconcerned_step hce h1 hz) hz' h ?_
      refine HotterThroughout.shift (a := [e]) (a' := []) (d := d) (d' := d') hth ?_ (run_one h1) rfl
      unfold orders
      rw [List.filter_cons_of_neg (by simp [hce])]

end Verif
