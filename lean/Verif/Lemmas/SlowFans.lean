import Verif.Spec.SlowFans
import Verif.Lemmas.Integral
import Verif.Lemmas.Quiet

/-! # Helper lemmas: fan loops whose fans are too slow -/

namespace Verif
variable [F : FloatModel]
open Dbl

/-! ## The numbers -/

theorem gap_mono {k y s x v : Dbl} (hk : Moderate k) (h0 : 0 ≤ k) (hy : Moderate y) (hs : Moderate s) (hx : Moderate x)
    (hv : Moderate v) (h1 : y ≤ s) (h2 : v ≤ x) : k * (y - x) ≤ k * (s - v) := by
  have e1 := hy.sizeUpTo.sub hx.sizeUpTo (by norm_num)
  have e1' := hs.sizeUpTo.sub hv.sizeUpTo (by norm_num)
  have e4 := hk.sizeUpTo.mul e1 (by norm_num)
  have e4' := hk.sizeUpTo.mul e1' (by norm_num)
  exact mul_le_mul_left_of_nonneg h0 (sub_le_sub h1 h2 e1.ne_nan e1'.ne_nan) e4.ne_nan e4'.ne_nan

theorem increment_gap {c : PidConf} (h : Driving c) {y s x v : Dbl} (hy : Moderate y) (hs : Moderate s) (hx : Moderate x)
    (hv : Moderate v) (h1 : y ≤ s) (h2 : v ≤ x) : increment c y x ≤ increment c s v := by
  obtain ⟨a1, a2⟩ := increment_size h.integrating hy hx
  obtain ⟨b1, b2⟩ := increment_size h.integrating hs hv
  unfold increment at a2 b2 ⊢
  have m2 := gap_mono h.integrating.moderate.2.1 h.signs.2.1 hy hs hx hv h1 h2
  rw [mul_comm' (y - x)] at a1 a2 ⊢
  rw [mul_comm' (s - v)] at b1 b2 ⊢
  rw [mul_comm' _ c.ts] at a2 b2 ⊢
  rw [mul_comm' _ c.ts]
  exact mul_le_mul_left_of_nonneg (ts_nonneg h.integrating) m2 a2.ne_nan b2.ne_nan

theorem woundUp_gap {c : PidConf} (h : Driving c) {y s x v : Dbl} (hy : Moderate y) (hs : Moderate s) (hx : Moderate x)
    (hv : Moderate v) (h1 : y ≤ s) (h2 : v ≤ x) : woundUpAt c y x ≤ woundUpAt c s v := by
  obtain ⟨kp, _, fo, fg⟩ := h.integrating.moderate
  have hI := h.integrating.moderateLimits.2.sizeUpTo
  have e4 := kp.sizeUpTo.mul (hy.sizeUpTo.sub hx.sizeUpTo (by norm_num)) (by norm_num)
  have e4' := kp.sizeUpTo.mul (hs.sizeUpTo.sub hv.sizeUpTo (by norm_num)) (by norm_num)
  have g := hy.sizeUpTo.add fo.sizeUpTo (by norm_num)
  have g' := hs.sizeUpTo.add fo.sizeUpTo (by norm_num)
  have e5 := g.mul fg.sizeUpTo (by norm_num)
  have e5' := g'.mul fg.sizeUpTo (by norm_num)
  have m1 := gap_mono kp h.signs.1 hy hs hx hv h1 h2
  have m2 : (y + c.feedFwdOffset) * c.feedFwdGain ≤ (s + c.feedFwdOffset) * c.feedFwdGain := by
    have := Dbl.add_le_add h1 (Dbl.le_refl fo.sizeUpTo.ne_nan) g.ne_nan g'.ne_nan
    rw [mul_comm' _ c.feedFwdGain] at e5 e5' ⊢
    rw [mul_comm' _ c.feedFwdGain]
    exact mul_le_mul_left_of_nonneg h.signs.2.2 this e5.ne_nan e5'.ne_nan
  have f1 := e4.add hI (by norm_num)
  have f2 := e4'.add hI (by norm_num)
  exact clamp_mono h.integrating.limits (Dbl.add_le_add (Dbl.add_le_add m1 (Dbl.le_refl hI.ne_nan) f1.ne_nan f2.ne_nan)
    m2 (f1.add e5 (by norm_num)).ne_nan (f2.add e5' (by norm_num)).ne_nan)

/-! ## The readings -/

omit F in
/-- a reading does not depend on the time -/
theorem read_at [FloatModel] {s : Sensor} {w : World} {t : Int} {r : ReadReturn} (h : s.read w t = .ok r) (t' : Int) :
    ∃ r', s.read w t' = .ok r' ∧ r'.unscaled = r.unscaled := by
  unfold Sensor.read at h ⊢
  generalize s.impl = im at h ⊢
  cases im with
  | host v u => cases h; exact ⟨_, rfl, rfl⟩
  | pluggable rd wr =>
    cases rd with
    | passive p => cases h; exact ⟨_, rfl, rfl⟩
    | writeOnly => cases h
    | null => cases h
    | sysfs path =>
      dsimp only at h ⊢
      unfold sysfsRead at h ⊢
      generalize w.files path = fc at h ⊢
      cases fc with
      | missing => cases h
      | blank => cases h
      | nonNumber => cases h; exact ⟨_, rfl, rfl⟩
      | number v => cases h; exact ⟨_, rfl, rfl⟩

theorem readings_turning {z : ZoneData} : ∀ {ns : List String} {vs : List Dbl}, FanPid.readings z ns = .ok vs →
    ∃ rs, List.Forall₂ (fun n r => ∃ e, z.cachedValuesByName.find? n = some e ∧ e.unscaled = r) ns rs ∧ vs = turning rs
  | [], vs, h => by cases h; exact ⟨[], .nil, rfl⟩
  | n :: ns, vs, h => by
    obtain ⟨e, he, h⟩ := bind_eq_ok.1 h
    obtain ⟨vs', h1, h⟩ := bind_eq_ok.1 h
    cases h
    obtain ⟨rs, h2, rfl⟩ := readings_turning h1
    refine ⟨e.unscaled :: rs, .cons ⟨e, (OMap.atKey_ok_iff _ _ _).1 he, rfl⟩ h2, ?_⟩
    unfold turning
    rw [List.filter_cons]
    cases hf : e.unscaled.isFinite with
    | false => simp [hf]
    | true =>
      by_cases h0 : e.unscaled ≤ 0
      · have : ¬ 0 < e.unscaled := Dbl.not_lt_of_le h0
        simp [hf, h0, this]
      · have : 0 < e.unscaled := lt_of_not_le zero_ne_nan (isFinite_ne_nan hf) h0
        simp [hf, h0, this]

theorem fanInput_slowest {c : FanPid} {z : ZoneData} {v : Dbl} (h : c.inputProc z = .ok v) :
    ∃ rs, List.Forall₂ (fun n r => ∃ e, z.cachedValuesByName.find? n = some e ∧ e.unscaled = r) c.inputs rs ∧ SlowestOf rs v := by
  unfold FanPid.inputProc at h
  obtain ⟨vs, h1, h⟩ := bind_eq_ok.1 h
  obtain ⟨rs, h2, rfl⟩ := readings_turning h1
  refine ⟨rs, h2, ?_⟩
  cases ht : turning rs with
  | nil => rw [ht] at h; cases h; exact .still ht
  | cons u us =>
    rw [ht] at h
    cases h
    have hfin : ∀ x ∈ u :: us, x ≠ nan := by
      intro x hx
      rw [← ht] at hx
      have := (List.mem_filter.1 hx).2
      simp only [Bool.decide_and, Bool.decide_eq_true, Bool.and_eq_true] at this
      exact isFinite_ne_nan this.1
    obtain ⟨a, b⟩ := foldl_cmin_smallest us (hfin u List.mem_cons_self)
    refine .slowest ?_ ?_
    · rw [ht, List.mem_cons]
      exact a.imp id (fun h => h.1)
    · intro x hx
      rw [ht] at hx
      exact b x ((List.mem_cons.1 hx).imp id (fun h => ⟨h, hfin x (List.mem_cons_of_mem _ h)⟩))

/-- in a cycle the fan loops go by what their fans show -/
theorem tick_sees {o : Opts} {w : World} {z zt : Zone} {d : ZoneData} (hd : z.d.updateFanTelemetry w = .ok d)
    (ht : Zone.processThermals o w { z with d := d } = .ok zt ∨ zt = { z with d := d }) {f : ControllerInfo} {c : FanPid}
    (hi : c.inputs = f.inputs.map SensorInput.name) (hin : ∀ n ∈ c.inputs, n ∈ z.d.fanInputs) {v : Dbl}
    (h : c.inputProc zt.d = .ok v) : FanSees w f v := by
  obtain ⟨rs, h1, h2⟩ := fanInput_slowest h
  refine ⟨rs, ?_, h2⟩
  have key : ∀ n ∈ z.d.fanInputs, ∀ e, zt.d.cachedValuesByName.find? n = some e → TurnsAt w n e.unscaled := by
    intro n hn e he
    have hp := pollAll_spec hd
    have first : ∀ e, d.cachedValuesByName.find? n = some e → TurnsAt w n e.unscaled := by
      intro e he
      obtain ⟨s, r, _, a1, a2, _, a4⟩ := hp.sensor n hn
      rw [he] at a4
      cases a4
      exact ⟨s, r, a1, a2, rfl⟩
    rcases ht with ht | rfl
    · obtain ⟨d2, h6, h7⟩ := processThermals_rest ht
      rw [h7.cache] at he
      have hq := pollAll_spec h6
      by_cases hm : n ∈ d.thermalInputs
      · obtain ⟨s, r, _, a1, a2, _, a4⟩ := hq.sensor n hm
        rw [he] at a4
        cases a4
        obtain ⟨r', b1, b2⟩ := read_at a2 w.nowFans
        exact ⟨s, r', a1, b1, b2⟩
      · rw [(hq.other n hm).2] at he
        exact first e he
    · exact first e he
  rw [hi] at h1 hin
  clear h2 h
  generalize f.inputs = is at h1 hin
  induction is generalizing rs with
  | nil => cases h1; exact .nil
  | cons i is ih =>
    cases h1 with
    | @cons _ r _ rs q h1 =>
      obtain ⟨e, he, hr⟩ := q
      rw [List.map_cons] at hin
      exact .cons (hr ▸ key _ (hin _ List.mem_cons_self) e he) (ih rs h1 (fun n hn => hin n (List.mem_cons_of_mem _ hn)))

/-! ## The loops along events -/

/-- the fan loops of a zone, those of interest with controllers that satisfy `I` -/
structure FanLoops (fs : List Entry) (fi : List String) (slow : Entry → Prop) (I : Entry → PidCtl → Prop) (z : Zone) : Prop where
  inputs : z.d.fanInputs = fi
  loops : List.Forall₂ (fun e oc => ∀ c, oc = some c → c.inputs = e.2.inputs.map SensorInput.name ∧
    c.ctl.info.toPidConf = e.2.pidInfo ∧ (slow e → I e c.ctl)) fs z.fans

/-- what the fan loops commanded: those of interest what follows from outputs that satisfy `J` -/
def FansDo (o : Opts) (fs : List Entry) (slow : Entry → Prop) (J : Entry → Dbl → Prop) (w w' : World) : Prop :=
  ∃ (l : List (FanPid × Dbl)) (b : Bool) (zd : ZoneData),
    List.Forall₂ (fun e x => x.1.inputs = e.2.inputs.map SensorInput.name ∧
      (slow e → ∃ out, J e out ∧ x.2 = fanPercent o zd out / 100)) fs l ∧ Drives b w l w'

theorem FanLoops.tick {o : Opts} {fs : List Entry} {fi : List String} {slow : Entry → Prop} {I I' : Entry → PidCtl → Prop}
    {J : Entry → Dbl → Prop} {B : Entry → Dbl → Dbl → Prop} (hfi : ∀ e ∈ fs, ∀ i ∈ e.2.inputs, i.name ∈ fi)
    (hI : ∀ e ∈ fs, slow e → ∀ c s v, c.info.toPidConf = e.2.pidInfo → I e c → B e s v →
      I' e (pidStep c s v).2 ∧ J e (pidStep c s v).1)
    {w w' : World} {z z' : Zone} {cnt cnt' : Nat} (hz : FanLoops fs fi slow I z) (hm : z.d.manualMode = false)
    (h : z.tick o w cnt = .ok (w', z', cnt'))
    (hB : ∀ e ∈ fs, slow e → ∀ v, FanSees w e.2 v → B e z'.d.maximumSetPoint v) :
    FanLoops fs fi slow I' z' ∧ FansDo o fs slow J w w' := by
  obtain ⟨d, h1, h2⟩ := tick_auto hm h
  obtain ⟨zt, ht, h3⟩ : ∃ zt, (Zone.processThermals o w { z with d := d } = .ok zt ∨ zt = { z with d := d }) ∧
      zt.processFans o w = .ok (w', z') := by
    rcases h2 with ⟨_, zt, h3, h4, _⟩ | ⟨_, h3, _⟩
    · exact ⟨zt, .inl h3, h4⟩
    · exact ⟨_, .inr rfl, h3⟩
  have ed : d.fanInputs = z.d.fanInputs := by rw [(pollAll_spec h1).frame.eq]
  have et : zt.d.fanInputs = z.d.fanInputs ∧ zt.fans = z.fans := by
    rcases ht with ht | rfl
    · obtain ⟨d2, h6, h7⟩ := processThermals_rest ht
      have e1 : zt.d.fanInputs = d2.fanInputs := by rw [h7]
      have e2 : d2.fanInputs = d.fanInputs := by rw [(pollAll_spec h6).frame.eq]
      exact ⟨e1.trans (e2.trans ed), (thermalTick_flags ht).2.2⟩
    · exact ⟨ed, rfl⟩
  obtain ⟨l, a1, a2, a3, a4, a5, _⟩ := processFans_spec h3
  have em : z'.d.maximumSetPoint = zt.d.maximumSetPoint := by rw [a5]
  have ef : z'.d.fanInputs = zt.d.fanInputs := by rw [a5]
  have hl := hz.loops
  rw [← et.2, a1] at hl
  have key : ∀ {fs' : List Entry} {l' : List (FanPid × Dbl × FanPid)}, (∀ e ∈ fs', e ∈ fs) → (∀ x ∈ l', x ∈ l) →
      List.Forall₂ (fun e oc => ∀ c, oc = some c → c.inputs = e.2.inputs.map SensorInput.name ∧
        c.ctl.info.toPidConf = e.2.pidInfo ∧ (slow e → I e c.ctl)) fs' (l'.map (fun x => some x.1)) →
      List.Forall₂ (fun e x => (x.1.inputs = e.2.inputs.map SensorInput.name ∧ x.2.2.inputs = x.1.inputs ∧
        x.2.2.ctl.info.toPidConf = e.2.pidInfo) ∧ (slow e → I' e x.2.2.ctl ∧ ∃ out, J e out ∧
          x.2.1 = fanPercent o zt.d out / 100)) fs' l' := by
    intro fs' l' hf hlm hl
    induction fs' generalizing l' with
    | nil =>
      cases l' with
      | nil => exact .nil
      | cons x l' => cases hl
    | cons e fs' ih =>
      cases l' with
      | nil => cases hl
      | cons x l' =>
        rw [List.map_cons] at hl
        cases hl with
        | cons hx hl =>
          refine .cons ?_ (ih (fun e he => hf e (List.mem_cons_of_mem _ he)) (fun x hx => hlm x (List.mem_cons_of_mem _ hx)) hl)
          obtain ⟨q1, q2, q3⟩ := hx x.1 rfl
          obtain ⟨⟨v, b1, b2, _, b4⟩, b5⟩ := a4 x (hlm x List.mem_cons_self)
          have he := hf e List.mem_cons_self
          refine ⟨⟨q1, b5.1, by rw [b4, pidStep_conf]; exact q2⟩, fun hs => ?_⟩
          have hsees : FanSees w e.2 v := tick_sees h1 ht q1 (by
            rw [q1, hz.inputs]
            intro n hn
            obtain ⟨i, hi, rfl⟩ := List.mem_map.1 hn
            exact hfi e he i hi) b1
          have hb := hB e he hs v hsees
          rw [em] at hb
          obtain ⟨c1, c2⟩ := hI e he hs x.1.ctl _ v q2 (q3 hs) hb
          exact ⟨by rw [b4]; exact c1, _, c2, b2⟩
  have hk := key (fun _ h => h) (fun _ h => h) hl
  refine ⟨⟨ef.trans (et.1.trans hz.inputs), ?_⟩, l.map (fun x => (x.1, x.2.1)), _, zt.d, ?_, a3⟩
  · rw [a2]
    refine List.forall₂_map_right_iff.2 (hk.imp ?_)
    rintro e x ⟨⟨p1, p2, p3⟩, p4⟩ c hc
    cases hc
    exact ⟨p2.trans p1, p3, fun hs => (p4 hs).1⟩
  · exact List.forall₂_map_right_iff.2 (hk.imp (fun e x p => ⟨p.1.1, fun hs => (p.2 hs).2⟩))

theorem fanLoops_run {o : Opts} {fs : List Entry} {fi : List String} {slow : Entry → Prop} {I : Nat → Entry → PidCtl → Prop}
    {B : Entry → Dbl → Dbl → Prop} (hfi : ∀ e ∈ fs, ∀ i ∈ e.2.inputs, i.name ∈ fi)
    (hI : ∀ n, ∀ e ∈ fs, slow e → ∀ c s v, c.info.toPidConf = e.2.pidInfo → I n e c → B e s v → I (n + 1) e (pidStep c s v).2)
    {i : Int} : ∀ {es : List DEvent} {d d' : Daemon} {z : Zone} {cnt n : Nat}, d.run o es = .ok d' →
    d.zones.find? i = some (z, cnt) → FanLoops fs fi slow (I n) z →
    (∀ es1 es2 d1 d2, es = es1 ++ .tick i :: es2 → d.run o es1 = .ok d1 → InAutomatic d1 i →
      d1.step o (.tick i) = .ok d2 →
      ∀ s, SetPointOf d2 i s → ∀ e ∈ fs, slow e → ∀ v, FanSees d1.w e.2 v → B e s v) →
    ∃ z' cnt', d'.zones.find? i = some (z', cnt') ∧ FanLoops fs fi slow (I (n + autoTicks i z.d.manualMode es)) z' ∧
      z'.d.manualMode = modeAfter i z.d.manualMode es
  | [], d, d', z, cnt, n, h, hz, hp, _ => by
    cases h
    exact ⟨z, cnt, hz, hp, rfl⟩
  | e :: es, d, d', z, cnt, n, h, hz, hp, hB => by
    obtain ⟨d1, h1, h2⟩ := bind_eq_ok.1 h
    have hB' : ∀ es1 es2 d2 d3, es = es1 ++ .tick i :: es2 → d1.run o es1 = .ok d2 → InAutomatic d2 i →
        d2.step o (.tick i) = .ok d3 →
        ∀ s, SetPointOf d3 i s → ∀ e ∈ fs, slow e → ∀ v, FanSees d2.w e.2 v → B e s v := by
      intro es1 es2 d2 d3 he hr
      refine hB (e :: es1) es2 d2 d3 (by rw [he]; rfl) ?_
      unfold Daemon.run
      rw [h1, ok_bind]
      exact hr
    obtain ⟨z1, cnt1, hz1, hst⟩ := step_zone h1 hz
    cases hst with
    | manual b =>
      have := fanLoops_run hfi hI h2 hz1 (n := n) ⟨hp.inputs, hp.loops⟩ hB'
      simpa [autoTicks, modeAfter, ZoneData.setManualMode] using this
    | enable l b =>
      have hr := setEnabled_rest z.d l b
      have hi : (z.d.setEnabled l b).fanInputs = z.d.fanInputs := by rw [hr]
      have := fanLoops_run hfi hI h2 hz1 (n := n) ⟨hi.trans hp.inputs, hp.loops⟩ hB'
      rw [setEnabled_manual] at this
      exact this
    | tick ht =>
      obtain ⟨hm, _⟩ := tick_flags ht
      by_cases hmm : z.d.manualMode = true
      · rw [tick_manual hmm] at ht; cases ht
        have := fanLoops_run hfi hI h2 hz1 hp hB'
        simpa [autoTicks, modeAfter, hmm] using this
      · have hmm' : z.d.manualMode = false := by simpa using hmm
        obtain ⟨q, _⟩ := hp.tick (I' := I (n + 1)) (J := fun _ _ => True) hfi
          (fun e he hs c s v a b c => ⟨hI n e he hs _ s v a b c, trivial⟩) hmm' ht
          (fun e he hs v hv => hB [] es d d1 rfl rfl ⟨z, cnt, hz, hmm'⟩ h1 _ ⟨z1, cnt1, hz1, rfl⟩ e he hs v hv)
        have := fanLoops_run hfi hI h2 hz1 q hB'
        rw [hm] at this
        simpa [autoTicks, modeAfter, hmm, Nat.add_assoc, Nat.add_comm, Nat.add_left_comm] using this
    | other q1 q2 q3 =>
      have := fanLoops_run hfi hI h2 hz1 hp hB'
      cases e with
      | manual j b =>
        have hj : j ≠ i := fun hj => q1 b (by rw [hj])
        simpa [autoTicks, modeAfter, hj] using this
      | tick j =>
        have hj : j ≠ i := fun hj => q3 (by rw [hj])
        simpa [autoTicks, modeAfter, hj] using this
      | outside | signal | hostWrite | enable => exact this

/-! ## Set points -/

theorem thermals_nonneg {o : Opts} (ho : o.tuningEnabled = false) {w : World} {z z' : Zone}
    (hacc : z.d.accumulateSetPoint = false) (hc : ∀ c ∈ z.thermals, NotCeiling c) (h : z.processThermals o w = .ok z') :
    0 ≤ z'.d.maximumSetPoint := by
  unfold Zone.processThermals at h
  obtain ⟨d, h1, h⟩ := bind_eq_ok.1 h
  obtain ⟨⟨d1, ts⟩, h2, h⟩ := bind_eq_ok.1 h
  obtain ⟨d2, h3, h⟩ := bind_eq_ok.1 h
  cases h
  have e := (pollAll_spec h1).frame.eq
  have ea : d.accumulateSetPoint = z.d.accumulateSetPoint := by rw [e]
  obtain ⟨a, b⟩ := list_asked (nonAccInv_clear (ea.trans hacc)) hc h2
  rw [determine_eq, ho] at h3
  have h3 : settled (ts.map ThermalCtl.id) d1 = d2 := by simpa using h3
  have hcl : d1.rpmCeilings = [] := a.ceilings
  have h0 : 0 ≤ d1.maximumSetPoint := a.le
  rw [← h3]
  show _ ≤ floorBy _ (capBy d1.maximumSetPoint d1.rpmCeilings)
  rw [hcl]
  show _ ≤ floorBy _ d1.maximumSetPoint
  unfold floorBy
  split_ifs with hle
  · exact Dbl.le_trans h0 hle
  · exact h0

/-- the state of a loop that never asks for more than `y` -/
inductive CappedLoop (y : Dbl) (e : Entry) : ThermalCtl → Prop
  | table {c : StepwiseCtl} : c.info = e.2.stepwiseInfo → e.2.stepwiseInfo.isCeiling = false →
      (∀ k, e.2.stepwiseInfo.output k = nan ∨ e.2.stepwiseInfo.output k ≤ y) → (c.st.lastOutput = nan ∨ c.st.lastOutput ≤ y) →
      CappedLoop y e (.stepwise c)
  | limits {p : ThermalPid} : SaneSlew e.2.pidInfo → (e.2.pidInfo.outLim.min ≤ y ∧ e.2.pidInfo.outLim.max ≤ y) →
      p.ctl.info.toPidConf = e.2.pidInfo → (p.ctl.info.lastOutput = nan ∨ p.ctl.info.lastOutput ≤ y) → CappedLoop y e (.pid p)

theorem CappedLoop.plain {y : Dbl} {e : Entry} {c : ThermalCtl} (h : CappedLoop y e c) : NotCeiling c := by
  cases h with
  | table h1 h2 => rw [← h1] at h2; exact h2
  | limits => trivial

theorem CappedLoop.start {y : Dbl} (h0 : 0 ≤ y) {e : Entry} {c : ThermalCtl} (h : Capped e y)
    (hceil : e.2.type = "stepwise" → e.2.stepwiseInfo.isCeiling = false) (hc : HeatLoop e c) : CappedLoop y e c := by
  cases h with
  | table t h1 =>
    cases hc with
    | margin h => rw [t] at h; exact absurd h (by decide)
    | absolute h => rw [t] at h; exact absurd h (by decide)
    | summation h => rw [t] at h; exact absurd h (by decide)
    | stepwise h => exact .table rfl (hceil h) h1 (.inl rfl)
  | limits t h1 h2 =>
    cases hc with
    | margin h => exact .limits h1 h2 rfl (.inr h0)
    | absolute h => exact .limits h1 h2 rfl (.inr h0)
    | summation h => exact .limits h1 h2 rfl (.inr h0)
    | stepwise h => exact absurd h t

theorem CappedLoop.out {y : Dbl} (h0 : 0 ≤ y) {e : Entry} {c c' : ThermalCtl} {z : ZoneData} {v : Dbl} (h : CappedLoop y e c)
    (ho : CtlOut z c v c') : CappedLoop y e c' ∧ (v = nan ∨ v ≤ y) := by
  cases h with
  | @table s h1 h2 h3 h4 =>
    cases ho with
    | @stepwise _ input _ =>
      have key : ∀ x, stepwise s.info x = nan ∨ stepwise s.info x ≤ y := by
        intro x
        obtain ⟨k, hk, e, _⟩ := stepwise_spec s.info x
        rw [e, h1]
        exact h3 _
      have : ((stepwiseStep s.info s.st input).2.lastOutput = nan ∨ (stepwiseStep s.info s.st input).2.lastOutput ≤ y) ∧
          ((stepwiseStep s.info s.st input).1 = nan ∨ (stepwiseStep s.info s.st input).1 ≤ y) := by
        unfold stepwiseStep
        dsimp only
        split_ifs
        · exact ⟨key _, key _⟩
        · exact ⟨key _, key _⟩
        · exact ⟨key _, key _⟩
        · exact ⟨h4, h4⟩
      exact ⟨.table h1 h2 h3 this.1, this.2⟩
  | @limits p h1 h2 h3 h4 =>
    cases ho with
    | @pid _ z1 z2 input _ _ =>
      obtain ⟨a, b⟩ := pidStep_le (c := p.ctl) (s := p.setpoint) (x := input) (by rw [h3]; exact h1) (by rw [h3]; exact h2.1)
        (by rw [h3]; exact h2.2) h0 h4
      exact ⟨.limits h1 h2 ((pidStep_conf _ _ _).trans h3) (by show (pidStep p.ctl p.setpoint input).2.info.lastOutput = _ ∨ _; rw [b]; exact a), a⟩

section
variable {heats : List Entry} {ct : CycleTime} {ti : List String} {min : Dbl}
  {fk : List (Option (List String × PidConf))} {y : Dbl}

theorem capped_thermals {o : Opts} (ho : o.tuningEnabled = false) (h0 : 0 ≤ y) (hmin : min ≤ y) {w : World} {z z' : Zone}
    (hz : QuietZone (CappedLoop y) heats ct ti min fk false z) (h : z.processThermals o w = .ok z') :
    QuietZone (CappedLoop y) heats ct ti min fk false z' ∧ 0 ≤ z'.d.maximumSetPoint ∧ z'.d.maximumSetPoint ≤ y := by
  obtain ⟨a, b⟩ := hz.thermals (Q := fun _ => True) ho (fun z e _ c v c' _ hc ho => (hc.out h0 ho).1) (fun _ _ _ _ => trivial) h
  refine ⟨a, thermals_nonneg ho hz.acc (fun c hc => ?_) h, b rfl y h0 hmin (fun _ _ _ _ e _ c v c' hc ho => (hc.out h0 ho).2)⟩
  obtain ⟨e, _, he⟩ := forall₂_right hz.loops hc
  exact he.plain

theorem capped_run {o : Opts} (ho : o.tuningEnabled = false) (h0 : 0 ≤ y) (hmin : min ≤ y) {i : Int} :
    ∀ {es : List DEvent} {d d' : Daemon} {z : Zone} {cnt : Nat}, d.run o es = .ok d' →
    d.zones.find? i = some (z, cnt) → QuietZone (CappedLoop y) heats ct ti min fk false z →
    (0 ≤ z.d.maximumSetPoint ∧ z.d.maximumSetPoint ≤ y) →
    ∃ z' cnt', d'.zones.find? i = some (z', cnt') ∧ QuietZone (CappedLoop y) heats ct ti min fk false z' ∧
      0 ≤ z'.d.maximumSetPoint ∧ z'.d.maximumSetPoint ≤ y
  | [], d, d', z, cnt, h, hz, hp, hm => by
    cases h
    exact ⟨z, cnt, hz, hp, hm⟩
  | e :: es, d, d', z, cnt, h, hz, hp, hm => by
    obtain ⟨d1, h1, h2⟩ := bind_eq_ok.1 h
    obtain ⟨z1, cnt1, hz1, hst⟩ := step_zone h1 hz
    cases hst with
    | manual b => exact capped_run ho h0 hmin h2 hz1 ⟨hp.acc, hp.cycle, hp.inputs, hp.minimum, hp.loops, hp.fans⟩ hm
    | enable l b => exact capped_run ho h0 hmin h2 hz1 (hp.setEnabled l b).1 (by rw [(hp.setEnabled l b).2]; exact hm)
    | tick ht =>
      by_cases hmm : z.d.manualMode = true
      · rw [tick_manual hmm] at ht; cases ht; exact capped_run ho h0 hmin h2 hz1 hp hm
      · obtain ⟨d2, q1, q2⟩ := tick_auto (by simpa using hmm) ht
        have p1 := hp.poll q1
        have e5 : d2.maximumSetPoint = z.d.maximumSetPoint := by rw [(pollAll_spec q1).frame.eq]
        rcases q2 with ⟨_, zt, q3, q4, _⟩ | ⟨_, q3, _⟩
        · obtain ⟨p2, b⟩ := capped_thermals ho h0 hmin p1 q3
          obtain ⟨p3, c⟩ := p2.fansPass q4
          exact capped_run ho h0 hmin h2 hz1 p3 (by rw [c]; exact b)
        · obtain ⟨p3, c⟩ := p1.fansPass q3
          refine capped_run ho h0 hmin h2 hz1 p3 ?_
          rw [c]
          show 0 ≤ d2.maximumSetPoint ∧ d2.maximumSetPoint ≤ y
          rw [e5]
          exact hm
    | other _ _ _ => exact capped_run ho h0 hmin h2 hz1 hp hm

end

end Verif
