import Verif.Lemmas.Sees
import Verif.Props.Timed

/-! # Helper lemmas: passes of a loop whose input stays hot -/

namespace Verif
variable [F : FloatModel]
open Dbl

theorem millionths_fin {n : Int} (h1 : -(2 ^ 53) ≤ n) (h2 : n ≤ 2 ^ 53) : millionths n = fin (n / 2 ^ 20) (F.rep_frac n h1 h2) :=
  ofRat_rep _

/-- rounding does not lose millionths -/
theorem millionths_add {a b : Int} {x y : Dbl} (ha1 : -(2 ^ 53) ≤ a) (ha2 : a ≤ 2 ^ 53) (hb1 : -(2 ^ 53) ≤ b) (hb2 : b ≤ 2 ^ 53)
    (hs1 : -(2 ^ 53) ≤ a + b) (hs2 : a + b ≤ 2 ^ 53) (hx : millionths a ≤ x) (hy : millionths b ≤ y) (hn : x + y ≠ nan) :
    millionths (a + b) ≤ x + y := by
  have e : millionths (a + b) = millionths a + millionths b := by
    rw [millionths_fin ha1 ha2, millionths_fin hb1 hb2, fin_add_fin]
    unfold millionths
    congr 1
    push_cast
    ring
  rw [e]
  refine Dbl.add_le_add hx hy ?_ hn
  rw [← e]
  exact ofRat_ne_nan _

theorem SizeUpTo.mono {N M : Nat} {x : Dbl} (h : SizeUpTo N x) (hNM : N ≤ M) : SizeUpTo M x := by
  obtain ⟨q, hq, rfl, h⟩ := h
  exact ⟨q, hq, rfl, h.trans (by exact_mod_cast hNM)⟩

/-! ## Counting passes -/

omit F in
/-- the counter of a zone: passes happen at least every `ceil(t/f)` cycles -/
theorem passes_count {t f p k n cnt : Nat} (hf : 1 ≤ f) (hp1 : 1 ≤ p) (hp : (t + f - 1) / f ≤ p)
    (h : k ≤ n * p + min (cnt / f) p) :
    (t ≤ cnt → k + 1 ≤ (n + 1) * p + min ((cnt - t + f) / f) p) ∧ (¬ t ≤ cnt → k + 1 ≤ n * p + min ((cnt + f) / f) p) := by
  have e1 : ∀ a, (a + f) / f = a / f + 1 := fun a => Nat.add_div_right a (by omega)
  constructor
  · intro _
    rw [e1, Nat.add_mul]
    have : min (cnt / f) p ≤ p := Nat.min_le_right _ _
    have : 1 ≤ min ((cnt - t) / f + 1) p := Nat.le_min.2 ⟨Nat.le_add_left _ _, hp1⟩
    omega
  · intro ht
    rw [e1]
    have h1 : cnt / f < p := by
      refine Nat.lt_of_lt_of_le ?_ hp
      rw [Nat.div_lt_iff_lt_mul (by omega)]
      have := Nat.lt_mul_div_succ (t + f - 1) (show 0 < f by omega)
      rw [Nat.mul_add, Nat.mul_comm] at this
      omega
    rw [Nat.min_eq_left (by omega)] at h ⊢
    omega

omit F in
/-- … so many cycles contain so many passes, or one is due -/
theorem passes_due {t f p k n N cnt : Nat} (hf : 1 ≤ f) (hp : (t + f - 1) / f ≤ p) (h : k ≤ n * p + min (cnt / f) p)
    (hk : (N + 1) * p ≤ k) : N < n ∨ (N ≤ n ∧ t ≤ cnt) ∨ p = 0 := by
  by_cases hp0 : p = 0
  · exact .inr (.inr hp0)
  by_cases hn : N < n
  · exact .inl hn
  · refine .inr (.inl ?_)
    have hmin := Nat.min_le_right (cnt / f) p
    have h1 : (N + 1) * p ≤ (n + 1) * p := by rw [Nat.add_mul n]; omega
    have h2 : N + 1 ≤ n + 1 := Nat.le_of_mul_le_mul_right h1 (by omega)
    have h3 : n = N := by omega
    subst h3
    rw [Nat.add_mul] at hk
    have h4 : p ≤ cnt / f := by
      have := Nat.min_le_left (cnt / f) p
      omega
    refine ⟨Nat.le_refl _, due_after (n := p) hf hp ?_⟩
    exact (Nat.le_div_iff_mul_le (by omega)).1 h4

section
variable {P : Nat → ThermalCtl → Prop} {H : ZoneData → Prop} {nm : String} {ct : CycleTime} {ti : List String}
  {fk : List (Option (List String × PidConf))} {on : Bool} {M : Nat} {y : Dbl}

/-- an automatic cycle of a zone whose loop has had `n` hot passes -/
theorem hot_tick {o : Opts} (ho : o.tuningEnabled = false)
    (hP : ∀ n z c v c', H z → P n c → CtlOut z c v c' → P (n + 1) c' ∧ (M ≤ n → y ≤ v))
    {w w' : World} {z z' : Zone} {cnt cnt' n : Nat} (hz : PlainZone (P n) nm ct ti fk true z) (hH : Fine H ti w)
    (hy : M < n → y ≤ z.d.maximumSetPoint) (hm : z.d.manualMode = false) (h : z.tick o w cnt = .ok (w', z', cnt')) :
    ∃ n', PlainZone (P n') nm ct ti fk true z' ∧ (M < n' → y ≤ z'.d.maximumSetPoint) ∧
      (ct.updateThermalsTimeMS ≤ cnt → n' = n + 1 ∧ cnt' = cnt - ct.updateThermalsTimeMS + ct.cycleIntervalTimeMS) ∧
      (¬ ct.updateThermalsTimeMS ≤ cnt → n' = n ∧ cnt' = cnt + ct.cycleIntervalTimeMS) ∧
      ∃ zt : Zone, zt.processFans o w = .ok (w', z') ∧ zt.fans.map (Option.map fanKey) = fk ∧
        (M < n' → y ≤ zt.d.maximumSetPoint) := by
  obtain ⟨d, h1, h2⟩ := tick_auto hm h
  have p1 := hz.poll h1
  have e5 : d.maximumSetPoint = z.d.maximumSetPoint := by rw [(pollAll_spec h1).frame.eq]
  rw [hz.cycle] at h2
  rcases h2 with ⟨hT, zt, h3, h4, hc⟩ | ⟨hT, h3, hc⟩
  · obtain ⟨p2, q⟩ := p1.thermals (Q := H) (P' := P (n + 1)) ho (fun z c v c' a b cc => (hP n z c v c' a b cc).1)
      (fun d' hd' => hH d d' p1.inputs hd') h3
    obtain ⟨p3, q3⟩ := p2.fansPass h4
    have q : M < n + 1 → y ≤ zt.d.maximumSetPoint := fun hn => q rfl y
      (fun d' hd' c v c' a b => (hP n d' c v c' (hH d d' p1.inputs hd') a b).2 (by omega))
    exact ⟨n + 1, p3, fun hn => by rw [q3]; exact q hn, fun _ => ⟨rfl, hc⟩, fun hn => absurd hT hn, zt, h4, p2.fans, q⟩
  · obtain ⟨p3, q3⟩ := p1.fansPass h3
    exact ⟨n, p3, fun hn => by rw [q3]; show y ≤ d.maximumSetPoint; rw [e5]; exact hy hn, fun hn => absurd hn hT,
      fun _ => ⟨rfl, hc⟩, _, h3, p1.fans, fun hn => by show y ≤ d.maximumSetPoint; rw [e5]; exact hy hn⟩

/-- whenever the timer of zone `i` expires the readings are hot -/
def HotThroughout (H : ZoneData → Prop) (ti : List String) (o : Opts) (i : Int) (d : Daemon) (es : List DEvent) : Prop :=
  ∀ es1 es2 d1, es = es1 ++ .tick i :: es2 → d.run o es1 = .ok d1 → Fine H ti d1.w

theorem hot_run {o : Opts} (ho : o.tuningEnabled = false)
    (hP : ∀ n z c v c', H z → P n c → CtlOut z c v c' → P (n + 1) c' ∧ (M ≤ n → y ≤ v)) {i : Int} {p : Nat}
    (hf : 1 ≤ ct.cycleIntervalTimeMS) (hp1 : 1 ≤ p)
    (hp : (ct.updateThermalsTimeMS + ct.cycleIntervalTimeMS - 1) / ct.cycleIntervalTimeMS ≤ p) :
    ∀ {es : List DEvent} {d d' : Daemon} {z : Zone} {cnt k n : Nat}, d.run o es = .ok d' →
    d.zones.find? i = some (z, cnt) → PlainZone (P n) nm ct ti fk true z → OnThroughout i nm es → HotThroughout H ti o i d es →
    k ≤ n * p + min (cnt / ct.cycleIntervalTimeMS) p → (M < n → y ≤ z.d.maximumSetPoint) →
    ∃ z' cnt' n', d'.zones.find? i = some (z', cnt') ∧ PlainZone (P n') nm ct ti fk true z' ∧
      k + autoTicks i z.d.manualMode es ≤ n' * p + min (cnt' / ct.cycleIntervalTimeMS) p ∧
      (M < n' → y ≤ z'.d.maximumSetPoint) ∧ z'.d.manualMode = modeAfter i z.d.manualMode es
  | [], d, d', z, cnt, k, n, h, hz, hp, _, _, hk, hy => by
    cases h
    exact ⟨z, cnt, n, hz, hp, hk, hy, rfl⟩
  | e :: es, d, d', z, cnt, k, n, h, hz, hpz, hon, hH, hk, hy => by
    obtain ⟨d1, h1, h2⟩ := bind_eq_ok.1 h
    have hH' : HotThroughout H ti o i d1 es := by
      intro es1 es2 d2 he hr
      refine hH (e :: es1) es2 d2 (by rw [he]; rfl) ?_
      unfold Daemon.run
      rw [h1, ok_bind]
      exact hr
    obtain ⟨z1, cnt1, hz1, hst⟩ := step_zone h1 hz
    have hon1 : ∀ es1 es2, es = es1 ++ es2 → switchAfter i nm true (e :: es1) = true :=
      fun es1 es2 he => hon (e :: es1) es2 (by rw [he]; rfl)
    cases hst with
    | manual b =>
      have := hot_run ho hP hf hp1 hp h2 hz1 ⟨hpz.acc, hpz.cycle, hpz.inputs, hpz.loop, hpz.plain, hpz.fans, hpz.switch⟩
        (fun es1 es2 he => hon1 es1 es2 he) hH' hk hy
      simpa [autoTicks, modeAfter, ZoneData.setManualMode] using this
    | enable l b =>
      have hb : (if l = nm then b else true) = true := by
        have := hon1 [] es rfl
        simpa [switchAfter] using this
      have hp' := (hpz.setEnabled l b).1
      rw [hb] at hp'
      have := hot_run ho hP hf hp1 hp h2 hz1 hp' (fun es1 es2 he => by
        have := hon1 es1 es2 he
        simp only [switchAfter, true_and, hb] at this
        exact this) hH' hk (by rw [(hpz.setEnabled l b).2]; exact hy)
      rw [setEnabled_manual] at this
      exact this
    | tick ht =>
      obtain ⟨hm, _⟩ := tick_flags ht
      have hon' : OnThroughout i nm es := fun es1 es2 he => hon1 es1 es2 he
      by_cases hmm : z.d.manualMode = true
      · rw [tick_manual hmm] at ht; cases ht
        have := hot_run ho hP hf hp1 hp h2 hz1 hpz hon' hH' hk hy
        simpa [autoTicks, modeAfter, hmm] using this
      · have hmm' : z.d.manualMode = false := by simpa using hmm
        obtain ⟨n1, q1, q2, q3, q4, _⟩ := hot_tick ho hP hpz (hH [] es d rfl rfl) hy hmm' ht
        obtain ⟨c1, c2⟩ := passes_count hf hp1 hp hk
        have hk' : k + 1 ≤ n1 * p + min (cnt1 / ct.cycleIntervalTimeMS) p := by
          by_cases hc : ct.updateThermalsTimeMS ≤ cnt
          · rw [(q3 hc).1, (q3 hc).2]; exact c1 hc
          · rw [(q4 hc).1, (q4 hc).2]; exact c2 hc
        have := hot_run ho hP hf hp1 hp h2 hz1 q1 hon' hH' hk' q2
        rw [hm] at this
        simpa [autoTicks, modeAfter, hmm, Nat.add_assoc] using this
    | other q1 q2 q3 =>
      have hon' : OnThroughout i nm es := fun es1 es2 he => by
        have := hon1 es1 es2 he
        cases e with
        | enable j l b =>
          have hj : j ≠ i := fun hj => q2 l b (by rw [hj])
          simpa [switchAfter, hj] using this
        | outside | signal | hostWrite | tick | manual => exact this
      have := hot_run ho hP hf hp1 hp h2 hz1 hpz hon' hH' hk hy
      cases e with
      | manual j b =>
        have hj : j ≠ i := fun hj => q1 b (by rw [hj])
        simpa [autoTicks, modeAfter, hj] using this
      | tick j =>
        have hj : j ≠ i := fun hj => q3 (by rw [hj])
        simpa [autoTicks, modeAfter, hj] using this
      | outside | signal | hostWrite | enable => exact this

end

/-! ## Loops whose input stays hot -/

theorem mul_comm' (a b : Dbl) : a * b = b * a := by
  cases a <;> cases b <;> simp [mul_def, Dbl.mul, sgn, _root_.mul_comm]

theorem clamp_size {x lo hi : Dbl} (hl : Moderate lo) (hh : Moderate hi) (hle : lo ≤ hi) (hx : x ≠ nan) :
    SizeUpTo 1048576 (clamp x lo hi) ∧ lo ≤ clamp x lo hi ∧ clamp (clamp x lo hi) lo hi = clamp x lo hi := by
  have hln := hl.sizeUpTo.ne_nan
  have hhn := hh.sizeUpTo.ne_nan
  unfold clamp
  split_ifs with h1 h2 h3 h4 h5 h6 h7
  · exact absurd h2 (Dbl.not_lt_of_le (Dbl.le_refl hln))
  · exact absurd h3 (Dbl.not_lt_of_le hle)
  · exact ⟨hl.sizeUpTo, Dbl.le_refl hln, rfl⟩
  · exact absurd h5 (Dbl.not_lt_of_le hle)
  · exact absurd h6 (Dbl.not_lt_of_le (Dbl.le_refl hhn))
  · exact ⟨hh.sizeUpTo, hle, rfl⟩
  · have a := Dbl.le_of_not_lt hln hx h1
    have b := Dbl.le_of_not_lt hx hhn h4
    exact ⟨Moderate.sizeUpTo ⟨Dbl.le_trans hl.1 a, Dbl.le_trans b hh.2⟩, a, rfl⟩

/-- more heat, larger proportional part -/
theorem more_heat {type : String} {k s x v : Dbl} (hk : Moderate k) (hf : FacesHeat type k) (hs : Moderate s) (hx : Moderate x)
    (hv : Moderate v) (h : AsHot type x v) : k * (s - x) ≤ k * (s - v) := by
  have e1 := hs.sizeUpTo.sub hx.sizeUpTo (by norm_num)
  have e1' := hs.sizeUpTo.sub hv.sizeUpTo (by norm_num)
  have e4 := hk.sizeUpTo.mul e1 (by norm_num)
  have e4' := hk.sizeUpTo.mul e1' (by norm_num)
  unfold FacesHeat at hf
  unfold AsHot at h
  split_ifs at hf h
  · exact mul_le_mul_left_of_nonneg hf (sub_le_sub (Dbl.le_refl hs.sizeUpTo.ne_nan) h e1.ne_nan e1'.ne_nan) e4.ne_nan e4'.ne_nan
  · exact mul_le_mul_left_of_nonpos hf (sub_le_sub (Dbl.le_refl hs.sizeUpTo.ne_nan) h e1'.ne_nan e1.ne_nan) e4'.ne_nan e4.ne_nan

/-- a PID loop whose controller has property `I` -/
def LoopWith (t : ThermalType) (s : Dbl) (inputs : List SensorInput) (conf : PidConf) (I : PidCtl → Prop) (c : ThermalCtl) : Prop :=
  ∃ p : ThermalPid, c = .pid p ∧ p.type = t ∧ p.setpoint = s ∧ p.inputs = inputs ∧ p.ctl.info.toPidConf = conf ∧ I p.ctl

theorem loopWith_out {t : ThermalType} {s : Dbl} {inputs : List SensorInput} {conf : PidConf} {I I' : PidCtl → Prop}
    {G J : Dbl → Prop}
    (h : ∀ ctl v, ctl.info.toPidConf = conf → I ctl → G v → I' (pidStep ctl s v).2 ∧ J (pidStep ctl s v).1) {z : ZoneData}
    {c c' : ThermalCtl} {v : Dbl} (hz : Fed t s inputs G z) (hc : LoopWith t s inputs conf I c) (ho : CtlOut z c v c') :
    LoopWith t s inputs conf I' c' ∧ J v := by
  obtain ⟨p, rfl, h1, h2, h3, h4, h5⟩ := hc
  cases ho with
  | @pid _ z1 z2 input hz1 hi =>
    obtain ⟨a, b⟩ := h p.ctl input h4 h5 (hz p z1 z2 input h1 h2 h3 hz1 hi)
    rw [← h2] at a b
    exact ⟨⟨_, rfl, h1, h2, h3, (pidStep_conf _ _ _).trans h4, a⟩, b⟩

/-- the controllers of a loop whose input stays hot: `I n` after `n` hot passes; after `N` of them it asks for `y` -/
structure HeatsUp (type : String) (conf : PidConf) (s x y : Dbl) (N : Nat) (I : Nat → PidCtl → Prop) : Prop where
  fresh : I 0 ⟨⟨conf, false, 0, 0, 0⟩, nan⟩
  any : ∀ ctl v, ctl.info.toPidConf = conf → I 0 ctl → Moderate v → I 0 (pidStep ctl s v).2
  hot : ∀ n ctl v, ctl.info.toPidConf = conf → I n ctl → Moderate v → AsHot type x v →
    I (n + 1) (pidStep ctl s v).2 ∧ (N ≤ n → y ≤ (pidStep ctl s v).1)

theorem passes_tick {o : Opts} (ho : o.tuningEnabled = false) {bus : BuildBus}
    {now : Int} {w : World} {sensors : OMap String SensorConfig} {pids : OMap Int PIDConf} {configs : OMap Int ZoneConfig}
    (hw : pids.WF) (hc : ∀ e ∈ pids.entries, OMap.WF e.2) {d0 : Daemon}
    (hl : Daemon.launch o bus now w sensors pids configs = .ok d0) {i : Int} {conf : PIDConf} {c : ZoneConfig}
    (hp : pids.find? i = some conf) (hcc : configs.find? i = some c) (hacc : c.accumulateSetPoint = false) {e : Entry}
    (he : e ∈ conf.entries) (hes : IsPid e.2.type)
    (hceil : ∀ e ∈ conf.entries, e.2.type = "stepwise" → e.2.stepwiseInfo.isCeiling = false) {x y : Dbl} {N : Nat}
    {I : Nat → PidCtl → Prop} (hI : HeatsUp e.2.type e.2.pidInfo e.2.setpoint x y N I)
    (hF : 1 ≤ c.cycleTime.cycleIntervalTimeMS) {pre post : List DEvent} {d1 d2 d3 : Daemon}
    (hr1 : d0.run o pre = .ok d1) (hr2 : d1.run o post = .ok d2) (hmod : ModerateInput o e.2 d0 (pre ++ post))
    (hhot : HotInput o i e.2 x d1 (post ++ [.tick i]))
    (hon : ∀ es1 es2, post = es1 ++ es2 → switchAfter i e.1 true (pre ++ es1) = true)
    (hn : (N + 1) * max 1 ((c.cycleTime.updateThermalsTimeMS + c.cycleTime.cycleIntervalTimeMS - 1) /
      c.cycleTime.cycleIntervalTimeMS) ≤ autoTicks i (modeAfter i false pre) post)
    (hm : modeAfter i false (pre ++ post) = false) (ht : d2.step o (.tick i) = .ok d3) :
    ∃ (zb zt z3 : Zone) (cnt3 : Nat), NewZone i c conf.entries zb ∧
      d3.zones.find? i = some (z3, cnt3) ∧ zt.processFans o d2.w = .ok (d3.w, z3) ∧
      zt.fans.map (Option.map fanKey) = zb.fans.map (Option.map fanKey) ∧ y ≤ zt.d.maximumSetPoint := by
  have hh : IsHeat e := by unfold IsHeat; rcases hes with h | h | h | h <;> (rw [h]; decide)
  obtain ⟨t, hk⟩ : ∃ t, KindOf e.2.type t := by
    rcases hes with h | h | h | h
    · exact ⟨.absolute, .inr (.inl ⟨rfl, .inl h⟩)⟩
    · exact ⟨.absolute, .inr (.inl ⟨rfl, .inr h⟩)⟩
    · exact ⟨.margin, .inl ⟨rfl, h⟩⟩
    · exact ⟨.summation, .inr (.inr ⟨rfl, h⟩)⟩
  obtain ⟨m, zones, hL⟩ := launch_spec hl
  obtain ⟨zb, c', hzb, hc', hN⟩ := (C64_zones hw hc hL.built i).1 conf hp
  rw [hcc] at hc'
  cases hc'
  obtain ⟨z0, hz0, hf0⟩ := hL.started i zb hzb
  have hti : ∀ j ∈ e.2.inputs, j.name ∈ zb.d.thermalInputs := fun j hj => (hN.thermalInputs_mem _).2 ⟨e, he, hh, j, hj, rfl⟩
  have hfine : FineThroughout (Fed t e.2.setpoint e.2.inputs Moderate) zb.d.thermalInputs o d0 (pre ++ post) :=
    fun es1 es2 d hes hr => fed_of hk hti (hmod es1 es2 d hes hr)
  have hhotc : HotThroughout (Fed t e.2.setpoint e.2.inputs (fun v => Moderate v ∧ AsHot e.2.type x v)) zb.d.thermalInputs o i d1
      (post ++ [.tick i]) := by
    intro es1 es2 d hes hr
    have hpre : ∃ es3, pre ++ post = (pre ++ es1) ++ es3 := by
      rcases List.append_eq_append_iff.1 hes with ⟨as, h1, h2⟩ | ⟨bs, h1, h2⟩
      · cases as with
        | nil => exact ⟨[], by rw [h1]; simp⟩
        | cons a as => cases as <;> simp at h2
      · exact ⟨bs, by rw [h1, List.append_assoc]⟩
    obtain ⟨es3, h3⟩ := hpre
    exact fed_of hk hti fun v hv =>
      ⟨hmod (pre ++ es1) es3 d h3 (run_append.2 ⟨d1, hr1, hr⟩) v hv, hhot es1 es2 d hes hr v hv⟩
  have hP0 : ∀ z c v c', Fed t e.2.setpoint e.2.inputs Moderate z →
      LoopWith t e.2.setpoint e.2.inputs e.2.pidInfo (I 0) c → CtlOut z c v c' →
      LoopWith t e.2.setpoint e.2.inputs e.2.pidInfo (I 0) c' := fun z c v c' hq h ho =>
    (loopWith_out (J := fun _ => True) (fun ctl v h1 h2 h3 => ⟨hI.any ctl v h1 h2 h3, trivial⟩) hq h ho).1
  have hp0 := plainZone_start ho hP0 hN (.inl hacc) hceil he hh (by
      intro x hx
      have hst : ∀ t', KindOf e.2.type t' → t' = t := by
        intro t' hk'
        rcases hk with ⟨rfl, h⟩ | ⟨rfl, h⟩ | ⟨rfl, h⟩ <;> rcases hk' with ⟨rfl, h'⟩ | ⟨rfl, h'⟩ | ⟨rfl, h'⟩ <;>
          first | rfl | (exfalso; rcases h with h | h <;> rcases h' with h' | h' <;> (rw [h] at h'; exact absurd h' (by decide))) |
            (exfalso; rcases h with h | h <;> (rw [h] at h'; exact absurd h' (by decide))) |
            (exfalso; rcases h' with h' | h' <;> (rw [h] at h'; exact absurd h' (by decide))) |
            (exfalso; rw [h] at h'; exact absurd h' (by decide))
      cases hx with
      | margin h => exact ⟨rfl, _, rfl, hst _ (.inl ⟨rfl, h⟩), rfl, rfl, rfl, hI.fresh⟩
      | absolute h => exact ⟨rfl, _, rfl, hst _ (.inr (.inl ⟨rfl, h⟩)), rfl, rfl, rfl, hI.fresh⟩
      | summation h => exact ⟨rfl, _, rfl, hst _ (.inr (.inr ⟨rfl, h⟩)), rfl, rfl, rfl, hI.fresh⟩
      | stepwise h => rcases hes with h' | h' | h' | h' <;> (rw [h'] at h; exact absurd h (by decide)))
    (hfine [] _ d0 rfl rfl) hz0
  obtain ⟨hm0, _⟩ := start_flags hz0
  rw [hN.manualMode] at hm0
  obtain ⟨z1, cnt1, hz1, hp1, hm1⟩ := plainZone_run ho hP0 hr1 hf0 hp0
    (fun es1 es2 d h hr => hfine es1 (es2 ++ post) d (by rw [h, List.append_assoc]) hr)
  have hon0 : switchAfter i e.1 true pre = true := by simpa using hon [] post rfl
  rw [hon0] at hp1
  rw [hm0] at hm1
  have hon' : OnThroughout i e.1 post := by
    intro es1 es2 h
    have := hon es1 es2 h
    rw [switchAfter_append, hon0] at this
    exact this
  have hP : ∀ n z c v c', Fed t e.2.setpoint e.2.inputs (fun v => Moderate v ∧ AsHot e.2.type x v) z →
      LoopWith t e.2.setpoint e.2.inputs e.2.pidInfo (I n) c → CtlOut z c v c' →
      LoopWith t e.2.setpoint e.2.inputs e.2.pidInfo (I (n + 1)) c' ∧ (N ≤ n → y ≤ v) :=
    fun n z c v c' hq h ho =>
      loopWith_out (J := fun v => N ≤ n → y ≤ v) (fun ctl v h1 h2 h3 => hI.hot n ctl v h1 h2 h3.1 h3.2) hq h ho
  obtain ⟨z2, cnt2, n2, hz2, hp2, hk2, hy2, hm2⟩ := hot_run (k := 0) (n := 0) (P := fun n =>
    LoopWith t e.2.setpoint e.2.inputs e.2.pidInfo (I n)) ho hP hF (Nat.le_max_left _ _)
    (Nat.le_max_right _ _) hr2 hz1 hp1 hon' (fun es1 es2 d h hr => hhotc es1 (es2 ++ [.tick i]) d (by rw [h]; simp) hr)
    (Nat.zero_le _) (fun h => absurd h (by omega))
  rw [hm1, Nat.zero_add] at hk2
  have hmode : z2.d.manualMode = false := by rw [hm2, hm1, ← modeAfter_append]; exact hm
  simp only [Daemon.step, hz2] at ht
  obtain ⟨⟨w', z3, cnt3⟩, htk, ht⟩ := bind_eq_ok.1 ht
  cases ht
  obtain ⟨n3, _, _, q3, q4, zt, g1, g2, g3⟩ := hot_tick ho hP hp2 (hhotc post [] d2 rfl hr2) hy2 hmode htk
  refine ⟨zb, zt, z3, cnt3, hN, by rw [OMap.find?_insert_self], g1, g2, g3 ?_⟩
  rcases passes_due hF (Nat.le_max_right _ _) hk2 hn with h | ⟨h, h'⟩ | h
  · by_cases hc : c.cycleTime.updateThermalsTimeMS ≤ cnt2
    · rw [(q3 hc).1]; omega
    · rw [(q4 hc).1]; exact h
  · rw [(q3 h').1]; omega
  · have := Nat.le_max_left 1 ((c.cycleTime.updateThermalsTimeMS + c.cycleTime.cycleIntervalTimeMS - 1) /
      c.cycleTime.cycleIntervalTimeMS)
    omega

theorem passes_reach_fans {o : Opts} (ho : o.tuningEnabled = false) (hst : o.strictFailsafePwm = false) {bus : BuildBus}
    {now : Int} {w : World} {sensors : OMap String SensorConfig} {pids : OMap Int PIDConf} {configs : OMap Int ZoneConfig}
    (hw : pids.WF) (hc : ∀ e ∈ pids.entries, OMap.WF e.2) {d0 : Daemon}
    (hl : Daemon.launch o bus now w sensors pids configs = .ok d0) {i : Int} {conf : PIDConf} {c : ZoneConfig}
    (hp : pids.find? i = some conf) (hcc : configs.find? i = some c) (hacc : c.accumulateSetPoint = false) {e : Entry}
    (he : e ∈ conf.entries) (hes : IsPid e.2.type)
    (hceil : ∀ e ∈ conf.entries, e.2.type = "stepwise" → e.2.stepwiseInfo.isCeiling = false) {x y : Dbl} {N : Nat}
    {I : Nat → PidCtl → Prop} (hI : HeatsUp e.2.type e.2.pidInfo e.2.setpoint x y N I)
    (hfan : ∀ f ∈ conf.entries, IsFan f → HandsOn f.2.pidInfo ∧ y ≤ f.2.pidInfo.outLim.max)
    (hF : 1 ≤ c.cycleTime.cycleIntervalTimeMS) {pre post : List DEvent} {d1 d2 d3 : Daemon}
    (hr1 : d0.run o pre = .ok d1) (hr2 : d1.run o post = .ok d2) (hmod : ModerateInput o e.2 d0 (pre ++ post))
    (hhot : HotInput o i e.2 x d1 (post ++ [.tick i]))
    (hon : ∀ es1 es2, post = es1 ++ es2 → switchAfter i e.1 true (pre ++ es1) = true)
    (hn : (N + 1) * max 1 ((c.cycleTime.updateThermalsTimeMS + c.cycleTime.cycleIntervalTimeMS - 1) /
      c.cycleTime.cycleIntervalTimeMS) ≤ autoTicks i (modeAfter i false pre) post)
    (hm : modeAfter i false (pre ++ post) = false) (ht : d2.step o (.tick i) = .ok d3) :
    FansAtLeast conf.entries (y / 100) d2.w d3.w := by
  obtain ⟨zb, zt, z3, cnt3, hN, _, g1, g2, g3⟩ := passes_tick ho hw hc hl hp hcc hacc he hes hceil hI hF hr1 hr2 hmod hhot hon
    hn hm ht
  exact fans_follow ho hst hN hfan g1 g2 g3

theorem passes_in_time {o : Opts} (ho : o.tuningEnabled = false) (hst : o.strictFailsafePwm = false) {bus : BuildBus} {now : Int}
    {started : Int → Int} {w : World} (htr : w.trace = []) {sensors : OMap String SensorConfig} (hws : sensors.WF)
    {pids : OMap Int PIDConf} {configs : OMap Int ZoneConfig} (hw : pids.WF) (hc : ∀ e ∈ pids.entries, OMap.WF e.2) {td : Timed}
    (hl : Timed.launch o bus now started w sensors pids configs = .ok td)
    {i : Int} {conf : PIDConf} {c : ZoneConfig} (hp : pids.find? i = some conf) (hcc : configs.find? i = some c)
    (hacc : c.accumulateSetPoint = false) {e : Entry} (he : e ∈ conf.entries) (hes : IsPid e.2.type)
    (hceil : ∀ e ∈ conf.entries, e.2.type = "stepwise" → e.2.stepwiseInfo.isCeiling = false) {x y : Dbl} {N : Nat}
    {I : Nat → PidCtl → Prop} (hI : HeatsUp e.2.type e.2.pidInfo e.2.setpoint x y N I) (hpos : 0 ≤ y)
    (hfan : ∀ f ∈ conf.entries, IsFan f → HandsOn f.2.pidInfo ∧ y ≤ f.2.pidInfo.outLim.max)
    (hF : 1 ≤ c.cycleTime.cycleIntervalTimeMS) {late t0 ta : Int} (h0 : started i ≤ t0) (h1 : t0 ≤ ta)
    {pre post : List TEvent} {t : Int} {e' : DEvent} {tda td1 : Timed} (hsv : Served o late t0 td (pre ++ post ++ [(t, e')]))
    (hra : td.run o pre = .ok tda) (hrb : tda.run o post = .ok td1) (hpre : ∀ x ∈ pre, x.1 ≤ ta)
    (hmod : ModerateInput o e.2 td.d (eventsOf pre ++ eventsOf post)) (hhot : HotInput o i e.2 x tda.d (eventsOf post))
    (hon : ∀ es1 es2, eventsOf post = es1 ++ es2 → switchAfter i e.1 true (eventsOf pre ++ es1) = true)
    (hauto : Automatic i (eventsOf pre) (eventsOf post))
    (ht : ta + (((N + 1) * max 1 ((c.cycleTime.updateThermalsTimeMS + c.cycleTime.cycleIntervalTimeMS - 1) /
      c.cycleTime.cycleIntervalTimeMS) + 1 : Nat) : Int) * ms c.cycleTime.cycleIntervalTimeMS + late < t) :
    ∀ f ∈ conf.entries, IsFan f → ∀ u ∈ f.2.inputs, ∀ fc path, FanOn bus.dirs sensors u.name fc path →
      OnlyZone pids i u.name → w.busOk path = true → (∀ e ∈ eventsOf (pre ++ post), BusWorks path e) →
      ToldAtLeast fc path (y / 100) td1.d.w := by
  obtain ⟨l1, -⟩ := timed_launch hw hc hl
  obtain ⟨mid, t', rest, td3, td4, b1, b2, b3, b4, b5, b6⟩ :=
    last_after hw hc hl hp hcc h0 hsv h1 hpre hra hrb ht
  have hmid : eventsOf post = eventsOf mid ++ .tick i :: eventsOf rest := by rw [b1]; exact eventsOf_append _ _
  rw [hmid] at hauto hhot hon hmod
  have hau := automatic_prefix hauto
  have hstp := (timed_step b3).1
  have key := passes_reach_fans ho hst hw hc l1 hp hcc hacc he hes hceil hI hfan hF (timed_run hra) (timed_run b2)
    (fun es1 es2 d1 hsp hr => hmod es1 (es2 ++ .tick i :: eventsOf rest) d1 (by
      rw [← List.append_assoc, hsp, List.append_assoc]) hr)
    (fun es1 es2 d1 hsp hr => hhot es1 (es2 ++ eventsOf rest) d1 (by
      rw [show eventsOf mid ++ DEvent.tick i :: eventsOf rest = (eventsOf mid ++ [.tick i]) ++ eventsOf rest by simp, hsp]
      simp) hr)
    (fun es1 es2 hsp => hon es1 (es2 ++ .tick i :: eventsOf rest) (by rw [hsp]; simp))
    (by rw [autoTicks_all hau]; exact b6) (hau _ [] (by simp)) hstp
  intro f hf hFf u hu fc path hfo hz hb hbs
  refine told_now htr hws hw hc l1 (run_append.2 ⟨_, timed_run hra, timed_run b2⟩) hstp (timed_run b4) b5 hfo hz hb ?_
    (percent_nonneg hpos) key ⟨f, hf, hFf, u, hu, rfl⟩
  intro e he
  refine hbs e ?_
  rw [b1]
  simpa [eventsOf] using he

end Verif
