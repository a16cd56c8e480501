import Verif.Lemmas.Written
import Verif.Props.Alone
import Verif.Props.Hotter

/-! # C131: a configuration that asks for more cooling never slows the fans -/

namespace Verif
open Dbl
section
variable [F : FloatModel]

/-- **C131** Two daemons run with different configurations for zone `i`. The second one asks for as much cooling as the first or
more: it may have further loops that compute set points, a larger lowest set point and larger failsafe percentages. The same is
ordered for the zone, its timer expires as often, and the second one is as hot as the first or hotter. Then no fan loop of the
second one is ever commanded a smaller fraction than that of the first. -/
theorem C131_commands {o : Opts} (ho : o.tuningEnabled = false) (hst : o.strictFailsafePwm = false) {bus bus' : BuildBus}
    {now now' : Int} {w w' : World} {sensors sensors' : OMap String SensorConfig} {pids pids' : OMap Int PIDConf}
    {configs configs' : OMap Int ZoneConfig} (hw : pids.WF) (hw' : pids'.WF) (hc : ∀ e ∈ pids.entries, OMap.WF e.2)
    (hc' : ∀ e ∈ pids'.entries, OMap.WF e.2) {d0 d0' : Daemon}
    (hl : Daemon.launch o bus now w sensors pids configs = .ok d0)
    (hl' : Daemon.launch o bus' now' w' sensors' pids' configs' = .ok d0') {i : Int} {conf conf' : PIDConf}
    {c c' : ZoneConfig} (hp : pids.find? i = some conf) (hp' : pids'.find? i = some conf') (hcc : configs.find? i = some c)
    (hcc' : configs'.find? i = some c') (hmore : AsMuchCooling c c' conf.entries conf'.entries)
    (hacc : c.accumulateSetPoint = false) (hacc' : c'.accumulateSetPoint = false)
    (hceil : ∀ e ∈ conf.entries, e.2.type = "stepwise" → e.2.stepwiseInfo.isCeiling = false)
    (hceil' : ∀ e ∈ conf'.entries, e.2.type = "stepwise" → e.2.stepwiseInfo.isCeiling = false)
    (hfan : ∀ f ∈ conf.entries, IsFan f → HandsOn f.2.pidInfo ∧ f.2.pidInfo.outLim.min ≤ f.2.pidInfo.outLim.max)
    (hnum : ∀ e ∈ conf.entries, e.2.failSafePercent ≠ nan) (hnum' : ∀ e ∈ conf'.entries, e.2.failSafePercent ≠ nan)
    (hzn : c.failsafePercent ≠ nan) (hzn' : c'.failsafePercent ≠ nan) {es es' : List DEvent}
    {d1 d1' d2 d2' : Daemon} (hr : d0.run o es = .ok d1) (hr' : d0'.run o es' = .ok d1') (hor : orders i es = orders i es')
    {S : ControllerInfo → Prop} (hS : ∀ e ∈ conf.entries, S e.2 → RisesWithHeat e.2)
    (hstart : HotterAt S conf.entries d0.w d0'.w)
    (hhot : HotterThroughout S o i conf.entries d0 d0' (es ++ [.tick i]) (es' ++ [.tick i]))
    (hm : modeAfter i false es = false) (ht : d1.step o (.tick i) = .ok d2) (ht' : d1'.step o (.tick i) = .ok d2') :
    FansFaster conf.entries d1.w d2.w d1'.w d2'.w :=
  hotter_fans ho hst hw hw' hc hc' hl hl' hp hp' hcc hcc' hmore hacc hacc' hceil hceil' hfan hnum hnum' hzn hzn' hr hr' hor hS
    hstart hhot hm ht ht'

/-! ## The same world -/

theorem agree_refl (w : World) : Agree [] w w := ⟨rfl, fun _ => rfl, fun _ _ => rfl⟩

theorem agree_ticked {o : Opts} {w w' w1 w1' : World} {z z' z1 z1' : Zone} {k k' k1 k1' : Nat} (h : Agree [] w w')
    (ht : z.tick o w k = .ok (w1, z1, k1)) (ht' : z'.tick o w' k' = .ok (w1', z1', k1')) : Agree [] w1 w1' := by
  have a := tick_after ht
  have a' := tick_after ht'
  refine ⟨?_, fun n => (a'.front n).trans ((h.front n).trans (a.front n).symm), fun n hn => by cases hn⟩
  rw [a'.same, h.same, a.same]

theorem agree_one {o : Opts} {w w' w1 : World} {z z1 : Zone} {k k1 : Nat} (h : Agree [] w w')
    (ht : z.tick o w k = .ok (w1, z1, k1)) : Agree [] w1 w' := by
  have a := tick_after ht
  refine ⟨?_, fun n => (h.front n).trans (a.front n).symm, fun n hn => by cases hn⟩
  rw [h.same, a.same]

theorem agree_other {o : Opts} {w w' w1' : World} {z z1 : Zone} {k k1 : Nat} (h : Agree [] w w')
    (ht : z.tick o w' k = .ok (w1', z1, k1)) : Agree [] w w1' := by
  have a := tick_after ht
  refine ⟨?_, fun n => (a.front n).trans (h.front n), fun n hn => by cases hn⟩
  rw [a.same, h.same]

/-- events change the sensors of two daemons in the same way, whatever their zones do -/
theorem agree_step {o : Opts} {d d' d1 d1' : Daemon} {e : DEvent} (h : Agree [] d.w d'.w) (hs : d.step o e = .ok d1)
    (hs' : d'.step o e = .ok d1') : Agree [] d1.w d1'.w := by
  cases e with
  | outside nf nt ho rf fi bo =>
    cases hs
    cases hs'
    exact ⟨rfl, h.front, fun n hn => by cases hn⟩
  | signal n t m =>
    have hs : d.signal o n t m = .ok d1 := hs
    have hs' : d'.signal o n t m = .ok d1' := hs'
    unfold Daemon.signal at hs hs'
    rcases h.cases n with ⟨h1, h2⟩ | ⟨s, s', h1, h2, hf⟩
    · rw [h1] at hs
      rw [h2] at hs'
      cases hs
      cases hs'
      exact h
    · rw [h1] at hs
      rw [h2] at hs'
      dsimp only at hs hs'
      rcases front_cases hf with ⟨r, wr, wr', q1, q2⟩ | ⟨v, u, q1, q2⟩
      · rw [q1] at hs
        rw [q2] at hs'
        cases r with
        | passive p =>
          obtain ⟨p', hp, hs⟩ := bind_eq_ok.1 hs
          obtain ⟨p'', hp', hs'⟩ := bind_eq_ok.1 hs'
          rw [hp] at hp'
          cases hp'
          cases hs
          cases hs'
          refine h.insert n ?_ (fun hn => by cases hn)
          unfold Sensor.front at hf ⊢
          simp only [Prod.mk.injEq] at hf ⊢
          exact ⟨hf.1, hf.2.1, hf.2.2.1, trivial⟩
        | sysfs | writeOnly | null => cases hs; cases hs'; exact h
      · rw [q1] at hs
        rw [q2] at hs'
        cases hs
        cases hs'
        exact h
  | hostWrite n t v =>
    simp only [Daemon.step] at hs hs'
    rcases h.cases n with ⟨h1, h2⟩ | ⟨s, s', h1, h2, hf⟩
    · rw [h1] at hs
      rw [h2] at hs'
      cases hs
      cases hs'
      exact h
    · rw [h1] at hs
      rw [h2] at hs'
      cases hs
      cases hs'
      refine h.insert n ?_ (fun hn => by cases hn)
      unfold Sensor.hostWrite
      rcases front_cases hf with ⟨r, wr, wr', q1, q2⟩ | ⟨v, u, q1, q2⟩
      · rw [q1, q2]; exact hf
      · rw [q1, q2]
        unfold Sensor.front at hf ⊢
        simp only [Prod.mk.injEq] at hf ⊢
        exact ⟨hf.1, hf.2.1, hf.2.2.1, trivial⟩
  | manual j b =>
    cases hs
    cases hs'
    rw [onZone_w, onZone_w]
    exact h
  | enable j l b =>
    cases hs
    cases hs'
    rw [onZone_w, onZone_w]
    exact h
  | tick j =>
    simp only [Daemon.step] at hs hs'
    cases hj : d.zones.find? j with
    | none =>
      rw [hj] at hs
      cases hs
      cases hj' : d'.zones.find? j with
      | none =>
        rw [hj'] at hs'
        cases hs'
        exact h
      | some x' =>
        rw [hj'] at hs'
        obtain ⟨y', ht', hs'⟩ := bind_eq_ok.1 hs'
        cases hs'
        exact agree_other h ht'
    | some x =>
      rw [hj] at hs
      obtain ⟨y, ht, hs⟩ := bind_eq_ok.1 hs
      cases hs
      cases hj' : d'.zones.find? j with
      | none =>
        rw [hj'] at hs'
        cases hs'
        exact agree_one h ht
      | some x' =>
        rw [hj'] at hs'
        obtain ⟨y', ht', hs'⟩ := bind_eq_ok.1 hs'
        cases hs'
        exact agree_ticked h ht ht'

theorem agree_run {o : Opts} : ∀ {es : List DEvent} {d d' d1 d1' : Daemon}, Agree [] d.w d'.w → d.run o es = .ok d1 →
    d'.run o es = .ok d1' → Agree [] d1.w d1'.w
  | [], _, _, _, _, h, hr, hr' => by cases hr; cases hr'; exact h
  | e :: es, d, d', d1, d1', h, hr, hr' => by
    obtain ⟨d2, hs, hr⟩ := bind_eq_ok.1 hr
    obtain ⟨d2', hs', hr'⟩ := bind_eq_ok.1 hr'
    exact agree_run (agree_step h hs hs') hr hr'

/-- what sensors say does not depend on what was written to fans -/
theorem agree_hotter {w w' : World} (h : Agree [] w w') (conf : List Entry) : HotterAt (fun _ => False) conf w w' := by
  have e1 : w'.files = w.files := by rw [h.same]
  have e2 : w'.hostOn = w.hostOn := by rw [h.same]
  have e3 : w'.redundancyFailed = w.redundancyFailed := by rw [h.same]
  have e4 : w'.nowThermals = w.nowThermals := by rw [h.same]
  have e5 : w'.nowFans = w.nowFans := by rw [h.same]
  have hfa : ∀ now n, FailsAt w now n → FailsAt w' now n := by
    rintro now n ⟨s, hs, hx⟩
    rcases h.cases n with ⟨h1, _⟩ | ⟨s1, s', h1, h2, hf⟩
    · rw [h1] at hs; cases hs
    · rw [h1] at hs
      cases hs
      refine ⟨s', h2, ?_⟩
      have : s'.timeout = s.timeout := by
        unfold Sensor.front at hf
        simp only [Prod.mk.injEq] at hf
        exact hf.2.1
      rw [failed_front hf e2 e3, read_front hf e1, this]
      exact hx
  refine ⟨fun e _ _ v v' hv hv' => .same id (C124_same ?_ hv hv'), fun e _ _ j _ hF => ?_, fun e _ _ j _ hF => ?_⟩
  · intro i _ r r' ⟨s, rr, hs, hr, hv⟩ ⟨s1', rr', hs', hr', hv'⟩
    rcases h.cases i.name with ⟨h1, _⟩ | ⟨s1, s', h1, h2, hf⟩
    · rw [h1] at hs; cases hs
    · rw [h1] at hs
      cases hs
      rw [h2] at hs'
      cases hs'
      rw [e4, read_front hf e1, hr] at hr'
      cases hr'
      rw [← hv, ← hv']
  · rw [e4]; exact hfa _ _ hF
  · rw [e5]; exact hfa _ _ hF

/-- the expiries of a timer are told apart by what came before -/
theorem same_expiry {i : Int} : ∀ {a b a' b' : List DEvent}, a ++ .tick i :: b = a' ++ .tick i :: b' → orders i a = orders i a' → a = a'
  | [], _, [], _, _, _ => rfl
  | [], _, x :: a', _, h, ho => by
    injection h with h1 h2
    subst h1
    simp [orders, Concerns] at ho
  | x :: a, _, [], _, h, ho => by
    injection h with h1 h2
    subst h1
    simp [orders, Concerns] at ho
  | x :: a, b, x' :: a', b', h, ho => by
    injection h with h1 h2
    subst h1
    rw [same_expiry (i := i) h2 (by
      unfold orders at ho ⊢
      rw [List.filter_cons, List.filter_cons] at ho
      split_ifs at ho
      · exact (List.cons.inj ho).2
      · exact ho)]

theorem hotter_same {o : Opts} {bus : BuildBus} {now : Int} {w : World} {sensors : OMap String SensorConfig}
    {pids pids' : OMap Int PIDConf} {configs configs' : OMap Int ZoneConfig} {d0 d0' : Daemon}
    (hl : Daemon.launch o bus now w sensors pids configs = .ok d0)
    (hl' : Daemon.launch o bus now w sensors pids' configs' = .ok d0') (i : Int) (conf : List Entry) (es : List DEvent) :
    HotterAt (fun _ => False) conf d0.w d0'.w ∧ HotterThroughout (fun _ => False) o i conf d0 d0' es es := by
  obtain ⟨m, zones, hL⟩ := launch_spec hl
  obtain ⟨m', zones', hL'⟩ := launch_spec hl'
  have hm := hL.made
  rw [hL'.made] at hm
  cases hm
  have h0 : Agree [] d0.w d0'.w := by rw [hL.world, hL'.world]; exact agree_refl _
  refine ⟨agree_hotter h0 conf, fun a b a' b' x x' h1 h2 h3 h4 h5 => ?_⟩
  have := same_expiry (h1.symm.trans h2) h3
  subst this
  exact agree_hotter (agree_run h0 h4 h5) conf

/-- **C131** Two daemons are started on the same machine, and the same happens to them. They have the same sensors, but the second
one has been given a configuration that asks for as much cooling in zone `i`, or more. Then no fan loop of the zone is ever
commanded a smaller fraction by the second one. Nothing is assumed of the loops that compute set points, except that none is a
ceiling. -/
theorem C131_same_world {o : Opts} (ho : o.tuningEnabled = false) (hst : o.strictFailsafePwm = false) {bus : BuildBus}
    {now : Int} {w : World} {sensors : OMap String SensorConfig} {pids pids' : OMap Int PIDConf}
    {configs configs' : OMap Int ZoneConfig} (hw : pids.WF) (hw' : pids'.WF) (hc : ∀ e ∈ pids.entries, OMap.WF e.2)
    (hc' : ∀ e ∈ pids'.entries, OMap.WF e.2) {d0 d0' : Daemon}
    (hl : Daemon.launch o bus now w sensors pids configs = .ok d0)
    (hl' : Daemon.launch o bus now w sensors pids' configs' = .ok d0') {i : Int} {conf conf' : PIDConf}
    {c c' : ZoneConfig} (hp : pids.find? i = some conf) (hp' : pids'.find? i = some conf') (hcc : configs.find? i = some c)
    (hcc' : configs'.find? i = some c') (hmore : AsMuchCooling c c' conf.entries conf'.entries)
    (hacc : c.accumulateSetPoint = false) (hacc' : c'.accumulateSetPoint = false)
    (hceil : ∀ e ∈ conf.entries, e.2.type = "stepwise" → e.2.stepwiseInfo.isCeiling = false)
    (hceil' : ∀ e ∈ conf'.entries, e.2.type = "stepwise" → e.2.stepwiseInfo.isCeiling = false)
    (hfan : ∀ f ∈ conf.entries, IsFan f → HandsOn f.2.pidInfo ∧ f.2.pidInfo.outLim.min ≤ f.2.pidInfo.outLim.max)
    (hnum : ∀ e ∈ conf.entries, e.2.failSafePercent ≠ nan) (hnum' : ∀ e ∈ conf'.entries, e.2.failSafePercent ≠ nan)
    (hzn : c.failsafePercent ≠ nan) (hzn' : c'.failsafePercent ≠ nan) {es : List DEvent}
    {d1 d1' d2 d2' : Daemon} (hr : d0.run o es = .ok d1) (hr' : d0'.run o es = .ok d1')
    (hm : modeAfter i false es = false) (ht : d1.step o (.tick i) = .ok d2) (ht' : d1'.step o (.tick i) = .ok d2') :
    FansFaster conf.entries d1.w d2.w d1'.w d2'.w :=
  have h := hotter_same hl hl' i conf.entries (es ++ [.tick i])
  hotter_fans ho hst hw hw' hc hc' hl hl' hp hp' hcc hcc' hmore hacc hacc' hceil hceil' hfan hnum hnum' hzn hzn' hr hr' rfl
    (fun _ _ hf => absurd hf id) h.1 h.2 hm ht ht'

/-- **C131** … and no fan of the zone that has its D-Bus object or file for itself is ever told a smaller number. -/
theorem C131_told {o : Opts} (ho : o.tuningEnabled = false) (hst : o.strictFailsafePwm = false) {bus : BuildBus}
    {now : Int} {w : World} (htr : w.trace = []) {sensors : OMap String SensorConfig} (hws : sensors.WF)
    {pids pids' : OMap Int PIDConf} {configs configs' : OMap Int ZoneConfig} (hw : pids.WF) (hw' : pids'.WF)
    (hc : ∀ e ∈ pids.entries, OMap.WF e.2) (hc' : ∀ e ∈ pids'.entries, OMap.WF e.2) {d0 d0' : Daemon}
    (hl : Daemon.launch o bus now w sensors pids configs = .ok d0)
    (hl' : Daemon.launch o bus now w sensors pids' configs' = .ok d0') {i : Int} {conf conf' : PIDConf}
    {c c' : ZoneConfig} (hp : pids.find? i = some conf) (hp' : pids'.find? i = some conf') (hcc : configs.find? i = some c)
    (hcc' : configs'.find? i = some c') (hmore : AsMuchCooling c c' conf.entries conf'.entries)
    (hacc : c.accumulateSetPoint = false) (hacc' : c'.accumulateSetPoint = false)
    (hceil : ∀ e ∈ conf.entries, e.2.type = "stepwise" → e.2.stepwiseInfo.isCeiling = false)
    (hceil' : ∀ e ∈ conf'.entries, e.2.type = "stepwise" → e.2.stepwiseInfo.isCeiling = false)
    (hfan : ∀ f ∈ conf.entries, IsFan f → HandsOn f.2.pidInfo ∧ f.2.pidInfo.outLim.min ≤ f.2.pidInfo.outLim.max)
    (hpos : ∀ f ∈ conf.entries, IsFan f → 0 ≤ f.2.pidInfo.outLim.min)
    (hnum : ∀ e ∈ conf.entries, e.2.failSafePercent ≠ nan) (hnum' : ∀ e ∈ conf'.entries, e.2.failSafePercent ≠ nan)
    (hzn : c.failsafePercent ≠ nan) (hzn' : c'.failsafePercent ≠ nan) {es : List DEvent}
    {d1 d1' d2 d2' : Daemon} (hr : d0.run o es = .ok d1) (hr' : d0'.run o es = .ok d1')
    (hm : modeAfter i false es = false) (ht : d1.step o (.tick i) = .ok d2) (ht' : d1'.step o (.tick i) = .ok d2')
    {n path : String} {fc : SensorConfig} (hfo : FanOn bus.dirs sensors n fc path) (hb : w.busOk path = true)
    (hbs : ∀ e ∈ es, BusWorks path e) (hin : ∃ e ∈ conf.entries, IsFan e ∧ ∃ x ∈ e.2.inputs, x.name = n)
    (hone : OneLoop conf.entries n) :
    ∃ u u', valueAt path d2.w = some u ∧ valueAt path d2'.w = some u' ∧ u ≤ u' :=
  have h := hotter_same hl hl' i conf.entries (es ++ [.tick i])
  hotter_told ho hst htr htr hws hws hw hw' hc hc' hl hl' hp hp' hcc hcc' hmore hacc hacc' hceil hceil' hfan hpos hnum hnum' hzn hzn'
    hr hr' rfl (fun _ _ hf => absurd hf id) h.1 h.2 hm ht ht' hfo hfo hb hb hbs hbs hin hone

/-! ## Changes of a configuration that ask for more cooling -/

/-- **C131** Larger settings of the zone ask for more cooling. -/
theorem C131_raise {c c' : ZoneConfig} {conf : List Entry} (hnum : ∀ e ∈ conf, e.2.failSafePercent ≠ nan)
    (hmin : c.minThermalOutput ≤ c'.minThermalOutput) (hfs : c.failsafePercent ≤ c'.failsafePercent)
    (hcy : c'.cycleTime = c.cycleTime) : AsMuchCooling c c' conf conf where
  fans := rfl
  loops e he _ := ⟨e, he, rfl, rfl⟩
  lowest := .inr hmin
  percents n _ p p' h h' := by
    cases h with
    | own h1 h2 =>
      cases h' with
      | own h3 _ =>
        rw [h1.unique h3]
        exact Dbl.le_refl (percentsFor_ne_nan hnum n _ h3.1)
      | zero h3 => exact absurd (h1.unique h3) h2
      | zone h3 => have := h1.1; rw [h3] at this; cases this
    | zero h1 =>
      cases h' with
      | own h3 h4 => exact absurd (h3.unique h1) h4
      | zero _ => exact hfs
      | zone _ => exact hfs
    | zone h1 =>
      cases h' with
      | own h3 _ => have := h3.1; rw [h1] at this; cases this
      | zero _ => exact hfs
      | zone _ => exact hfs
  apart _ h _ := h
  missing e he hk i hi ha _ := ⟨e, he, hk, i, hi, rfl, ha⟩
  cycleTime := hcy

omit F in
theorem insertL_fresh {V : Type} {k : String} {v : V} : ∀ {l : List (String × V)}, OMap.lookupL k l = none →
    ∃ a b, l = a ++ b ∧ OMap.insertL k v l = a ++ (k, v) :: b
  | [], _ => ⟨[], [], rfl, rfl⟩
  | (k', v') :: l, h => by
    rw [OMap.lookupL_none_iff] at h
    have hk : k ≠ k' := fun e => h _ List.mem_cons_self e.symm
    rw [OMap.insertL, if_neg hk]
    split_ifs
    · exact ⟨[], _, rfl, rfl⟩
    · obtain ⟨a, b, h1, h2⟩ := insertL_fresh (v := v) ((OMap.lookupL_none_iff k l).2 (fun e he => h e (List.mem_cons_of_mem _ he)))
      exact ⟨(k', v') :: a, b, by rw [h1]; rfl, by rw [h2]; rfl⟩

/-- **C131** So does a further loop that computes a set point, beside larger settings of the zone. It reads no fans. It does not
accept a sensor missing that another loop reads. If it gives a failsafe percentage of its own for such a sensor then this is not
smaller than what the sensor had. -/
theorem C131_add {c c' : ZoneConfig} {conf : PIDConf} (hwf : conf.WF) {name : String} {x : ControllerInfo}
    (hnew : conf.find? name = none) (hx : IsHeat (name, x)) (hnn : ∀ e ∈ conf.entries, 0 ≤ e.2.failSafePercent)
    (hmin : c.minThermalOutput ≤ c'.minThermalOutput) (hfs : c.failsafePercent ≤ c'.failsafePercent)
    (hcy : c'.cycleTime = c.cycleTime) (hapart : ∀ i ∈ x.inputs, ¬ ReadBy IsFan conf.entries i.name)
    (hmiss : ∀ i ∈ x.inputs, i.missingIsAcceptable = true → ¬ ReadBy (fun e => IsFan e ∨ IsHeat e) conf.entries i.name)
    (hper : ∀ i ∈ x.inputs, x.failSafePercent = 0 ∨ ∀ p, PercentFor c conf.entries i.name p → p ≤ x.failSafePercent) :
    AsMuchCooling c c' conf.entries (conf.insert name x).entries := by
  have hwf' := OMap.wf_insert hwf name x
  have hmem : ∀ e : Entry, e ∈ (conf.insert name x).entries ↔ e = (name, x) ∨ e ∈ conf.entries := by
    rintro ⟨n, y⟩
    rw [OMap.mem_entries_iff hwf', OMap.mem_entries_iff hwf, OMap.find?_insert]
    by_cases hn : n = name
    · subst hn
      rw [if_pos rfl, hnew]
      constructor
      · intro h; cases h; exact .inl rfl
      · rintro (h | h)
        · cases h; rfl
        · cases h
    · rw [if_neg hn]
      constructor
      · exact .inr
      · rintro (h | h)
        · cases h; exact absurd rfl hn
        · exact h
  have hpm : ∀ s p, p ∈ percentsFor s (conf.insert name x).entries ↔
      ((∃ i ∈ x.inputs, i.name = s) ∧ x.failSafePercent = p) ∨ p ∈ percentsFor s conf.entries := by
    intro s p
    rw [mem_percentsFor, mem_percentsFor]
    constructor
    · rintro ⟨e, he, hk, hi, hp⟩
      rcases (hmem e).1 he with rfl | he
      · exact .inl ⟨hi, hp⟩
      · exact .inr ⟨e, he, hk, hi, hp⟩
    · rintro (⟨hi, hp⟩ | ⟨e, he, hk, hi, hp⟩)
      · exact ⟨(name, x), (hmem _).2 (.inl rfl), .inr hx, hi, hp⟩
      · exact ⟨e, (hmem _).2 (.inr he), hk, hi, hp⟩
  have hpn : ∀ s p, p ∈ percentsFor s conf.entries → 0 ≤ p := by
    intro s p hp
    obtain ⟨e, he, -, -, rfl⟩ := mem_percentsFor.1 hp
    exact hnn e he
  refine
    { fans := ?_
      loops := fun e he _ => ⟨e, (hmem e).2 (.inr he), rfl, rfl⟩
      lowest := .inr hmin
      percents := fun s hs p p' h h' => ?_
      apart := ?_
      missing := ?_
      cycleTime := hcy }
  · obtain ⟨a, b, h1, h2⟩ := insertL_fresh (v := x) (show OMap.lookupL name conf.entries = none from hnew)
    show ((OMap.insertL name x conf.entries).filter _).map _ = _
    rw [h2, h1, List.filter_append, List.filter_append, List.filter_cons, if_neg (by simpa using not_fan_of_heat hx)]
  · have hne : percentsFor s conf.entries ≠ [] := by
      obtain ⟨e, he, hk, hi⟩ := hs
      exact List.ne_nil_of_mem (mem_percentsFor.2 ⟨e, he, hk, hi, rfl⟩)
    cases h' with
    | own h3 h4 =>
      cases h with
      | own h1 h2 => exact h3.2 _ ((hpm s p).2 (.inr h1.1))
      | zero h1 =>
        rcases (hpm s p').1 h3.1 with ⟨⟨i, hi, rfl⟩, rfl⟩ | h5
        · rcases hper i hi with h6 | h6
          · exact absurd h6 h4
          · exact h6 _ (.zero h1)
        · exact absurd (Dbl.le_antisymm (h1.2 _ h5) (hpn s _ h5)) h4
      | zone h1 => exact absurd h1 hne
    | zero h3 =>
      cases h with
      | own h1 h2 => exact absurd (Dbl.le_antisymm (h3.2 _ ((hpm s p).2 (.inr h1.1))) (hpn s _ h1.1)) h2
      | zero _ => exact hfs
      | zone _ => exact hfs
    | zone h3 =>
      exfalso
      obtain ⟨q, hq⟩ := List.exists_mem_of_ne_nil _ hne
      have := (hpm s q).2 (.inr hq)
      rw [h3] at this
      cases this
  · rintro n ⟨e, he, hh, i, hi, rfl⟩ hf
    rcases (hmem e).1 he with rfl | he
    · exact absurd hf (hapart i hi)
    · exact ⟨e, he, hh, i, hi, rfl⟩
  · intro e' he' hk i' hi' ha hr
    rcases (hmem e').1 he' with rfl | he
    · exact absurd hr (hmiss i' hi' ha)
    · exact ⟨e', he, hk, i', hi', rfl, ha⟩

end

namespace Ex
section
attribute [local instance] binary64

/-- 40 percent from 30 degrees on, 60 percent from 70 degrees on -/
def table131 : StepwiseInfo :=
  { ts := 1,
    reading := fun i => if i.1 = 0 then 30 else if i.1 = 1 then 70 else nan,
    output := fun i => if i.1 = 0 then 40 else if i.1 = 1 then 60 else nan,
    positiveHysteresis := 1, negativeHysteresis := 3, isCeiling := false }
def steps131 : ControllerInfo := { loop99 "stepwise" "cpu" 0 0 0 with stepwiseInfo := table131 }
/-- the loops of C99 and a stepwise loop over the same processor, with hysteresis -/
def loops131 : PIDConf := loops99.insert "steps" steps131
def pids131 : OMap Int PIDConf := ({} : OMap Int PIDConf).insert 1 loops131

def run131 (pids : OMap Int PIDConf) (es : List DEvent) : Res Daemon := do
  let d ← Daemon.launch {} bus103 0 world99 sensors106 pids zones99
  d.run {} es

theorem loops99_mem {e : Entry} (h : e ∈ loops99.entries) :
    e = ("fans", loop99 "fan" "fan0" 0 1 0) ∨ e = ("temps", loop99 "temp" "cpu" (-2) 0 90) := by
  rcases OMap.mem_insertL h with h | h
  · exact .inr h
  · rcases OMap.mem_insertL h with h | h
    · exact .inl h
    · cases h

theorem loops131_wf : loops131.WF := OMap.wf_insert loops99_wf _ _
theorem pids131_wf : pids131.WF := OMap.wf_insert OMap.wf_empty _ _

theorem loops131_mem {e : Entry} (h : e ∈ loops131.entries) : e = ("steps", steps131) ∨ e ∈ loops99.entries :=
  OMap.mem_insertL h

/-- the additional loop asks for more cooling -/
theorem more131 : AsMuchCooling zone99 zone99 loops99.entries loops131.entries :=
  C131_add loops99_wf
    (by
      unfold loops99
      rw [OMap.find?_insert_ne _ (by decide), OMap.find?_insert_ne _ (by decide), OMap.find?_empty])
    (by decide)
    (by
      intro e he
      rcases loops99_mem he with rfl | rfl <;> decide +kernel)
    (by decide +kernel) (by decide +kernel) rfl
    (by
      rintro i hi ⟨e, he, hf, j, hj, hn⟩
      rw [List.mem_singleton.1 hi] at hn
      rcases loops99_mem he with rfl | rfl
      · rw [List.mem_singleton.1 hj] at hn
        exact absurd hn (by decide)
      · exact absurd hf (by decide))
    (by
      intro i hi h
      rw [List.mem_singleton.1 hi] at h
      cases h)
    (fun i _ => .inl (show steps131.failSafePercent = 0 by decide +kernel))

/-- C131: at 88 degrees 51 is written, with the additional loop 153 … -/
example : (∃ d, run131 pids99 (cool124 ++ [.tick 1]) = .ok d ∧ decide (valueAt path124 d.w = some 51) = true) ∧
    ∃ d, run131 pids131 (cool124 ++ [.tick 1]) = .ok d ∧ decide (valueAt path124 d.w = some 153) = true :=
  ⟨ok_of_any (P := fun d : Daemon => decide (valueAt path124 d.w = some 51)) (by decide +kernel),
   ok_of_any (P := fun d : Daemon => decide (valueAt path124 d.w = some 153)) (by decide +kernel)⟩

/-- … and all hypotheses hold for these runs -/
example : ∃ d d' u u', run131 pids99 (cool124 ++ [.tick 1]) = .ok d ∧ run131 pids131 (cool124 ++ [.tick 1]) = .ok d' ∧
    valueAt path124 d.w = some u ∧ valueAt path124 d'.w = some u' ∧ u ≤ u' := by
  obtain ⟨d2, h, _⟩ := ok_of_any (x := run131 pids99 (cool124 ++ [.tick 1])) (P := fun _ : Daemon => true) (by decide +kernel)
  obtain ⟨d2', h', _⟩ := ok_of_any (x := run131 pids131 (cool124 ++ [.tick 1])) (P := fun _ : Daemon => true) (by decide +kernel)
  refine ⟨d2, d2', ?_⟩
  have hh := h
  have hh' := h'
  unfold run131 at h h'
  obtain ⟨d0, hl, h⟩ := bind_eq_ok.1 h
  obtain ⟨d0', hl', h'⟩ := bind_eq_ok.1 h'
  obtain ⟨d1, hr, h⟩ := run_append.1 h
  obtain ⟨x, ht, h⟩ := bind_eq_ok.1 h
  cases h
  obtain ⟨d1', hr', h'⟩ := run_append.1 h'
  obtain ⟨x', ht', h'⟩ := bind_eq_ok.1 h'
  cases h'
  have hwf : ∀ {m : PIDConf}, m.WF → ∀ e ∈ (({} : OMap Int PIDConf).insert 1 m).entries, OMap.WF e.2 := by
    intro m hm e he
    rcases OMap.mem_insertL he with rfl | he
    · exact hm
    · cases he
  obtain ⟨u, u', g⟩ := C131_told (o := {}) rfl rfl (i := 1) (conf := loops99) (conf' := loops131) (c := zone99) (c' := zone99)
    (es := cool124) (n := "fan0") (fc := fan106) (path := path124) (show world99.trace = [] from rfl) sensors106_wf pids99_wf
    pids131_wf (hwf loops99_wf) (hwf loops131_wf) hl hl' (by unfold pids99; rw [OMap.find?_insert_self])
    (by unfold pids131; rw [OMap.find?_insert_self]) (by unfold zones99; rw [OMap.find?_insert_self])
    (by unfold zones99; rw [OMap.find?_insert_self]) more131 rfl rfl
    (by
      intro e he h
      rcases loops99_mem he with rfl | rfl <;> exact absurd h (by decide))
    (by
      intro e he h
      rcases loops131_mem he with rfl | he
      · rfl
      · rcases loops99_mem he with rfl | rfl <;> exact absurd h (by decide))
    (by
      intro f hf hff
      rcases loops99_mem hf with rfl | rfl
      · exact ⟨⟨rfl, by decide +kernel, by decide +kernel, by decide +kernel⟩, by decide +kernel⟩
      · exact absurd hff (by decide))
    (by
      intro f hf hff
      rcases loops99_mem hf with rfl | rfl
      · decide +kernel
      · exact absurd hff (by decide))
    (by
      intro e he
      rcases loops99_mem he with rfl | rfl <;> decide +kernel)
    (by
      intro e he
      rcases loops131_mem he with rfl | he
      · decide +kernel
      · rcases loops99_mem he with rfl | rfl <;> decide +kernel)
    (by decide +kernel) (by decide +kernel) hr hr' rfl ht ht' fanOn106 rfl
    (by
      intro e he
      simp only [cool124, List.mem_cons, List.not_mem_nil, or_false] at he
      rcases he with rfl | rfl | rfl | rfl | rfl | rfl | rfl | rfl <;> trivial)
    ⟨("fans", loop99 "fan" "fan0" 0 1 0), (OMap.mem_entries_iff loops99_wf _ _).2 (by
      unfold loops99
      rw [OMap.find?_insert_ne _ (by decide), OMap.find?_insert_self]), by decide, { name := "fan0" }, List.mem_cons_self, rfl⟩
    (by unfold OneLoop; decide +kernel)
  exact ⟨u, u', hh, hh', g⟩

/-- a loop without a failsafe percentage of its own, and one of 30 percent -/
def plain131 : PIDConf :=
  (({} : PIDConf).insert "fans" (loop99 "fan" "fan0" 0 1 0)).insert "temps" (loop99 "temp" "cpu" (-2) 0 0)
def lower131 : PIDConf := plain131.insert "other" (loop99 "temp" "cpu" (-2) 0 30)

/-- **C131** The condition on failsafe percentages is needed. The zone fails safe at 75 percent, and its only loop gives no
percentage: when the processor raises an alarm 191 is written to the fan. With a second loop of the same kind over the same
processor that gives 30 percent, it is 76. -/
theorem C131_lower : (∃ d, run131 (({} : OMap Int PIDConf).insert 1 plain131) (alarm124 ++ [.tick 1]) = .ok d ∧
      decide (valueAt path124 d.w = some 191) = true) ∧
    ∃ d, run131 (({} : OMap Int PIDConf).insert 1 lower131) (alarm124 ++ [.tick 1]) = .ok d ∧
      decide (valueAt path124 d.w = some 76) = true :=
  ⟨ok_of_any (P := fun d : Daemon => decide (valueAt path124 d.w = some 191)) (by decide +kernel),
   ok_of_any (P := fun d : Daemon => decide (valueAt path124 d.w = some 76)) (by decide +kernel)⟩

end
end Ex
end Verif
