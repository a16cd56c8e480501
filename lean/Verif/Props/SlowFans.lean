import Verif.Lemmas.SlowFans
import Verif.Props.Quiet
import Verif.Props.Integral

/-! # C119: fans that are too slow -/

namespace Verif
open Dbl

section
variable [F : FloatModel]

/-! ## Lemmas -/

theorem SetPoints.right {o : Opts} {i : Int} {P : Dbl → Prop} {d d1 : Daemon} {es es' : List DEvent}
    (h : SetPoints o i P d (es ++ es')) (hr : d.run o es = .ok d1) : SetPoints o i P d1 es' :=
  fun es1 es2 d2 d3 he h2 => h (es ++ es1) es2 d2 d3 (by rw [he, List.append_assoc]) (run_append.2 ⟨d1, hr, h2⟩)

theorem SetPoints.left {o : Opts} {i : Int} {P : Dbl → Prop} {d : Daemon} {es es' : List DEvent}
    (h : SetPoints o i P d (es ++ es')) : SetPoints o i P d es :=
  fun es1 es2 d2 d3 he h2 => h es1 (es2 ++ es') d2 d3 (by rw [he]; simp) h2

theorem Speeds.right {o : Opts} {i : Int} {f : ControllerInfo} {P : Dbl → Prop} {d d1 : Daemon} {es es' : List DEvent}
    (h : Speeds o i f P d (es ++ es')) (hr : d.run o es = .ok d1) : Speeds o i f P d1 es' :=
  fun es1 es2 d2 he h2 => h (es ++ es1) es2 d2 (by rw [he, List.append_assoc]) (run_append.2 ⟨d1, hr, h2⟩)

theorem Speeds.left {o : Opts} {i : Int} {f : ControllerInfo} {P : Dbl → Prop} {d : Daemon} {es es' : List DEvent}
    (h : Speeds o i f P d (es ++ es')) : Speeds o i f P d es :=
  fun es1 es2 d2 he h2 => h es1 (es2 ++ es') d2 (by rw [he]; simp) h2

theorem fanPercent_ge {o : Opts} (ho : o.tuningEnabled = false) (hs : o.strictFailsafePwm = false) (z : ZoneData) {y v : Dbl}
    (h : y ≤ v) : y / 100 ≤ fanPercent o z v / 100 := by
  have hper : y ≤ fanPercent o z v := by
    unfold fanPercent
    rw [ho, hs]
    simp only [Bool.false_eq_true, if_false]
    split_ifs with g1 g2
    · exact Dbl.le_trans h (Dbl.le_of_lt g2)
    · exact h
    · exact h
  exact div_le_div_of_pos pos100 hper (div100_ne_nan (Dbl.ne_nan_of_le_left hper)) (div100_ne_nan (Dbl.ne_nan_of_le_right hper))

/-- the fan loops with property `slow` -/
theorem slow_loops {o : Opts} (ho : o.tuningEnabled = false) (hst : o.strictFailsafePwm = false) {bus : BuildBus}
    {now : Int} {w : World} {sensors : OMap String SensorConfig} {pids : OMap Int PIDConf} {configs : OMap Int ZoneConfig}
    (hw : pids.WF) (hc : ∀ e ∈ pids.entries, OMap.WF e.2) {d0 : Daemon}
    (hl : Daemon.launch o bus now w sensors pids configs = .ok d0) {i : Int} {conf : PIDConf}
    (hp : pids.find? i = some conf) {slow : Entry → Prop} {x : Entry → Dbl} {y : Dbl} {N : Nat}
    (hf : ∀ f ∈ conf.entries, IsFan f → slow f → Driving f.2.pidInfo ∧ WindsUp f.2.pidInfo y (x f) N ∧ Moderate (x f))
    (hy : Moderate y) {pre post : List DEvent} {d1 d2 d3 : Daemon}
    (hr1 : d0.run o pre = .ok d1) (hr2 : d1.run o post = .ok d2)
    (hsm : SetPoints o i Moderate d0 (pre ++ (post ++ [.tick i]))) (hsy : SetPoints o i (y ≤ ·) d1 (post ++ [.tick i]))
    (hvm : ∀ f ∈ conf.entries, IsFan f → slow f → Speeds o i f.2 Moderate d0 (pre ++ (post ++ [.tick i])))
    (hvx : ∀ f ∈ conf.entries, IsFan f → slow f → Speeds o i f.2 (· ≤ x f) d1 (post ++ [.tick i]))
    (hn : N ≤ autoTicks i (modeAfter i false pre) post)
    (hm : modeAfter i false (pre ++ post) = false) (ht : d2.step o (.tick i) = .ok d3) :
    ∃ (l : List (FanPid × Dbl)) (b : Bool),
      List.Forall₂ (fun e q => q.1.inputs = e.2.inputs.map SensorInput.name ∧
        (slow e → woundUpAt e.2.pidInfo y (x e) / 100 ≤ q.2)) (conf.entries.filter IsFan) l ∧ Drives b d2.w l d3.w := by
  obtain ⟨m, zones, hL⟩ := launch_spec hl
  obtain ⟨zb, c, hzb, _, hN⟩ := (C64_zones hw hc hL.built i).1 conf hp
  obtain ⟨z0, hz0, hf0⟩ := hL.started i zb hzb
  obtain ⟨hm0, _⟩ := start_flags hz0
  rw [hN.manualMode] at hm0
  have hfs : ∀ e ∈ conf.entries.filter IsFan, e ∈ conf.entries ∧ IsFan e := fun e he => by
    obtain ⟨a, b⟩ := List.mem_filter.1 he
    exact ⟨a, by simpa using b⟩
  have hfi : ∀ e ∈ conf.entries.filter IsFan, ∀ j ∈ e.2.inputs, j.name ∈ zb.d.fanInputs := fun e he j hj => by
    rw [hN.fanInputs]
    exact List.mem_flatMap.2 ⟨e, he, List.mem_map.2 ⟨j, hj, rfl⟩⟩
  let Steps : Entry → Int → Int → Prop := fun e low step =>
    -(2 ^ 53) ≤ low ∧ 0 ≤ step ∧ step ≤ 2 ^ 53 ∧ low + N * step ≤ 2 ^ 53 ∧ millionths low ≤ e.2.pidInfo.integralLimit.min ∧
      millionths step ≤ (y - x e) * e.2.pidInfo.integralCoeff * e.2.pidInfo.ts ∧
      e.2.pidInfo.integralLimit.max ≤ millionths (low + N * step)
  let I : Nat → Entry → PidCtl → Prop := fun n e ctl =>
    ∀ low step, Steps e low step → Winding e.2.pidInfo N low step n ctl
  have hz0' : FanLoops (conf.entries.filter IsFan) zb.d.fanInputs slow (I 0) z0 := by
    have eq := (initializeCache_spec zb.d).eq
    have e3 : zb.d.initializeCache.fanInputs = zb.d.fanInputs := by rw [eq]
    have hz0 : Zone.processThermals o _ { zb with d := zb.d.initializeCache } = .ok z0 := hz0
    obtain ⟨d2, h6, h7⟩ := processThermals_rest hz0
    have e1 : z0.d.fanInputs = d2.fanInputs := by rw [h7]
    have e2 : d2.fanInputs = zb.d.initializeCache.fanInputs := by rw [(pollAll_spec h6).frame.eq]
    refine ⟨e1.trans (e2.trans e3), ?_⟩
    rw [(thermalTick_flags hz0).2.2, show ({ zb with d := zb.d.initializeCache } : Zone).fans = zb.fans from rfl, hN.fans]
    generalize conf.entries.filter IsFan = fs
    induction fs with
    | nil => exact .nil
    | cons e fs ih =>
      refine .cons ?_ ih
      intro c hc
      unfold fanOf at hc
      split_ifs at hc
      cases hc
      exact ⟨rfl, rfl, fun _ low step _ => .start ..⟩
  obtain ⟨z1, cnt1, hz1, hp1, hm1⟩ := fanLoops_run (I := fun _ => I 0) (n := 0) (B := fun _ s v => Moderate s ∧ Moderate v) hfi
    (by
      rintro n e he hs ctl s v hcf hI ⟨b1, b2⟩ low step hst
      have := hI low step hst
      rw [← hcf] at this ⊢
      exact this.any (by rw [hcf]; exact (hf e (hfs e he).1 (hfs e he).2 hs).1.integrating) b1 b2)
    hr1 hf0 hz0'
    (fun es1 es2 da db he h1 ha h2 s hs e hef hse v hv =>
      ⟨hsm.left es1 es2 da db he h1 ha h2 s hs, (hvm e (hfs e hef).1 (hfs e hef).2 hse).left es1 es2 da he h1 ha v hv⟩)
  rw [hm0] at hm1
  have step : ∀ n, ∀ e ∈ conf.entries.filter IsFan, slow e → ∀ ctl s v, ctl.info.toPidConf = e.2.pidInfo → I n e ctl →
      ((Moderate s ∧ Moderate v) ∧ y ≤ s ∧ v ≤ x e) → I (n + 1) e (pidStep ctl s v).2 ∧
        (N ≤ n → woundUpAt e.2.pidInfo y (x e) ≤ (pidStep ctl s v).1) := by
    rintro n e he hs ctl s v hcf hI ⟨⟨b1, b2⟩, b3, b4⟩
    obtain ⟨hd, ⟨low0, step0, hst0⟩, hx⟩ := hf e (hfs e he).1 (hfs e he).2 hs
    have key : ∀ low step, Steps e low step → Winding e.2.pidInfo N low step (n + 1) (pidStep ctl s v).2 ∧
        (N ≤ n → woundUpAt e.2.pidInfo s v ≤ (pidStep ctl s v).1) := by
      intro low step hst
      obtain ⟨w1, w2, w3, w4, w5, w6, w7⟩ := hst
      have := hI low step ⟨w1, w2, w3, w4, w5, w6, w7⟩
      rw [← hcf] at this w5 w7 hd ⊢
      refine this.next hd.integrating w1 w2 w3 w4 w5 w7 b1 b2 ?_
      rw [← hcf] at w6
      exact Dbl.le_trans w6 (increment_gap hd hy b1 hx b2 b3 b4)
    exact ⟨fun low step hst => (key low step hst).1, fun hN =>
      Dbl.le_trans (woundUp_gap hd hy b1 hx b2 b3 b4) ((key low0 step0 hst0).2 hN)⟩
  have hB : ∀ es1 es2 da db, post ++ [.tick i] = es1 ++ .tick i :: es2 → d1.run o es1 = .ok da →
      InAutomatic da i → da.step o (.tick i) = .ok db →
      ∀ s, SetPointOf db i s → ∀ e ∈ conf.entries.filter IsFan, slow e → ∀ v, FanSees da.w e.2 v →
        (Moderate s ∧ Moderate v) ∧ y ≤ s ∧ v ≤ x e :=
    fun es1 es2 da db he h1 ha h2 s hs e hef hse v hv =>
      ⟨⟨hsm.right hr1 es1 es2 da db he h1 ha h2 s hs, (hvm e (hfs e hef).1 (hfs e hef).2 hse).right hr1 es1 es2 da he h1 ha v hv⟩,
        hsy es1 es2 da db he h1 ha h2 s hs, hvx e (hfs e hef).1 (hfs e hef).2 hse es1 es2 da he h1 ha v hv⟩
  obtain ⟨z2, cnt2, hz2, hp2, hm2⟩ := fanLoops_run (I := I) (n := 0)
    (B := fun e s v => (Moderate s ∧ Moderate v) ∧ y ≤ s ∧ v ≤ x e) hfi
    (fun n e he hs ctl s v hcf hI hb => (step n e he hs ctl s v hcf hI hb).1) hr2 hz1 hp1
    (fun es1 es2 da db he => hB es1 (es2 ++ [.tick i]) da db (by rw [he]; simp))
  have hmode : z2.d.manualMode = false := by rw [hm2, hm1, ← modeAfter_append]; exact hm
  have ht' := ht
  simp only [Daemon.step, hz2] at ht
  obtain ⟨⟨w', z3, cnt3⟩, htk, ht⟩ := bind_eq_ok.1 ht
  cases ht
  rw [Nat.zero_add, hm1] at hp2
  obtain ⟨_, l, b, zd, q1, q2⟩ := hp2.tick (I' := I (autoTicks i (modeAfter i false pre) post + 1))
    (J := fun e out => woundUpAt e.2.pidInfo y (x e) ≤ out)
    (B := fun e s v => (Moderate s ∧ Moderate v) ∧ y ≤ s ∧ v ≤ x e) hfi
    (fun e he hs ctl s v hcf hI hb => ⟨(step _ e he hs ctl s v hcf hI hb).1, (step _ e he hs ctl s v hcf hI hb).2 hn⟩) hmode htk
    (fun e he hs v hv => hB post [] d2 _ rfl hr2 ⟨z2, cnt2, hz2, hmode⟩ ht' _ ⟨z3, cnt3, by rw [OMap.find?_insert_self], rfl⟩ e he hs v hv)
  refine ⟨l, b, q1.imp ?_, q2⟩
  rintro e q ⟨a1, a2⟩
  refine ⟨a1, fun hs => ?_⟩
  obtain ⟨out, b1, b2⟩ := a2 hs
  rw [b2]
  exact fanPercent_ge ho hst zd b1

/-- **C119** Fans that stay too slow get more power. Let a fan loop have an integral part, let the set point of its zone be `y`
or more at every cycle from some point on, and let the slowest fan of the loop that turns be no faster than `x`. Let `N` steps
at `y` and `x` be enough to bring the integral from its lower to its upper limit. Then, after `N` automatic cycles and whatever
else happens to the daemon, every automatic cycle commands the fans of the loop at least what the loop asks for at `y` and `x`
with its integral at the upper limit. Set points, speeds and the settings of the loop are of moderate size. -/
theorem C119_slow_fans {o : Opts} (ho : o.tuningEnabled = false) (hst : o.strictFailsafePwm = false) {bus : BuildBus}
    {now : Int} {w : World} {sensors : OMap String SensorConfig} {pids : OMap Int PIDConf} {configs : OMap Int ZoneConfig}
    (hw : pids.WF) (hc : ∀ e ∈ pids.entries, OMap.WF e.2) {d0 : Daemon}
    (hl : Daemon.launch o bus now w sensors pids configs = .ok d0) {i : Int} {conf : PIDConf}
    (hp : pids.find? i = some conf) {f : Entry} (hdr : Driving f.2.pidInfo) {x y : Dbl} (hx : Moderate x) (hy : Moderate y)
    {N : Nat} (hwind : WindsUp f.2.pidInfo y x N) {pre post : List DEvent} {d1 d2 d3 : Daemon}
    (hr1 : d0.run o pre = .ok d1) (hr2 : d1.run o post = .ok d2)
    (hsm : SetPoints o i Moderate d0 (pre ++ (post ++ [.tick i]))) (hsy : SetPoints o i (y ≤ ·) d1 (post ++ [.tick i]))
    (hvm : Speeds o i f.2 Moderate d0 (pre ++ (post ++ [.tick i]))) (hvx : Speeds o i f.2 (· ≤ x) d1 (post ++ [.tick i]))
    (hn : N ≤ autoTicks i (modeAfter i false pre) post)
    (hm : modeAfter i false (pre ++ post) = false) (ht : d2.step o (.tick i) = .ok d3) :
    LoopAtLeast conf.entries f (woundUpAt f.2.pidInfo y x / 100) d2.w d3.w := by
  obtain ⟨l, b, h1, h2⟩ := slow_loops ho hst hw hc hl hp (slow := (· = f)) (x := fun _ => x)
    (fun e _ _ hs => by rw [hs]; exact ⟨hdr, hwind, hx⟩) hy hr1 hr2 hsm hsy (fun e _ _ hs => by rw [hs]; exact hvm)
    (fun e _ _ hs => by rw [hs]; exact hvx) hn hm ht
  exact ⟨l, b, h1.imp (fun e q h => ⟨h.1, fun he => by have := h.2 he; rw [he] at this; exact this⟩), h2⟩

/-- **C119** The same for all fan loops of a zone: then all fans are commanded at least `v` percent, if this is what every fan
loop asks for at `y` and its `x`. -/
theorem C119_all_fans {o : Opts} (ho : o.tuningEnabled = false) (hst : o.strictFailsafePwm = false) {bus : BuildBus}
    {now : Int} {w : World} {sensors : OMap String SensorConfig} {pids : OMap Int PIDConf} {configs : OMap Int ZoneConfig}
    (hw : pids.WF) (hc : ∀ e ∈ pids.entries, OMap.WF e.2) {d0 : Daemon}
    (hl : Daemon.launch o bus now w sensors pids configs = .ok d0) {i : Int} {conf : PIDConf}
    (hp : pids.find? i = some conf) {x : Entry → Dbl} {y v : Dbl} {N : Nat}
    (hf : ∀ f ∈ conf.entries, IsFan f → Driving f.2.pidInfo ∧ WindsUp f.2.pidInfo y (x f) N ∧ Moderate (x f) ∧
      v ≤ woundUpAt f.2.pidInfo y (x f))
    (hy : Moderate y) {pre post : List DEvent} {d1 d2 d3 : Daemon} (hr1 : d0.run o pre = .ok d1) (hr2 : d1.run o post = .ok d2)
    (hsm : SetPoints o i Moderate d0 (pre ++ (post ++ [.tick i]))) (hsy : SetPoints o i (y ≤ ·) d1 (post ++ [.tick i]))
    (hvm : ∀ f ∈ conf.entries, IsFan f → Speeds o i f.2 Moderate d0 (pre ++ (post ++ [.tick i])))
    (hvx : ∀ f ∈ conf.entries, IsFan f → Speeds o i f.2 (· ≤ x f) d1 (post ++ [.tick i]))
    (hn : N ≤ autoTicks i (modeAfter i false pre) post)
    (hm : modeAfter i false (pre ++ post) = false) (ht : d2.step o (.tick i) = .ok d3) :
    FansAtLeast conf.entries (v / 100) d2.w d3.w := by
  obtain ⟨l, b, h1, h2⟩ := slow_loops ho hst hw hc hl hp (slow := fun _ => True) (x := x)
    (fun e he h _ => ⟨(hf e he h).1, (hf e he h).2.1, (hf e he h).2.2.1⟩) hy hr1 hr2 hsm hsy (fun e he h _ => hvm e he h)
    (fun e he h _ => hvx e he h) hn hm ht
  refine ⟨l, b, ?_, h2, ?_⟩
  · clear h2
    generalize conf.entries.filter IsFan = fs at h1
    induction h1 with
    | nil => rfl
    | cons h _ ih => rw [List.map_cons, List.map_cons, h.1, ih]
  · intro q hq _
    obtain ⟨e, he, hqe⟩ := forall₂_right h1 hq
    obtain ⟨a, b⟩ := List.mem_filter.1 he
    have hv := (hf e a (by simpa using b)).2.2.2
    have := hqe.2 trivial
    exact Dbl.le_trans (div_le_div_of_pos pos100 hv (div100_ne_nan (Dbl.ne_nan_of_le_left hv))
      (div100_ne_nan (Dbl.ne_nan_of_le_right hv))) this

/-- **C119** Set points stay of moderate size: in a zone that adds up no set points and has no ceilings, let every loop ask for
no more than `y`, whatever it reads, because of its table or its limits, and let the minimum of the zone not exceed `y`. Then
the set point is between 0 and `y` at all times. -/
theorem C119_set_points {o : Opts} (ho : o.tuningEnabled = false) {bus : BuildBus} {now : Int} {w : World}
    {sensors : OMap String SensorConfig} {pids : OMap Int PIDConf} {configs : OMap Int ZoneConfig} (hw : pids.WF)
    (hc : ∀ e ∈ pids.entries, OMap.WF e.2) {d0 : Daemon} (hl : Daemon.launch o bus now w sensors pids configs = .ok d0)
    {i : Int} {conf : PIDConf} {c : ZoneConfig} (hp : pids.find? i = some conf) (hcc : configs.find? i = some c)
    (hacc : c.accumulateSetPoint = false)
    (hceil : ∀ e ∈ conf.entries, e.2.type = "stepwise" → e.2.stepwiseInfo.isCeiling = false) {y : Dbl} (h0 : 0 ≤ y)
    (hmin : c.minThermalOutput ≤ y) (hcap : ∀ e ∈ conf.entries, IsHeat e → Capped e y) {es : List DEvent} {d : Daemon}
    (hr : d0.run o es = .ok d) {s : Dbl} (hs : SetPointOf d i s) : 0 ≤ s ∧ s ≤ y := by
  obtain ⟨m, zones, hL⟩ := launch_spec hl
  obtain ⟨zb, c', hzb, hc', hN⟩ := (C64_zones hw hc hL.built i).1 conf hp
  rw [hcc] at hc'
  cases hc'
  obtain ⟨z0, hz0, hf0⟩ := hL.started i zb hzb
  have eq := (initializeCache_spec zb.d).eq
  have e1 : zb.d.initializeCache.accumulateSetPoint = zb.d.accumulateSetPoint := by rw [eq]
  have e2 : zb.d.initializeCache.cycleTime = zb.d.cycleTime := by rw [eq]
  have e3 : zb.d.initializeCache.thermalInputs = zb.d.thermalInputs := by rw [eq]
  have e4 : zb.d.initializeCache.minThermalOutputSetPt = zb.d.minThermalOutputSetPt := by rw [eq]
  have hloops : List.Forall₂ (CappedLoop y) (conf.entries.filter IsHeat) zb.thermals := by
    have key : ∀ {es : List Entry} {cs : List ThermalCtl}, (∀ e ∈ es, e ∈ conf.entries.filter IsHeat) →
        List.Forall₂ HeatLoop es cs → List.Forall₂ (CappedLoop y) es cs := by
      intro es cs hes h
      induction h with
      | nil => exact .nil
      | cons hx _ ih =>
        obtain ⟨a, b⟩ := List.mem_filter.1 (hes _ List.mem_cons_self)
        exact .cons (.start h0 (hcap _ a (by simpa using b)) (hceil _ a) hx) (ih (fun e he => hes e (List.mem_cons_of_mem _ he)))
    exact key (fun _ h => h) hN.thermals
  obtain ⟨a, b⟩ := capped_thermals (z := { zb with d := zb.d.initializeCache }) (min := c.minThermalOutput) ho h0 hmin
    ⟨e1.trans (hN.accumulateSetPoint.trans hacc), e2.trans hN.cycleTime, e3, e4.trans hN.minThermalOutput, hloops, rfl⟩ hz0
  obtain ⟨z, cnt, hz, _, q⟩ := capped_run ho h0 hmin hr hf0 a b
  obtain ⟨z', cnt', hz', rfl⟩ := hs
  rw [hz] at hz'
  cases hz'
  exact q

omit F in
theorem autoTicks_split [FloatModel] {i : Int} : ∀ {es : List DEvent} {m : Bool} {a b : Nat}, a + b ≤ autoTicks i m es →
    ∃ es1 es2, es = es1 ++ es2 ∧ a ≤ autoTicks i m es1 ∧ b ≤ autoTicks i (modeAfter i m es1) es2
  | es, m, 0, b, h => ⟨[], es, rfl, Nat.le_refl _, by simpa [modeAfter] using h⟩
  | [], m, a + 1, b, h => by simp [autoTicks] at h
  | e :: es, m, a + 1, b, h => by
    cases e with
    | tick j =>
      by_cases hj : j = i ∧ m = false
      · simp only [autoTicks, if_pos hj] at h
        obtain ⟨es1, es2, h1, h2, h3⟩ := autoTicks_split (i := i) (m := m) (a := a) (b := b) (es := es) (by omega)
        exact ⟨.tick j :: es1, es2, by rw [h1]; rfl, by simp only [autoTicks, if_pos hj]; omega, h3⟩
      · simp only [autoTicks, if_neg hj] at h
        obtain ⟨es1, es2, h1, h2, h3⟩ := autoTicks_split (i := i) (m := m) (a := a + 1) (b := b) (es := es) (by omega)
        exact ⟨.tick j :: es1, es2, by rw [h1]; rfl, by simp only [autoTicks, if_neg hj]; omega, h3⟩
    | manual j c =>
      obtain ⟨es1, es2, h1, h2, h3⟩ := autoTicks_split (i := i) (m := if j = i then c else m) (a := a + 1) (b := b) (es := es) h
      exact ⟨.manual j c :: es1, es2, by rw [h1]; rfl, h2, h3⟩
    | outside nf nt fs bo ho ti =>
      obtain ⟨es1, es2, h1, h2, h3⟩ := autoTicks_split (i := i) (m := m) (a := a + 1) (b := b) (es := es) h
      exact ⟨.outside nf nt fs bo ho ti :: es1, es2, by rw [h1]; rfl, h2, h3⟩
    | signal n t msg =>
      obtain ⟨es1, es2, h1, h2, h3⟩ := autoTicks_split (i := i) (m := m) (a := a + 1) (b := b) (es := es) h
      exact ⟨.signal n t msg :: es1, es2, by rw [h1]; rfl, h2, h3⟩
    | hostWrite n t v =>
      obtain ⟨es1, es2, h1, h2, h3⟩ := autoTicks_split (i := i) (m := m) (a := a + 1) (b := b) (es := es) h
      exact ⟨.hostWrite n t v :: es1, es2, by rw [h1]; rfl, h2, h3⟩
    | enable j n c =>
      obtain ⟨es1, es2, h1, h2, h3⟩ := autoTicks_split (i := i) (m := m) (a := a + 1) (b := b) (es := es) h
      exact ⟨.enable j n c :: es1, es2, by rw [h1]; rfl, h2, h3⟩

omit F in
theorem autoTicks_le [FloatModel] {i : Int} : ∀ {es1 es2 : List DEvent} {m : Bool}, autoTicks i m es1 ≤ autoTicks i m (es1 ++ es2)
  | [], _, _ => Nat.zero_le _
  | e :: es1, es2, m => by
    rw [List.cons_append]
    cases e with
    | tick j => simp only [autoTicks]; exact Nat.add_le_add_left autoTicks_le _
    | manual j c => simp only [autoTicks]; exact autoTicks_le
    | outside nf nt fs bo ho ti => simp only [autoTicks]; exact autoTicks_le
    | signal n t msg => simp only [autoTicks]; exact autoTicks_le
    | hostWrite n t v => simp only [autoTicks]; exact autoTicks_le
    | enable j n c => simp only [autoTicks]; exact autoTicks_le

/-- **C119** From a hot sensor to fast fans, with fan loops that control the speed: let some sensor of a stepwise loop that is
switched on have passed the reading of a point of its table at every cycle, from some point on, and let the fans of every fan
loop be no faster than `x`. The table rises; the zone adds up no set points and has no ceilings; every fan loop has an integral
part that `N` steps bring to its upper limit. Then, after ceil(T/F) + N automatic cycles of the zone and whatever else happens
to the daemon, every automatic cycle commands all fan loops at least what they ask for at the set point of the table and the
speed `x` with their integral at the upper limit. -/
theorem C119_hot_sensor {o : Opts} (ho : o.tuningEnabled = false) (hst : o.strictFailsafePwm = false) {bus : BuildBus}
    {now : Int} {w : World} {sensors : OMap String SensorConfig} {pids : OMap Int PIDConf} {configs : OMap Int ZoneConfig}
    (hw : pids.WF) (hc : ∀ e ∈ pids.entries, OMap.WF e.2) {d0 : Daemon}
    (hl : Daemon.launch o bus now w sensors pids configs = .ok d0) {i : Int} {conf : PIDConf} {c : ZoneConfig}
    (hp : pids.find? i = some conf) (hcc : configs.find? i = some c) (hacc : c.accumulateSetPoint = false) {e : Entry}
    (he : e ∈ conf.entries) (hes : e.2.type = "stepwise")
    (hceil : ∀ e ∈ conf.entries, e.2.type = "stepwise" → e.2.stepwiseInfo.isCeiling = false)
    {n k : Nat} (htab : RisingTable e.2.stepwiseInfo n) (hk : k < 20) (hkn : k < n)
    (hy : Moderate (e.2.stepwiseInfo.output ⟨k, hk⟩)) (hmin : c.minThermalOutput ≤ 1048576)
    (hcap : ∀ e ∈ conf.entries, IsHeat e → Capped e 1048576) {x : Entry → Dbl} {v : Dbl} {N : Nat}
    (hf : ∀ f ∈ conf.entries, IsFan f → Driving f.2.pidInfo ∧
      WindsUp f.2.pidInfo (e.2.stepwiseInfo.output ⟨k, hk⟩) (x f) N ∧ Moderate (x f) ∧
      v ≤ woundUpAt f.2.pidInfo (e.2.stepwiseInfo.output ⟨k, hk⟩) (x f))
    (hF : 1 ≤ c.cycleTime.cycleIntervalTimeMS) {pre post : List DEvent} {d1 d2 d3 : Daemon}
    (hr1 : d0.run o pre = .ok d1) (hr2 : d1.run o post = .ok d2)
    (hhot : ReadsThroughout o i (e.2.inputs.map SensorInput.name)
      (Passed e.2.stepwiseInfo.positiveHysteresis (e.2.stepwiseInfo.reading ⟨k, hk⟩)) d1 (post ++ [.tick i]))
    (hon : ∀ es1 es2, post = es1 ++ es2 → switchAfter i e.1 true (pre ++ es1) = true)
    (hvm : ∀ f ∈ conf.entries, IsFan f → Speeds o i f.2 Moderate d0 (pre ++ (post ++ [.tick i])))
    (hvx : ∀ f ∈ conf.entries, IsFan f → Speeds o i f.2 (· ≤ x f) d1 (post ++ [.tick i]))
    (hn : (c.cycleTime.updateThermalsTimeMS + c.cycleTime.cycleIntervalTimeMS - 1) / c.cycleTime.cycleIntervalTimeMS + N ≤
      autoTicks i (modeAfter i false pre) post)
    (hm : modeAfter i false (pre ++ post) = false) (ht : d2.step o (.tick i) = .ok d3) :
    FansAtLeast conf.entries (v / 100) d2.w d3.w := by
  obtain ⟨warm, post, rfl, hn1, hn2⟩ := autoTicks_split hn
  obtain ⟨da, hra, hrb⟩ := run_append.1 hr2
  have h1M : (0 : Dbl) ≤ 1048576 := by
    rw [nat_eq (n := 1048576) (by norm_num), zero_eq, fin_le_fin]
    norm_num
  have hM : ∀ s : Dbl, 0 ≤ s ∧ s ≤ 1048576 → Moderate s := fun s hs =>
    ⟨Dbl.le_trans (by rw [nat_eq (n := 1048576) (by norm_num), zero_eq, neg_def, Dbl.neg, fin_le_fin]; norm_num) hs.1, hs.2⟩
  have hall : ∀ {es : List DEvent} {d : Daemon}, d0.run o es = .ok d → ∀ {s}, SetPointOf d i s → Moderate s :=
    fun hr _ hs => hM _ (C119_set_points ho hw hc hl hp hcc hacc hceil h1M hmin hcap hr hs)
  refine C119_all_fans ho hst hw hc hl hp hf hy (run_append.2 ⟨d1, hr1, hra⟩) hrb ?_ ?_ ?_ ?_
    (by rw [modeAfter_append]; exact hn2) (by rw [List.append_assoc]; exact hm) ht
  · intro es1 es2 db dc _ hr _ hstp s hs
    exact hall (run_append.2 ⟨db, hr, (by unfold Daemon.run; rw [hstp, ok_bind]; rfl : db.run o [.tick i] = .ok dc)⟩) hs
  · intro es1 es2 db dc hsp hr ⟨z, cnt, hz, hzm⟩ hstp s ⟨z', cnt', hz', hs⟩
    have hpre : ∃ es3, post = es1 ++ es3 := by
      rcases List.append_eq_append_iff.1 hsp with ⟨as, h1, h2⟩ | ⟨bs, h1, h2⟩
      · cases as with
        | nil => exact ⟨[], by rw [h1]; simp⟩
        | cons a as => cases as <;> simp at h2
      · exact ⟨bs, h1⟩
    obtain ⟨es3, h3⟩ := hpre
    have hmode : modeAfter i false (pre ++ (warm ++ es1)) = false := by
      obtain ⟨m, zones, hL⟩ := launch_spec hl
      obtain ⟨zb, c', hzb, hc', hN⟩ := (C64_zones hw hc hL.built i).1 conf hp
      obtain ⟨z0, hz0, hf0⟩ := hL.started i zb hzb
      have hh0 := C80_hist hw hL.built hzb hz0
      obtain ⟨hm0, _⟩ := start_flags hz0
      rw [hN.manualMode] at hm0
      obtain ⟨z1, cnt1, log1, hz1, _, hm1, _⟩ := mode_run (run_append.2 ⟨d1, hr1, run_append.2 ⟨da, hra, hr⟩⟩) hf0 hh0
      rw [hm0] at hm1
      rw [hz] at hz1
      cases hz1
      rw [← hm1, hzm]
    obtain ⟨zb, zt, z3, cnt3, _, g0, g1, _, g3⟩ := table_tick ho hw hc hl hp hcc (.inl hacc) he hes hceil htab hk hkn hF hr1
      (run_append.2 ⟨da, hra, hr⟩)
      (fun es4 es5 d hsp' hr' => by
        refine hhot es4 (es5 ++ es2) d ?_ hr'
        rw [List.append_assoc, hsp, show warm ++ (es1 ++ DEvent.tick i :: es2) = ((warm ++ es1) ++ [.tick i]) ++ es2 by simp, hsp']
        simp)
      (fun es4 es5 h => hon es4 (es5 ++ es3) (by rw [h3, ← List.append_assoc, h]; simp))
      (Nat.le_trans hn1 autoTicks_le) hmode hstp
    rw [g0] at hz'
    cases hz'
    obtain ⟨l, _, _, _, _, a5, _⟩ := processFans_spec g1
    rw [← hs, a5]
    exact g3
  · intro f hff hFf
    have := hvm f hff hFf
    rwa [List.append_assoc, ← List.append_assoc] at this
  · intro f hff hFf
    have := hvx f hff hFf
    rw [List.append_assoc] at this
    exact this.right hra

/-- **C119** The time from a hot sensor to fast fans, with fan loops that control the speed: once
ceil(T/F) + N + 1 fan intervals and the lateness have passed with the sensor hot and the fans too slow, every fan of the zone
has been told at least the percentage `v`. The other provisos are those of the theorem above. -/
theorem C119_time {o : Opts} (ho : o.tuningEnabled = false) (hst : o.strictFailsafePwm = false) {bus : BuildBus} {now : Int}
    {started : Int → Int} {w : World} (htr : w.trace = []) {sensors : OMap String SensorConfig} (hws : sensors.WF)
    {pids : OMap Int PIDConf} {configs : OMap Int ZoneConfig} (hw : pids.WF) (hc : ∀ e ∈ pids.entries, OMap.WF e.2) {td : Timed}
    (hl : Timed.launch o bus now started w sensors pids configs = .ok td)
    {i : Int} {conf : PIDConf} {c : ZoneConfig} (hp : pids.find? i = some conf) (hcc : configs.find? i = some c)
    (hacc : c.accumulateSetPoint = false) {e : Entry} (he : e ∈ conf.entries) (hes : e.2.type = "stepwise")
    (hceil : ∀ e ∈ conf.entries, e.2.type = "stepwise" → e.2.stepwiseInfo.isCeiling = false)
    {n k : Nat} (htab : RisingTable e.2.stepwiseInfo n) (hk : k < 20) (hkn : k < n)
    (hy : Moderate (e.2.stepwiseInfo.output ⟨k, hk⟩)) (hmin : c.minThermalOutput ≤ 1048576)
    (hcap : ∀ e ∈ conf.entries, IsHeat e → Capped e 1048576) {x : Entry → Dbl} {v : Dbl} (hv : 0 ≤ v) {N : Nat}
    (hf : ∀ f ∈ conf.entries, IsFan f → Driving f.2.pidInfo ∧
      WindsUp f.2.pidInfo (e.2.stepwiseInfo.output ⟨k, hk⟩) (x f) N ∧ Moderate (x f) ∧
      v ≤ woundUpAt f.2.pidInfo (e.2.stepwiseInfo.output ⟨k, hk⟩) (x f))
    (hF : 1 ≤ c.cycleTime.cycleIntervalTimeMS) {late t0 ta : Int} (h0 : started i ≤ t0) (h1 : t0 ≤ ta)
    {pre post : List TEvent} {t : Int} {e' : DEvent} {tda td1 : Timed} (hsv : Served o late t0 td (pre ++ post ++ [(t, e')]))
    (hra : td.run o pre = .ok tda) (hrb : tda.run o post = .ok td1) (hpre : ∀ x ∈ pre, x.1 ≤ ta)
    (hhot : ReadsThroughout o i (e.2.inputs.map SensorInput.name)
      (Passed e.2.stepwiseInfo.positiveHysteresis (e.2.stepwiseInfo.reading ⟨k, hk⟩)) tda.d (eventsOf post))
    (hon : ∀ es1 es2, eventsOf post = es1 ++ es2 → switchAfter i e.1 true (eventsOf pre ++ es1) = true)
    (hvm : ∀ f ∈ conf.entries, IsFan f → Speeds o i f.2 Moderate td.d (eventsOf pre ++ eventsOf post))
    (hvx : ∀ f ∈ conf.entries, IsFan f → Speeds o i f.2 (· ≤ x f) tda.d (eventsOf post))
    (hauto : Automatic i (eventsOf pre) (eventsOf post))
    (ht : ta + (((c.cycleTime.updateThermalsTimeMS + c.cycleTime.cycleIntervalTimeMS - 1) / c.cycleTime.cycleIntervalTimeMS +
      N + 1 : Nat) : Int) * ms c.cycleTime.cycleIntervalTimeMS + late < t) :
    ∀ f ∈ conf.entries, IsFan f → ∀ u ∈ f.2.inputs, ∀ fc path, FanOn bus.dirs sensors u.name fc path →
      OnlyZone pids i u.name → w.busOk path = true → (∀ e ∈ eventsOf (pre ++ post), BusWorks path e) →
      ToldAtLeast fc path (v / 100) td1.d.w := by
  obtain ⟨l1, -⟩ := timed_launch hw hc hl
  obtain ⟨mid, t', rest, td3, td4, b1, b2, b3, b4, b5, b6⟩ :=
    last_after hw hc hl hp hcc h0 hsv h1 hpre hra hrb ht
  have hmid : eventsOf post = (eventsOf mid ++ [.tick i]) ++ eventsOf rest := by
    rw [b1, List.append_assoc]; exact eventsOf_append _ _
  rw [hmid] at hauto hhot hon hvm hvx
  have hau := automatic_prefix (List.append_assoc _ _ _ ▸ hauto)
  have hstp := (timed_step b3).1
  have key := C119_hot_sensor ho hst hw hc l1 hp hcc hacc he hes hceil htab hk hkn hy hmin hcap hf hF (timed_run hra)
    (timed_run b2)
    (fun es1 es2 d1 hsp hr => hhot es1 (es2 ++ eventsOf rest) d1 (by rw [hsp]; simp) hr)
    (fun es1 es2 hsp => hon es1 (es2 ++ [.tick i] ++ eventsOf rest) (by rw [hsp]; simp))
    (fun f hff hFf => Speeds.left (by rw [List.append_assoc]; exact hvm f hff hFf))
    (fun f hff hFf => (hvx f hff hFf).left)
    (by rw [autoTicks_all hau]; exact b6) (hau _ [] (by simp)) hstp
  intro f hff hFf u hu fc path hfo hz hb hbs
  refine told_now htr hws hw hc l1 (run_append.2 ⟨_, timed_run hra, timed_run b2⟩) hstp (timed_run b4) b5 hfo hz hb ?_
    (percent_nonneg hv) key ⟨f, hff, hFf, u, hu, rfl⟩
  intro e he
  refine hbs e ?_
  rw [b1]
  simpa [eventsOf] using he

end

namespace Ex
section
attribute [local instance] binary64

/-- the speed of the fans over the temperature of the processor -/
def table119 : StepwiseInfo :=
  { ts := 1,
    reading := fun i => if i.1 = 0 then 30 else if i.1 = 1 then 70 else nan,
    output := fun i => if i.1 = 0 then 1000 else if i.1 = 1 then 3000 else nan,
    positiveHysteresis := 1, negativeHysteresis := 3, isCeiling := false }
def steps119 : ControllerInfo := { loop99 "stepwise" "cpu" 0 0 90 with stepwiseInfo := table119 }
/-- a loop over the speed of the fan: 1/128 percent for each revolution per minute and second, up to 80 -/
def fans119 : ControllerInfo :=
  let t := loop99 "fan" "fan0" 0 0 0
  { t with pidInfo := { t.pidInfo with integralCoeff := 1 / 128, integralLimit := ⟨0, 80⟩ } }
def loops119 : PIDConf := (({} : PIDConf).insert "fans" fans119).insert "steps" steps119
def pids119 : OMap Int PIDConf := ({} : OMap Int PIDConf).insert 1 loops119

theorem loops119_wf : loops119.WF := OMap.wf_insert (OMap.wf_insert OMap.wf_empty _ _) _ _
theorem pids119_wf : pids119.WF := OMap.wf_insert OMap.wf_empty _ _

theorem loops119_mem {e : Entry} (h : e ∈ loops119.entries) : e = ("fans", fans119) ∨ e = ("steps", steps119) := by
  have h := (OMap.mem_entries_iff loops119_wf e.1 e.2).1 h
  obtain ⟨n, x⟩ := e
  unfold loops119 at h
  dsimp only at h
  rw [OMap.find?_insert, OMap.find?_insert, OMap.find?_empty] at h
  split_ifs at h with h1 h2
  · cases h; rw [h1]; exact .inr rfl
  · cases h; rw [h2]; exact .inl rfl

theorem table119_rising : RisingTable table119 2 := by
  refine ⟨⟨by decide, by decide, by decide +kernel, by decide +kernel⟩, ?_, ?_⟩
  · have : ∀ j : Fin 20, j.1 < 2 → ∀ i : Fin 20, i.1 < j.1 → table119.reading i < table119.reading j := by decide +kernel
    exact fun i j hi hj h1 h2 => this ⟨j, hj⟩ h2 ⟨i, hi⟩ h1
  · have : ∀ j : Fin 20, j.1 < 2 → ∀ i : Fin 20, i.1 ≤ j.1 → table119.output i ≤ table119.output j := by decide +kernel
    exact fun i j hi hj h1 h2 => this ⟨j, hj⟩ h2 ⟨i, hi⟩ h1

def run119 (es : List DEvent) : Res Daemon := do
  let d ← Daemon.launch {} bus103 0 world99 sensors99 pids119 zones99
  d.run {} es

/-- the fan turns at 900 revolutions per minute, the processor gets hot -/
def pre119 : List DEvent :=
  [.signal "cpu" 1 (temp103 40), .signal "fan0" 1 (temp103 900), .tick 1, .tick 1, .signal "cpu" 2 (temp103 72)]

/-- C119: the loop gets to 80 percent, 204 of 255; when the fan turns fast enough it goes back -/
example : (∃ d, run119 (pre119 ++ List.replicate 9 (.tick 1)) = .ok d ∧
      decide (d.w.trace.getLast? = some (.sysfsWrite "/sys/class/hwmon/pwm1" 204)) = true) ∧
    ∃ d, run119 (pre119 ++ List.replicate 9 (.tick 1) ++ [.signal "fan0" 3 (temp103 3200), .tick 1]) = .ok d ∧
      decide (d.w.trace.getLast? = some (.sysfsWrite "/sys/class/hwmon/pwm1" 200)) = true :=
  ⟨ok_of_any (P := fun d : Daemon => decide (d.w.trace.getLast? = some (.sysfsWrite "/sys/class/hwmon/pwm1" 204)))
    (by decide +kernel),
   ok_of_any (P := fun d : Daemon => decide (d.w.trace.getLast? = some (.sysfsWrite "/sys/class/hwmon/pwm1" 200)))
    (by decide +kernel)⟩

theorem fans119_driving : Driving fans119.pidInfo :=
  ⟨⟨⟨rfl, by decide +kernel⟩, by decide +kernel, by decide +kernel, by decide +kernel, by decide +kernel, by decide +kernel,
    by decide +kernel, ⟨1, FloatModel.rep_one, one_eq, by norm_num, by norm_num⟩⟩, by decide +kernel⟩

/-- from 0 to 80 in steps of 15.625 -/
theorem fans119_winds : WindsUp fans119.pidInfo 3000 1000 6 :=
  ⟨0, 16384000, by decide, by decide, by decide, by decide, by decide +kernel, by decide +kernel, by decide +kernel⟩

/-- a computation of `Speeds` for a loop over one fan -/
def speedB (i : Int) (n : String) (P : Dbl → Bool) : Daemon → List DEvent → Bool
  | _, [] => true
  | d, e :: es =>
    (match e with
      | .tick j => decide (j ≠ i) || (match d.w.sensors.find? n with
          | some s => (match s.read d.w d.w.nowFans with | .ok r => P r.unscaled | .error _ => true)
          | none => true)
      | _ => true) &&
    (match d.step {} e with
      | .ok d' => speedB i n P d' es
      | .error _ => true)

theorem speed_of {i : Int} {f : ControllerInfo} {u : SensorInput} (hu : f.inputs = [u]) {P : Dbl → Bool} {Q : Dbl → Prop}
    (hP : ∀ v, P v = true → Q v) (h0 : Q 0) :
    ∀ {es : List DEvent} {d : Daemon}, speedB i u.name P d es = true → Speeds {} i f Q d es
  | [], d, _ => by
    intro es1 es2 d1 h
    cases es1 <;> cases h
  | e :: es, d, hb => by
    intro es1 es2 d1 h hr ha
    simp only [speedB, Bool.and_eq_true] at hb
    cases es1 with
    | nil =>
      cases h
      cases hr
      rintro v ⟨rs, hrs, hv⟩
      cases hv with
      | still => exact h0
      | slowest hm _ =>
        rw [hu] at hrs
        cases hrs with
        | cons hx hnil =>
          cases hnil
          obtain ⟨s, rr, a1, a2, a3⟩ := hx
          have hm := List.mem_of_mem_filter hm
          rw [List.mem_singleton] at hm
          have := hb.1
          simp only [ne_eq, not_true_eq_false, decide_false, Bool.false_or, a1, a2] at this
          rw [hm, ← a3]
          exact hP _ this
    | cons e' es1 =>
      cases h
      obtain ⟨d2, h1, h2⟩ := bind_eq_ok.1 hr
      have hb2 := hb.2
      rw [h1] at hb2
      exact speed_of hu hP h0 hb2 es1 es2 d1 rfl h2 ha

theorem on119 : ∀ (k : Nat) (es1 es2 : List DEvent), List.replicate k (.tick 1) = es1 ++ es2 →
    switchAfter 1 "steps" true es1 = true
  | _, [], _, _ => rfl
  | 0, e :: es1, es2, h => by cases h
  | k + 1, e :: es1, es2, h => by
    rw [List.replicate_succ, List.cons_append, List.cons.injEq] at h
    rw [← h.1]
    exact on119 k es1 es2 h.2

/-- C119: all hypotheses hold for this run -/
example : ∃ d2 d3, run119 (pre119 ++ List.replicate 8 (.tick 1)) = .ok d2 ∧ d2.step {} (.tick 1) = .ok d3 ∧
    FansAtLeast loops119.entries (80 / 100) d2.w d3.w := by
  obtain ⟨d3, h, _⟩ := ok_of_any (x := run119 ((pre119 ++ List.replicate 8 (.tick 1)) ++ [.tick 1]))
    (P := fun _ : Daemon => true) (by decide +kernel)
  obtain ⟨d1', hp, hb⟩ := ok_of_any (x := run119 pre119)
    (P := fun d : Daemon => hotB 1 "cpu" (fun v => decide (Passed table119.positiveHysteresis (table119.reading 1) v)) d
      (List.replicate 8 (.tick 1) ++ [.tick 1]) &&
      speedB 1 "fan0" (fun v => decide (v ≤ 1000)) d (List.replicate 8 (.tick 1) ++ [.tick 1])) (by decide +kernel)
  obtain ⟨d0', hp0, hmb⟩ := ok_of_any (x := run119 [])
    (P := fun d : Daemon => speedB 1 "fan0" (fun v => decide (Moderate v)) d
      (pre119 ++ (List.replicate 8 (.tick 1) ++ [.tick 1]))) (by decide +kernel)
  rw [Bool.and_eq_true] at hb
  obtain ⟨d0, hl, h⟩ := bind_eq_ok.1 h
  obtain ⟨d2, hr, h⟩ := run_append.1 h
  obtain ⟨d3', ht, h⟩ := bind_eq_ok.1 h
  cases h
  obtain ⟨d1, hr1, hr2⟩ := run_append.1 hr
  obtain ⟨d0'', hl', hp⟩ := bind_eq_ok.1 hp
  rw [hl] at hl'
  cases hl'
  rw [hr1] at hp
  cases hp
  obtain ⟨d0'', hl', hp⟩ := bind_eq_ok.1 hp0
  rw [hl] at hl'
  cases hl'
  cases hp
  have hfind : pids119.find? 1 = some loops119 := by unfold pids119; rw [OMap.find?_insert_self]
  have g := C119_hot_sensor (o := {}) rfl rfl pids119_wf
    (fun e he => by
      have := (OMap.mem_entries_iff pids119_wf e.1 e.2).1 he
      unfold pids119 at this
      by_cases hi : e.1 = 1
      · rw [hi, OMap.find?_insert_self] at this
        rw [← Option.some.inj this]; exact loops119_wf
      · rw [OMap.find?_insert_ne _ hi, OMap.find?_empty] at this
        cases this) hl
    (i := 1) (conf := loops119) (c := zone99) hfind (by unfold zones99; rw [OMap.find?_insert_self]) rfl
    (e := ("steps", steps119))
    ((OMap.mem_entries_iff loops119_wf _ _).2 (by unfold loops119; rw [OMap.find?_insert_self])) rfl
    (by
      intro e he h
      rcases loops119_mem he with rfl | rfl
      · exact absurd h (by decide)
      · rfl) (n := 2) (k := 1) table119_rising
    (by decide) (by decide) (by decide +kernel) (by decide +kernel)
    (by
      intro e he h
      rcases loops119_mem he with rfl | rfl
      · exact absurd h (by decide)
      · exact .table rfl (by decide +kernel))
    (x := fun _ => 1000) (v := 80) (N := 6)
    (by
      intro f hf hff
      rcases loops119_mem hf with rfl | rfl
      · exact ⟨fans119_driving, fans119_winds, by decide +kernel, by decide +kernel⟩
      · exact absurd hff (by decide))
    (by decide) hr1 hr2
    (hot_of (n := "cpu") (by simp [steps119, loop99]) (fun v hv => of_decide_eq_true hv) hb.1)
    (fun es1 es2 h => by
      rw [switchAfter_append]
      exact on119 8 es1 es2 h)
    (by
      intro f hf hff
      rcases loops119_mem hf with rfl | rfl
      · exact speed_of (u := { name := "fan0" }) rfl (fun v hv => of_decide_eq_true hv) (by decide +kernel) hmb
      · exact absurd hff (by decide))
    (by
      intro f hf hff
      rcases loops119_mem hf with rfl | rfl
      · exact speed_of (u := { name := "fan0" }) rfl (fun v hv => of_decide_eq_true hv) (by decide +kernel) hb.2
      · exact absurd hff (by decide))
    (by decide) rfl ht
  refine ⟨d2, d3, ?_, ht, g⟩
  show (Daemon.launch {} bus103 0 world99 sensors99 pids119 zones99 >>= _) = _
  rw [hl, ok_bind]
  exact hr

/-- C119: at 700 ms the processor reports 72 degrees, the fan turns at 900 revolutions per minute; nine fan intervals and 20 ms
later, at 5230 ms, the fan has been told 80 percent, which is 204 of 255. The history is served -/
def launch119 : Res Timed := Timed.launch {} bus103 0 (fun _ => 0)
  { world99 with nowFans := 7000000000, nowThermals := 7000000000 }
  (sensors106.insert "cpu" ⟨"temp", "/xyz/openbmc_project/sensors/temperature/cpu", "", 0, 0, 60, false, true, false⟩) pids119 zones99
def hot119 : List TEvent := before111 ++ at111 690 (.signal "fan0" (ms 690) (temp103 900)) ::
  at111 700 (.signal "cpu" (ms 700) (temp103 72)) :: (List.range 9).map (fun k => at111 (500 * (k + 2) + k) (.tick 1))
example : ∃ td, (do let td ← launch119; td.run {} hot119) = .ok td ∧
    decide (valueAt "/xyz/openbmc_project/control/fanpwm/pwm1" td.d.w = some 204) = true :=
  ok_of_any (P := fun td : Timed => decide (valueAt "/xyz/openbmc_project/control/fanpwm/pwm1" td.d.w = some 204))
    (by decide +kernel)
example : ∃ td, launch119 = .ok td ∧
    servedCheck {} 20000000 td (hot119 ++ [at111 5230 (.manual 1 true)]) = true :=
  ok_of_any (P := fun td : Timed => servedCheck {} 20000000 td (hot119 ++ [at111 5230 (.manual 1 true)])) (by decide +kernel)

end
end Ex
end Verif
