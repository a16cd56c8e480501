import Verif.Lemmas.SteadyFail
import Verif.Props.Steady

/-! # The steady state with failed sensors -/

namespace Verif
open Dbl

section
variable [F : FloatModel]

theorem PercentFor.unique {c : ZoneConfig} {conf : List Entry} {s : String} {p q : Dbl} (h : PercentFor c conf s p)
    (h' : PercentFor c conf s q) : p = q := by
  cases h with
  | own h1 h2 =>
    cases h' with
    | own h3 _ => exact h1.unique h3
    | zero h3 => exact absurd (h1.unique h3) h2
    | zone h3 => have := h1.1; rw [h3] at this; cases this
  | zero h1 =>
    cases h' with
    | own h3 h4 => exact absurd (h3.unique h1) h4
    | zero _ => rfl
    | zone _ => rfl
  | zone h1 =>
    cases h' with
    | own h3 _ => have := h3.1; rw [h1] at this; cases this
    | zero _ => rfl
    | zone _ => rfl

/-- what `FanController::outputProc` makes of a percentage when exactly the broken sensors are listed as failed -/
theorem fanPercent_raised {o : Opts} (ho : o.tuningEnabled = false) {i : Int} {conf : List Entry} {c : ZoneConfig} {zb : Zone}
    (hN : NewZone i c conf zb) (hnum : ∀ e ∈ conf, e.2.failSafePercent ≠ nan) (hzn : c.failsafePercent ≠ nan)
    {broken : String → Prop} {z : ZoneData} {log : List Poll} (hi : HistInv zb.d z log)
    (hf : ∀ s, Failed z s ↔ Required zb.d s ∧ broken s) (x : Dbl) :
    Raised o.strictFailsafePwm c conf broken x (fanPercent o z x) := by
  have hper : ∀ s, PercentFor c conf s (percentOf zb.d s) := fun s => percentOf_of hN (percentsFor_ne_nan hnum s)
  unfold fanPercent
  rw [ho]
  simp only [Bool.false_eq_true, if_false]
  by_cases hmode : z.getFailSafeMode = true
  · rw [if_pos hmode]
    have hL : Largest (fun q => ∃ n, NeededBy conf n ∧ broken n ∧ PercentFor c conf n q) z.getFailSafePercent := by
      refine (hi.selection (fun n _ => (hper n).holds (P := fun p => p ≠ nan) hnum hzn) hmode).congr (fun q => ?_)
      constructor
      · rintro ⟨n, h1, rfl⟩
        obtain ⟨h2, h3⟩ := (hf n).1 h1
        exact ⟨n, (required_new hN n).1 h2, h3, hper n⟩
      · rintro ⟨n, h1, h2, h3⟩
        exact ⟨n, (hf n).2 ⟨(required_new hN n).2 h1, h2⟩, h3.unique (hper n)⟩
    have := Raised.some (strict := o.strictFailsafePwm) (x := x) hL
    by_cases hs : o.strictFailsafePwm = true
    · rw [if_pos hs]
      rwa [if_pos (.inl hs)] at this
    · rw [if_neg hs]
      by_cases hx : x < z.getFailSafePercent
      · rw [if_pos hx]
        rwa [if_pos (.inr hx)] at this
      · rw [if_neg hx]
        rwa [if_neg (fun h => h.elim hs hx)] at this
  · rw [if_neg hmode]
    refine .none (fun n hn hb => hmode ?_)
    obtain ⟨e, he⟩ := (hf n).2 ⟨(required_new hN n).2 hn, hb⟩
    simp only [ZoneData.getFailSafeMode, Bool.not_eq_true']
    exact (OMap.isEmpty_false_iff _).2 ⟨n, e, he⟩

/-- what the fans get in the steady state -/
theorem steady_fans {o : Opts} (ho : o.tuningEnabled = false) {bus : BuildBus} {now : Int} {w : World}
    {sensors : OMap String SensorConfig} {pids : OMap Int PIDConf} {configs : OMap Int ZoneConfig} (hw : pids.WF)
    (hc : ∀ e ∈ pids.entries, OMap.WF e.2) {d0 : Daemon} (hl : Daemon.launch o bus now w sensors pids configs = .ok d0)
    {i : Int} {conf : PIDConf} {c : ZoneConfig} (hp : pids.find? i = some conf) (hcc : configs.find? i = some c)
    {on : String → Bool} {val : String → Dbl} {P : Dbl → Prop}
    (hP : PassMeans o conf.entries on val c.accumulateSetPoint c.minThermalOutput P)
    (hfan : ∀ f ∈ conf.entries, IsFan f → HandsOn f.2.pidInfo) (hF : 1 ≤ c.cycleTime.cycleIntervalTimeMS)
    (hnum : ∀ e ∈ conf.entries, e.2.failSafePercent ≠ nan) (hzn : c.failsafePercent ≠ nan) {broken : String → Prop}
    {pre post : List DEvent} {d1 d2 d3 : Daemon} (hr1 : d0.run o pre = .ok d1) (hr2 : d1.run o post = .ok d2)
    (hmod : ∀ e ∈ conf.entries, IsPid e.2.type → Memoryless e.2 → ModerateInput o e.2 d0 (pre ++ post))
    (hst : SteadyThroughout o i conf.entries on val pre d1 (post ++ [.tick i]))
    (hbr : BrokenThroughout o i conf.entries broken d1 (post ++ [.tick i]))
    (hn : (c.cycleTime.updateThermalsTimeMS + c.cycleTime.cycleIntervalTimeMS - 1) / c.cycleTime.cycleIntervalTimeMS ≤
      autoTicks i (modeAfter i false pre) post)
    (hm : modeAfter i false (pre ++ post) = false) (ht : d2.step o (.tick i) = .ok d3) :
    ∃ m, P m ∧
      FansGetBy (Raised o.strictFailsafePwm c conf.entries broken) conf.entries m d2.w d3.w := by
  obtain ⟨zb, z1, z2, z3, cnt1, cnt2, cnt3, log1, hN, hz1, hm1, hh1, hz2, hmode, htk, hfans, hsp⟩ :=
    steady_core ho hw hc hl hp hcc hP hF hr1 hr2 hmod hst hn hm ht
  obtain ⟨z2', cnt2', hz2', hfl⟩ := stable_run (broken := broken) (fun n => (required_new hN n).1) hr2 hz1 .start
    (fun es1 es2 d he hr => hbr es1 (es2 ++ [.tick i]) d (by rw [he]; simp) hr)
  rw [hz2] at hz2'
  cases hz2'
  rw [hm1, Nat.zero_add] at hfl
  refine ⟨_, hsp, ?_⟩
  have f := hbr post [] d2 rfl hr2
  obtain ⟨zt, hfz, ⟨log', hi⟩, l, b, g1, g2, g3⟩ := stable_zone hh1 hfl (by rw [hN.cycleTime]; exact hF)
    (by rw [hN.cycleTime]; exact hn) hmode (fun s hs => f s ((required_new hN s).1 hs)) htk
  refine ⟨l, b, g2, ?_⟩
  have hkeys : (conf.entries.filter IsFan).map (fun f => Option.map fanKey (fanOf f)) = l.map (fun x => some (fanKey x.1)) := by
    rw [g1, List.map_map] at hfans
    exact hfans.symm
  refine (forall₂_of_map hkeys).imp (fun fe x ⟨q1, q2, q3⟩ => ?_)
  obtain ⟨a, b'⟩ := List.mem_filter.1 q1
  have hk : fe.2.inputs.map SensorInput.name = x.1.inputs ∧ fe.2.pidInfo = x.1.ctl.info.toPidConf := by
    simp only [fanOf] at q3
    split_ifs at q3
    · cases q3
    · have := Option.some.inj q3
      exact ⟨congrArg Prod.fst this, congrArg Prod.snd this⟩
  refine ⟨hk.1, ?_⟩
  rintro ⟨mm, k1, k2⟩
  have hnn : x.2 ≠ nan := fun hv => k2 (drives_nan g2 x q2 hv mm k1)
  obtain ⟨input, _, hv⟩ := g3 x q2
  have hR := fanPercent_raised ho hN hnum hzn hi hfz (pidStep x.1.ctl z3.d.maximumSetPoint input).1
  have hout : (pidStep x.1.ctl z3.d.maximumSetPoint input).1 ≠ nan →
      (pidStep x.1.ctl z3.d.maximumSetPoint input).1 = limited z3.d.maximumSetPoint fe.2.pidInfo.outLim.min fe.2.pidInfo.outLim.max :=
    fun hne => by
      have := handsOn_out (by rw [← hk.2]; exact hfan fe a (by simpa using b')) hne
      rw [this, hk.2]
      rfl
  rw [hv] at hnn ⊢
  have hnp := div_ne_nan_left hnn
  refine ⟨_, ?_, rfl⟩
  generalize fanPercent o zt.d (pidStep x.1.ctl z3.d.maximumSetPoint input).1 = y at hR hnp ⊢
  by_cases hne : (pidStep x.1.ctl z3.d.maximumSetPoint input).1 = nan
  · rw [hne] at hR
    cases hR with
    | none h => exact absurd rfl hnp
    | @some p hL =>
      by_cases hs : o.strictFailsafePwm = true
      · have := Raised.some (strict := o.strictFailsafePwm)
          (x := limited z3.d.maximumSetPoint fe.2.pidInfo.outLim.min fe.2.pidInfo.outLim.max) hL
        rw [if_pos (.inl hs)] at this ⊢
        exact this
      · rw [if_neg (fun h => h.elim hs (fun h => absurd h (by simp)))] at hnp
        exact absurd rfl hnp
  · rw [hout hne] at hR
    exact hR

/-- **C126** The steady state with failed sensors. As in C125, but some sensors fail at every expiry of the timer and the others
do not. After ceil(T/F) automatic cycles every further one commands every fan loop exactly this: the percentage of C125, raised
to the largest failsafe percentage that the configuration sets for one of the failed sensors; with strict failsafe it is
replaced by it. The percentages are numbers. -/
theorem C126_exact {o : Opts} (ho : o.tuningEnabled = false) {bus : BuildBus} {now : Int} {w : World}
    {sensors : OMap String SensorConfig} {pids : OMap Int PIDConf} {configs : OMap Int ZoneConfig} (hw : pids.WF)
    (hc : ∀ e ∈ pids.entries, OMap.WF e.2) {d0 : Daemon} (hl : Daemon.launch o bus now w sensors pids configs = .ok d0)
    {i : Int} {conf : PIDConf} {c : ZoneConfig} (hp : pids.find? i = some conf) (hcc : configs.find? i = some c)
    (hacc : c.accumulateSetPoint = false) {on : String → Bool} {val : String → Dbl}
    (hml : ∀ e ∈ conf.entries, HasSay on e → Memoryless e.2)
    (hfan : ∀ f ∈ conf.entries, IsFan f → HandsOn f.2.pidInfo) (hF : 1 ≤ c.cycleTime.cycleIntervalTimeMS)
    (hnum : ∀ e ∈ conf.entries, e.2.failSafePercent ≠ nan) (hzn : c.failsafePercent ≠ nan) {broken : String → Prop}
    {pre post : List DEvent} {d1 d2 d3 : Daemon} (hr1 : d0.run o pre = .ok d1) (hr2 : d1.run o post = .ok d2)
    (hmod : ∀ e ∈ conf.entries, IsPid e.2.type → Memoryless e.2 → ModerateInput o e.2 d0 (pre ++ post))
    (hst : SteadyThroughout o i conf.entries on val pre d1 (post ++ [.tick i]))
    (hbr : BrokenThroughout o i conf.entries broken d1 (post ++ [.tick i]))
    (hn : (c.cycleTime.updateThermalsTimeMS + c.cycleTime.cycleIntervalTimeMS - 1) / c.cycleTime.cycleIntervalTimeMS ≤
      autoTicks i (modeAfter i false pre) post)
    (hm : modeAfter i false (pre ++ post) = false) (ht : d2.step o (.tick i) = .ok d3) :
    ∃ m, SteadyPoint conf.entries on val c.minThermalOutput m ∧
      FansGetBy (Raised o.strictFailsafePwm c conf.entries broken) conf.entries m d2.w d3.w :=
  steady_fans ho hw hc hl hp hcc (by rw [hacc]; exact steady_pass ho hml) hfan hF hnum hzn hr1 hr2 hmod hst hbr hn hm ht

/-- **C126** There is only one such percentage. -/
theorem C126_unique {strict : Bool} {c : ZoneConfig} {conf : List Entry} {broken : String → Prop} {x y y' : Dbl}
    (h : Raised strict c conf broken x y) (h' : Raised strict c conf broken x y') : y = y' := by
  cases h with
  | none h1 =>
    cases h' with
    | none _ => rfl
    | some h2 => obtain ⟨n, a, b, _⟩ := h2.1; exact absurd b (h1 n a)
  | some h1 =>
    cases h' with
    | none h2 => obtain ⟨n, a, b, _⟩ := h1.1; exact absurd b (h2 n a)
    | some h2 => rw [h1.unique h2]

/-- what a fan is told in the steady state -/
theorem steady_told {o : Opts} (ho : o.tuningEnabled = false) {bus : BuildBus} {now : Int} {w : World} (htr : w.trace = [])
    {sensors : OMap String SensorConfig} (hws : sensors.WF) {pids : OMap Int PIDConf} {configs : OMap Int ZoneConfig} (hw : pids.WF)
    (hc : ∀ e ∈ pids.entries, OMap.WF e.2) {d0 : Daemon} (hl : Daemon.launch o bus now w sensors pids configs = .ok d0)
    {i : Int} {conf : PIDConf} {c : ZoneConfig} (hp : pids.find? i = some conf) (hcc : configs.find? i = some c)
    {on : String → Bool} {val : String → Dbl} {P : Dbl → Prop}
    (hP : PassMeans o conf.entries on val c.accumulateSetPoint c.minThermalOutput P)
    (hfan : ∀ f ∈ conf.entries, IsFan f → HandsOn f.2.pidInfo) (hF : 1 ≤ c.cycleTime.cycleIntervalTimeMS)
    (hnum : ∀ e ∈ conf.entries, 0 ≤ e.2.failSafePercent) (hzn : 0 ≤ c.failsafePercent) {broken : String → Prop}
    {pre post : List DEvent} {d1 d2 d3 : Daemon} (hr1 : d0.run o pre = .ok d1) (hr2 : d1.run o post = .ok d2)
    (hmod : ∀ e ∈ conf.entries, IsPid e.2.type → Memoryless e.2 → ModerateInput o e.2 d0 (pre ++ post))
    (hst : SteadyThroughout o i conf.entries on val pre d1 (post ++ [.tick i]))
    (hbr : BrokenThroughout o i conf.entries broken d1 (post ++ [.tick i]))
    (hn : (c.cycleTime.updateThermalsTimeMS + c.cycleTime.cycleIntervalTimeMS - 1) / c.cycleTime.cycleIntervalTimeMS ≤
      autoTicks i (modeAfter i false pre) post)
    (hm : modeAfter i false (pre ++ post) = false) (ht : d2.step o (.tick i) = .ok d3)
    {n path : String} {fc : SensorConfig} (hfo : FanOn bus.dirs sensors n fc path) (hb : w.busOk path = true)
    (hbs : ∀ e ∈ pre ++ post, BusWorks path e) {f : Entry} (hf : f ∈ conf.entries) (hff : IsFan f)
    (hin : ∃ x ∈ f.2.inputs, x.name = n) (hone : OneLoop conf.entries n)
    (hlim : 0 ≤ f.2.pidInfo.outLim.min ∧ f.2.pidInfo.outLim.min ≤ f.2.pidInfo.outLim.max) :
    ∃ m y u, P m ∧
      Raised o.strictFailsafePwm c conf.entries broken (limited m f.2.pidInfo.outLim.min f.2.pidInfo.outLim.max) y ∧
      valueAt path d3.w = some u ∧ rawCommand (limitsOf fc) (y / 100) = some u := by
  obtain ⟨m, g1, l, b, g2, g3⟩ := steady_fans ho hw hc hl hp hcc hP hfan hF (fun e he => Dbl.ne_nan_of_le_right (hnum e he))
    (Dbl.ne_nan_of_le_right hzn) hr1 hr2 hmod hst hbr hn hm ht
  have hfa := fanAt_run (run_append.2 ⟨d1, hr1, hr2⟩) hbs
    (fanAt_launched hws hl hfo.configured hfo.fan hfo.written hfo.only hb htr)
  have hnf : n ∈ f.2.inputs.map SensorInput.name := by
    obtain ⟨x, hx, rfl⟩ := hin
    exact List.mem_map.2 ⟨x, hx, rfl⟩
  have hmemf : f ∈ conf.entries.filter IsFan := List.mem_filter.2 ⟨hf, by simpa using hff⟩
  obtain ⟨x0, hx0, hk0, _⟩ := forall₂_left g3 hmemf
  obtain ⟨x, hx, hxn, raw, hraw, hval⟩ := (fanAt_drives g2 hfa).2.2 ⟨x0, hx0, by rw [← hk0]; exact hnf⟩
  have hv := one_match (f := fun f : Entry => f.2.inputs.map SensorInput.name) (g := fun x : FanPid × Dbl => x.1.inputs) g3
    hone f hmemf x hx hnf hxn
  have htn : targetOf d2.w n ≠ none := by
    obtain ⟨s, rd, wr, hs, hi, hwr⟩ := hfa.fan
    unfold targetOf
    rw [hs]
    dsimp only
    rw [hi]
    dsimp only
    rw [hwr.target]
    simp
  obtain ⟨y, hy, hx2⟩ := hv ⟨n, hxn, htn⟩
  have hnn : x.2 ≠ nan := fun hv => htn (drives_nan g2 x hx hv n hxn)
  have hyn : y ≠ nan := by rw [hx2] at hnn; exact div_ne_nan_left hnn
  have hy0 : 0 ≤ y := by
    have hlim0 : limited m f.2.pidInfo.outLim.min f.2.pidInfo.outLim.max ≠ nan →
        0 ≤ limited m f.2.pidInfo.outLim.min f.2.pidInfo.outLim.max := by
      intro this
      unfold limited at this ⊢
      split_ifs at this ⊢ with q1 q2
      · exact hlim.1
      · exact Dbl.le_trans hlim.1 hlim.2
      · exact Dbl.le_trans hlim.1 (Dbl.le_of_not_lt (Dbl.ne_nan_of_le_right hlim.1) this q1)
    cases hy with
    | none _ => exact hlim0 hyn
    | some hL =>
      split_ifs at hyn ⊢ with q
      · obtain ⟨k, _, _, hk⟩ := hL.1
        exact hk.holds hnum hzn
      · exact hlim0 hyn
  have h0 : 0 ≤ x.2 := by
    rw [hx2]
    exact percent_nonneg hy0
  obtain ⟨s, hs1, hs2, _⟩ := rawCommand_mono hfo.limits h0 (Dbl.le_refl hnn) hraw
  rw [hs1] at hraw
  cases hraw
  refine ⟨m, y, raw, g1, hy, hval (by omega), ?_⟩
  rw [← hx2]
  exact hs1

/-- **C126** A fan of the zone that has its D-Bus object or file for itself, and is listed by one fan loop only, is told exactly
what its configuration makes of this percentage. No percentage is negative. -/
theorem C126_told {o : Opts} (ho : o.tuningEnabled = false) {bus : BuildBus} {now : Int} {w : World} (htr : w.trace = [])
    {sensors : OMap String SensorConfig} (hws : sensors.WF) {pids : OMap Int PIDConf} {configs : OMap Int ZoneConfig} (hw : pids.WF)
    (hc : ∀ e ∈ pids.entries, OMap.WF e.2) {d0 : Daemon} (hl : Daemon.launch o bus now w sensors pids configs = .ok d0)
    {i : Int} {conf : PIDConf} {c : ZoneConfig} (hp : pids.find? i = some conf) (hcc : configs.find? i = some c)
    (hacc : c.accumulateSetPoint = false) {on : String → Bool} {val : String → Dbl}
    (hml : ∀ e ∈ conf.entries, HasSay on e → Memoryless e.2)
    (hfan : ∀ f ∈ conf.entries, IsFan f → HandsOn f.2.pidInfo) (hF : 1 ≤ c.cycleTime.cycleIntervalTimeMS)
    (hnum : ∀ e ∈ conf.entries, 0 ≤ e.2.failSafePercent) (hzn : 0 ≤ c.failsafePercent) {broken : String → Prop}
    {pre post : List DEvent} {d1 d2 d3 : Daemon} (hr1 : d0.run o pre = .ok d1) (hr2 : d1.run o post = .ok d2)
    (hmod : ∀ e ∈ conf.entries, IsPid e.2.type → Memoryless e.2 → ModerateInput o e.2 d0 (pre ++ post))
    (hst : SteadyThroughout o i conf.entries on val pre d1 (post ++ [.tick i]))
    (hbr : BrokenThroughout o i conf.entries broken d1 (post ++ [.tick i]))
    (hn : (c.cycleTime.updateThermalsTimeMS + c.cycleTime.cycleIntervalTimeMS - 1) / c.cycleTime.cycleIntervalTimeMS ≤
      autoTicks i (modeAfter i false pre) post)
    (hm : modeAfter i false (pre ++ post) = false) (ht : d2.step o (.tick i) = .ok d3)
    {n path : String} {fc : SensorConfig} (hfo : FanOn bus.dirs sensors n fc path) (hb : w.busOk path = true)
    (hbs : ∀ e ∈ pre ++ post, BusWorks path e) {f : Entry} (hf : f ∈ conf.entries) (hff : IsFan f)
    (hin : ∃ x ∈ f.2.inputs, x.name = n) (hone : OneLoop conf.entries n)
    (hlim : 0 ≤ f.2.pidInfo.outLim.min ∧ f.2.pidInfo.outLim.min ≤ f.2.pidInfo.outLim.max) :
    ∃ m y u, SteadyPoint conf.entries on val c.minThermalOutput m ∧
      Raised o.strictFailsafePwm c conf.entries broken (limited m f.2.pidInfo.outLim.min f.2.pidInfo.outLim.max) y ∧
      valueAt path d3.w = some u ∧ rawCommand (limitsOf fc) (y / 100) = some u :=
  steady_told ho htr hws hw hc hl hp hcc (by rw [hacc]; exact steady_pass ho hml) hfan hF hnum hzn hr1 hr2 hmod hst hbr hn hm ht hfo hb
    hbs hf hff hin hone hlim

end

namespace Ex
section
attribute [local instance] binary64

theorem failsB_iff {w : World} {now : Int} {n : String} : FailsAt w now n ↔ failsB w now n = true := by
  refine ⟨failsB_of, fun h => ?_⟩
  unfold failsB at h
  split at h
  · cases h
  · rename_i s hs
    refine ⟨s, hs, ?_⟩
    rw [Bool.or_eq_true] at h
    rcases h with h | h
    · split at h
      · rename_i b hb
        rw [h] at hb
        exact .inl hb
      · cases h
    · split at h
      · rename_i r hr
        rw [decide_eq_true_eq] at h
        exact .inr ⟨r, hr, h⟩
      · cases h

/-- the processor is at 95 degrees and raises an alarm -/
def alarm126 : List DEvent := [.signal "cpu" 1 (temp103 95), .tick 1, .tick 1, .signal "cpu" 2 (alarm99 true)]

/-- C126: the loops of C125 give 25 percent; while the alarm lasts the fans get 90 percent (229 of 255) -/
example : ∃ d, run125 (alarm126 ++ [.tick 1, .tick 1] ++ [.tick 1]) = .ok d ∧ decide (valueAt path124 d.w = some 229) = true :=
  ok_of_any (P := fun d : Daemon => decide (valueAt path124 d.w = some 229)) (by decide +kernel)

/-- a computation of `BrokenThroughout` for this zone -/
def broken126B (d : Daemon) (es : List DEvent) : Bool :=
  (before124 1 es).all (fun a => match d.run {} a with
    | .ok d => failsB d.w d.w.nowFans "cpu" && failsB d.w d.w.nowThermals "cpu" && !failsB d.w d.w.nowFans "fan0" &&
        !failsB d.w d.w.nowThermals "fan0"
    | .error _ => true)

theorem needed125 : ∀ n, NeededBy loops125.entries n → n = "fan0" ∨ n = "cpu" := by
  rintro n ⟨⟨e, he, _, x, hx, rfl⟩, _⟩
  have key : ∀ e ∈ loops125.entries, ∀ x ∈ e.2.inputs, x.name = "fan0" ∨ x.name = "cpu" := by decide +kernel
  exact key e he x hx

theorem broken126_of {d : Daemon} {es : List DEvent} (h : broken126B d es = true) :
    BrokenThroughout {} 1 loops125.entries (· = "cpu") d es := by
  intro a b d1 hes hr n hn
  subst hes
  have := List.all_eq_true.1 h a before124_mem
  simp only [hr, Bool.and_eq_true, Bool.not_eq_true'] at this
  obtain ⟨⟨⟨s1, s2⟩, s3⟩, s4⟩ := this
  rw [failsB_iff, failsB_iff]
  rcases needed125 n hn with rfl | rfl
  · rw [s3, s4]
    exact ⟨⟨fun h => (by cases h), fun h => absurd h (by decide)⟩, ⟨fun h => (by cases h), fun h => absurd h (by decide)⟩⟩
  · exact ⟨⟨fun _ => rfl, fun _ => s1⟩, ⟨fun _ => rfl, fun _ => s2⟩⟩

/-- … all hypotheses of the theorem hold -/
example : ∃ d m y u, run125 (alarm126 ++ [.tick 1, .tick 1] ++ [.tick 1]) = .ok d ∧
    SteadyPoint loops125.entries (fun _ => true) (fun _ => 95) 20 m ∧
    Raised false zone99 loops125.entries (· = "cpu") (limited m 0 100) y ∧ valueAt path124 d.w = some u ∧
    rawCommand (limitsOf fan106) (y / 100) = some u := by
  obtain ⟨d3, h, _⟩ := ok_of_any (x := run125 (alarm126 ++ [.tick 1, .tick 1] ++ [.tick 1])) (P := fun _ : Daemon => true)
    (by decide +kernel)
  obtain ⟨d1', hp, hb⟩ := ok_of_any (x := run125 alarm126)
    (P := fun d : Daemon => broken126B d ([.tick 1, .tick 1] ++ [.tick 1]) &&
      steady125B alarm126 d ([.tick 1, .tick 1] ++ [.tick 1])) (by decide +kernel)
  obtain ⟨d0, hl, hmo⟩ := ok_of_any (x := launch125) (P := fun d : Daemon => modB "cpu" d (alarm126 ++ [.tick 1, .tick 1]))
    (by decide +kernel)
  have hh := h
  simp only [run125, hl, ok_bind] at h hp
  obtain ⟨d2, hr, h⟩ := run_append.1 h
  obtain ⟨x, ht, h⟩ := bind_eq_ok.1 h
  cases h
  obtain ⟨d1, hr1, hr2⟩ := run_append.1 hr
  rw [hr1] at hp
  cases hp
  rw [Bool.and_eq_true] at hb
  obtain ⟨m, y, u, g1, g2, g3, g4⟩ := C126_told (o := {}) rfl (show world99.trace = [] from rfl) sensors106_wf pids125_wf pids125_wfs
    hl (i := 1) (conf := loops125) (c := zone99) (n := "fan0") (fc := fan106) (path := path124)
    (f := ("fans", loop99 "fan" "fan0" 0 1 0)) (by unfold pids125; rw [OMap.find?_insert_self])
    (by unfold zones99; rw [OMap.find?_insert_self]) rfl (on := fun _ => true) (val := fun _ => 95)
    (by
      intro e he hs
      rcases loops125_mem he with rfl | rfl | rfl
      · exact absurd hs.1 (by decide)
      · exact temps125_memoryless
      · exact cap125_memoryless)
    (by
      intro f hf hff
      rcases loops125_mem hf with rfl | rfl | rfl
      · exact ⟨rfl, by decide +kernel, by decide +kernel, by decide +kernel⟩
      · exact absurd hff (by decide)
      · exact absurd hff (by decide))
    (by decide)
    (by
      intro e he
      rcases loops125_mem he with rfl | rfl | rfl <;> decide +kernel)
    (by decide +kernel) hr1 hr2 (moderate125 hmo) (steady125_of hb.2) (broken126_of hb.1) (by decide) rfl ht fanOn106 rfl
    (by
      intro e he
      simp only [alarm126, List.cons_append, List.nil_append, List.mem_cons, List.not_mem_nil, or_false] at he
      rcases he with rfl | rfl | rfl | rfl | rfl | rfl <;> trivial)
    ((OMap.mem_entries_iff loops125_wf _ _).2 (by
      unfold loops125
      rw [OMap.find?_insert_ne _ (by decide), OMap.find?_insert_ne _ (by decide), OMap.find?_insert_self]))
    (by decide) ⟨{ name := "fan0" }, List.mem_cons_self, rfl⟩ (by unfold OneLoop; decide +kernel) (by decide +kernel)
  exact ⟨d3, m, y, u, hh, g1, g2, g3, g4⟩

/-- 2 percent per degree above 80, 40 percent if the sensor fails -/
def loops126 : PIDConf := (({} : PIDConf).insert "fans" (loop99 "fan" "fan0" 0 1 0)).insert "temps" (loop99 "temp" "cpu" (-2) 0 40)
def run126 (strict : Bool) (es : List DEvent) : Res Daemon := do
  let d ← Daemon.launch { strictFailsafePwm := strict } bus103 0 world99 sensors106 (({} : OMap Int PIDConf).insert 1 loops126) zones99
  d.run { strictFailsafePwm := strict } es

/-- **C126** So with strict failsafe a failure can slow the fans. At 110 degrees the loop has the fans at 60 percent (153). When the
sensor also reports a critical alarm they stay there without strict failsafe, but with it they go down to 40 percent (102). -/
theorem C126_strict :
    (∃ d, run126 true [.signal "cpu" 1 (temp103 110), .tick 1, .tick 1, .tick 1] = .ok d ∧
      decide (valueAt path124 d.w = some 153) = true) ∧
    (∃ d, run126 false [.signal "cpu" 1 (temp103 110), .tick 1, .tick 1, .tick 1, .signal "cpu" 2 (alarm99 true), .tick 1, .tick 1,
      .tick 1] = .ok d ∧ decide (valueAt path124 d.w = some 153) = true) ∧
    ∃ d, run126 true [.signal "cpu" 1 (temp103 110), .tick 1, .tick 1, .tick 1, .signal "cpu" 2 (alarm99 true), .tick 1, .tick 1,
      .tick 1] = .ok d ∧ decide (valueAt path124 d.w = some 102) = true :=
  ⟨ok_of_any (P := fun d : Daemon => decide (valueAt path124 d.w = some 153)) (by decide +kernel),
   ok_of_any (P := fun d : Daemon => decide (valueAt path124 d.w = some 153)) (by decide +kernel),
   ok_of_any (P := fun d : Daemon => decide (valueAt path124 d.w = some 102)) (by decide +kernel)⟩

end
end Ex
end Verif
