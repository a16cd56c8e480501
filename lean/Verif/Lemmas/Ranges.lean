import Verif.Spec.Ranges
import Verif.Props.Timed
import Verif.Props.Util
import Verif.Props.Writers
import Verif.Lemmas.Quiet
import Verif.Props.SteadyFail

/-! # The range of the numbers fans are told -/

namespace Verif
open Dbl

section
variable [F : FloatModel]

/-- NaN or a percentage -/
def PercentOrNaN (x : Dbl) : Prop := x = nan ∨ Percentage x

theorem percent_lims (x : Dbl) : InLimits ⟨0, 100⟩ x ↔ PercentOrNaN x := Iff.rfl

theorem zero_percentage : Percentage (0 : Dbl) := ⟨Dbl.le_refl zero_ne_nan, by
  rw [zero_eq, show (100 : Dbl) = fin ((100 : Nat) : Rat) (rep_nat (by norm_num)) from nat_eq (n := 100) (by norm_num)]
  simp⟩

/-- the loop `c` has percentages for limits and its last output was one, or NaN -/
structure Ranged (c : PidCtl) : Prop where
  slew : SaneSlew c.info.toPidConf
  min : 0 ≤ c.info.outLim.min
  order : c.info.outLim.min ≤ c.info.outLim.max
  max : c.info.outLim.max ≤ 100
  last : PercentOrNaN c.info.lastOutput

theorem pid_ranged {c : PidCtl} (h : Ranged c) (r s : Dbl) : PercentOrNaN (pid c.info r s).1 := by
  rw [pid_out, ← percent_lims]
  refine slewed_inLimits h.slew (fun _ => (percent_lims _).2 h.last) ?_
  rcases clamp_inLimits h.order (pidSum c.info r s) with hc | ⟨h1, h2⟩
  · exact .inl hc
  · exact .inr ⟨Dbl.le_trans h.min h1, Dbl.le_trans h2 h.max⟩

theorem pidStep_ranged {c : PidCtl} (h : Ranged c) (s x : Dbl) :
    PercentOrNaN (pidStep c s x).1 ∧ Ranged (pidStep c s x).2 := by
  have h1 : PercentOrNaN (pidStep c s x).1 := by
    unfold pidStep calPIDOutput
    dsimp only
    split_ifs
    · exact pid_ranged h _ _
    · exact .inr zero_percentage
    · exact h.last
    all_goals exact pid_ranged h _ _
  have h2 : (pidStep c s x).2.info.toPidConf = c.info.toPidConf := pidStep_conf c s x
  refine ⟨h1, ?_⟩
  refine ⟨by rw [h2]; exact h.slew, by rw [h2]; exact h.min, by rw [h2]; exact h.order, by rw [h2]; exact h.max, ?_⟩
  exact h1

/-- NaN or between 0 and 1 -/
def Fraction (v : Dbl) : Prop := v = nan ∨ (0 ≤ v ∧ v ≤ 1)

theorem percent_fraction {x : Dbl} (h : PercentOrNaN x) : Fraction (x / 100) := by
  rcases h with rfl | ⟨h0, h1⟩
  · exact .inl (nan_div _)
  · have e : (100 : Dbl) = fin ((100 : Nat) : Rat) (rep_nat (by norm_num)) := nat_eq (n := 100) (by norm_num)
    have hp : (0 : Dbl) < 100 := by rw [e, zero_eq]; simp
    have hx := div100_ne_nan (ne_nan_of_le_left h1)
    have z0 : (0 : Dbl) / 100 = 0 := by
      rw [e, zero_eq, fin_div_fin (by norm_num), zero_div, ofRat_rep FloatModel.rep_zero]
    have z1 : (100 : Dbl) / 100 = 1 := by
      rw [one_eq, e, fin_div_fin (by norm_num), div_self (by norm_num), ofRat_rep FloatModel.rep_one]
    refine .inr ⟨?_, ?_⟩
    · rw [← z0]
      exact div_le_div_of_pos hp h0 (by rw [z0]; exact zero_ne_nan) hx
    · rw [← z1]
      exact div_le_div_of_pos hp h1 hx (by rw [z1, one_eq]; simp)

/-- fan `n` alone writes to `p`, converting percentages with limits `lo` and `hi`, and all numbers sent are between them -/
structure RangeAt (n p : String) (lo hi : Int) (w : World) : Prop where
  fan : ∃ s rd wr, w.sensors.find? n = some s ∧ s.impl = .pluggable rd wr ∧ IsPercent lo hi wr
  alone : ∀ m, m ≠ n → targetOf w m ≠ some p
  range : WithinRange p lo hi w

theorem percent_write {lo hi : Int} (h0 : 0 ≤ lo) (h1 : lo ≤ hi) (h2 : hi ≤ 2 ^ 53) {wr : Writer} (hp : IsPercent lo hi wr)
    {busOk : String → Bool} {v : Dbl} (hv : Fraction v) {force : Bool} {r : WriteResult} (h : wr.write busOk v force = .ok r) :
    IsPercent lo hi r.writer ∧ ∀ e ∈ r.effect.toList, lo ≤ e.value ∧ e.value ≤ hi := by
  rcases hv with rfl | ⟨hv0, hv1⟩
  · cases hp with
    | dbus path old =>
      obtain ⟨raw, g1, _⟩ := dbusTail_spec h
      simp [percentToRaw, toI64, castInt] at g1
    | sysfs path => simp [Writer.write, percentToRaw, toI64, castInt, castOr, error_bind] at h
  · obtain ⟨u, e1, e2, a, b⟩ := percent_casts h0 h1 h2 hv0 hv1
    cases hp with
    | dbus path old =>
      obtain ⟨raw, g1, (⟨_, hf, rfl⟩ | ⟨_, u', g2, rfl⟩)⟩ := dbusTail_spec h
      · exact ⟨.dbus _ _, by simp⟩
      · rw [e2] at g2
        cases g2
        exact ⟨.dbus _ _, by simpa [Effect.value] using ⟨a, b⟩⟩
    | sysfs path =>
      simp only [Writer.write, e1, castOr, ok_bind] at h
      cases h
      exact ⟨.sysfs _, by simpa [Effect.value] using ⟨a, b⟩⟩

theorem rangeAt_write {n p : String} {lo hi : Int} (h0 : 0 ≤ lo) (h1 : lo ≤ hi) (h2 : hi ≤ 2 ^ 53) {w w' : World}
    (h : RangeAt n p lo hi w) {m sn : String} {v : Dbl} {force : Bool} {x : Option Int}
    (hw : w.writeSensor m v force = .ok (w', sn, x)) (hv : m = n → Fraction v) : RangeAt n p lo hi w' := by
  obtain ⟨ht, effs, he, hsub, _⟩ := writeSensor_target hw
  obtain ⟨s, rd, wr, hs, hi', hwr⟩ := h.fan
  obtain ⟨s', rd', wr', res, hs', hii, hres, _, _, hw'⟩ := writeSensor_spec hw
  have hal : ∀ k, k ≠ n → targetOf w' k ≠ some p := fun k hk => by rw [ht]; exact h.alone k hk
  have hse : w'.sensors = w.sensors.insert m ⟨s'.name, s'.timeout, s'.ignoreFailIfHostOff, .pluggable rd' res.writer⟩ := by
    rw [hw']
  have htr : w'.trace = w.trace ++ res.effect.toList := by rw [hw']
  by_cases e : m = n
  · subst e
    rw [hs] at hs'; cases hs'
    rw [hi'] at hii; cases hii
    obtain ⟨g1, g2⟩ := percent_write h0 h1 h2 hwr (hv rfl) hres
    refine ⟨⟨_, _, _, by rw [hse]; exact OMap.find?_insert_self _ _ _, rfl, g1⟩, hal, fun ef hef hp => ?_⟩
    rw [htr] at hef
    rcases List.mem_append.1 hef with hef | hef
    · exact h.range ef hef hp
    · exact g2 ef hef
  · refine ⟨⟨s, rd, wr, ?_, hi', hwr⟩, hal, fun ef hef hp => ?_⟩
    · rw [hse]; exact (OMap.find?_insert_ne _ (fun a => e a.symm) _).trans hs
    · rw [htr] at hef
      rcases List.mem_append.1 hef with hef | hef
      · exact h.range ef hef hp
      · refine absurd ?_ (h.alone m e)
        have hin : ef.path ∈ (targetOf w m).toList := by
          have : effs = res.effect.toList := List.append_cancel_left (he.symm.trans htr)
          rw [this] at hsub
          exact hsub.subset (List.mem_map.2 ⟨ef, hef, rfl⟩)
        rw [hp] at hin
        simpa using hin

theorem rangeAt_commanded {n p : String} {lo hi : Int} (h0 : 0 ≤ lo) (h1 : lo ≤ hi) (h2 : hi ≤ 2 ^ 53) {v : Dbl} {force : Bool}
    {w w' : World} {ns : List String} (hc : Commanded v force w ns w') (h : RangeAt n p lo hi w) (hv : n ∈ ns → Fraction v) :
    RangeAt n p lo hi w' := by
  induction hc with
  | nil w => exact h
  | @cons w w1 w2 m rest sn x g1 _ ih =>
    exact ih (rangeAt_write h0 h1 h2 h g1 (fun e => hv (by rw [e]; exact List.mem_cons_self)))
      (fun hn => hv (List.mem_cons_of_mem _ hn))

theorem rangeAt_drives {n p : String} {lo hi : Int} (h0 : 0 ≤ lo) (h1 : lo ≤ hi) (h2 : hi ≤ 2 ^ 53) {force : Bool}
    {w w' : World} {l : List (FanPid × Dbl)} (hd : Drives force w l w') (h : RangeAt n p lo hi w)
    (hv : ∀ x ∈ l, n ∈ x.1.inputs → Fraction x.2) : RangeAt n p lo hi w' := by
  induction hd with
  | nil w => exact h
  | @cons w w1 w2 c v rest g1 _ ih =>
    exact ih (rangeAt_commanded h0 h1 h2 g1 h (hv _ List.mem_cons_self)) (fun x hx => hv x (List.mem_cons_of_mem _ hx))

theorem rangeAt_set {n p : String} {lo hi : Int} {d : Daemon} (h : RangeAt n p lo hi d.w) {k : String} {s s' : Sensor}
    (hs : d.w.sensors.find? k = some s)
    (hi' : s'.impl = s.impl ∨ (∃ a b wr, s.impl = .pluggable a wr ∧ s'.impl = .pluggable b wr) ∨
      ∃ a b a' b', s.impl = .host a b ∧ s'.impl = .host a' b') : RangeAt n p lo hi (d.setSensor k s').w := by
  have ht : ∀ m, targetOf (d.setSensor k s').w m = targetOf d.w m := by
    refine setSensor_target hs ?_
    rcases hi' with hi' | ⟨a, b, wr, h1, h2⟩ | ⟨a, b, a', b', h1, h2⟩
    · rw [hi']
    · rw [h1, h2]
    · rw [h1, h2]
  refine ⟨?_, fun m hm => by rw [ht]; exact h.alone m hm, h.range⟩
  obtain ⟨s0, rd, wr, hs0, hi0, hwr⟩ := h.fan
  by_cases e : n = k
  · subst e
    rw [hs] at hs0
    cases hs0
    have hf : (d.setSensor n s').w.sensors.find? n = some s' := OMap.find?_insert_self _ _ _
    rcases hi' with hi' | ⟨a, b, wr', h1, h2⟩ | ⟨a, b, a', b', h1, h2⟩
    · exact ⟨_, _, _, hf, hi'.trans hi0, hwr⟩
    · rw [hi0] at h1; cases h1
      exact ⟨_, _, _, hf, h2, hwr⟩
    · rw [hi0] at h1; cases h1
  · exact ⟨s0, rd, wr, (OMap.find?_insert_ne _ e _).trans hs0, hi0, hwr⟩

/-- all failsafe percentages of a zone are percentages -/
def SafePercents (d0 : ZoneData) : Prop := (∀ s, Percentage (percentOf d0 s)) ∧ Percentage d0.zoneFailSafePercent

theorem failSafePercent_percentage {d0 z : ZoneData} {log : List Poll} (hi : HistInv d0 z log) (hs : SafePercents d0) :
    Percentage z.getFailSafePercent := by
  cases hm : z.getFailSafeMode with
  | false => rw [C32_none hm, hi.same.2.2.2.2.1]; exact hs.2
  | true =>
    obtain ⟨⟨n, _, e⟩, _⟩ := hi.selection (fun n _ => ne_nan_of_le_left (hs.1 n).2) hm
    rw [e]
    exact hs.1 n

theorem fanPercent_percentage {o : Opts} {d0 z : ZoneData} {log : List Poll} (hi : HistInv d0 z log) (hs : SafePercents d0)
    {x : Dbl} (hx : PercentOrNaN x) : PercentOrNaN (fanPercent o z x) := by
  have := failSafePercent_percentage hi hs
  unfold fanPercent
  split_ifs
  · exact hx
  · exact .inr this
  · exact .inr this
  · exact hx
  · exact hx

/-- in zone `z` the loops with fan `n` keep to percentages -/
def RangedZone (n : String) (z : Zone) : Prop :=
  ∀ f, some f ∈ z.fans → n ∈ f.inputs → Ranged f.ctl ∧ ∃ d0 log, HistInv d0 z.d log ∧ SafePercents d0

theorem rangedZone_processFans {o : Opts} {n p : String} {lo hi : Int} (h0 : 0 ≤ lo) (h1 : lo ≤ hi) (h2 : hi ≤ 2 ^ 53)
    {w w' : World} {z z' : Zone} (h : z.processFans o w = .ok (w', z')) (hz : RangedZone n z) (hr : RangeAt n p lo hi w) :
    RangedZone n z' ∧ RangeAt n p lo hi w' := by
  obtain ⟨l, a1, a2, a3, a4, _⟩ := processFans_spec h
  obtain ⟨hrest, _⟩ := processFans_rest h
  have key : ∀ x ∈ l, n ∈ x.1.inputs → Fraction x.2.1 ∧ Ranged x.2.2.ctl := by
    intro x hx hn
    obtain ⟨g1, d0, log, g2, g3⟩ := hz x.1 (by rw [a1]; exact List.mem_map.2 ⟨x, hx, rfl⟩) hn
    obtain ⟨input, _, b2, _, b4⟩ := (a4 x hx).ex
    obtain ⟨c1, c2⟩ := pidStep_ranged g1 z.d.maximumSetPoint input
    rw [b2, b4]
    exact ⟨percent_fraction (fanPercent_percentage g2 g3 c1), c2⟩
  refine ⟨fun f hf hn => ?_, rangeAt_drives h0 h1 h2 a3 hr ?_⟩
  · rw [a2] at hf
    obtain ⟨x, hx, e⟩ := List.mem_map.1 hf
    cases e
    have hn' : n ∈ x.1.inputs := by rw [← (a4 x hx).same.1]; exact hn
    obtain ⟨_, d0, log, g2, g3⟩ := hz x.1 (by rw [a1]; exact List.mem_map.2 ⟨x, hx, rfl⟩) hn'
    exact ⟨(key x hx hn').2, d0, log, g2.rest hrest, g3⟩
  · intro y hy hn
    obtain ⟨x, hx, rfl⟩ := List.mem_map.1 hy
    exact (key x hx hn).1

theorem rangedZone_tick {o : Opts} {n p : String} {lo hi : Int} (h0 : 0 ≤ lo) (h1 : lo ≤ hi) (h2 : hi ≤ 2 ^ 53)
    {w w' : World} {z z' : Zone} {cnt cnt' : Nat} (h : z.tick o w cnt = .ok (w', z', cnt')) (hz : RangedZone n z)
    (hr : RangeAt n p lo hi w) : RangedZone n z' ∧ RangeAt n p lo hi w' := by
  by_cases hm : z.d.manualMode = true
  · rw [tick_manual hm] at h; cases h; exact ⟨hz, hr⟩
  have hm : z.d.manualMode = false := by simpa using hm
  by_cases hn : ∃ f, some f ∈ z.fans ∧ n ∈ f.inputs
  · obtain ⟨f, hf, hnf⟩ := hn
    obtain ⟨_, d0, log, g2, g3⟩ := hz f hf hnf
    obtain ⟨zt, b1, b2, b3, _⟩ := tick_inv g2 hm h
    refine rangedZone_processFans h0 h1 h2 b1 (fun f hf hn => ?_) hr
    rw [b3] at hf
    exact ⟨(hz f hf hn).1, d0, _, b2, g3⟩
  · have key : ∀ {z1 : Zone}, z1.fans = z.fans → z1.processFans o w = .ok (w', z') → RangedZone n z' ∧ RangeAt n p lo hi w' :=
      fun he g => rangedZone_processFans h0 h1 h2 g (fun f hf hnf => absurd ⟨f, he ▸ hf, hnf⟩ hn) hr
    obtain ⟨d, _, ⟨-, zt, g2, g3, -⟩ | ⟨-, g3, -⟩⟩ := tick_auto hm h
    · exact key (thermalTick_flags g2).2.2 g3
    · exact key (z1 := { z with d := d }) rfl g3

theorem rangedZone_step {o : Opts} {n p : String} {lo hi : Int} (h0 : 0 ≤ lo) (h1 : lo ≤ hi) (h2 : hi ≤ 2 ^ 53) {i : Int}
    {w : World} {z z' : Zone} {cnt cnt' : Nat} {e : DEvent} (hst : ZoneStep o i w z cnt e z' cnt') (hz : RangedZone n z)
    (hr : RangeAt n p lo hi w) : RangedZone n z' := by
  cases hst with
  | manual b =>
    intro f hf hn
    obtain ⟨g1, d0, log, g2, g3⟩ := hz f hf hn
    exact ⟨g1, d0, log, g2.rest (setManual_rest _ _), g3⟩
  | enable l b =>
    intro f hf hn
    obtain ⟨g1, d0, log, g2, g3⟩ := hz f hf hn
    exact ⟨g1, d0, log, g2.rest (setEnabled_rest _ _ _), g3⟩
  | tick ht => exact (rangedZone_tick h0 h1 h2 ht hz hr).1
  | other _ _ _ => exact hz

theorem rangeAt_step {o : Opts} {n p : String} {lo hi : Int} (h0 : 0 ≤ lo) (h1 : lo ≤ hi) (h2 : hi ≤ 2 ^ 53)
    {d d' : Daemon} {e : DEvent} (hst : d.step o e = .ok d') (hz : ∀ j z cnt, d.zones.find? j = some (z, cnt) → RangedZone n z)
    (h : RangeAt n p lo hi d.w) : RangeAt n p lo hi d'.w := by
  cases e with
  | outside nf nt ho rf fi bo => cases hst; exact ⟨h.fan, h.alone, h.range⟩
  | signal k t msg =>
    have hst : d.signal o k t msg = .ok d' := hst
    unfold Daemon.signal at hst
    split at hst
    · next s hs =>
      split at hst
      · next q wr hi =>
        obtain ⟨p', hp, hst⟩ := bind_eq_ok.1 hst
        cases hst
        exact rangeAt_set h hs (.inr (.inl ⟨_, _, _, hi, rfl⟩))
      · cases hst; exact h
    · cases hst; exact h
  | hostWrite k t v =>
    simp only [Daemon.step] at hst
    split at hst
    · next s hs =>
      cases hst
      refine rangeAt_set h hs ?_
      unfold Sensor.hostWrite
      split
      · next hi => exact .inr (.inr ⟨_, _, _, _, hi, rfl⟩)
      · exact .inl rfl
    · cases hst; exact h
  | manual j b => cases hst; rw [onZone_w]; exact h
  | enable j l b => cases hst; rw [onZone_w]; exact h
  | tick j =>
    simp only [Daemon.step] at hst
    split at hst
    · next z cnt hj =>
      obtain ⟨⟨w', z', cnt'⟩, g1, hst⟩ := bind_eq_ok.1 hst
      cases hst
      exact (rangedZone_tick h0 h1 h2 g1 (hz j z cnt hj) h).2
    · cases hst; exact h

theorem ranged_run {o : Opts} {n p : String} {lo hi : Int} (h0 : 0 ≤ lo) (h1 : lo ≤ hi) (h2 : hi ≤ 2 ^ 53) :
    ∀ {es : List DEvent} {d d' : Daemon}, d.run o es = .ok d' →
    (∀ j z cnt, d.zones.find? j = some (z, cnt) → RangedZone n z) → RangeAt n p lo hi d.w →
    (∀ j z cnt, d'.zones.find? j = some (z, cnt) → RangedZone n z) ∧ RangeAt n p lo hi d'.w
  | [], d, d', h, hz, hr => by cases h; exact ⟨hz, hr⟩
  | e :: es, d, d', h, hz, hr => by
    obtain ⟨d1, g1, g2⟩ := bind_eq_ok.1 h
    refine ranged_run h0 h1 h2 g2 (fun j z cnt hj => ?_) (rangeAt_step h0 h1 h2 g1 hz hr)
    cases hz0 : d.zones.find? j with
    | none => rw [step_none g1 hz0] at hj; cases hj
    | some x =>
      obtain ⟨z', cnt', a1, a2⟩ := step_zone g1 (z := x.1) (cnt := x.2) hz0
      rw [hj] at a1
      cases a1
      exact rangedZone_step h0 h1 h2 a2 (hz j _ _ hz0) hr

theorem rangeAt_launched {o : Opts} {bus : BuildBus} {now : Int} {w : World} {sensors : OMap String SensorConfig}
    {pids : OMap Int PIDConf} {configs : OMap Int ZoneConfig} {d : Daemon} (hw : sensors.WF)
    (hl : Daemon.launch o bus now w sensors pids configs = .ok d) {n p : String} {c : SensorConfig}
    (hf : FanOn bus.dirs sensors n c p) (hmax : 0 < c.max) (htr : w.trace = []) : RangeAt n p c.min c.max d.w := by
  obtain ⟨m, zones, h⟩ := launch_spec hl
  obtain ⟨s, hs, hm⟩ := (C98_as_configured hw h.made n).2 c hf.configured (by rw [hf.fan]; simp)
  have hp := hf.written
  refine ⟨?_, fun k hk hkt => ?_, fun e he => by rw [h.world] at he; rw [show w.trace = [] from htr] at he; simp at he⟩
  · have hs' : d.w.sensors.find? n = some s := by rw [h.world]; exact hs
    cases hm with
    | fan _ hr hwr =>
      refine ⟨_, _, _, hs', rfl, ?_⟩
      cases hwr with
      | sysfsPercent h1 h2 h3 => exact .sysfs _
      | sysfsRaw h1 h2 h3 => omega
      | dbusPercent h1 h2 => exact .dbus _ _
      | dbusRaw h1 h2 => omega
      | nothing h1 =>
        cases hp with
        | dbus h4 => rcases h1 with h1 | h1 <;> (have := (C65_write _ _).2 h1; rw [(C65_write _ _).2 h4] at this; cases this)
        | sysfs h4 _ => rcases h1 with h1 | h1 <;> (have := (C65_write _ _).2 h1; rw [(C65_write _ _).2 h4] at this; cases this)
    | external he =>
      have := he.1
      rw [hf.fan] at this
      simp at this
    | thermal h1 _ _ =>
      rw [hf.fan] at h1
      simp at h1
  · obtain ⟨c', h1, h2, h3⟩ := launched_target hw h hkt
    exact hf.only k c' hk h1 h2 h3

theorem rangedZone_launched {o : Opts} {bus : BuildBus} {now : Int} {w : World} {sensors : OMap String SensorConfig}
    {pids : OMap Int PIDConf} {configs : OMap Int ZoneConfig} (hw : pids.WF) (hc : ∀ e ∈ pids.entries, OMap.WF e.2)
    {d : Daemon} (hl : Daemon.launch o bus now w sensors pids configs = .ok d) {n : String}
    (hs : ∀ j conf c, pids.find? j = some conf → configs.find? j = some c → SafeFor n c conf.entries)
    (j : Int) (z : Zone) (cnt : Nat) (hd : d.zones.find? j = some (z, cnt)) : RangedZone n z := by
  obtain ⟨m, zones, hL⟩ := launch_spec hl
  cases hzb : zones.find? j with
  | none => rw [hL.only j hzb] at hd; cases hd
  | some zb =>
    obtain ⟨z0, h1, h2⟩ := hL.started j zb hzb
    rw [hd] at h2
    cases h2
    have hzs := C64_zones hw hc hL.built j
    cases hp : pids.find? j with
    | none => rw [hzs.2 hp] at hzb; cases hzb
    | some conf =>
      obtain ⟨z', c, hz', hcf, hN⟩ := hzs.1 conf hp
      rw [hzb] at hz'
      cases hz'
      intro f hf hn
      rw [(start_flags h1).2, hN.fans] at hf
      obtain ⟨e, he, hfe⟩ := List.mem_map.1 hf
      obtain ⟨he, hfan⟩ := List.mem_filter.1 he
      have hfan : IsFan e := by simpa using hfan
      unfold fanOf at hfe
      split_ifs at hfe
      cases hfe
      obtain ⟨x, hx, hxn⟩ := List.mem_map.1 hn
      obtain ⟨g1, g2, g3⟩ := hs j conf c hp hcf e he hfan ⟨x, hx, hxn⟩
      refine ⟨⟨g1.slew, g1.min, g1.order, g1.max, .inr zero_percentage⟩, zb.d, _, (C80_hist hw hL.built hzb h1).inv, fun s => ?_, ?_⟩
      · exact (percentOf_of hN (percentsFor_ne_nan (fun e he => ne_nan_of_le_left (g2 e he).2) s)).holds g2 g3
      · rw [hN.failsafePercent]; exact g3

end
end Verif
