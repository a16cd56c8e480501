import Verif.Props.Pid

/-! # C08-C10: hysteresis of a control loop -/

namespace Verif
open Dbl

section
variable [F : FloatModel]

/-- **C08.** A reading above set point + positive hysteresis runs the PID computation on that reading. -/
theorem C08_above (k : PidCtl) (r s : Dbl) (hc : k.info.checkHysterWithSetpt = true)
    (h : s + k.info.positiveHysteresis < r) :
    (pidStep k s r).1 = (pid k.info r s).1 ∧ (pidStep k s r).2.info = (pid k.info r s).2 := by
  simp only [pidStep, calPIDOutput, hc, if_true, h]
  exact ⟨trivial, rfl⟩

/-- **C08.** A reading below set point - negative hysteresis (and not above the other threshold) gives output 0 and a
cleared integral. -/
theorem C08_below (k : PidCtl) (r s : Dbl) (hc : k.info.checkHysterWithSetpt = true)
    (h₁ : ¬ s + k.info.positiveHysteresis < r) (h₂ : r < s - k.info.negativeHysteresis) :
    (pidStep k s r).1 = 0 ∧ (pidStep k s r).2.info.integral = 0 ∧ (pidStep k s r).2.info.lastOutput = 0 := by
  simp only [pidStep, calPIDOutput, hc, if_true, h₁, if_false, h₂]
  exact ⟨trivial, trivial, trivial⟩

/-- **C08.** In between, the output of the step before is repeated exactly and the PID state does not move: stated for
two consecutive steps of any loop, the first of them arbitrary. -/
theorem C08_between (k : PidCtl) (r₁ s₁ r s : Dbl) (hc : k.info.checkHysterWithSetpt = true)
    (h₁ : ¬ s + k.info.positiveHysteresis < r) (h₂ : ¬ r < s - k.info.negativeHysteresis) :
    (pidStep (pidStep k s₁ r₁).2 s r).1 = (pidStep k s₁ r₁).1 ∧
      (pidStep (pidStep k s₁ r₁).2 s r).2.info = (pidStep k s₁ r₁).2.info := by
  have hconf : (pidStep k s₁ r₁).2.info.toPidConf = k.info.toPidConf := by
    simp only [pidStep, calPIDOutput]
    split_ifs <;> rfl
  have hlast : (pidStep k s₁ r₁).2.info.lastOutput = (pidStep k s₁ r₁).1 := rfl
  generalize pidStep k s₁ r₁ = q at hconf hlast
  have hc' : q.2.info.checkHysterWithSetpt = true := by rw [hconf]; exact hc
  have h₁' : ¬ s + q.2.info.positiveHysteresis < r := by rw [hconf]; exact h₁
  have h₂' : ¬ r < s - q.2.info.negativeHysteresis := by rw [hconf]; exact h₂
  simp only [pidStep, calPIDOutput, hc', if_true, h₁', if_false, h₂']
  exact ⟨hlast, trivial⟩

/-- **C08.** Over any history a loop without slew limiting that checks against the set point only emits 0, NaN or
values inside the output limits. -/
theorem C08_outputs (c : PidConf) (hc : c.checkHysterWithSetpt = true) (hl : c.outLim.min ≤ c.outLim.max)
    (h₁ : c.slewNeg = 0) (h₂ : c.slewPos = 0) (hist : List (Dbl × Dbl)) :
    ∀ o ∈ loopRun (freshLoop c) hist, o = 0 ∨ o = nan ∨ (c.outLim.min ≤ o ∧ o ≤ c.outLim.max) := by
  have key : ∀ (hist : List (Dbl × Dbl)) (k : PidCtl), k.info.toPidConf = c →
      (k.info.lastOutput = 0 ∨ InLimits c.outLim k.info.lastOutput) →
      ∀ o ∈ loopRun k hist, o = 0 ∨ InLimits c.outLim o := by
    intro hist
    induction hist with
    | nil => intro k _ _ o ho; simp [loopRun] at ho
    | cons p t ih =>
      intro k hk hinv o ho
      have hck : k.info.checkHysterWithSetpt = true := by rw [hk]; exact hc
      have step : (pidStep k p.2 p.1).2.info.toPidConf = c ∧ ((pidStep k p.2 p.1).1 = 0 ∨ InLimits c.outLim (pidStep k p.2 p.1).1) := by
        by_cases a : p.2 + k.info.positiveHysteresis < p.1
        · obtain ⟨e1, e2⟩ := C08_above k p.1 p.2 hck a
          rw [e1, e2]
          refine ⟨by simp [hk], Or.inr ?_⟩
          rw [pid_out, slewed_off (Or.inr (by rw [hk]; exact ⟨h₁, h₂⟩)), hk]
          exact clamp_inLimits hl _
        · by_cases b : p.1 < p.2 - k.info.negativeHysteresis
          · refine ⟨?_, Or.inl (C08_below k p.1 p.2 hck a b).1⟩
            simp only [pidStep, calPIDOutput, hck, if_true, a, if_false, b]; exact hk
          · simp only [pidStep, calPIDOutput, hck, if_true, a, if_false, b]
            exact ⟨hk, hinv⟩
      simp only [loopRun, List.mem_cons] at ho
      rcases ho with rfl | ho
      · exact step.2
      · exact ih _ step.1 step.2 o ho
  exact key hist _ rfl (Or.inl rfl)

/-- **C08** with slew limiting: the outputs stay inside the smallest interval containing 0 and the output limits. -/
theorem C08_outputs_slew (c : PidConf) (hc : c.checkHysterWithSetpt = true) (hl : c.outLim.min ≤ c.outLim.max)
    (hs : SaneSlew c) (lo hi : Dbl) (hlo : lo ≤ c.outLim.min) (hlo0 : lo ≤ 0) (hhi : c.outLim.max ≤ hi) (hhi0 : 0 ≤ hi)
    (hist : List (Dbl × Dbl)) :
    ∀ o ∈ loopRun (freshLoop c) hist, o = nan ∨ (lo ≤ o ∧ o ≤ hi) := by
  have key : ∀ (hist : List (Dbl × Dbl)) (k : PidCtl), k.info.toPidConf = c → InLimits ⟨lo, hi⟩ k.info.lastOutput →
      ∀ o ∈ loopRun k hist, InLimits ⟨lo, hi⟩ o := by
    intro hist
    induction hist with
    | nil => intro k _ _ o ho; simp [loopRun] at ho
    | cons p t ih =>
      intro k hk hinv o ho
      have hck : k.info.checkHysterWithSetpt = true := by rw [hk]; exact hc
      have step : (pidStep k p.2 p.1).2.info.toPidConf = c ∧ InLimits ⟨lo, hi⟩ (pidStep k p.2 p.1).1 := by
        by_cases a : p.2 + k.info.positiveHysteresis < p.1
        · obtain ⟨e1, e2⟩ := C08_above k p.1 p.2 hck a
          rw [e1, e2]
          refine ⟨by simp [hk], ?_⟩
          rw [pid_out]
          apply slewed_inLimits (by rw [hk]; exact hs) (fun _ => hinv)
          rw [hk]
          rcases clamp_inLimits hl (pidSum k.info p.1 p.2) with h | h
          · exact Or.inl h
          · exact Or.inr ⟨le_trans hlo h.1, le_trans h.2 hhi⟩
        · by_cases b : p.1 < p.2 - k.info.negativeHysteresis
          · refine ⟨?_, ?_⟩
            · simp only [pidStep, calPIDOutput, hck, if_true, a, if_false, b]; exact hk
            · rw [(C08_below k p.1 p.2 hck a b).1]; exact Or.inr ⟨hlo0, hhi0⟩
          · simp only [pidStep, calPIDOutput, hck, if_true, a, if_false, b]
            exact ⟨hk, hinv⟩
      simp only [loopRun, List.mem_cons] at ho
      rcases ho with rfl | ho
      · exact step.2
      · exact ih _ step.1 step.2 o ho
  exact key hist _ rfl (Or.inr ⟨hlo0, hhi0⟩)

end

section
attribute [local instance] binary64

/-- set-point hysteresis +2 / -3 -/
def exHyst : PidConf :=
  { exConf with checkHysterWithSetpt := true, positiveHysteresis := 2, negativeHysteresis := 3, slewNeg := 0, slewPos := 0 }

/-- all three regions occur: below, between (repeats 0), above, between (repeats), below -/
example : exHyst.checkHysterWithSetpt = true ∧ exHyst.outLim.min ≤ exHyst.outLim.max ∧
    loopRun (freshLoop exHyst) [(60, 70), (71, 70), (75, 70), (69, 70), (60, 70)] = [0, 0, 209 / 4, 209 / 4, 0] := by
  refine ⟨rfl, by decide +kernel, by decide +kernel⟩

/-- The output limits alone do not bound the outputs when the set-point check is combined with slew limiting: after the
loop was switched off (output 0) the slew limiter lets the next output start from 0, below the minimum 20. -/
theorem C08_slew_below_minimum : ∃ (c : PidConf) (hist : List (Dbl × Dbl)), c.checkHysterWithSetpt = true ∧ SaneSlew c ∧
    c.outLim.min ≤ c.outLim.max ∧ ∃ o ∈ loopRun (freshLoop c) hist, o ≠ 0 ∧ o ≠ nan ∧ o < c.outLim.min :=
  ⟨{ exHyst with slewNeg := -10, slewPos := 5 }, [(80, 70), (60, 70), (80, 70)], rfl,
    ⟨by decide +kernel, by decide +kernel, by decide +kernel⟩, by decide +kernel, 5,
    by decide +kernel, by decide +kernel, by decide +kernel, by decide +kernel⟩

example : let c := { exHyst with slewNeg := -10, slewPos := 5 }
    SaneSlew c ∧ (0 : Dbl) ≤ c.outLim.min ∧ (0 : Dbl) ≤ 0 ∧ c.outLim.max ≤ 90 ∧ (0 : Dbl) ≤ 90 := by
  refine ⟨⟨?_, ?_, ?_⟩, ?_, ?_, ?_, ?_⟩ <;> decide +kernel

end

section
variable [F : FloatModel]

/-- **C09.** With a nonzero hysteresis and finite readings, over any history the loop equals the bare PID computation on
readings that follow the hysteresis rule (`HystTrack`): at each step the reading used is the current one, or an earlier
one from which the current one differs by at most the hysteresis, and it is replaced only when it differs by more. -/
theorem C09_latched_reading (c : PidConf) (hc : c.checkHysterWithSetpt = false)
    (hz : ¬ (c.positiveHysteresis = 0 ∧ c.negativeHysteresis = 0)) (hist : List (Dbl × Dbl))
    (hf : ∀ p ∈ hist, p.1.isFinite = true) :
    ∃ used, HystTrack c.positiveHysteresis c.negativeHysteresis none (hist.map Prod.fst) used ∧
      loopRun (freshLoop c) hist = pidRun (initializePIDStruct c) (used.zip (hist.map Prod.snd)) := by
  have hb : (Dbl.eqb c.positiveHysteresis 0 && Dbl.eqb c.negativeHysteresis 0) = false := by
    rw [← Bool.not_eq_true, Bool.and_eq_true, eqb_zero_iff, eqb_zero_iff]; exact hz
  have step : ∀ (k : PidCtl) (r s : Dbl), k.info.toPidConf = c →
      ∃ u, (u = if !k.lastInput.isFinite then r else if c.positiveHysteresis < r - k.lastInput then r
          else if c.negativeHysteresis < k.lastInput - r then r else k.lastInput) ∧
        (pidStep k s r).1 = (pid k.info u s).1 ∧ (pidStep k s r).2 = ⟨(pid k.info u s).2, u⟩ := by
    intro k r s hk
    subst hk
    refine ⟨_, rfl, ?_, ?_⟩ <;> simp only [pidStep, calPIDOutput, hc, hb, Bool.false_eq_true, if_false] <;> rfl
  have key : ∀ (hist : List (Dbl × Dbl)) (k : PidCtl), k.info.toPidConf = c → k.lastInput.isFinite = true →
      (∀ p ∈ hist, p.1.isFinite = true) →
      ∃ used, HystTrack c.positiveHysteresis c.negativeHysteresis (some k.lastInput) (hist.map Prod.fst) used ∧
        loopRun k hist = pidRun k.info (used.zip (hist.map Prod.snd)) := by
    intro hist
    induction hist with
    | nil => intro k _ _ _; exact ⟨[], HystTrack.nil _, rfl⟩
    | cons p t ih =>
      intro k hk hfin hf
      obtain ⟨r, s⟩ := p
      obtain ⟨u, hu, e1, e2⟩ := step k r s hk
      have hr : r.isFinite = true := hf (r, s) (by simp)
      simp only [hfin, Bool.not_true, Bool.false_eq_true, if_false] at hu
      have huf : u.isFinite = true := by rw [hu]; split_ifs <;> assumption
      obtain ⟨used, h1, h2⟩ := ih (pidStep k s r).2 (by rw [e2]; simp [hk]) (by rw [e2]; exact huf)
        (fun p hp => hf p (by simp [hp]))
      rw [e2] at h1 h2
      refine ⟨u :: used, ?_, ?_⟩
      · by_cases a : c.positiveHysteresis < r - k.lastInput
        · rw [if_pos a] at hu; subst hu; exact HystTrack.move (Or.inl a) h1
        · rw [if_neg a] at hu
          by_cases b : c.negativeHysteresis < k.lastInput - r
          · rw [if_pos b] at hu; subst hu; exact HystTrack.move (Or.inr b) h1
          · rw [if_neg b] at hu; subst hu; exact HystTrack.keep a b h1
      · simp only [loopRun, List.map, List.zip_cons_cons, pidRun, e1, e2, h2]
  cases hist with
  | nil => exact ⟨[], HystTrack.nil _, rfl⟩
  | cons p t =>
    obtain ⟨r, s⟩ := p
    obtain ⟨u, hu, e1, e2⟩ := step (freshLoop c) r s rfl
    have hu : u = r := by simpa [freshLoop, isFinite] using hu
    subst hu
    obtain ⟨used, h1, h2⟩ := key t (pidStep (freshLoop c) s u).2 (by rw [e2]; rfl)
      (by rw [e2]; exact hf (u, s) (by simp)) (fun p hp => hf p (by simp [hp]))
    rw [e2] at h1 h2
    refine ⟨u :: used, HystTrack.first h1, ?_⟩
    simp only [loopRun, List.map, List.zip_cons_cons, pidRun, e1, e2, h2]
    rfl

/-- **C10.** With both hysteresis values 0 and the set-point check off, the loop is the bare PID computation. -/
theorem C10_zero_hysteresis_transparent (c : PidConf) (hc : c.checkHysterWithSetpt = false)
    (hp : c.positiveHysteresis = 0) (hn : c.negativeHysteresis = 0) (hist : List (Dbl × Dbl)) :
    loopRun (freshLoop c) hist = pidRun (initializePIDStruct c) hist := by
  have key : ∀ (hist : List (Dbl × Dbl)) (k : PidCtl), k.info.toPidConf = c → loopRun k hist = pidRun k.info hist := by
    intro hist
    induction hist with
    | nil => intro k _; rfl
    | cons p t ih =>
      intro k hk
      have hc' : k.info.checkHysterWithSetpt = false := by rw [hk]; exact hc
      have e : (pidStep k p.2 p.1).1 = (pid k.info p.1 p.2).1 ∧ (pidStep k p.2 p.1).2.info = (pid k.info p.1 p.2).2 := by
        have hb : (Dbl.eqb k.info.positiveHysteresis 0 && Dbl.eqb k.info.negativeHysteresis 0) = true := by
          rw [hk, Bool.and_eq_true, eqb_zero_iff, eqb_zero_iff]; exact ⟨hp, hn⟩
        simp only [pidStep, calPIDOutput, hc', hb, Bool.false_eq_true, if_false, if_true]
        exact ⟨trivial, rfl⟩
      simp only [loopRun, pidRun, e.1]
      rw [ih _ (by rw [e.2]; simp [hk]), e.2]
  exact key hist _ rfl

end

section
attribute [local instance] binary64

/-- plain hysteresis +2 / -3 -/
def exPlain : PidConf := { exP with positiveHysteresis := 2, negativeHysteresis := 3 }

/-- the loop keeps computing on 75 until the reading leaves [72, 77] -/
example : exPlain.checkHysterWithSetpt = false ∧ ¬ (exPlain.positiveHysteresis = 0 ∧ exPlain.negativeHysteresis = 0) ∧
    loopRun (freshLoop exPlain) [(75, 70), (77, 70), (72, 70), (78, 70), (76, 70)] =
      pidRun (initializePIDStruct exPlain) [(75, 70), (75, 70), (75, 70), (78, 70), (78, 70)] ∧
    loopRun (freshLoop exPlain) [(75, 70), (77, 70), (72, 70), (78, 70), (76, 70)] = [51, 51, 51, 60, 60] := by
  refine ⟨rfl, by decide +kernel, by decide +kernel, by decide +kernel⟩

example : exConf.checkHysterWithSetpt = false ∧ exConf.positiveHysteresis = 0 ∧ exConf.negativeHysteresis = 0 := by
  refine ⟨rfl, rfl, rfl⟩

end

end Verif
