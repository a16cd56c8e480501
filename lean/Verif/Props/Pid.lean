import Verif.Lemmas.Pid
import Verif.Base.Binary64

/-!
# C01-C07: the PID computation

Each theorem is followed by an `example` showing that its hypotheses are met by a concrete non-trivial case.
-/

namespace Verif
open Dbl

section
variable [F : FloatModel]

/-- example configuration: limits [20, 90], slew -10/+5 per second -/
def exConf : PidConf :=
  { checkHysterWithSetpt := false, ts := 1, proportionalCoeff := -3, integralCoeff := -1 / 4, derivativeCoeff := 0,
    feedFwdOffset := 2, feedFwdGain := 1 / 2, integralLimit := ⟨-5, 25⟩, outLim := ⟨20, 90⟩,
    slewNeg := -10, slewPos := 5, positiveHysteresis := 0, negativeHysteresis := 0 }

/-- **C01.** From a fresh configuration, every output of every history is inside the output limits or NaN. -/
theorem C01_output_in_limits (c : PidConf) (hl : c.outLim.min ≤ c.outLim.max) (hs : SaneSlew c)
    (hist : List (Dbl × Dbl)) : ∀ o ∈ pidRun (initializePIDStruct c) hist, o = nan ∨ (c.outLim.min ≤ o ∧ o ≤ c.outLim.max) :=
  pidRun_inLimits hist ⟨hl, hs, by simp [initializePIDStruct]⟩

/-- **C01**, without the slew-sign hypothesis when slew limiting is off. -/
theorem C01_output_in_limits_noslew (c : PidConf) (hl : c.outLim.min ≤ c.outLim.max)
    (h₁ : c.slewNeg = 0) (h₂ : c.slewPos = 0) (hist : List (Dbl × Dbl)) :
    ∀ o ∈ pidRun (initializePIDStruct c) hist, o = nan ∨ (c.outLim.min ≤ o ∧ o ≤ c.outLim.max) := by
  have key : ∀ (hist : List (Dbl × Dbl)) (i : PidInfo), i.toPidConf = c →
      ∀ o ∈ pidRun i hist, o = nan ∨ (c.outLim.min ≤ o ∧ o ≤ c.outLim.max) := by
    intro hist
    induction hist with
    | nil => intro i _ o ho; simp [pidRun] at ho
    | cons p t ih =>
      intro i hi o ho
      simp only [pidRun, List.mem_cons] at ho
      rcases ho with rfl | ho
      · rw [pid_out, slewed_off (Or.inr (by rw [hi]; exact ⟨h₁, h₂⟩)), hi]
        exact clamp_inLimits hl _
      · exact ih _ (by simp [hi]) o ho
  exact key hist _ rfl

/-- **C01** at the level of a control loop with plain hysteresis (set-point check off). -/
theorem C01_loop_output_in_limits (c : PidConf) (hc : c.checkHysterWithSetpt = false)
    (hl : c.outLim.min ≤ c.outLim.max) (hs : SaneSlew c) (hist : List (Dbl × Dbl)) :
    ∀ o ∈ loopRun (freshLoop c) hist, o = nan ∨ (c.outLim.min ≤ o ∧ o ≤ c.outLim.max) := by
  have key : ∀ (hist : List (Dbl × Dbl)) (k : PidCtl), k.info.toPidConf = c → LimInv k.info →
      ∀ o ∈ loopRun k hist, InLimits c.outLim o := by
    intro hist
    induction hist with
    | nil => intro k _ _ o ho; simp [loopRun] at ho
    | cons p t ih =>
      intro k hk hinv o ho
      have step : ∃ r', (pidStep k p.2 p.1).1 = (pid k.info r' p.2).1 ∧
          (pidStep k p.2 p.1).2.info = (pid k.info r' p.2).2 := by
        have hck : k.info.checkHysterWithSetpt = false := by rw [hk]; exact hc
        simp only [pidStep, calPIDOutput, hck, Bool.false_eq_true, if_false]
        split_ifs <;> exact ⟨_, rfl, rfl⟩
      obtain ⟨r', e1, e2⟩ := step
      have hp := pid_limInv hinv r' p.2
      simp only [loopRun, List.mem_cons] at ho
      rcases ho with rfl | ho
      · rw [e1]; have := hp.1; rwa [hk] at this
      · exact ih _ (by rw [e2]; simp [hk]) (by rw [e2]; exact hp.2) o ho
  exact key hist _ rfl ⟨hl, hs, by simp [freshLoop, initializePIDStruct]⟩

end

section
attribute [local instance] binary64

example : exConf.outLim.min ≤ exConf.outLim.max ∧ SaneSlew exConf ∧
    pidRun (initializePIDStruct exConf) [(80, 70), (40, 70), (95, 70), (60, 70), (nan, 70)] ≠ [] := by
  refine ⟨by decide +kernel, ⟨by decide +kernel, by decide +kernel, by decide +kernel⟩, by simp [pidRun]⟩

/-- the limits and the slew rates are both active in this history -/
example : pidRun (initializePIDStruct exConf) [(80, 70), (40, 70), (95, 70), (60, 70)] =
    [137 / 2, 117 / 2, 127 / 2, 107 / 2] := by decide +kernel

end

section
variable [F : FloatModel]

/-- **C02.** After every computation from any state the stored integral is inside the integral limits or NaN. -/
theorem C02_integral_in_limits (i : PidInfo) (hl : i.integralLimit.min ≤ i.integralLimit.max) (r s : Dbl) :
    (pid i r s).2.integral = nan ∨
      (i.integralLimit.min ≤ (pid i r s).2.integral ∧ (pid i r s).2.integral ≤ i.integralLimit.max) :=
  clamp_inLimits hl _

/-- **C02** for a control loop over any history: the integral is inside its limits, NaN, or (when the set-point
hysteresis switched the loop off) 0. -/
theorem C02_loop_integral_in_limits (c : PidConf) (hl : c.integralLimit.min ≤ c.integralLimit.max)
    (hist : List (Dbl × Dbl)) :
    (loopAfter (freshLoop c) hist).info.integral = 0 ∨ (loopAfter (freshLoop c) hist).info.integral = nan ∨
      (c.integralLimit.min ≤ (loopAfter (freshLoop c) hist).info.integral ∧
        (loopAfter (freshLoop c) hist).info.integral ≤ c.integralLimit.max) := by
  have key : ∀ (hist : List (Dbl × Dbl)) (k : PidCtl), k.info.toPidConf = c →
      (k.info.integral = 0 ∨ InLimits c.integralLimit k.info.integral) →
      ((loopAfter k hist).info.integral = 0 ∨ InLimits c.integralLimit (loopAfter k hist).info.integral) := by
    intro hist
    induction hist with
    | nil => intro k _ h; exact h
    | cons p t ih =>
      intro k hk hinv
      have hck : k.info.integralLimit.min ≤ k.info.integralLimit.max := by rw [hk]; exact hl
      have step : (pidStep k p.2 p.1).2.info.toPidConf = c ∧
          ((pidStep k p.2 p.1).2.info.integral = 0 ∨ InLimits c.integralLimit (pidStep k p.2 p.1).2.info.integral) := by
        have h2 := fun r => C02_integral_in_limits k.info hck r p.2
        simp only [pidStep, calPIDOutput]
        split_ifs <;> refine ⟨hk, ?_⟩ <;>
          first
          | exact Or.inl rfl
          | exact hinv
          | (right; have := h2 p.1; rw [hk] at this; exact this)
          | (right; have := h2 k.lastInput; rw [hk] at this; exact this)
      exact ih _ step.1 step.2
  exact key hist _ rfl (Or.inl rfl)

/-- **C03.** From the second computation on the change of the output is slew limited; the first is not. -/
theorem C03_slew (i : PidInfo) (hs : SaneSlew i.toPidConf) (r₁ s₁ r₂ s₂ : Dbl) :
    let o₁ := (pid i r₁ s₁).1
    let o₂ := (pid (pid i r₁ s₁).2 r₂ s₂).1
    (i.slewPos ≠ 0 → o₂ ≠ nan → o₁ + i.slewPos * i.ts ≠ nan → o₂ ≤ o₁ + i.slewPos * i.ts) ∧
    (i.slewNeg ≠ 0 → o₂ ≠ nan → o₁ + i.slewNeg * i.ts ≠ nan → o₁ + i.slewNeg * i.ts ≤ o₂) := by
  intro o₁ o₂
  have e : o₂ = slewed (pid i r₁ s₁).2 (clamp (pidSum (pid i r₁ s₁).2 r₂ s₂) i.outLim.min i.outLim.max) := pid_out _ _ _
  generalize clamp (pidSum (pid i r₁ s₁).2 r₂ s₂) i.outLim.min i.outLim.max = x at e
  have e2 : slewed (pid i r₁ s₁).2 x =
      (let o := if nonZero i.slewNeg then (if x < o₁ + i.slewNeg * i.ts then o₁ + i.slewNeg * i.ts else x) else x
       if nonZero i.slewPos then (if o₁ + i.slewPos * i.ts < o then o₁ + i.slewPos * i.ts else o) else o) := rfl
  rw [e2] at e
  simp only [ite_nonZero] at e
  constructor
  · intro hp hn hb
    rw [if_neg hp] at e
    rw [e] at hn ⊢
    generalize (if i.slewNeg = 0 then x else if x < o₁ + i.slewNeg * i.ts then o₁ + i.slewNeg * i.ts else x) = y at hn ⊢
    split_ifs at hn ⊢ with c
    · exact le_refl hb
    · exact le_of_not_lt hn hb c
  · intro hp hn hb
    rw [if_neg hp] at e
    have hy : ∀ y, (if x < o₁ + i.slewNeg * i.ts then o₁ + i.slewNeg * i.ts else x) = y → y ≠ nan → o₁ + i.slewNeg * i.ts ≤ y := by
      intro y hy hyn
      split_ifs at hy with c
      · rw [← hy]; exact le_refl hb
      · subst hy; exact le_of_not_lt hb hyn c
    generalize hyy : (if x < o₁ + i.slewNeg * i.ts then o₁ + i.slewNeg * i.ts else x) = y at e
    have hy := hy y hyy
    rw [e] at hn ⊢
    split_ifs at hn ⊢ with a b
    · exact hy hn
    · have n2 := add_ne_nan_right hn
      have n3 := add_ne_nan_right hb
      exact le_trans (add_zero_le (mul_nonpos_of hs.1 hs.2.2 n3) hb) (le_add_nonneg (mul_nonneg_of hs.2.1 hs.2.2 n2) hn)
    · exact hy hn

/-- **C03**, first computation: not slew limited. -/
theorem C03_first_not_slewed (c : PidConf) (r s : Dbl) :
    (pid (initializePIDStruct c) r s).1 = limited (pidSum (initializePIDStruct c) r s) c.outLim.min c.outLim.max := by
  rw [pid_out, slewed_off (Or.inl rfl)]; rfl

end

section
attribute [local instance] binary64

/-- slew limits bind: unlimited the second output would be 20 and the fourth 90 -/
example : SaneSlew exConf ∧ exConf.slewPos ≠ 0 ∧ exConf.slewNeg ≠ 0 ∧
    pidRun (initializePIDStruct exConf) [(80, 70), (40, 70)] = [137 / 2, 117 / 2] := by
  refine ⟨⟨by decide +kernel, by decide +kernel, by decide +kernel⟩, by decide +kernel, by decide +kernel, by decide +kernel⟩

example : (exConf.integralLimit.min ≤ exConf.integralLimit.max) ∧
    (pidAfter (initializePIDStruct exConf) [(80, 70), (95, 70), (99, 70)]).integral = -5 := by
  refine ⟨by decide +kernel, by decide +kernel⟩

end

section
variable [F : FloatModel]

theorem zero_mul_finite {x : Dbl} (h : 0 * x ≠ nan) : (0 : Dbl) * x = 0 := by
  rw [zero_eq] at *
  cases x with
  | fin q hq => rw [fin_mul_fin]; simp [ofRat_rep FloatModel.rep_zero]
  | _ => simp [mul_def, Dbl.mul, sgn, infOfSign] at h

theorem zero_mul_of_finite {x : Dbl} (h : x.isFinite = true) : (0 : Dbl) * x ≠ nan := by
  rw [zero_eq]
  cases x with
  | fin q hq => rw [fin_mul_fin]; exact ofRat_ne_nan _
  | _ => simp [isFinite] at h

/-- The output of a proportional/feed-forward loop, in terms of reading and set point only. -/
def memorylessOut (c : PidConf) (r s : Dbl) : Dbl :=
  limited (c.proportionalCoeff * (s - r) + 0 + 0 + (s + c.feedFwdOffset) * c.feedFwdGain) c.outLim.min c.outLim.max

/-- **C04.** With integral and derivative coefficients 0 and no slew limiting, the output after any history is a
function of the current reading and set point alone, provided the error's rate of change is finite. -/
theorem C04_memoryless (c : PidConf) (hi : c.integralCoeff = 0) (hd : c.derivativeCoeff = 0)
    (h₁ : c.slewNeg = 0) (h₂ : c.slewPos = 0) (hist : List (Dbl × Dbl)) (r s : Dbl)
    (hf : (((s - r) - (pidAfter (initializePIDStruct c) hist).lastError) / c.ts).isFinite = true) :
    (pid (pidAfter (initializePIDStruct c) hist) r s).1 = memorylessOut c r s := by
  have hc : ∀ (hist : List (Dbl × Dbl)) (i : PidInfo), (pidAfter i hist).toPidConf = i.toPidConf := by
    intro hist
    induction hist with
    | nil => intro i; rfl
    | cons p t ih => intro i; simp [pidAfter, ih]
  have hc := hc hist (initializePIDStruct c)
  generalize pidAfter (initializePIDStruct c) hist = j at hc hf
  have hc : j.toPidConf = c := hc
  rw [pid_out, slewed_off (Or.inr (by rw [hc]; exact ⟨h₁, h₂⟩))]
  unfold pidSum memorylessOut
  rw [hc, if_pos hi, hd, zero_mul_finite (zero_mul_of_finite hf), limited_eq]

/-- **C04**, two histories: the outputs agree unless one of them is NaN. -/
theorem C04_two_histories (c : PidConf) (hi : c.integralCoeff = 0) (hd : c.derivativeCoeff = 0)
    (h₁ : c.slewNeg = 0) (h₂ : c.slewPos = 0) (i j : PidInfo) (ei : i.toPidConf = c) (ej : j.toPidConf = c)
    (r s : Dbl) (ni : (pid i r s).1 ≠ nan) (nj : (pid j r s).1 ≠ nan) : (pid i r s).1 = (pid j r s).1 := by
  have key : ∀ i : PidInfo, i.toPidConf = c → (pid i r s).1 ≠ nan → (pid i r s).1 = memorylessOut c r s := by
    intro i ei ni
    rw [pid_out, slewed_off (Or.inr (by rw [ei]; exact ⟨h₁, h₂⟩))] at ni ⊢
    have n1 := ne_nan_of_clamp ni
    unfold pidSum at n1 ⊢
    rw [ei, if_pos hi, hd] at n1 ⊢
    have n2 := zero_mul_finite (add_ne_nan_right (add_ne_nan_left n1))
    rw [n2]; rfl
  rw [key i ei ni, key j ej nj]

end

section
attribute [local instance] binary64

/-- a loop with only proportional and feed-forward part -/
def exP : PidConf := { exConf with integralCoeff := 0, derivativeCoeff := 0, slewNeg := 0, slewPos := 0 }

example : exP.integralCoeff = 0 ∧ exP.derivativeCoeff = 0 ∧ exP.slewNeg = 0 ∧ exP.slewPos = 0 ∧
    (((70 - 80) - (pidAfter (initializePIDStruct exP) [(75, 70), (10, 70)]).lastError) / exP.ts).isFinite = true ∧
    memorylessOut exP 80 70 = 66 := by
  refine ⟨rfl, rfl, rfl, rfl, by decide +kernel, by decide +kernel⟩

/-- The finiteness proviso of C04 is needed: one NaN reading makes the *next* output NaN too, although the
derivative coefficient is 0 (`0 * NaN` is NaN). -/
theorem C04_needs_finite : ∃ (c : PidConf) (r s : Dbl), c.integralCoeff = 0 ∧ c.derivativeCoeff = 0 ∧ c.slewNeg = 0 ∧
    c.slewPos = 0 ∧ (pid (pidAfter (initializePIDStruct c) [(nan, 70)]) r s).1 = nan ∧
    (pid (initializePIDStruct c) r s).1 ≠ nan :=
  ⟨exP, 80, 70, rfl, rfl, rfl, rfl, by decide +kernel, by decide +kernel⟩

end

section
variable [F : FloatModel]

/-- **C05.** For a cooling loop in any state, a higher reading never gives a lower output (limits, slew limiting and
rounding included), as long as the two outputs are numbers. -/
theorem C05_monotone (i : PidInfo) (s : Dbl) {r₁ r₂ : Dbl} (hr : r₁ ≤ r₂)
    (hp : i.proportionalCoeff ≤ 0) (hi : i.integralCoeff ≤ 0) (hd : i.derivativeCoeff ≤ 0) (ht : 0 < i.ts)
    (hil : i.integralLimit.min ≤ i.integralLimit.max) (hol : i.outLim.min ≤ i.outLim.max)
    (n₁ : (pid i r₁ s).1 ≠ nan) (n₂ : (pid i r₂ s).1 ≠ nan) : (pid i r₁ s).1 ≤ (pid i r₂ s).1 := by
  simp only [pid_out] at *
  have sn : ∀ {x}, slewed i x ≠ nan → x ≠ nan := by rintro x h rfl; exact h (slewed_nan i)
  apply slewed_mono
  apply clamp_mono hol
  have m₁ := ne_nan_of_clamp (sn n₁)
  have m₂ := ne_nan_of_clamp (sn n₂)
  unfold pidSum at *
  have a₁ := add_ne_nan_left m₁
  have a₂ := add_ne_nan_left m₂
  have b₁ := add_ne_nan_left a₁
  have b₂ := add_ne_nan_left a₂
  have d₁ := add_ne_nan_right a₁
  have d₂ := add_ne_nan_right a₂
  have p₁ := add_ne_nan_left b₁
  have p₂ := add_ne_nan_left b₂
  have q₁ := add_ne_nan_right b₁
  have q₂ := add_ne_nan_right b₂
  have e₁ := mul_ne_nan_right p₁
  have e₂ := mul_ne_nan_right p₂
  have hs := sub_ne_nan_left e₁
  have he : s - r₂ ≤ s - r₁ := sub_le_sub (le_refl hs) hr e₂ e₁
  refine Dbl.add_le_add (Dbl.add_le_add (Dbl.add_le_add ?_ ?_ b₁ b₂) ?_ a₁ a₂) (Dbl.le_refl (add_ne_nan_right m₁)) m₁ m₂
  · exact mul_le_mul_left_of_nonpos hp he p₂ p₁
  · split_ifs at q₁ q₂ ⊢ with hz
    · exact le_refl zero_ne_nan
    · apply clamp_mono hil
      have x₁ := ne_nan_of_clamp q₁
      have x₂ := ne_nan_of_clamp q₂
      have y₁ := add_ne_nan_right x₁
      have y₂ := add_ne_nan_right x₂
      refine Dbl.add_le_add (Dbl.le_refl (add_ne_nan_left x₁)) ?_ x₁ x₂
      have z₁ := mul_ne_nan_left y₁
      have z₂ := mul_ne_nan_left y₂
      rw [Dbl.mul_comm _ i.ts, Dbl.mul_comm _ i.ts] at *
      apply mul_le_mul_left_of_nonneg (le_of_lt ht) _ y₁ y₂
      rw [Dbl.mul_comm _ i.integralCoeff, Dbl.mul_comm _ i.integralCoeff] at *
      exact mul_le_mul_left_of_nonpos hi he z₂ z₁
  · have w₁ := mul_ne_nan_right d₁
    have w₂ := mul_ne_nan_right d₂
    have v₁ := div_ne_nan_left w₁
    have v₂ := div_ne_nan_left w₂
    apply mul_le_mul_left_of_nonpos hd _ d₂ d₁
    apply div_le_div_of_pos ht _ w₂ w₁
    exact sub_le_sub he (le_refl (sub_ne_nan_right v₁)) v₂ v₁

end

section
attribute [local instance] binary64

example : let i := pidAfter (initializePIDStruct { exConf with derivativeCoeff := -2 }) [(75, 70), (71, 70)]
    i.proportionalCoeff ≤ 0 ∧ i.integralCoeff ≤ 0 ∧ i.derivativeCoeff ≤ 0 ∧ 0 < i.ts ∧
    i.integralLimit.min ≤ i.integralLimit.max ∧ i.outLim.min ≤ i.outLim.max ∧
    (pid i 72 70).1 ≠ nan ∧ (pid i 73 70).1 ≠ nan ∧ (pid i 60 70).1 < (pid i 72 70).1 := by
  refine ⟨?_, ?_, ?_, ?_, ?_, ?_, ?_, ?_, ?_⟩ <;> decide +kernel

end

section
variable [F : FloatModel]

/-- **C07.** If the unlimited PID sum, the output limits and the slew bounds (when in use) are not NaN, the output is
not NaN. -/
theorem C07_no_new_nan (i : PidInfo) (r s : Dbl) (h : pidSum i r s ≠ nan) (h₁ : i.outLim.min ≠ nan)
    (h₂ : i.outLim.max ≠ nan) (h₃ : i.lastOutput + i.slewNeg * i.ts ≠ nan) (h₄ : i.lastOutput + i.slewPos * i.ts ≠ nan) :
    (pid i r s).1 ≠ nan := by
  rw [pid_out]
  have := clamp_ne_nan h h₁ h₂
  unfold slewed
  simp only []
  split_ifs <;> assumption

/-- **C07.** A NaN reading or set point gives a NaN output. -/
theorem C07_nan_reading (i : PidInfo) (r s : Dbl) (h : r = nan ∨ s = nan) : (pid i r s).1 = nan := by
  have : pidSum i r s = nan := by rcases h with rfl | rfl <;> simp [pidSum]
  rw [pid_out, this, clamp_nan, slewed_nan]

/-- **C07.** With an integral part, one NaN reading makes every later output NaN, whatever the later readings
(the integral limits do not repair a NaN integral). -/
theorem C07_poisoned_forever (c : PidConf) (hi : c.integralCoeff ≠ 0) (before after : List (Dbl × Dbl)) (s : Dbl) :
    ∀ o ∈ pidRun (pidAfter (initializePIDStruct c) (before ++ [(nan, s)])) after, o = nan := by
  have hconf : ∀ (hist : List (Dbl × Dbl)) (i : PidInfo), (pidAfter i hist).toPidConf = i.toPidConf := by
    intro hist
    induction hist with
    | nil => intro i; rfl
    | cons p t ih => intro i; simp [pidAfter, ih]
  have happ : ∀ (h : List (Dbl × Dbl)) (i : PidInfo) p, pidAfter i (h ++ [p]) = (pid (pidAfter i h) p.1 p.2).2 := by
    intro h
    induction h with
    | nil => intro i p; rfl
    | cons q t ih => intro i p; simp [pidAfter, ih]
  have hout : ∀ (i : PidInfo) (r s : Dbl), i.integralCoeff ≠ 0 → i.integral = nan → (pid i r s).1 = nan := by
    intro i r s h1 h2
    have : pidSum i r s = nan := by simp [pidSum, h1, h2, limited_eq, clamp_nan]
    rw [pid_out, this, clamp_nan, slewed_nan]
  have hint : ∀ (i : PidInfo) (r s : Dbl), i.integralCoeff ≠ 0 → (i.integral = nan ∨ r = nan) →
      (pid i r s).2.integral = nan := by
    intro i r s h1 h2
    have ho : (pid i r s).1 = nan := by
      rcases h2 with h2 | h2
      · exact hout i r s h1 h2
      · exact C07_nan_reading i r s (Or.inl h2)
    have e : (pid i r s).2.integral =
        clamp (if i.initialized && (nonZero i.slewNeg || nonZero i.slewPos)
          then (pid i r s).1 - i.proportionalCoeff * (s - r)
          else (if nonZero i.integralCoeff then
            clamp (i.integral + (s - r) * i.integralCoeff * i.ts) i.integralLimit.min i.integralLimit.max else 0))
          i.integralLimit.min i.integralLimit.max := rfl
    rw [e, ho, if_pos (nonZero_iff.2 h1)]
    split_ifs
    · simp [clamp_nan]
    · rcases h2 with h2 | h2 <;> simp [h2, clamp_nan]
  have hrun : ∀ (after : List (Dbl × Dbl)) (i : PidInfo), i.integralCoeff ≠ 0 → i.integral = nan →
      ∀ o ∈ pidRun i after, o = nan := by
    intro after
    induction after with
    | nil => intro i _ _ o ho; simp [pidRun] at ho
    | cons p t ih =>
      intro i h1 h2 o ho
      simp only [pidRun, List.mem_cons] at ho
      rcases ho with rfl | ho
      · exact hout i _ _ h1 h2
      · exact ih _ (by simpa using h1) (hint i _ _ h1 (Or.inl h2)) o ho
  have hc := hconf before (initializePIDStruct c)
  rw [happ]
  apply hrun
  · have : (pidAfter (initializePIDStruct c) before).integralCoeff = c.integralCoeff := by rw [hc]; rfl
    simpa [this] using hi
  · apply hint _ _ _ _ (Or.inr rfl)
    rw [hc]; exact hi

/-- **C07.** Without an integral part, two good readings after any state bring the output back to a number
(parameters and the two errors being finite). -/
theorem C07_recovers (i : PidInfo) (hi : i.integralCoeff = 0) (hd : i.derivativeCoeff = 0)
    (h₁ : i.slewNeg = 0) (h₂ : i.slewPos = 0) (r₁ s₁ r₂ s₂ : Dbl)
    (hf : (((s₂ - r₂) - (s₁ - r₁)) / i.ts).isFinite = true) :
    (pid (pid i r₁ s₁).2 r₂ s₂).1 = memorylessOut i.toPidConf r₂ s₂ := by
  rw [pid_out, slewed_off (Or.inr (by simp [h₁, h₂]))]
  have e := zero_mul_finite (zero_mul_of_finite hf)
  unfold pidSum memorylessOut
  rw [if_pos (show (pid i r₁ s₁).2.integralCoeff = 0 from hi), show (pid i r₁ s₁).2.derivativeCoeff = 0 from hd,
    pid_lastError, show (pid i r₁ s₁).2.ts = i.ts from rfl, e]
  rfl

end

section
attribute [local instance] binary64

example : let i := pidAfter (initializePIDStruct exConf) [(75, 70), (71, 70)]
    pidSum i 72 70 ≠ nan ∧ i.outLim.min ≠ nan ∧ i.outLim.max ≠ nan ∧ i.lastOutput + i.slewNeg * i.ts ≠ nan ∧
    i.lastOutput + i.slewPos * i.ts ≠ nan := by
  refine ⟨?_, ?_, ?_, ?_, ?_⟩ <;> decide +kernel

example : exConf.integralCoeff ≠ 0 ∧
    pidRun (initializePIDStruct exConf) [(75, 70), (nan, 70), (75, 70), (80, 70)] = [209 / 4, nan, nan, nan] := by
  refine ⟨by decide +kernel, by decide +kernel⟩

example : let i := pidAfter (initializePIDStruct exP) [(nan, 70)]
    (((70 - 80) - ((70 : Dbl) - 75)) / i.ts).isFinite = true ∧
    pidRun (initializePIDStruct exP) [(nan, 70), (75, 70), (80, 70)] = [nan, nan, 66] := by
  refine ⟨by decide +kernel, by decide +kernel⟩

end

/-! ## C06: closed form with exact arithmetic -/

section
attribute [local instance] exact

/-- magnitude inside the double range -/
abbrev Fits (q : Rat) : Prop := exact.rep q

instance (q : Rat) : Decidable (exact.rep q) := inferInstanceAs (Decidable (_ ∧ _))

/-- All intermediate values of one step are inside the double range. -/
def StepFits (c : QConf) (integral lastE r s : Rat) : Prop :=
  Fits (s - r) ∧ Fits (c.kp * (s - r)) ∧ Fits ((s - r) * c.ki) ∧ Fits ((s - r) * c.ki * c.ts) ∧
  Fits (integral + (s - r) * c.ki * c.ts) ∧ Fits ((s - r) - lastE) ∧ Fits (((s - r) - lastE) / c.ts) ∧
  Fits (c.kd * (((s - r) - lastE) / c.ts)) ∧ Fits (s + c.ffo) ∧ Fits ((s + c.ffo) * c.ffg) ∧
  Fits (c.kp * (s - r) + (integral + (s - r) * c.ki * c.ts)) ∧
  Fits (c.kp * (s - r) + (integral + (s - r) * c.ki * c.ts) + c.kd * (((s - r) - lastE) / c.ts)) ∧
  Fits (c.kp * (s - r) + (integral + (s - r) * c.ki * c.ts) + c.kd * (((s - r) - lastE) / c.ts) + (s + c.ffo) * c.ffg)

/-- Every step of the history stays inside the double range and inside the (integral and output) limits. -/
def RunFits (c : QConf) (il ol : Limits) : Rat → Rat → List (Rat × Rat) → Prop
  | _, _, [] => True
  | i, e, (r, s) :: h =>
    StepFits c i e r s ∧
    (il.min ≤ ofRat (i + (s - r) * c.ki * c.ts) ∧ ofRat (i + (s - r) * c.ki * c.ts) ≤ il.max) ∧
    (ol.min ≤ ofRat (textbookOut c i e [] r s) ∧ ofRat (textbookOut c i e [] r s) ≤ ol.max) ∧
    RunFits c il ol (i + (s - r) * c.ki * c.ts) (s - r) h

/-- the loop state corresponding to rational parameters -/
structure Matches (p : PidInfo) (c : QConf) (integral lastE : Rat) : Prop where
  kp : p.proportionalCoeff = ofRat c.kp ∧ Fits c.kp
  ki : p.integralCoeff = ofRat c.ki ∧ Fits c.ki ∧ c.ki ≠ 0
  kd : p.derivativeCoeff = ofRat c.kd ∧ Fits c.kd
  ffo : p.feedFwdOffset = ofRat c.ffo ∧ Fits c.ffo
  ffg : p.feedFwdGain = ofRat c.ffg ∧ Fits c.ffg
  ts : p.ts = ofRat c.ts ∧ Fits c.ts ∧ c.ts ≠ 0
  noslew : p.slewNeg = 0 ∧ p.slewPos = 0
  integral : p.integral = ofRat integral ∧ Fits integral
  lastE : p.lastError = ofRat lastE ∧ Fits lastE

theorem exact_add {p q : Rat} (hp : Fits p) (hq : Fits q) : (ofRat p : Dbl) + ofRat q = ofRat (p + q) := by
  rw [ofRat_rep hp, ofRat_rep hq, fin_add_fin]
theorem exact_sub {p q : Rat} (hp : Fits p) (hq : Fits q) : (ofRat p : Dbl) - ofRat q = ofRat (p - q) := by
  rw [ofRat_rep hp, ofRat_rep hq, fin_sub_fin]
theorem exact_mul {p q : Rat} (hp : Fits p) (hq : Fits q) : (ofRat p : Dbl) * ofRat q = ofRat (p * q) := by
  rw [ofRat_rep hp, ofRat_rep hq, fin_mul_fin]
theorem exact_div {p q : Rat} (hp : Fits p) (hq : Fits q) (h : q ≠ 0) : (ofRat p : Dbl) / ofRat q = ofRat (p / q) := by
  rw [ofRat_rep hp, ofRat_rep hq, fin_div_fin h]

theorem exact_step {p : PidInfo} {c : QConf} {i e r s : Rat} (m : Matches p c i e) (hr : Fits r) (hs : Fits s)
    (hf : StepFits c i e r s)
    (hil : p.integralLimit.min ≤ ofRat (i + (s - r) * c.ki * c.ts) ∧ ofRat (i + (s - r) * c.ki * c.ts) ≤ p.integralLimit.max)
    (hol : p.outLim.min ≤ ofRat (textbookOut c i e [] r s) ∧ ofRat (textbookOut c i e [] r s) ≤ p.outLim.max) :
    (pid p (ofRat r) (ofRat s)).1 = ofRat (textbookOut c i e [] r s) ∧
      Matches (pid p (ofRat r) (ofRat s)).2 c (i + (s - r) * c.ki * c.ts) (s - r) := by
  obtain ⟨f1, f2, f3, f4, f5, f6, f7, f8, f9, f10, f11, f12, f13⟩ := hf
  have hki : p.integralCoeff ≠ 0 := by
    rw [m.ki.1, ofRat_rep m.ki.2.1, zero_eq]
    intro h; injection h with h; exact m.ki.2.2 h
  have hI : clamp (p.integral + (ofRat s - ofRat r) * p.integralCoeff * p.ts) p.integralLimit.min p.integralLimit.max =
      ofRat (i + (s - r) * c.ki * c.ts) := by
    rw [m.integral.1, m.ki.1, m.ts.1, exact_sub hs hr, exact_mul f1 m.ki.2.1, exact_mul f3 m.ts.2.1,
      exact_add m.integral.2 f4]
    exact clamp_of_mem hil.1 hil.2
  have hsum : pidSum p (ofRat r) (ofRat s) = ofRat (textbookOut c i e [] r s) := by
    simp only [pidSum, limited_eq]
    rw [if_neg hki, hI, m.kp.1, m.kd.1, m.ts.1, m.ffo.1, m.ffg.1, m.lastE.1, exact_sub hs hr, exact_mul m.kp.2 f1,
      exact_sub f1 m.lastE.2, exact_div f6 m.ts.2.1 m.ts.2.2, exact_mul m.kd.2 f7, exact_add hs m.ffo.2,
      exact_mul f9 m.ffg.2, exact_add f2 f5, exact_add f11 f8, exact_add f12 f10]
    congr 1
    simp only [textbookOut, errSum, lastErr]
    ring
  constructor
  · rw [pid_out, hsum, slewed_off (Or.inr m.noslew), clamp_of_mem hol.1 hol.2]
  · have e1 : (pid p (ofRat r) (ofRat s)).2.integral = ofRat (i + (s - r) * c.ki * c.ts) := by
      have e : (pid p (ofRat r) (ofRat s)).2.integral =
        clamp (if p.initialized && (nonZero p.slewNeg || nonZero p.slewPos)
          then (pid p (ofRat r) (ofRat s)).1 - p.proportionalCoeff * (ofRat s - ofRat r)
          else (if nonZero p.integralCoeff then
            clamp (p.integral + (ofRat s - ofRat r) * p.integralCoeff * p.ts) p.integralLimit.min p.integralLimit.max else 0))
          p.integralLimit.min p.integralLimit.max := rfl
      rw [e, if_pos (nonZero_iff.2 hki), hI, m.noslew.1, m.noslew.2]
      simp only [nonZero_zero, Bool.or_false, Bool.and_false, Bool.false_eq_true, if_false]
      exact clamp_of_mem hil.1 hil.2
    exact ⟨m.kp, m.ki, m.kd, m.ffo, m.ffg, m.ts, m.noslew, ⟨e1, f5⟩, ⟨by rw [pid_lastError, exact_sub hs hr], f1⟩⟩

/-- a history of rational pairs as doubles -/
def toDblHist (h : List (Rat × Rat)) : List (Dbl × Dbl) := h.map (fun p => (ofRat p.1, ofRat p.2))

/-- **C06.** With exact arithmetic, no slew limiting and limits that are not hit, after any history `h` and for the
next reading `r` and set point `s`: the integral is the initial one plus `ki * ts` times the sum of the errors, and the
output is the textbook discrete PID sum. -/
theorem C06_textbook (p : PidInfo) (c : QConf) (i e : Rat) (m : Matches p c i e) (h : List (Rat × Rat)) (r s : Rat)
    (hfits : ∀ x ∈ h ++ [(r, s)], Fits x.1 ∧ Fits x.2)
    (hrun : RunFits c p.integralLimit p.outLim i e (h ++ [(r, s)])) :
    (pid (pidAfter p (toDblHist h)) (ofRat r) (ofRat s)).1 = ofRat (textbookOut c i e h r s) ∧
    (pidAfter p (toDblHist (h ++ [(r, s)]))).integral = ofRat (i + c.ki * c.ts * errSum (h ++ [(r, s)])) := by
  induction h generalizing p i e with
  | nil =>
    simp only [List.nil_append, List.mem_singleton, forall_eq] at hfits
    obtain ⟨h1, h2, h3, _⟩ := hrun
    have := exact_step m hfits.1 hfits.2 h1 h2 h3
    refine ⟨this.1, ?_⟩
    have := this.2.integral.1
    simp only [toDblHist, List.nil_append, List.map, pidAfter, errSum]
    rw [this]; congr 1; ring
  | cons q t ih =>
    obtain ⟨r0, s0⟩ := q
    have hq := hfits (r0, s0) (by simp)
    obtain ⟨h1, h2, h3, h4⟩ := hrun
    have st := exact_step m hq.1 hq.2 h1 h2 h3
    have := ih _ _ _ st.2 (fun x hx => hfits x (by simp_all)) h4
    refine ⟨?_, ?_⟩
    · have t1 := this.1
      simp only [toDblHist, List.map, pidAfter] at t1 ⊢
      rw [t1]; congr 1
      simp only [textbookOut, errSum, lastErr]; ring
    · have t2 := this.2
      simp only [toDblHist, List.cons_append, List.map, pidAfter, errSum] at t2 ⊢
      rw [t2]; congr 1; ring

/-- a PI loop with wide limits -/
def exPI : PidConf :=
  { exConf with integralLimit := ⟨-1000, 1000⟩, outLim := ⟨-1000, 1000⟩, slewNeg := 0, slewPos := 0, integralCoeff := -2 }

example : (pid (pidAfter (initializePIDStruct exPI) (toDblHist [(75, 70), (72, 70)])) (ofRat 71) (ofRat 70)).1 =
    ofRat (textbookOut ⟨-3, -2, 0, 2, 1 / 2, 1⟩ 0 0 [(75, 70), (72, 70)] 71 70) := by
  refine (C06_textbook (initializePIDStruct exPI) ⟨-3, -2, 0, 2, 1 / 2, 1⟩ 0 0 ?_ [(75, 70), (72, 70)] 71 70 ?_ ?_).1
  · constructor <;> decide +kernel
  · decide +kernel
  · simp only [RunFits, StepFits, Fits, List.cons_append, List.nil_append]; decide +kernel

end

end Verif
