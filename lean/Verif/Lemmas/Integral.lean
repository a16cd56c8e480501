import Verif.Spec.Integral
import Verif.Lemmas.Passes

/-! # Helper lemmas: loops with an integral part -/

namespace Verif
variable [F : FloatModel]
open Dbl

/-- what a step adds to the integral -/
def increment (c : PidConf) (s r : Dbl) : Dbl := (s - r) * c.integralCoeff * c.ts

/-- the next integral -/
def nextIntegral (i : PidInfo) (s r : Dbl) : Dbl :=
  clamp (i.integral + increment i.toPidConf s r) i.integralLimit.min i.integralLimit.max

theorem increment_size {c : PidConf} (h : Integrating c) {s r : Dbl} (hs : Moderate s) (hr : Moderate r) :
    SizeUpTo (2097152 * 1048576) ((s - r) * c.integralCoeff) ∧ SizeUpTo (2097152 * 1048576 * 1024) (increment c s r) := by
  obtain ⟨_, ki, _, _⟩ := h.moderate
  obtain ⟨q, hq, hts, h1, h2⟩ := h.period
  have ht : SizeUpTo 1024 c.ts := ⟨q, hq, hts, abs_le.2 ⟨by push_cast; linarith, by push_cast; linarith⟩⟩
  have e1 := (hs.sizeUpTo.sub hr.sizeUpTo (by norm_num)).mul ki.sizeUpTo (by norm_num)
  exact ⟨e1, e1.mul ht (by norm_num)⟩

theorem ts_nonneg {c : PidConf} (h : Integrating c) : (0 : Dbl) ≤ c.ts := by
  obtain ⟨q, hq, hts, h1, _⟩ := h.period
  rw [hts, zero_eq, fin_le_fin]
  linarith

theorem increment_mono {c : PidConf} (h : Integrating c) {type : String} (hf : FacesHeat type c.integralCoeff) {s x x' : Dbl}
    (hs : Moderate s) (hx : Moderate x) (hx' : Moderate x') (hle : AsHot type x x') : increment c s x ≤ increment c s x' := by
  obtain ⟨a1, a2⟩ := increment_size h hs hx
  obtain ⟨b1, b2⟩ := increment_size h hs hx'
  unfold increment at a2 b2 ⊢
  rw [mul_comm' (s - x)] at a1 a2 ⊢
  rw [mul_comm' (s - x')] at b1 b2 ⊢
  have m2 := more_heat h.moderate.2.1 hf hs hx hx' hle
  rw [mul_comm' _ c.ts] at a2 b2 ⊢
  rw [mul_comm' _ c.ts]
  exact mul_le_mul_left_of_nonneg (ts_nonneg h) m2 a2.ne_nan b2.ne_nan

/-- what is left of the sum -/
theorem integrating_sum {i : PidInfo} (h : Integrating i.toPidConf) {r s : Dbl} (hr : Moderate r) (hs : Moderate s)
    (he : SizeUpTo 2097152 i.lastError) (hI : SizeUpTo 1048576 i.integral) :
    pidSum i r s = i.proportionalCoeff * (s - r) + nextIntegral i s r + (s + i.feedFwdOffset) * i.feedFwdGain ∧
      SizeUpTo 1048576 (nextIntegral i s r) ∧ i.integralLimit.min ≤ nextIntegral i s r ∧
      (pid i r s).2.integral = nextIntegral i s r := by
  obtain ⟨kp, ki, fo, fg⟩ := h.moderate
  obtain ⟨hi0, hd⟩ := h.terms
  obtain ⟨q, hq, hts, hper, _⟩ := h.period
  have e1 := hs.sizeUpTo.sub hr.sizeUpTo (by norm_num)
  have e2 := e1.sub he (by norm_num)
  have e3 := e2.div (hq := hq) hper (by norm_num)
  have e4 := kp.sizeUpTo.mul e1 (by norm_num)
  have z0 := zero_mul_finite (zero_mul_of_finite e3.finite)
  have hsum : i.integral + increment i.toPidConf s r ≠ nan := (hI.add (increment_size h hs hr).2 (by norm_num)).ne_nan
  obtain ⟨c1, c2, c3⟩ := clamp_size h.moderateLimits.1 h.moderateLimits.2 h.integralLimits hsum
  refine ⟨?_, c1, c2, ?_⟩
  · have e6 := e4.add c1 (by norm_num)
    have hlim : limited (i.integral + (s - r) * i.integralCoeff * i.ts) i.integralLimit.min i.integralLimit.max
        = nextIntegral i s r := rfl
    unfold pidSum
    rw [hlim, hd, hts, if_neg hi0, z0]
    exact congrArg (· + _) e6.add_zero
  · have hnz : nonZero i.integralCoeff = true := by
      unfold nonZero
      cases hb : i.integralCoeff.eqb 0 with
      | false => rfl
      | true => exact absurd (eqb_zero_iff.1 hb) hi0
    have hz : nonZero (0 : Dbl) = false := nonZero_zero
    unfold pid
    dsimp only
    rw [h.slew.1, h.slew.2, hnz, hz]
    simp only [Bool.or_self, Bool.and_false, Bool.false_eq_true, if_false, if_true]
    exact c3

theorem integrating_step {c : PidCtl} (h : Integrating c.info.toPidConf) {x s : Dbl} (hx : Moderate x) (hs : Moderate s)
    (he : SizeUpTo 2097152 c.info.lastError) (hI : SizeUpTo 1048576 c.info.integral) :
    (pidStep c s x).1 = limited (c.info.proportionalCoeff * (s - x) + nextIntegral c.info s x +
        (s + c.info.feedFwdOffset) * c.info.feedFwdGain) c.info.outLim.min c.info.outLim.max ∧
      SizeUpTo 2097152 (pidStep c s x).2.info.lastError ∧ (pidStep c s x).2.info.integral = nextIntegral c.info s x := by
  obtain ⟨h1, h2, h3⟩ := h.hysteresis
  have e : pidStep c s x = ((pid c.info x s).1, ⟨(pid c.info x s).2, x⟩) := by
    unfold pidStep calPIDOutput
    rw [h1, h2, h3]
    have : (0 : Dbl).eqb 0 = true := eqb_zero_iff.2 rfl
    simp [this]
    rfl
  obtain ⟨s1, _, _, s4⟩ := integrating_sum h hx hs he hI
  rw [e]
  refine ⟨?_, hs.sizeUpTo.sub hx.sizeUpTo (by norm_num), s4⟩
  show (pid c.info x s).1 = _
  rw [pid_out, slewed_off (.inr h.slew), s1]
  rfl

/-- how far the integral has got after `n` hot passes -/
def Wound (conf : PidConf) (N : Nat) (low step : Int) : Nat → Dbl → Prop
  | 0, _ => True
  | n + 1, I => millionths (low + (min n N : Nat) * step) ≤ I ∨ conf.integralLimit.max ≤ I

/-- the controller after `n` hot passes -/
def Winding (conf : PidConf) (N : Nat) (low step : Int) (n : Nat) (c : PidCtl) : Prop :=
  SizeUpTo 2097152 c.info.lastError ∧ SizeUpTo 1048576 c.info.integral ∧ Wound conf N low step n c.info.integral

theorem Winding.start (conf : PidConf) (N : Nat) (low step : Int) : Winding conf N low step 0 ⟨⟨conf, false, 0, 0, 0⟩, nan⟩ := by
  have z0 : ∀ n, SizeUpTo n (0 : Dbl) := fun n => ⟨0, FloatModel.rep_zero, zero_eq, by simp⟩
  exact ⟨z0 _, z0 _, trivial⟩

theorem Winding.any {N : Nat} {low step : Int} {ctl : PidCtl} (hc : Integrating ctl.info.toPidConf) {s v : Dbl} (hs : Moderate s)
    (hin : Moderate v) (h : Winding ctl.info.toPidConf N low step 0 ctl) :
    Winding ctl.info.toPidConf N low step 0 (pidStep ctl s v).2 := by
  obtain ⟨he, hI, _⟩ := h
  obtain ⟨_, st2, st3⟩ := integrating_step hc hin hs he hI
  obtain ⟨_, s2, _, _⟩ := integrating_sum hc hin hs he hI
  exact ⟨st2, by rw [st3]; exact s2, trivial⟩

/-- a pass that adds at least `step` millionths to the integral -/
theorem Winding.next {N : Nat} {low step : Int} {n : Nat} {ctl : PidCtl} (hc : Integrating ctl.info.toPidConf)
    (hl : -(2 ^ 53) ≤ low) (hs0 : 0 ≤ step) (hs1 : step ≤ 2 ^ 53) (hN : low + N * step ≤ 2 ^ 53)
    (hmin : millionths low ≤ ctl.info.integralLimit.min) (hmax : ctl.info.integralLimit.max ≤ millionths (low + N * step))
    {s input : Dbl} (hs : Moderate s) (hin : Moderate input) (h : Winding ctl.info.toPidConf N low step n ctl)
    (hi1 : millionths step ≤ increment ctl.info.toPidConf s input) :
    Winding ctl.info.toPidConf N low step (n + 1) (pidStep ctl s input).2 ∧
      (N ≤ n → woundUpAt ctl.info.toPidConf s input ≤ (pidStep ctl s input).1) := by
  obtain ⟨he, hI, hw⟩ := h
  obtain ⟨st1, st2, st3⟩ := integrating_step hc hin hs he hI
  obtain ⟨_, s2, s3, _⟩ := integrating_sum hc hin hs he hI
  have hsum : ctl.info.integral + increment ctl.info.toPidConf s input ≠ nan :=
    (hI.add (increment_size hc hs hin).2 (by norm_num)).ne_nan
  have hmx : ctl.info.integralLimit.max ≠ nan := hc.moderateLimits.2.sizeUpTo.ne_nan
  have hgoal : ∀ y, y ≤ ctl.info.integral + increment ctl.info.toPidConf s input →
      y ≤ nextIntegral ctl.info s input ∨ ctl.info.integralLimit.max ≤ nextIntegral ctl.info s input := by
    intro y hy
    have hyn := Dbl.ne_nan_of_le_left hy
    by_cases hle' : y ≤ ctl.info.integralLimit.max
    · exact .inl (clamp_ge hy hle')
    · right
      exact clamp_ge (Dbl.le_trans (Dbl.le_of_lt (Dbl.lt_of_not_le hmx hyn hle')) hy) (Dbl.le_refl hmx)
  have hnext : Wound ctl.info.toPidConf N low step (n + 1) (nextIntegral ctl.info s input) := by
    have hmono : ∀ k : Nat, (min k N : Nat) * step ≤ N * step := fun k =>
      Int.mul_le_mul_of_nonneg_right (by exact_mod_cast Nat.min_le_right k N) hs0
    have hnn : ∀ k : Nat, 0 ≤ (min k N : Nat) * step := fun k => Int.mul_nonneg (Int.natCast_nonneg _) hs0
    cases n with
    | zero =>
      left
      rw [Nat.zero_min]
      simpa using Dbl.le_trans hmin s3
    | succ n =>
      rcases hw with hw | hw
      · have hstep : low + (min n N : Nat) * step + (if n < N then step else 0) = low + (min (n + 1) N : Nat) * step := by
          split_ifs with hlt
          · rw [Nat.min_eq_left hlt.le, Nat.min_eq_left hlt]
            push_cast
            ring
          · rw [Nat.min_eq_right (by omega), Nat.min_eq_right (by omega)]
            ring
        have h0 : millionths (if n < N then step else 0) ≤ increment ctl.info.toPidConf s input := by
          split_ifs
          · exact hi1
          · refine Dbl.le_trans (ofRat_mono ?_) hi1
            have : (0 : Rat) ≤ step := by exact_mod_cast hs0
            push_cast
            rw [zero_div]
            positivity
        have := millionths_add (by have := hnn n; omega) (by have := hmono n; omega) (by split_ifs <;> omega) (by split_ifs <;> omega)
          (by rw [hstep]; have := hnn (n + 1); omega) (by rw [hstep]; have := hmono (n + 1); omega) hw h0 hsum
        rw [hstep] at this
        exact hgoal _ this
      · have h0 : (0 : Dbl) ≤ increment ctl.info.toPidConf s input := by
          refine Dbl.le_trans ?_ hi1
          rw [zero_eq, ← ofRat_rep FloatModel.rep_zero]
          have : (0 : Rat) ≤ step := by exact_mod_cast hs0
          exact ofRat_mono (by positivity)
        have := Dbl.add_le_add hw h0 (by rw [hc.moderateLimits.2.sizeUpTo.add_zero]; exact hmx) hsum
        rw [hc.moderateLimits.2.sizeUpTo.add_zero] at this
        exact .inr ((hgoal _ this).elim id id)
  refine ⟨⟨st2, by rw [st3]; exact s2, by rw [st3]; exact hnext⟩, fun hNn => ?_⟩
  have hfull : ctl.info.integralLimit.max ≤ nextIntegral ctl.info s input := by
    rcases hnext with hn | hn
    · rw [Nat.min_eq_right hNn] at hn
      exact Dbl.le_trans hmax hn
    · exact hn
  rw [st1]
  obtain ⟨kp, _, fo, fg⟩ := hc.moderate
  have e1 := hs.sizeUpTo.sub hin.sizeUpTo (by norm_num)
  have e4 := kp.sizeUpTo.mul e1 (by norm_num)
  have e5 := (hs.sizeUpTo.add fo.sizeUpTo (by norm_num)).mul fg.sizeUpTo (by norm_num)
  have f1 := e4.add hc.moderateLimits.2.sizeUpTo (by norm_num)
  have f2 := e4.add s2 (by norm_num)
  exact clamp_mono hc.limits (Dbl.add_le_add (Dbl.add_le_add (Dbl.le_refl e4.ne_nan) hfull f1.ne_nan f2.ne_nan)
    (Dbl.le_refl e5.ne_nan) (f1.add e5 (by norm_num)).ne_nan (f2.add e5 (by norm_num)).ne_nan)

theorem winding {type : String} {conf : PidConf} {s x : Dbl} (hc : Integrating conf) (hkp : FacesHeat type conf.proportionalCoeff)
    (hki : FacesHeat type conf.integralCoeff) (hs : Moderate s) (hx : Moderate x) {N : Nat} {low step : Int} (hl : -(2 ^ 53) ≤ low)
    (hs0 : 0 ≤ step) (hs1 : step ≤ 2 ^ 53) (hN : low + N * step ≤ 2 ^ 53) (hmin : millionths low ≤ conf.integralLimit.min)
    (hinc : millionths step ≤ (s - x) * conf.integralCoeff * conf.ts)
    (hmax : conf.integralLimit.max ≤ millionths (low + N * step)) :
    HeatsUp type conf s x (woundUpAt conf s x) N (Winding conf N low step) := by
  refine ⟨.start .., ?_, ?_⟩
  · rintro ctl v rfl h hin
    exact h.any hc hs hin
  · rintro n ctl input rfl h hin hxi
    obtain ⟨a, b⟩ := h.next hc hl hs0 hs1 hN hmin hmax hs hin (Dbl.le_trans hinc (increment_mono hc hki hs hx hin hxi))
    refine ⟨a, fun hn => Dbl.le_trans ?_ (b hn)⟩
    obtain ⟨kp, _, fo, fg⟩ := hc.moderate
    have e4 := kp.sizeUpTo.mul (hs.sizeUpTo.sub hx.sizeUpTo (by norm_num)) (by norm_num)
    have e4' := kp.sizeUpTo.mul (hs.sizeUpTo.sub hin.sizeUpTo (by norm_num)) (by norm_num)
    have e5 := (hs.sizeUpTo.add fo.sizeUpTo (by norm_num)).mul fg.sizeUpTo (by norm_num)
    have m2 := more_heat kp hkp hs hx hin hxi
    have f1 := e4.add hc.moderateLimits.2.sizeUpTo (by norm_num)
    have f2 := e4'.add hc.moderateLimits.2.sizeUpTo (by norm_num)
    exact clamp_mono hc.limits (Dbl.add_le_add (Dbl.add_le_add m2 (Dbl.le_refl hc.moderateLimits.2.sizeUpTo.ne_nan) f1.ne_nan f2.ne_nan)
      (Dbl.le_refl e5.ne_nan) (f1.add e5 (by norm_num)).ne_nan (f2.add e5 (by norm_num)).ne_nan)

end Verif
