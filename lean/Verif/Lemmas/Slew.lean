import Verif.Spec.Slew
import Verif.Lemmas.Passes

/-! # Helper lemmas: loops with slew rates -/

namespace Verif
variable [F : FloatModel]
open Dbl

/-- what is left of the sum -/
theorem slewing_sum {i : PidInfo} (h : Slewing i.toPidConf) {r s : Dbl} (hr : Moderate r) (hs : Moderate s)
    (he : SizeUpTo 2097152 i.lastError) :
    pidSum i r s = i.proportionalCoeff * (s - r) + (s + i.feedFwdOffset) * i.feedFwdGain := by
  obtain ⟨kp, fo, fg⟩ := h.moderate
  obtain ⟨hi, hd⟩ := h.terms
  obtain ⟨q, hq, hts, hper, _⟩ := h.period
  have e1 := hs.sizeUpTo.sub hr.sizeUpTo (by norm_num)
  have e2 := e1.sub he (by norm_num)
  have e3 := e2.div (hq := hq) hper (by norm_num)
  have e4 := kp.sizeUpTo.mul e1 (by norm_num)
  have z0 := zero_mul_finite (zero_mul_of_finite e3.finite)
  unfold pidSum
  rw [hi, hd, hts, if_pos rfl, z0, e4.add_zero, e4.add_zero]

theorem slewing_step {c : PidCtl} (h : Slewing c.info.toPidConf) {x s : Dbl} (hx : Moderate x) (hs : Moderate s)
    (he : SizeUpTo 2097152 c.info.lastError) :
    (pidStep c s x).1 = slewed c.info (proportionalAt c.info.toPidConf s x) ∧
      SizeUpTo 2097152 (pidStep c s x).2.info.lastError ∧ (pidStep c s x).2.info.initialized = true ∧
      (pidStep c s x).2.info.lastOutput = (pidStep c s x).1 := by
  obtain ⟨h1, h2, h3⟩ := h.hysteresis
  have e : pidStep c s x = ((pid c.info x s).1, ⟨(pid c.info x s).2, x⟩) := by
    unfold pidStep calPIDOutput
    rw [h1, h2, h3]
    have : (0 : Dbl).eqb 0 = true := eqb_zero_iff.2 rfl
    simp [this]
    rfl
  rw [e]
  refine ⟨?_, hs.sizeUpTo.sub hx.sizeUpTo (by norm_num), rfl, rfl⟩
  show (pid c.info x s).1 = _
  rw [pid_out, slewing_sum h hx hs he]
  rfl

theorem slewing_mono {type : String} {c : PidConf} (h : Slewing c) (hf : FacesHeat type c.proportionalCoeff) {x x' s : Dbl}
    (hx : Moderate x) (hx' : Moderate x') (hs : Moderate s) (hle : AsHot type x x') :
    proportionalAt c s x ≤ proportionalAt c s x' := by
  obtain ⟨kp, fo, fg⟩ := h.moderate
  have e1 := hs.sizeUpTo.sub hx.sizeUpTo (by norm_num)
  have e1' := hs.sizeUpTo.sub hx'.sizeUpTo (by norm_num)
  have e4 := kp.sizeUpTo.mul e1 (by norm_num)
  have e4' := kp.sizeUpTo.mul e1' (by norm_num)
  have e5 := (hs.sizeUpTo.add fo.sizeUpTo (by norm_num)).mul fg.sizeUpTo (by norm_num)
  exact clamp_mono h.limits (Dbl.add_le_add (more_heat kp hf hs hx hx' hle) (Dbl.le_refl e5.ne_nan) (e4.add e5 (by norm_num)).ne_nan
    (e4'.add e5 (by norm_num)).ne_nan)

/-- strictly a number within the limits -/
def Inside (l : Limits) (x : Dbl) : Prop := l.min ≤ x ∧ x ≤ l.max

theorem proportionalAt_inside {c : PidConf} (h : Slewing c) {x s : Dbl} (hx : Moderate x) (hs : Moderate s) :
    Inside c.outLim (proportionalAt c s x) := by
  obtain ⟨kp, fo, fg⟩ := h.moderate
  have e4 := kp.sizeUpTo.mul (hs.sizeUpTo.sub hx.sizeUpTo (by norm_num)) (by norm_num)
  have e5 := (hs.sizeUpTo.add fo.sizeUpTo (by norm_num)).mul fg.sizeUpTo (by norm_num)
  obtain ⟨c1, c2, _⟩ := clamp_size h.moderateLimits.1 h.moderateLimits.2 h.limits (e4.add e5 (by norm_num)).ne_nan
  exact ⟨c2, ((clamp_inLimits h.limits _).resolve_left c1.ne_nan).2⟩

/-- a slewed output is at least the target, or the last output plus the slew -/
theorem slewed_ge {i : PidInfo} {o y : Dbl} (hy : y ≤ o) (hm : i.initialized = true → i.slewPos ≠ 0 → y ≤ i.lastOutput + i.slewPos * i.ts) :
    y ≤ slewed i o := by
  unfold slewed
  dsimp only
  have h1 : y ≤ (if (i.initialized && nonZero i.slewNeg) = true then
      if o < i.lastOutput + i.slewNeg * i.ts then i.lastOutput + i.slewNeg * i.ts else o else o) := by
    split_ifs with a b
    · exact Dbl.le_trans hy (Dbl.le_of_lt b)
    · exact hy
    · exact hy
  generalize (if (i.initialized && nonZero i.slewNeg) = true then
      if o < i.lastOutput + i.slewNeg * i.ts then i.lastOutput + i.slewNeg * i.ts else o else o) = o' at h1 ⊢
  split_ifs with a b
  · rw [Bool.and_eq_true] at a
    exact hm a.1 (nonZero_iff.1 a.2)
  · exact h1
  · exact h1

/-- the controller after `n` hot passes -/
def Climbing (conf : PidConf) (y : Dbl) (N : Nat) (low step : Int) (n : Nat) (c : PidCtl) : Prop :=
  SizeUpTo 2097152 c.info.lastError ∧ (c.info.initialized = true → Inside conf.outLim c.info.lastOutput) ∧
    (1 ≤ n → c.info.initialized = true ∧
      (y ≤ c.info.lastOutput ∨ (conf.slewPos ≠ 0 ∧ millionths (low + (min n (N + 1) : Nat) * step) ≤ c.info.lastOutput)))

theorem climbing {type : String} {conf : PidConf} {s x : Dbl} (hc : Slewing conf) (hkp : FacesHeat type conf.proportionalCoeff)
    (hs : Moderate s) (hx : Moderate x) {N : Nat} {low step : Int}
    (hw : conf.slewPos = 0 ∨ (-(2 ^ 53) ≤ low ∧ 0 ≤ step ∧ low + (N + 1) * step ≤ 2 ^ 53 ∧ step ≤ 2 ^ 53 ∧
      millionths low ≤ conf.outLim.min ∧ millionths step ≤ conf.slewPos * conf.ts ∧
      proportionalAt conf s x ≤ millionths (low + (N + 1) * step))) :
    HeatsUp type conf s x (proportionalAt conf s x) N (Climbing conf (proportionalAt conf s x) N low step) := by
  have z0 : ∀ n, SizeUpTo n (0 : Dbl) := fun n => ⟨0, FloatModel.rep_zero, zero_eq, by simp⟩
  obtain ⟨q, hq, hts, hq1, hq2⟩ := hc.period
  have ht0 : (0 : Dbl) ≤ conf.ts := by rw [hts, zero_eq, fin_le_fin]; linarith
  have ht : SizeUpTo 1024 conf.ts := ⟨q, hq, hts, abs_le.2 ⟨by push_cast; linarith, by push_cast; linarith⟩⟩
  have hsane : SaneSlew conf := ⟨hc.slew.1, hc.slew.2, ht0⟩
  have hsl : SizeUpTo (1048576 * 1024) (conf.slewPos * conf.ts) := hc.moderateSlew.2.sizeUpTo.mul ht (by norm_num)
  have hst0 : (0 : Dbl) ≤ conf.slewPos * conf.ts := by
    have := mul_le_mul_left_of_nonneg ht0 hc.slew.2 (by
      rw [hts, zero_eq, fin_mul_fin]; exact ofRat_ne_nan _) (by rw [mul_comm']; exact hsl.ne_nan)
    rw [mul_comm' conf.ts conf.slewPos] at this
    have h0 : conf.ts * 0 = 0 := by rw [hts, zero_eq, fin_mul_fin, mul_zero]; exact ofRat_rep _
    rwa [h0] at this
  have hlast : ∀ {u : Dbl}, Inside conf.outLim u → SizeUpTo 1048576 u := fun hi =>
    Moderate.sizeUpTo ⟨Dbl.le_trans hc.moderateLimits.1.1 hi.1, Dbl.le_trans hi.2 hc.moderateLimits.2.2⟩
  have hsum : ∀ {u : Dbl}, Inside conf.outLim u → u + conf.slewPos * conf.ts ≠ nan := fun hi =>
    ((hlast hi).add hsl (by norm_num)).ne_nan
  have hstay : ∀ {u y : Dbl}, Inside conf.outLim u → y ≤ u → y ≤ u + conf.slewPos * conf.ts := fun hi hy =>
    Dbl.le_trans hy (le_add_nonneg hst0 (hsum hi))
  have hinside : ∀ (i : PidInfo) (o : Dbl), i.toPidConf = conf → (i.initialized = true → Inside conf.outLim i.lastOutput) →
      Inside conf.outLim o → Inside conf.outLim (slewed i o) := by
    rintro i o rfl hi ho
    have h1 : i.outLim.min ≤ slewed i o := slewed_ge ho.1 (fun h _ => hstay (hi h) (hi h).1)
    exact ⟨h1, ((slewed_inLimits hsane (fun h => .inr (hi h)) (.inr ho)).resolve_left (Dbl.ne_nan_of_le_right h1)).2⟩
  refine ⟨⟨z0 _, fun h => absurd h (by simp), fun h => absurd h (by omega)⟩, ?_, ?_⟩
  · rintro ctl v rfl ⟨he, hl, _⟩ hin
    obtain ⟨st1, st2, st3, st4⟩ := slewing_step hc hin hs he
    refine ⟨st2, fun _ => ?_, fun h => absurd h (by omega)⟩
    rw [st4, st1]
    exact hinside _ _ rfl hl (proportionalAt_inside hc hin hs)
  · rintro n ctl v rfl ⟨he, hl, hn⟩ hin hxi
    obtain ⟨st1, st2, st3, st4⟩ := slewing_step hc hin hs he
    have hout := hinside _ _ rfl hl (proportionalAt_inside hc hin hs)
    have hmono := slewing_mono hc hkp hx hin hs hxi
    have hnext : proportionalAt ctl.info.toPidConf s x ≤ (pidStep ctl s v).1 ∨ (ctl.info.slewPos ≠ 0 ∧
        millionths (low + (min (n + 1) (N + 1) : Nat) * step) ≤ (pidStep ctl s v).1) := by
      rw [st1]
      by_cases hi : ctl.info.initialized = true
      swap
      · exact .inl (slewed_ge hmono (fun h => absurd h hi))
      by_cases h0 : ctl.info.slewPos = 0
      · exact .inl (slewed_ge hmono (fun _ h => absurd h0 h))
      by_cases hy : proportionalAt ctl.info.toPidConf s x ≤ ctl.info.lastOutput
      · exact .inl (slewed_ge hmono (fun _ _ => hstay (hl hi) hy))
      obtain ⟨w1, w2, w3, w4, w5, w6, w7⟩ := hw.resolve_left h0
      have hmul : ∀ k : Nat, 0 ≤ (min k (N + 1) : Nat) * step ∧ (min k (N + 1) : Nat) * step ≤ (N + 1) * step := fun k =>
        ⟨Int.mul_nonneg (Int.natCast_nonneg _) w2,
          Int.mul_le_mul_of_nonneg_right (by exact_mod_cast Nat.min_le_right k (N + 1)) w2⟩
      have hlo : millionths (low + (min n (N + 1) : Nat) * step) ≤ ctl.info.lastOutput := by
        cases n with
        | zero =>
          rw [Nat.zero_min]
          simpa using Dbl.le_trans w5 (hl hi).1
        | succ n =>
          obtain ⟨_, h | h⟩ := hn (by omega)
          · exact absurd h hy
          · exact h.2
      have hstep : low + (min n (N + 1) : Nat) * step + (if n < N + 1 then step else 0) = low + (min (n + 1) (N + 1) : Nat) * step := by
        split_ifs with hlt
        · rw [Nat.min_eq_left (by omega : n ≤ N + 1), Nat.min_eq_left (by omega : n + 1 ≤ N + 1)]
          push_cast
          ring
        · rw [Nat.min_eq_right (by omega), Nat.min_eq_right (by omega)]
          ring
      have h0' : millionths (if n < N + 1 then step else 0) ≤ ctl.info.slewPos * ctl.info.ts := by
        split_ifs
        · exact w6
        · refine Dbl.le_trans (ofRat_mono ?_) w6
          have : (0 : Rat) ≤ step := by exact_mod_cast w2
          push_cast
          rw [zero_div]
          positivity
      have key := millionths_add (by have := hmul n; omega) (by have := hmul n; omega) (by split_ifs <;> omega) (by split_ifs <;> omega)
        (by rw [hstep]; have := hmul (n + 1); omega) (by rw [hstep]; have := hmul (n + 1); omega) hlo h0' (hsum (hl hi))
      rw [hstep] at key
      by_cases hge : proportionalAt ctl.info.toPidConf s x ≤ ctl.info.lastOutput + ctl.info.slewPos * ctl.info.ts
      · exact .inl (slewed_ge hmono (fun _ _ => hge))
      · refine .inr ⟨h0, slewed_ge ?_ (fun _ _ => key)⟩
        have hyn : proportionalAt ctl.info.toPidConf s x ≠ nan := Dbl.ne_nan_of_le_left hmono
        exact Dbl.le_trans key (Dbl.le_trans (Dbl.le_of_lt (Dbl.lt_of_not_le (hsum (hl hi)) hyn hge)) hmono)
    refine ⟨⟨st2, fun _ => ?_, fun _ => ⟨st3, ?_⟩⟩, fun hNn => ?_⟩
    · rw [st4, st1]; exact hout
    · rw [st4]; exact hnext
    · rcases hnext with h | ⟨h0, h⟩
      · exact h
      · obtain ⟨_, _, _, _, _, _, w7⟩ := hw.resolve_left h0
        rw [Nat.min_eq_right (by omega)] at h
        push_cast at h
        exact Dbl.le_trans w7 h

end Verif
