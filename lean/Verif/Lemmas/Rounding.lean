import Verif.Spec.Rounding
import Verif.Lemmas.Pid
import Verif.Base.Binary64
import Mathlib.Tactic.GCongr

/-! # Rounding errors -/

namespace Verif
open Dbl

theorem roundEven_err (x : ℚ) : |(B64.roundEven x : ℚ) - x| ≤ 1 / 2 := by
  have h1 := Int.floor_le x
  have h2 := Int.lt_floor_add_one x
  unfold B64.roundEven
  rw [abs_le]
  split_ifs <;> push_cast <;> constructor <;> linarith

/-- small, but far from the smallest double -/
def tiny : ℚ := 1 / 2 ^ 200
/-- twice the relative rounding error -/
def eps : ℚ := 1 / 2 ^ 52

theorem tiny_pos : 0 < tiny := by unfold tiny; positivity
theorem eps_pos : 0 < eps := by unfold eps; positivity

theorem rndPos_err {q B : ℚ} (hq : 0 < q) (h : q ≤ B) (hB : tiny ≤ B) : |B64.rndPos q - q| ≤ B / 2 ^ 53 := by
  have hp := B64.two_zpow_pos (B64.ulpExp q)
  have h1 := roundEven_err (q / 2 ^ B64.ulpExp q)
  have e : B64.rndPos q - q = ((B64.roundEven (q / 2 ^ B64.ulpExp q) : ℚ) - q / 2 ^ B64.ulpExp q) * 2 ^ B64.ulpExp q := by
    unfold B64.rndPos
    rw [sub_mul, div_mul_cancel₀ _ hp.ne']
  rw [e, abs_mul, abs_of_pos hp]
  have h2 : (2 : ℚ) ^ B64.ulpExp q ≤ B / 2 ^ 52 := by
    have e2 : (2 : ℚ) ^ B64.ulpExp q = 2 ^ max (Int.log 2 q) (-1022) / 2 ^ 52 := by
      unfold B64.ulpExp
      rw [sub_eq_add_neg, B64.zpow_add', zpow_neg, div_eq_mul_inv]
      norm_cast
    rw [e2]
    have : (2 : ℚ) ^ max (Int.log 2 q) (-1022) ≤ B := by
      rcases max_choice (Int.log 2 q) (-1022) with hm | hm <;> rw [hm]
      · exact (B64.log_le hq).trans h
      · refine le_trans ?_ hB
        unfold tiny
        rw [one_div, show (2 : ℚ) ^ 200 = 2 ^ (200 : ℤ) by norm_cast, ← zpow_neg]
        exact B64.zpow_mono (by norm_num)
    gcongr
  calc _ ≤ 1 / 2 * (B / 2 ^ 52) := mul_le_mul h1 h2 hp.le (by norm_num)
    _ = B / 2 ^ 53 := by ring

theorem rnd_err {q B : ℚ} (h : |q| ≤ B) (hB : tiny ≤ B) : |B64.rnd q - q| ≤ B / 2 ^ 53 := by
  rw [abs_le] at h
  unfold B64.rnd
  split_ifs with h1 h2
  · exact rndPos_err h1 h.2 hB
  · have := rndPos_err (q := -q) (by linarith) (by linarith) hB
    rw [show -B64.rndPos (-q) - q = -(B64.rndPos (-q) - -q) by ring, abs_neg]
    exact this
  · have : q = 0 := le_antisymm (not_lt.1 h1) (not_lt.1 h2)
    subst this
    have := tiny_pos
    rw [sub_zero, abs_zero]
    have : 0 ≤ B := this.le.trans hB
    positivity

section
attribute [local instance] binary64

/-- The double `d` stands for a number `q` of at most `B`, with an error of at most `E`. -/
def Near (d : Dbl) (q B E : ℚ) : Prop := |q| ≤ B ∧ ∃ v h, d = .fin v h ∧ |v - q| ≤ E

theorem Near.mono {d : Dbl} {q B E B' E' : ℚ} (h : Near d q B E) (hB : B ≤ B') (hE : E ≤ E') : Near d q B' E' := by
  obtain ⟨a, v, b, c, e⟩ := h
  exact ⟨a.trans hB, v, b, c, e.trans hE⟩

theorem near_number {d : Dbl} {q B : ℚ} (h : DoubleOf d q) (hB : |q| ≤ B) : Near d q B 0 := by
  obtain ⟨a, rfl⟩ := h
  exact ⟨hB, q, a, rfl, by simp⟩

theorem near_round {v q B E : ℚ} (hv : |v - q| ≤ E) (hq : |q| ≤ B) (hB : tiny ≤ B) (hE : E ≤ B) (hm : B ≤ 2 ^ 220) :
    Near (ofRat v) q B (E + eps * B) := by
  have hv2 : |v| ≤ 2 * B := by
    have : v = (v - q) + q := by ring
    rw [this]
    exact (abs_add_le _ _).trans (by linarith)
  have hB0 : 0 < B := tiny_pos.trans_le hB
  have hr := rnd_err hv2 (by linarith)
  have hr2 : |B64.rnd v - v| ≤ eps * B := by
    refine hr.trans (le_of_eq ?_)
    unfold eps; ring
  have hfin : |B64.rnd v| ≤ B64.maxFin := by
    have e : B64.rnd v = (B64.rnd v - v) + v := by ring
    rw [e]
    refine (abs_add_le _ _).trans ?_
    have h1 : eps * B ≤ B := by
      unfold eps; rw [one_div, inv_mul_le_iff₀ (by positivity)]
      nlinarith
    have h2 : (4 : ℚ) * 2 ^ 220 ≤ B64.maxFin := by
      unfold B64.maxFin
      have h3 : (2 : ℚ) ^ (222 : ℤ) ≤ 2 ^ (971 : ℤ) := B64.zpow_mono (by norm_num)
      have h4 : (4 : ℚ) * 2 ^ 220 = 2 ^ (222 : ℤ) := by norm_num
      rw [h4]
      refine h3.trans (le_mul_of_one_le_left (B64.two_zpow_pos _).le (by norm_num))
    have h5 : |B64.rnd v - v| ≤ B := hr2.trans h1
    linarith
  rw [abs_le] at hfin
  refine ⟨hq, B64.rnd v, B64.rep_rnd hfin.1 hfin.2, ?_, ?_⟩
  · exact (dif_neg (not_lt.2 hfin.2)).trans (dif_neg (not_lt.2 hfin.1))
  · have e : B64.rnd v - q = (v - q) + (B64.rnd v - v) := by ring
    rw [e]
    exact (abs_add_le _ _).trans (add_le_add hv hr2)

theorem Near.add {a b : Dbl} {p q A B α β : ℚ} (ha : Near a p A α) (hb : Near b q B β) (h1 : tiny ≤ A + B) (h2 : α + β ≤ A + B)
    (h3 : A + B ≤ 2 ^ 220) : Near (a + b) (p + q) (A + B) (α + β + eps * (A + B)) := by
  obtain ⟨ha, v, hv, rfl, ea⟩ := ha
  obtain ⟨hb, w, hw, rfl, eb⟩ := hb
  rw [fin_add_fin]
  refine near_round ?_ ((abs_add_le _ _).trans (add_le_add ha hb)) h1 h2 h3
  rw [show v + w - (p + q) = (v - p) + (w - q) by ring]
  exact (abs_add_le _ _).trans (add_le_add ea eb)

theorem Near.sub {a b : Dbl} {p q A B α β : ℚ} (ha : Near a p A α) (hb : Near b q B β) (h1 : tiny ≤ A + B) (h2 : α + β ≤ A + B)
    (h3 : A + B ≤ 2 ^ 220) : Near (a - b) (p - q) (A + B) (α + β + eps * (A + B)) := by
  obtain ⟨ha, v, hv, rfl, ea⟩ := ha
  obtain ⟨hb, w, hw, rfl, eb⟩ := hb
  rw [fin_sub_fin]
  refine near_round ?_ ((abs_sub _ _).trans (add_le_add ha hb)) h1 h2 h3
  rw [show v - w - (p - q) = (v - p) - (w - q) by ring]
  exact (abs_sub _ _).trans (add_le_add ea eb)

/-- product with an exact number -/
theorem Near.mul {a b : Dbl} {p c A α B : ℚ} (ha : Near a p A α) (hb : DoubleOf b c) (h0 : A * |c| ≤ B) (h1 : tiny ≤ B)
    (h2 : α * |c| ≤ B) (h3 : B ≤ 2 ^ 220) : Near (a * b) (p * c) B (α * |c| + eps * B) := by
  obtain ⟨ha, v, hv, rfl, ea⟩ := ha
  obtain ⟨hc, rfl⟩ := hb
  rw [fin_mul_fin]
  refine near_round ?_ ?_ h1 h2 h3
  · rw [show v * c - p * c = (v - p) * c by ring, abs_mul]
    exact mul_le_mul_of_nonneg_right ea (abs_nonneg _)
  · rw [abs_mul]
    exact (mul_le_mul_of_nonneg_right ha (abs_nonneg _)).trans h0

theorem Near.mul_left {a b : Dbl} {p c A α B : ℚ} (ha : Near a p A α) (hb : DoubleOf b c) (h0 : A * |c| ≤ B) (h1 : tiny ≤ B)
    (h2 : α * |c| ≤ B) (h3 : B ≤ 2 ^ 220) : Near (b * a) (c * p) B (α * |c| + eps * B) := by
  have := ha.mul hb h0 h1 h2 h3
  obtain ⟨ha, v, hv, rfl, ea⟩ := ha
  obtain ⟨hc, rfl⟩ := hb
  rwa [Dbl.mul_comm, _root_.mul_comm p] at this

/-- quotient by an exact positive number -/
theorem Near.div {a b : Dbl} {p c A α B : ℚ} (ha : Near a p A α) (hb : DoubleOf b c) (hc : 0 < c) (h0 : A / c ≤ B) (h1 : tiny ≤ B)
    (h2 : α / c ≤ B) (h3 : B ≤ 2 ^ 220) : Near (a / b) (p / c) B (α / c + eps * B) := by
  obtain ⟨ha, v, hv, rfl, ea⟩ := ha
  obtain ⟨hc', rfl⟩ := hb
  rw [fin_div_fin hc.ne']
  refine near_round ?_ ?_ h1 h2 h3
  · rw [show v / c - p / c = (v - p) / c by ring, abs_div, abs_of_pos hc]
    gcongr
  · rw [abs_div, abs_of_pos hc]
    exact (div_le_div_of_nonneg_right ha hc.le).trans h0

theorem nearest_near {lo hi x y E : ℚ} (h : |x - y| ≤ E) : |nearest lo hi x - nearest lo hi y| ≤ E := by
  unfold nearest
  rw [abs_le] at h ⊢
  rcases max_cases lo (min hi x) with ⟨h1, h1'⟩ | ⟨h1, h1'⟩ <;> rcases max_cases lo (min hi y) with ⟨h2, h2'⟩ | ⟨h2, h2'⟩ <;>
    rcases min_cases hi x with ⟨h3, h3'⟩ | ⟨h3, h3'⟩ <;> rcases min_cases hi y with ⟨h4, h4'⟩ | ⟨h4, h4'⟩ <;>
    rw [h1, h2] <;> constructor <;> simp only [h3, h4] at * <;> linarith

theorem clamp_nearest {v lo hi : ℚ} {hv hlo hhi} (h : lo ≤ hi) :
    ∃ h', clamp (fin v hv) (fin lo hlo) (fin hi hhi) = fin (nearest lo hi v) h' := by
  unfold clamp nearest
  simp only [fin_lt_fin]
  split_ifs with h1 h2
  · have e : max lo (min hi v) = lo := max_eq_left ((min_le_right _ _).trans h1.le)
    rw [e]; exact ⟨hlo, rfl⟩
  · have e : max lo (min hi v) = hi := by rw [min_eq_left h2.le, max_eq_right h]
    rw [e]; exact ⟨hhi, rfl⟩
  · have e : max lo (min hi v) = v := by rw [min_eq_right (not_lt.1 h2), max_eq_right (not_lt.1 h1)]
    rw [e]; exact ⟨hv, rfl⟩

theorem Near.clamp {a lo hi : Dbl} {p A α l h B : ℚ} (ha : Near a p A α) (hl : DoubleOf lo l) (hh : DoubleOf hi h) (hle : l ≤ h)
    (h1 : -B ≤ l) (h2 : h ≤ B) : Near (clamp a lo hi) (nearest l h p) B α := by
  obtain ⟨-, v, hv, rfl, ea⟩ := ha
  obtain ⟨hl', rfl⟩ := hl
  obtain ⟨hh', rfl⟩ := hh
  obtain ⟨h', e⟩ := clamp_nearest (hv := hv) (hlo := hl') (hhi := hh') hle
  refine ⟨?_, _, h', e, nearest_near ea⟩
  rw [abs_le]
  exact ⟨h1.trans (le_max_left _ _), max_le (hle.trans h2) ((min_le_left _ _).trans h2)⟩

theorem max_near {x x' y y' E : ℚ} (h : |x - x'| ≤ E) (h' : |y - y'| ≤ E) : |max x y - max x' y'| ≤ E := by
  rw [abs_le] at *
  rcases max_cases x y with ⟨h1, h1'⟩ | ⟨h1, h1'⟩ <;> rcases max_cases x' y' with ⟨h2, h2'⟩ | ⟨h2, h2'⟩ <;>
    rw [h1, h2] <;> constructor <;> linarith
theorem min_near {x x' y y' E : ℚ} (h : |x - x'| ≤ E) (h' : |y - y'| ≤ E) : |min x y - min x' y'| ≤ E := by
  rw [abs_le] at *
  rcases min_cases x y with ⟨h1, h1'⟩ | ⟨h1, h1'⟩ <;> rcases min_cases x' y' with ⟨h2, h2'⟩ | ⟨h2, h2'⟩ <;>
    rw [h1, h2] <;> constructor <;> linarith

/-- the larger of two -/
theorem Near.larger {a b : Dbl} {p q A B C α : ℚ} (ha : Near a p A α) (hb : Near b q B α) (hC : |max p q| ≤ C) :
    Near (if a < b then b else a) (max p q) C α := by
  obtain ⟨-, v, hv, rfl, ea⟩ := ha
  obtain ⟨-, w, hw, rfl, eb⟩ := hb
  have key := max_near ea eb
  refine ⟨hC, ?_⟩
  simp only [fin_lt_fin]
  split_ifs with h
  · exact ⟨w, hw, rfl, by rwa [max_eq_right h.le] at key⟩
  · exact ⟨v, hv, rfl, by rwa [max_eq_left (not_lt.1 h)] at key⟩
theorem Near.smaller {a b : Dbl} {p q A B C α : ℚ} (ha : Near a p A α) (hb : Near b q B α) (hC : |min p q| ≤ C) :
    Near (if b < a then b else a) (min p q) C α := by
  obtain ⟨-, v, hv, rfl, ea⟩ := ha
  obtain ⟨-, w, hw, rfl, eb⟩ := hb
  have key := min_near ea eb
  refine ⟨hC, ?_⟩
  simp only [fin_lt_fin]
  split_ifs with h
  · exact ⟨w, hw, rfl, by rwa [min_eq_right h.le] at key⟩
  · exact ⟨v, hv, rfl, by rwa [min_eq_left (not_lt.1 h)] at key⟩

/-- How the state of the loop follows the exact one. -/
structure KeepsNear (c : PidConf) (R K δ : ℚ) (i : PidInfo) (s : Exactly) : Prop where
  conf : i.toPidConf = c
  sum : Near i.integral s.sum K δ
  last : Near i.lastOutput s.last K δ
  error : Near i.lastError s.error R (eps * R)
  started : i.initialized = s.started

theorem eps_small : eps ≤ 1 / 1000000 := by unfold eps; norm_num
theorem tiny_small : tiny ≤ 1 / 1000000 := by unfold tiny; norm_num

section
variable {c : PidConf} {g : Gains} {R K : ℚ} (hg : HasGains c g) (hm : SizedGains g R K)
include hg hm

omit hg in
theorem proportions : 0 < eps ∧ eps ≤ 1 / 1000000 ∧ 0 < tiny ∧ tiny ≤ 1 / 1000000 ∧ 1 ≤ K ∧ 1 ≤ R ∧ 16 * K ≤ 2 ^ 220 ∧ 16 * R ≤ 2 ^ 220 ∧
    0 ≤ eps * K ∧ 1000000 * (eps * K) ≤ K ∧ 0 ≤ eps * R ∧ 1000000 * (eps * R) ≤ R := by
  have := hm.K1; have := hm.K2; have := hm.R1; have := hm.R2; have h1 := eps_small; have := tiny_small
  have h0 := eps_pos; have := tiny_pos
  refine ⟨eps_pos, eps_small, tiny_pos, tiny_small, hm.K1, hm.R1, ?_, ?_, ?_, ?_, ?_, ?_⟩
  · norm_num at *; linarith
  · norm_num at *; linarith
  · positivity
  · nlinarith
  · positivity
  · nlinarith

theorem proportional_near {e : Dbl} {q : ℚ} (he : Near e q R (eps * R)) :
    Near (c.proportionalCoeff * e) (g.proportional * q) K (2 * (eps * K)) := by
  obtain ⟨p1, p2, p3, p4, p5, p6, p7, p8, p9, p10, p11, p12⟩ := proportions hm
  have h1 := hm.proportional
  have h2 := mul_le_mul_of_nonneg_left h1 p1.le
  refine (he.mul_left hg.proportional (B := K) ?_ ?_ ?_ ?_).mono le_rfl ?_ <;> linarith

/-- the change of the integral -/
theorem increment_near {e : Dbl} {q : ℚ} (he : Near e q R (eps * R)) :
    Near (e * c.integralCoeff * c.ts) (q * g.integral * g.period) (2 * K) (6 * (eps * K)) := by
  obtain ⟨p1, p2, p3, p4, p5, p6, p7, p8, p9, p10, p11, p12⟩ := proportions hm
  have hp := hm.period
  have hp' := hm.period_le
  have h1 := hm.integral
  have h2 := hm.integralCoeff
  generalize hB : |g.integral| * R = B at h1 h2
  have hB0 : 0 ≤ B := by rw [← hB]; exact mul_nonneg (abs_nonneg _) (by linarith)
  have h3 : eps * R * |g.integral| = eps * B := by rw [← hB]; ring
  have h4 : eps * B ≤ B := by nlinarith
  have h5 : (B + tiny) * |g.period| ≤ 2 * K := by
    rw [abs_of_pos hp]
    nlinarith
  have h6 := mul_le_mul_of_nonneg_left h5 p1.le
  have a1 := he.mul hg.integral (B := B + tiny) (by rw [← hB]; linarith) (by linarith) (by linarith)
    (by norm_num at h2 p7 ⊢; linarith)
  have a2 : Near (e * c.integralCoeff) (q * g.integral) (B + tiny) (2 * (eps * (B + tiny))) :=
    a1.mono le_rfl (by nlinarith)
  refine (a2.mul hg.period (B := 2 * K) h5 ?_ ?_ ?_).mono le_rfl ?_
  · linarith
  · nlinarith
  · linarith
  · nlinarith

/-- the derivative term -/
theorem derivative_near {e e' : Dbl} {q q' : ℚ} (he : Near e q R (eps * R)) (he' : Near e' q' R (eps * R)) :
    Near (c.derivativeCoeff * ((e - e') / c.ts)) (g.derivative * ((q - q') / g.period)) (2 * K) (8 * (eps * K)) := by
  obtain ⟨p1, p2, p3, p4, p5, p6, p7, p8, p9, p10, p11, p12⟩ := proportions hm
  have hp := hm.period
  have hp' := hm.period_le
  have a1 : Near (e - e') (q - q') (R + R) (4 * (eps * R)) := by
    refine (he.sub he' ?_ ?_ ?_).mono le_rfl ?_ <;> linarith
  have hq : (R + R) / g.period ≤ 2 ^ 201 := by
    rw [div_le_iff₀ hp]
    have := hm.rate
    have e : (2 : ℚ) ^ 201 = 2 * 2 ^ 200 := by norm_num
    rw [e]; linarith
  have h1 := hm.derivative
  generalize hB : (R + R) / g.period = B at hq
  have hB0 : 0 ≤ B := by rw [← hB]; positivity
  have h3 : 4 * (eps * R) / g.period = 2 * (eps * B) := by rw [← hB]; field_simp; ring
  have h4 : 1000000 * (eps * B) ≤ B := by nlinarith
  have a2 : Near ((e - e') / c.ts) ((q - q') / g.period) (B + tiny) (3 * (eps * (B + tiny))) := by
    have : 0 ≤ eps * tiny := by positivity
    refine (a1.div hg.period hp (B := B + tiny) ?_ ?_ ?_ ?_).mono le_rfl ?_
    · linarith
    · linarith
    · linarith
    · norm_num at hq p7 ⊢; linarith
    · linarith
  have h5 : (B + tiny) * |g.derivative| ≤ 2 * K := by
    have k1 : B * |g.derivative| ≤ K := by
      rw [← hB, div_mul_eq_mul_div, div_le_iff₀ hp]; linarith
    have k2 : |g.derivative| ≤ K * g.period := by
      have : |g.derivative| * 2 ≤ |g.derivative| * (2 * R) := mul_le_mul_of_nonneg_left (by linarith) (abs_nonneg _)
      have := abs_nonneg g.derivative
      linarith
    have k3 : K * g.period ≤ K * 1000 := mul_le_mul_of_nonneg_left hp' (by linarith)
    have k4 : tiny * |g.derivative| ≤ 1 / 1000000 * (K * 1000) := mul_le_mul p4 (k2.trans k3) (abs_nonneg _) (by norm_num)
    linarith
  have h6 := mul_le_mul_of_nonneg_left h5 p1.le
  refine (a2.mul_left hg.derivative (B := 2 * K) h5 ?_ ?_ ?_).mono le_rfl ?_ <;> linarith

/-- the feed-forward term -/
theorem feed_near {s : Dbl} {q : ℚ} (hs : DoubleOf s q) (hq : |q| ≤ R) :
    Near ((s + c.feedFwdOffset) * c.feedFwdGain) ((q + g.offset) * g.gain) K (2 * (eps * K)) := by
  obtain ⟨p1, p2, p3, p4, p5, p6, p7, p8, p9, p10, p11, p12⟩ := proportions hm
  have h0 := abs_nonneg g.offset
  have h2 := hm.offset
  have hR2 := hm.R2
  have a1 := (near_number hs hq).add (near_number hg.offset le_rfl) (by linarith) (by linarith)
    (by norm_num at h2 hR2 ⊢; linarith)
  have h1 := hm.feedForward
  have h3 := mul_le_mul_of_nonneg_left h1 p1.le
  refine (a1.mul hg.gain (B := K) ?_ ?_ ?_ ?_).mono le_rfl ?_ <;> linarith

omit hm in
theorem number_zero {d : Dbl} {q : ℚ} (h : DoubleOf d q) : d = 0 ↔ q = 0 := by
  obtain ⟨a, rfl⟩ := h
  rw [zero_eq]
  constructor
  · intro h; injection h
  · rintro rfl; rfl

/-- the integral term -/
theorem integral_near {δ : ℚ} (hδ : δ ≤ K) {i : PidInfo} {s : Exactly} (ht : KeepsNear c R K δ i s) (hδ0 : 0 ≤ δ) {e : Dbl} {q : ℚ}
    (he : Near e q R (eps * R)) :
    Near (if c.integralCoeff = 0 then 0 else limited (i.integral + e * c.integralCoeff * c.ts) c.integralLimit.min c.integralLimit.max)
      (if g.integral = 0 then 0 else nearest g.sumMin g.sumMax (s.sum + q * g.integral * g.period)) K (δ + 9 * (eps * K)) := by
  obtain ⟨p1, p2, p3, p4, p5, p6, p7, p8, p9, p10, p11, p12⟩ := proportions hm
  simp only [number_zero hg hg.integral]
  split_ifs
  · rw [zero_eq]
    refine ⟨by rw [abs_zero]; linarith, 0, _, rfl, by rw [sub_self, abs_zero]; linarith⟩
  · have h1 := ht.sum.add (increment_near hg hm he) (by linarith) (by linarith) (by linarith)
    have := h1.clamp hg.sumMin hg.sumMax hm.sums.1 hm.sums.2.1 hm.sums.2.2
    exact this.mono le_rfl (by linarith)

theorem sum_near {δ : ℚ} (hδ : δ ≤ K) {i : PidInfo} {s : Exactly} (ht : KeepsNear c R K δ i s) (hδ0 : 0 ≤ δ) {r sp : Dbl} {x y : ℚ}
    (hr : DoubleOf r x) (hs : DoubleOf sp y) (hy : |y| ≤ R) (he : Near (sp - r) (y - x) R (eps * R)) :
    Near (pidSum i r sp) (g.total s x y) (5 * K) (δ + 32 * (eps * K)) := by
  obtain ⟨p1, p2, p3, p4, p5, p6, p7, p8, p9, p10, p11, p12⟩ := proportions hm
  unfold pidSum Gains.total
  rw [ht.conf]
  have a1 := proportional_near hg hm he
  have a2 := integral_near hg hm hδ ht hδ0 he
  have a3 := derivative_near hg hm he ht.error
  have a4 := feed_near hg hm hs hy
  have b1 := (a1.add a2 (by linarith) (by linarith) (by linarith)).mono le_rfl (E' := δ + 13 * (eps * K)) (by linarith)
  have b2 := (b1.add a3 (by linarith) (by linarith) (by linarith)).mono le_rfl (E' := δ + 25 * (eps * K)) (by linarith)
  exact (b2.add a4 (by linarith) (by linarith) (by linarith)).mono (by linarith) (by linarith)

theorem slew_near {δ : ℚ} (hδ : δ ≤ K) {i : PidInfo} {s : Exactly} (ht : KeepsNear c R K δ i s) (hδ0 : 0 ≤ δ) {d : Dbl} {o E : ℚ}
    (ho : Near d o K E) (hE : δ + 3 * (eps * K) ≤ E) :
    Near (slewed i d) (let o := if s.started ∧ g.down ≠ 0 then max o (s.last + g.down * g.period) else o
      if s.started ∧ g.up ≠ 0 then min o (s.last + g.up * g.period) else o) K E := by
  obtain ⟨p1, p2, p3, p4, p5, p6, p7, p8, p9, p10, p11, p12⟩ := proportions hm
  have hp := hm.period
  have hl := abs_le.1 ht.last.1
  have bound : ∀ {d : Dbl} {q : ℚ}, DoubleOf d q → |q * g.period| ≤ K →
      Near (i.lastOutput + d * c.ts) (s.last + q * g.period) (K + K) E := by
    intro d q hd hq
    have a1 := (near_number hd le_rfl).mul hg.period (B := K) (by rwa [abs_mul] at hq) (by linarith)
      (by rw [zero_mul]; linarith) (by linarith)
    exact (ht.last.add a1 (by linarith) (by linarith) (by linarith)).mono le_rfl (by linarith)
  have hdown : |g.down * g.period| ≤ K := by
    rw [abs_le]; refine ⟨hm.down.2, ?_⟩
    have := mul_nonpos_of_nonpos_of_nonneg hm.down.1 hp.le
    linarith
  have hup : |g.up * g.period| ≤ K := by
    rw [abs_le]; refine ⟨?_, hm.up.2⟩
    have := mul_nonneg hm.up.1 hp.le
    linarith
  unfold slewed
  rw [ht.conf, ht.started]
  dsimp only
  have step1 : Near (if s.started && nonZero c.slewNeg then
      (if d < i.lastOutput + c.slewNeg * c.ts then i.lastOutput + c.slewNeg * c.ts else d) else d)
      (if s.started ∧ g.down ≠ 0 then max o (s.last + g.down * g.period) else o) K E := by
    simp only [Bool.and_eq_true, nonZero_iff, ne_eq, number_zero hg hg.down]
    by_cases hc : s.started = true ∧ ¬ g.down = 0 <;> simp only [hc, if_true, if_false]
    · refine ho.larger (bound hg.down hdown) ?_
      rw [abs_le]
      have h1 := abs_le.1 ho.1
      have := mul_nonpos_of_nonpos_of_nonneg hm.down.1 hp.le
      exact ⟨h1.1.trans (le_max_left _ _), max_le h1.2 (by linarith)⟩
    · exact ho
  generalize (if s.started && nonZero c.slewNeg then
      (if d < i.lastOutput + c.slewNeg * c.ts then i.lastOutput + c.slewNeg * c.ts else d) else d) = d' at step1 ⊢
  generalize (if s.started ∧ g.down ≠ 0 then max o (s.last + g.down * g.period) else o) = o' at step1 ⊢
  simp only [Bool.and_eq_true, nonZero_iff, ne_eq, number_zero hg hg.up]
  by_cases hc : s.started = true ∧ ¬ g.up = 0 <;> simp only [hc, if_true, if_false]
  · refine step1.smaller (bound hg.up hup) ?_
    rw [abs_le]
    have h1 := abs_le.1 step1.1
    have := mul_nonneg hm.up.1 hp.le
    exact ⟨le_min h1.1 (by linarith), (min_le_left _ _).trans h1.2⟩
  · exact step1

theorem pid_near {δ : ℚ} (hδ : δ ≤ K) {i : PidInfo} {s : Exactly} (ht : KeepsNear c R K δ i s) (hδ0 : 0 ≤ δ) {r sp : Dbl} {x y : ℚ}
    (hr : DoubleOf r x) (hs : DoubleOf sp y) (hy : |y| ≤ R) (hxy : |y - x| ≤ R) :
    Near (pid i r sp).1 (g.out s x y) K (δ + 36 * (eps * K)) ∧ KeepsNear c R K (δ + 36 * (eps * K)) (pid i r sp).2 (g.next s x y) := by
  obtain ⟨p1, p2, p3, p4, p5, p6, p7, p8, p9, p10, p11, p12⟩ := proportions hm
  have he : Near (sp - r) (y - x) R (eps * R) := by
    obtain ⟨h1, rfl⟩ := hr
    obtain ⟨h2, rfl⟩ := hs
    rw [fin_sub_fin]
    have := near_round (v := y - x) (q := y - x) (B := R) (E := 0) (by simp) hxy (by linarith) (by linarith) (by linarith)
    exact this.mono le_rfl (by linarith)
  have a1 := sum_near hg hm hδ ht hδ0 hr hs hy he
  have a2 := a1.clamp hg.outMin hg.outMax hm.outs.1 hm.outs.2.1 hm.outs.2.2
  have a3 := slew_near hg hm hδ ht hδ0 a2 (by linarith)
  have hout : Near (pid i r sp).1 (g.out s x y) K (δ + 32 * (eps * K)) := by
    rw [pid_out]
    have : i.outLim = c.outLim := by rw [ht.conf]
    rw [this]
    exact a3
  refine ⟨hout.mono le_rfl (by linarith), ht.conf, ?_, hout.mono le_rfl (by linarith), he, rfl⟩
  have e : (pid i r sp).2.integral = clamp (if i.initialized && (nonZero i.slewNeg || nonZero i.slewPos)
      then (pid i r sp).1 - i.proportionalCoeff * (sp - r)
      else (if nonZero i.integralCoeff then
        clamp (i.integral + (sp - r) * i.integralCoeff * i.ts) i.integralLimit.min i.integralLimit.max
      else 0)) i.integralLimit.min i.integralLimit.max := rfl
  rw [e, ht.conf, ht.started]
  refine Near.clamp (A := K + K) ?_ hg.sumMin hg.sumMax hm.sums.1 hm.sums.2.1 hm.sums.2.2
  simp only [Bool.and_eq_true, Bool.or_eq_true, nonZero_iff, ne_eq, number_zero hg hg.up, number_zero hg hg.down, ite_nonZero]
  by_cases h1 : s.started = true ∧ (¬ g.down = 0 ∨ ¬ g.up = 0)
  · rw [if_pos h1, if_pos h1]
    exact (hout.sub (proportional_near hg hm he) (by linarith) (by linarith) (by linarith)).mono le_rfl (by linarith)
  · rw [if_neg h1, if_neg h1, ite_not]
    have h9 : δ + 9 * (eps * K) ≤ δ + 36 * (eps * K) := by linarith
    have hK : K ≤ K + K := by linarith
    exact (integral_near hg hm hδ ht hδ0 he).mono hK h9

end

end
end Verif
