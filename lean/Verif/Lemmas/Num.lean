import Verif.Lemmas.Dbl
import Verif.Spec.Pid
import Mathlib.Tactic.Positivity

/-! # Lemmas on limiting, `std::max`, `std::min` -/

namespace Verif
variable [F : FloatModel]
open Dbl

theorem clamp_nan (lo hi : Dbl) : clamp nan lo hi = nan := by simp [clamp]

theorem clamp_inLimits {l : Limits} (h : l.min ≤ l.max) (x : Dbl) : InLimits l (clamp x l.min l.max) := by
  by_cases hx : x = nan
  · subst hx; left; exact clamp_nan _ _
  · right
    have h1 := ne_nan_of_le_left h
    have h2 := ne_nan_of_le_right h
    unfold clamp
    split_ifs with a b
    · exact ⟨le_refl h1, h⟩
    · exact ⟨h, le_refl h2⟩
    · exact ⟨le_of_not_lt h1 hx a, le_of_not_lt hx h2 b⟩

theorem clamp_of_mem {x lo hi : Dbl} (h₁ : lo ≤ x) (h₂ : x ≤ hi) : clamp x lo hi = x := by
  unfold clamp
  rw [if_neg (not_lt_of_le h₁), if_neg (not_lt_of_le h₂)]

theorem clamp_ne_nan {x lo hi : Dbl} (hx : x ≠ nan) (h₁ : lo ≠ nan) (h₂ : hi ≠ nan) : clamp x lo hi ≠ nan := by
  unfold clamp; split_ifs <;> assumption

theorem ne_nan_of_clamp {x lo hi : Dbl} (h : clamp x lo hi ≠ nan) : x ≠ nan := by
  rintro rfl; exact h (clamp_nan _ _)

theorem clamp_mono {x y lo hi : Dbl} (h : lo ≤ hi) (hxy : x ≤ y) : clamp x lo hi ≤ clamp y lo hi := by
  have hx := ne_nan_of_le_left hxy
  have hy := ne_nan_of_le_right hxy
  have hl := ne_nan_of_le_left h
  have hh := ne_nan_of_le_right h
  unfold clamp
  split_ifs with a b c d e f
  · exact le_refl hl
  · exact h
  · exact le_of_not_lt hl hy b
  · exact absurd (lt_of_lt_of_le (lt_of_le_of_lt h d) hxy) (fun hlt => lt_irrefl _ (lt_trans hlt e))
  · exact le_refl hh
  · exact absurd (lt_of_lt_of_le d hxy) f
  · exact absurd (lt_of_le_of_lt hxy ‹y < lo›) a
  · exact le_of_not_lt hx hh d
  · exact hxy

/-- the lower slew bound is applied like a maximum -/
theorem floorAt_mono {x y m : Dbl} (h : x ≤ y) : (if x < m then m else x) ≤ (if y < m then m else y) := by
  have hx := ne_nan_of_le_left h
  have hy := ne_nan_of_le_right h
  split_ifs with a b b
  · exact le_refl (ne_nan_of_lt_right a)
  · exact le_of_not_lt (ne_nan_of_lt_right a) hy b
  · exact absurd (lt_of_le_of_lt h b) a
  · exact h

theorem ceilAt_mono {x y m : Dbl} (h : x ≤ y) : (if m < x then m else x) ≤ (if m < y then m else y) := by
  have hx := ne_nan_of_le_left h
  split_ifs with a b b
  · exact le_refl (ne_nan_of_lt_left a)
  · exact absurd (lt_of_lt_of_le a h) b
  · exact le_of_not_lt hx (ne_nan_of_lt_left b) a
  · exact h

theorem add_ne_nan_left {a b : Dbl} (h : a + b ≠ nan) : a ≠ nan := by
  rintro rfl; simp at h
theorem add_ne_nan_right {a b : Dbl} (h : a + b ≠ nan) : b ≠ nan := by
  rintro rfl; simp at h
theorem sub_ne_nan_left {a b : Dbl} (h : a - b ≠ nan) : a ≠ nan := by
  rintro rfl; simp at h
theorem sub_ne_nan_right {a b : Dbl} (h : a - b ≠ nan) : b ≠ nan := by
  rintro rfl; simp at h
theorem mul_ne_nan_left {a b : Dbl} (h : a * b ≠ nan) : a ≠ nan := by
  rintro rfl; simp at h
theorem mul_ne_nan_right {a b : Dbl} (h : a * b ≠ nan) : b ≠ nan := by
  rintro rfl; simp at h
theorem div_ne_nan_left {a b : Dbl} (h : a / b ≠ nan) : a ≠ nan := by
  rintro rfl; simp at h

theorem add_zero_le {a x : Dbl} (hx : x ≤ 0) (h : a + x ≠ nan) : a + x ≤ a := by
  have ha := add_ne_nan_left h
  rw [zero_eq] at hx
  cases a with
  | nan => simp at ha
  | ninf => cases x <;> simp_all [add_def, Dbl.add]
  | pinf => cases x <;> simp_all [add_def, Dbl.add]
  | fin p hp =>
    cases x with
    | nan => simp at hx
    | ninf => simp [add_def, Dbl.add]
    | pinf => simp at hx
    | fin q hq =>
      simp only [fin_le_fin] at hx
      rw [fin_add_fin, ← ofRat_rep hp]
      exact ofRat_mono (by linarith)

theorem le_add_nonneg {a x : Dbl} (hx : 0 ≤ x) (h : a + x ≠ nan) : a ≤ a + x := by
  have ha := add_ne_nan_left h
  rw [zero_eq] at hx
  cases a with
  | nan => simp at ha
  | ninf => cases x <;> simp_all [add_def, Dbl.add]
  | pinf => cases x <;> simp_all [add_def, Dbl.add]
  | fin p hp =>
    cases x with
    | nan => simp at hx
    | ninf => simp at hx
    | pinf => simp [add_def, Dbl.add]
    | fin q hq =>
      simp only [fin_le_fin] at hx
      rw [fin_add_fin, ← ofRat_rep hp]
      exact ofRat_mono (by linarith)

theorem mul_nonneg_of {a t : Dbl} (ha : 0 ≤ a) (ht : 0 ≤ t) (h : a * t ≠ nan) : 0 ≤ a * t := by
  rw [zero_eq] at *
  cases a with
  | nan => simp at ha
  | ninf => simp at ha
  | pinf =>
    cases t with
    | nan => simp at ht
    | ninf => simp at ht
    | pinf => simp [mul_def, Dbl.mul, sgn, infOfSign]
    | fin q hq =>
      simp only [fin_le_fin] at ht
      have h1 : ¬ q < 0 := by linarith
      by_cases h2 : 0 < q <;> simp [mul_def, Dbl.mul, sgn, infOfSign, h1, h2] at h ⊢
  | fin p hp =>
    simp only [fin_le_fin] at ha
    have h1 : ¬ p < 0 := by linarith
    cases t with
    | nan => simp at ht
    | ninf => simp at ht
    | pinf => by_cases h2 : 0 < p <;> simp [mul_def, Dbl.mul, sgn, infOfSign, h1, h2] at h ⊢
    | fin q hq =>
      simp only [fin_le_fin] at ht
      rw [fin_mul_fin, ← ofRat_rep (FloatModel.rep_zero)]
      exact ofRat_mono (by positivity)

theorem mul_nonpos_of {a t : Dbl} (ha : a ≤ 0) (ht : 0 ≤ t) (h : a * t ≠ nan) : a * t ≤ 0 := by
  have e : -(0 : Dbl) = 0 := by rw [zero_eq]; simp [neg_def, Dbl.neg]
  have h1 := neg_le_neg ha
  rw [e] at h1
  have h2 := mul_nonneg_of h1 ht (by rw [neg_mul]; exact neg_ne_nan.2 h)
  rw [neg_mul] at h2
  have h3 := neg_le_neg h2
  rwa [e, Dbl.neg_neg] at h3

theorem nonZero_iff {x : Dbl} : nonZero x = true ↔ x ≠ 0 := by
  have h0 : (0 : Dbl) ≠ nan := by rw [zero_eq]; simp
  unfold nonZero
  rw [Bool.not_eq_true', ← Bool.not_eq_true, eqb_iff]
  constructor
  · rintro h rfl; exact h ⟨rfl, h0⟩
  · rintro h ⟨rfl, _⟩; exact h rfl

theorem nonZero_zero : nonZero (0 : Dbl) = false := by
  rw [← Bool.not_eq_true, nonZero_iff]; simp

theorem zero_ne_nan : (0 : Dbl) ≠ nan := by rw [zero_eq]; simp

theorem eqb_zero_iff {x : Dbl} : Dbl.eqb x 0 = true ↔ x = 0 := by
  rw [eqb_iff]; constructor
  · exact fun h => h.1
  · rintro rfl; exact ⟨rfl, zero_ne_nan⟩

theorem cmax_ge_left {a b : Dbl} (h : a ≠ nan) : a ≤ cmax a b := by
  unfold cmax; split_ifs with c
  · exact le_of_lt c
  · exact le_refl h
theorem cmax_ge_right {a b : Dbl} (ha : a ≠ nan) (hb : b ≠ nan) : b ≤ cmax a b := by
  unfold cmax; split_ifs with c
  · exact le_refl hb
  · exact le_of_not_lt hb ha c

end Verif
