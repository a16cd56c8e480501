import Verif.Lemmas.Num

/-! # Lemmas on stepwise tables -/

namespace Verif
variable [F : FloatModel]
open Dbl

theorem isNaN_iff {x : Dbl} : x.isNaN = true ↔ x = nan := by cases x <;> simp [isNaN]
theorem isNaN_false_iff {x : Dbl} : x.isNaN = false ↔ x ≠ nan := by cases x <;> simp [isNaN]

/-- where the loop of `stepwise` stops when started at index `ii` with the value of index `ii - 1` -/
theorem stepwiseLoop_spec (info : StepwiseInfo) (x : Dbl) : ∀ (m ii : Nat) (h1 : 1 ≤ ii) (h2 : ii ≤ 20) (v : Dbl) (h0 : ii - 1 < 20),
    v = info.output ⟨ii - 1, h0⟩ → 20 - ii = m →
    ∃ k, ∃ hk : k < 20, ii - 1 ≤ k ∧
      stepwiseLoop info x ii v = info.output ⟨k, hk⟩ ∧
      (∀ j (hj : j < 20), ii ≤ j → j ≤ k → info.reading ⟨j, hj⟩ ≠ nan ∧ ¬ x < info.reading ⟨j, hj⟩) ∧
      (∀ hk' : k + 1 < 20, info.reading ⟨k + 1, hk'⟩ = nan ∨ x < info.reading ⟨k + 1, hk'⟩) := by
  intro m
  induction m with
  | zero =>
    intro ii h1 h2 v h0 hv hm
    have : ii = 20 := by omega
    subst this
    refine ⟨19, by omega, by omega, ?_, by intros; omega, by intro h; omega⟩
    subst hv
    unfold stepwiseLoop
    rw [dif_neg (by show ¬ 20 < 20; omega)]
  | succ m ih =>
    intro ii h1 h2 v h0 hv hm
    have hlt : ii < maxStepwisePoints := by show ii < 20; omega
    unfold stepwiseLoop
    rw [dif_pos hlt]
    by_cases hn : (info.reading ⟨ii, hlt⟩).isNaN = true
    · rw [if_pos hn]
      refine ⟨ii - 1, by omega, by omega, hv, by intros; omega, ?_⟩
      intro hk'
      have e : (⟨ii - 1 + 1, hk'⟩ : Fin maxStepwisePoints) = ⟨ii, hlt⟩ := by
        apply Fin.ext; show ii - 1 + 1 = ii; omega
      rw [e]; left; exact isNaN_iff.1 hn
    · rw [if_neg hn]
      by_cases hx : x < info.reading ⟨ii, hlt⟩
      · rw [if_pos hx]
        refine ⟨ii - 1, by omega, by omega, hv, by intros; omega, ?_⟩
        intro hk'
        have e : (⟨ii - 1 + 1, hk'⟩ : Fin maxStepwisePoints) = ⟨ii, hlt⟩ := by
          apply Fin.ext; show ii - 1 + 1 = ii; omega
        rw [e]; right; exact hx
      · rw [if_neg hx]
        obtain ⟨k, hk, h3, h4, h5, h6⟩ := ih (ii + 1) (by omega) (by omega) _ (by omega) rfl (by omega)
        refine ⟨k, hk, by omega, h4, ?_, h6⟩
        intro j hj h7 h8
        by_cases hji : j = ii
        · subst hji; exact ⟨fun h => hn (isNaN_iff.2 h), hx⟩
        · exact h5 j hj (by omega) h8

theorem stepwise_spec (info : StepwiseInfo) (x : Dbl) :
    ∃ k, ∃ hk : k < 20, stepwise info x = info.output ⟨k, hk⟩ ∧
      (∀ j (hj : j < 20), 1 ≤ j → j ≤ k → info.reading ⟨j, hj⟩ ≠ nan ∧ ¬ x < info.reading ⟨j, hj⟩) ∧
      (∀ hk' : k + 1 < 20, info.reading ⟨k + 1, hk'⟩ = nan ∨ x < info.reading ⟨k + 1, hk'⟩) := by
  obtain ⟨k, hk, _, h4, h5, h6⟩ := stepwiseLoop_spec info x 19 1 (by omega) (by omega) _ (by omega) rfl rfl
  exact ⟨k, hk, h4, h5, h6⟩

theorem listed_stop {info : StepwiseInfo} {n : Nat} (hl : Listed info n) {k : Nat} (hk : k < 20)
    (h : ∀ j (hj : j < 20), 1 ≤ j → j ≤ k → info.reading ⟨j, hj⟩ ≠ nan) : k < n := by
  rcases Nat.lt_or_ge k n with h1 | h1
  · exact h1
  · have hn : n < 20 := by omega
    exact absurd (hl.unset hn) (h n hn hl.pos h1)

end Verif
