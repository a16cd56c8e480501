import Verif.Lemmas.Stepwise
import Verif.Base.Binary64

/-! # C11-C13: stepwise tables -/

namespace Verif
open Dbl

section
variable [F : FloatModel]

/-- **C11.** For a table of `n` points with increasing readings and any input (also infinite or NaN), the output is the
one listed for the last point whose reading is not above the input, or the first one when the input is below all of
them. -/
theorem C11_lookup (info : StepwiseInfo) (n : Nat) (hl : Listed info n)
    (inc : ∀ i j (hi : i < 20) (hj : j < 20), i < j → j < n → info.reading ⟨i, hi⟩ < info.reading ⟨j, hj⟩) (x : Dbl) :
    (∃ k, ∃ hk : k < 20, k < n ∧ stepwise info x = info.output ⟨k, hk⟩ ∧ ¬ x < info.reading ⟨k, hk⟩ ∧
        ∀ j (hj : j < 20), k < j → j < n → x < info.reading ⟨j, hj⟩) ∨
    (stepwise info x = info.output ⟨0, by decide⟩ ∧ ∀ j (hj : j < 20), j < n → x < info.reading ⟨j, hj⟩) := by
  obtain ⟨k, hk, e, h1, h2⟩ := stepwise_spec info x
  have hkn := listed_stop hl hk (fun j hj a b => (h1 j hj a b).1)
  have above : ∀ j (hj : j < 20), k < j → j < n → x < info.reading ⟨j, hj⟩ := by
    intro j hj a b
    have hk1 : k + 1 < 20 := by omega
    have h3 : x < info.reading ⟨k + 1, hk1⟩ := by
      rcases h2 hk1 with h | h
      · exact absurd h (hl.set (k + 1) hk1 (by omega) (by omega))
      · exact h
    by_cases hj' : j = k + 1
    · subst hj'; exact h3
    · exact lt_trans h3 (inc (k + 1) j hk1 hj (by omega) b)
  by_cases hx : x < info.reading ⟨k, hk⟩
  · have hk0 : k = 0 := by
      by_contra hne
      exact (h1 k hk (by omega) (by omega)).2 hx
    subst hk0
    right
    refine ⟨e, fun j hj hjn => ?_⟩
    by_cases hj0 : j = 0
    · subst hj0; exact hx
    · exact above j hj (by omega) hjn
  · left
    exact ⟨k, hk, hkn, e, hx, above⟩

/-- **C12.** The output is one of the listed outputs. -/
theorem C12_from_table (info : StepwiseInfo) (n : Nat) (hl : Listed info n) (x : Dbl) :
    ∃ k, ∃ hk : k < 20, k < n ∧ stepwise info x = info.output ⟨k, hk⟩ := by
  obtain ⟨k, hk, e, h1, _⟩ := stepwise_spec info x
  exact ⟨k, hk, listed_stop hl hk (fun j hj a b => (h1 j hj a b).1), e⟩

/-- **C12.** If the listed outputs never decrease, a higher input never gives a lower output (the readings need not
even be sorted). -/
theorem C12_monotone (info : StepwiseInfo) (n : Nat) (hl : Listed info n)
    (mono : ∀ i j (hi : i < 20) (hj : j < 20), i ≤ j → j < n → info.output ⟨i, hi⟩ ≤ info.output ⟨j, hj⟩)
    {x y : Dbl} (hxy : x ≤ y) : stepwise info x ≤ stepwise info y := by
  obtain ⟨k, hk, e, h1, h2⟩ := stepwise_spec info x
  obtain ⟨l, hl', e', h1', h2'⟩ := stepwise_spec info y
  have hln := listed_stop hl hl' (fun j hj a b => (h1' j hj a b).1)
  have hkl : k ≤ l := by
    by_contra hlt
    have hl1 : l + 1 < 20 := by omega
    have a := h1 (l + 1) hl1 (by omega) (by omega)
    rcases h2' hl1 with b | b
    · exact a.1 b
    · exact a.2 (lt_of_le_of_lt hxy b)
  rw [e, e']
  exact mono k l hk hl' hkl hln

/-- **C13.** Over any history of readings, the emitted values are the table values of reference readings that follow
the hysteresis rule: the reference stays while the reading is within the band around it, and becomes the current
reading when it leaves the band. -/
theorem C13_hysteresis (info : StepwiseInfo) (n : Nat) (hl : Listed info n)
    (hout : ∀ k (hk : k < 20), k < n → info.output ⟨k, hk⟩ ≠ nan) (hist : List Dbl) :
    ∃ refs, HystTrack info.positiveHysteresis info.negativeHysteresis none hist refs ∧
      stepRun info StepState.init hist = refs.map (stepwise info) := by
  have hne : ∀ x, stepwise info x ≠ nan := by
    intro x
    obtain ⟨k, hk, h1, e⟩ := C12_from_table info n hl x
    rw [e]; exact hout k hk h1
  have key : ∀ (hist : List Dbl) (u : Dbl), ∃ refs,
      HystTrack info.positiveHysteresis info.negativeHysteresis (some u) hist refs ∧
      stepRun info ⟨u, stepwise info u⟩ hist = refs.map (stepwise info) := by
    intro hist
    induction hist with
    | nil => intro u; exact ⟨[], HystTrack.nil _, rfl⟩
    | cons x t ih =>
      intro u
      have hn : (stepwise info u).isNaN = false := isNaN_false_iff.2 (hne u)
      by_cases h1 : info.positiveHysteresis < x - u
      · obtain ⟨refs, a, b⟩ := ih x
        refine ⟨x :: refs, HystTrack.move (Or.inl h1) a, ?_⟩
        simp [stepRun, stepwiseStep, hn, h1, b]
      · by_cases h2 : info.negativeHysteresis < u - x
        · obtain ⟨refs, a, b⟩ := ih x
          refine ⟨x :: refs, HystTrack.move (Or.inr h2) a, ?_⟩
          simp [stepRun, stepwiseStep, hn, h1, h2, b]
        · obtain ⟨refs, a, b⟩ := ih u
          refine ⟨u :: refs, HystTrack.keep h1 h2 a, ?_⟩
          simp [stepRun, stepwiseStep, hn, h1, h2, b]
  cases hist with
  | nil => exact ⟨[], HystTrack.nil _, rfl⟩
  | cons x t =>
    obtain ⟨refs, a, b⟩ := key t x
    refine ⟨x :: refs, HystTrack.first a, ?_⟩
    simp [stepRun, stepwiseStep, StepState.init, isNaN, b]

/-- **C13.** While the reading stays in the band of the reference, the emitted value does not change. -/
theorem C13_change_only_on_leaving (info : StepwiseInfo) (st : StepState) (x : Dbl) (hn : st.lastOutput ≠ nan)
    (h : (stepwiseStep info st x).1 ≠ st.lastOutput) :
    info.positiveHysteresis < x - st.lastInput ∨ info.negativeHysteresis < st.lastInput - x := by
  by_contra hc
  rw [not_or] at hc
  apply h
  simp [stepwiseStep, isNaN_false_iff.2 hn, hc.1, hc.2]

end

section
attribute [local instance] binary64

/-- a three point table 30 -> 40 %, 50 -> 60 %, 70 -> 100 % with hysteresis 1 up, 3 down -/
def exTable : StepwiseInfo :=
  { ts := 1,
    reading := fun i => if i.1 = 0 then 30 else if i.1 = 1 then 50 else if i.1 = 2 then 70 else nan,
    output := fun i => if i.1 = 0 then 40 else if i.1 = 1 then 60 else if i.1 = 2 then 100 else nan,
    positiveHysteresis := 1, negativeHysteresis := 3, isCeiling := false }

theorem exTable_listed : Listed exTable 3 :=
  ⟨by decide, by decide, by decide +kernel, by decide +kernel⟩

example : (∀ i j (hi : i < 20) (hj : j < 20), i < j → j < 3 → exTable.reading ⟨i, hi⟩ < exTable.reading ⟨j, hj⟩) ∧
    (∀ i j (hi : i < 20) (hj : j < 20), i ≤ j → j < 3 → exTable.output ⟨i, hi⟩ ≤ exTable.output ⟨j, hj⟩) ∧
    (∀ k (hk : k < 20), k < 3 → exTable.output ⟨k, hk⟩ ≠ nan) := by
  refine ⟨?_, ?_, by decide +kernel⟩
  · intro i j hi hj h1 h2
    have h : (i = 0 ∧ j = 1) ∨ (i = 0 ∧ j = 2) ∨ (i = 1 ∧ j = 2) := by omega
    rcases h with ⟨rfl, rfl⟩ | ⟨rfl, rfl⟩ | ⟨rfl, rfl⟩ <;> (revert hi hj; decide +kernel)
  · intro i j hi hj h1 h2
    have h : (i = 0 ∧ j = 1) ∨ (i = 0 ∧ j = 2) ∨ (i = 1 ∧ j = 2) ∨ (i = 0 ∧ j = 0) ∨ (i = 1 ∧ j = 1) ∨ (i = 2 ∧ j = 2) := by
      omega
    rcases h with ⟨rfl, rfl⟩ | ⟨rfl, rfl⟩ | ⟨rfl, rfl⟩ | ⟨rfl, rfl⟩ | ⟨rfl, rfl⟩ | ⟨rfl, rfl⟩ <;> (revert hi hj; decide +kernel)

example : [stepwise exTable 20, stepwise exTable 30, stepwise exTable 69, stepwise exTable 70, stepwise exTable nan] =
    [40, 40, 60, 100, 100] := by decide +kernel

example : stepRun exTable StepState.init [49, 50, 51, 48, 47, 20] = [40, 40, 60, 60, 40, 40] := by decide +kernel

end

end Verif
