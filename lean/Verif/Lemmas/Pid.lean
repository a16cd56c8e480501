import Verif.Lemmas.Num

/-! # Lemmas on the PID computation -/

namespace Verif
variable [F : FloatModel]
open Dbl

/-- output after both slew stages -/
def slewed (i : PidInfo) (o : Dbl) : Dbl :=
  let minOut := i.lastOutput + i.slewNeg * i.ts
  let o := if i.initialized && nonZero i.slewNeg then (if o < minOut then minOut else o) else o
  let maxOut := i.lastOutput + i.slewPos * i.ts
  if i.initialized && nonZero i.slewPos then (if maxOut < o then maxOut else o) else o

theorem ite_nonZero {x : Dbl} {α} (a b : α) : (if nonZero x then a else b) = if x = 0 then b else a := by
  by_cases h : x = 0
  · subst h; simp [nonZero_zero]
  · simp [h, nonZero_iff.2 h]

theorem limited_eq (x lo hi : Dbl) : limited x lo hi = clamp x lo hi := rfl

theorem pid_out (i : PidInfo) (r s : Dbl) :
    (pid i r s).1 = slewed i (clamp (pidSum i r s) i.outLim.min i.outLim.max) := by
  simp only [pid, slewed, pidSum, ite_nonZero]
  rfl

theorem slewed_nan (i : PidInfo) : slewed i nan = nan := by
  simp [slewed]

theorem slewed_off {i : PidInfo} (h : i.initialized = false ∨ (i.slewNeg = 0 ∧ i.slewPos = 0)) (o : Dbl) :
    slewed i o = o := by
  rcases h with h | ⟨h1, h2⟩
  · simp [slewed, h]
  · simp [slewed, h1, h2, nonZero_zero]

theorem slewed_mono (i : PidInfo) {x y : Dbl} (h : x ≤ y) : slewed i x ≤ slewed i y := by
  unfold slewed
  simp only []
  by_cases a : (i.initialized && nonZero i.slewNeg) = true <;>
    by_cases b : (i.initialized && nonZero i.slewPos) = true <;> simp only [a, b, if_true]
  · exact ceilAt_mono (floorAt_mono h)
  · simpa using floorAt_mono h
  · exact ceilAt_mono h
  · simpa using h

@[simp] theorem pid_conf (i : PidInfo) (r s : Dbl) : (pid i r s).2.toPidConf = i.toPidConf := rfl
@[simp] theorem pid_lastOutput (i : PidInfo) (r s : Dbl) : (pid i r s).2.lastOutput = (pid i r s).1 := rfl
@[simp] theorem pid_initialized (i : PidInfo) (r s : Dbl) : (pid i r s).2.initialized = true := rfl
@[simp] theorem pid_lastError (i : PidInfo) (r s : Dbl) : (pid i r s).2.lastError = s - r := rfl

theorem slewed_inLimits {i : PidInfo} {l : Limits} (hs : SaneSlew i.toPidConf)
    (hl : i.initialized = true → InLimits l i.lastOutput) {o : Dbl} (ho : InLimits l o) :
    InLimits l (slewed i o) := by
  obtain ⟨hn, hp, ht⟩ := hs
  by_cases hi : i.initialized = true
  swap
  · rw [slewed_off (Or.inl (by simpa using hi))]; exact ho
  have hl := hl hi
  have floor_ok : ∀ o, InLimits l o →
      InLimits l (if o < i.lastOutput + i.slewNeg * i.ts then i.lastOutput + i.slewNeg * i.ts else o) := by
    intro o ho
    split_ifs with c
    · have n1 := ne_nan_of_lt_right c
      have n2 := add_ne_nan_left n1
      have n3 := add_ne_nan_right n1
      right
      rcases ho with rfl | ho
      · simp at c
      rcases hl with hl | hl
      · exact absurd hl n2
      exact ⟨le_of_lt (lt_of_le_of_lt ho.1 c), le_trans (add_zero_le (mul_nonpos_of hn ht n3) n1) hl.2⟩
    · exact ho
  have ceil_ok : ∀ o, InLimits l o →
      InLimits l (if i.lastOutput + i.slewPos * i.ts < o then i.lastOutput + i.slewPos * i.ts else o) := by
    intro o ho
    split_ifs with c
    · have n1 := ne_nan_of_lt_left c
      have n2 := add_ne_nan_left n1
      have n3 := add_ne_nan_right n1
      right
      rcases ho with rfl | ho
      · simp at c
      rcases hl with hl | hl
      · exact absurd hl n2
      exact ⟨le_trans hl.1 (le_add_nonneg (mul_nonneg_of hp ht n3) n1), le_of_lt (lt_of_lt_of_le c ho.2)⟩
    · exact ho
  unfold slewed
  simp only []
  by_cases a : (i.initialized && nonZero i.slewNeg) = true <;>
    by_cases b : (i.initialized && nonZero i.slewPos) = true <;> simp only [a, b, if_true]
  · exact ceil_ok _ (floor_ok _ ho)
  · simpa using floor_ok _ ho
  · exact ceil_ok _ ho
  · simpa using ho

/-- the part of the state that decides whether outputs stay inside the limits -/
def LimInv (i : PidInfo) : Prop :=
  i.outLim.min ≤ i.outLim.max ∧ SaneSlew i.toPidConf ∧ (i.initialized = true → InLimits i.outLim i.lastOutput)

theorem pid_limInv {i : PidInfo} (h : LimInv i) (r s : Dbl) :
    InLimits i.outLim (pid i r s).1 ∧ LimInv (pid i r s).2 := by
  have h1 : InLimits i.outLim (pid i r s).1 := by
    rw [pid_out]; exact slewed_inLimits h.2.1 h.2.2 (clamp_inLimits h.1 _)
  exact ⟨h1, h.1, h.2.1, fun _ => h1⟩

theorem pidRun_inLimits (hist : List (Dbl × Dbl)) : ∀ {i : PidInfo}, LimInv i →
    ∀ o ∈ pidRun i hist, InLimits i.outLim o := by
  induction hist with
  | nil => intro i _ o ho; simp [pidRun] at ho
  | cons p t ih =>
    intro i hi o ho
    obtain ⟨r, s⟩ := p
    have hp := pid_limInv hi r s
    simp only [pidRun, List.mem_cons] at ho
    rcases ho with rfl | ho
    · exact hp.1
    · exact ih hp.2 o ho

end Verif
