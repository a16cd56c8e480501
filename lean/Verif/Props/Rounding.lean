import Verif.Lemmas.Rounding
import Verif.Props.Writers

/-! # C136: rounding -/

namespace Verif
open Dbl
section
attribute [local instance] binary64

/-- without hysteresis -/
theorem pidStep_plain {k : PidCtl} (h1 : k.info.checkHysterWithSetpt = false) (h2 : k.info.positiveHysteresis = 0)
    (h3 : k.info.negativeHysteresis = 0) (s r : Dbl) : pidStep k s r = ((pid k.info r s).1, ⟨(pid k.info r s).2, r⟩) := by
  have h4 : (Dbl.eqb (0 : Dbl) 0) = true := eqb_zero_iff.2 rfl
  unfold pidStep calPIDOutput
  simp only [h1, h2, h3, h4, Bool.and_self, if_true, Bool.false_eq_true, if_false]
  rfl

/-- the readings and set points as numbers, with set points and errors up to `R` -/
def Numbers (R : ℚ) (d : Dbl × Dbl) (q : ℚ × ℚ) : Prop :=
  DoubleOf d.1 q.1 ∧ DoubleOf d.2 q.2 ∧ |q.2| ≤ R ∧ |q.2 - q.1| ≤ R

theorem drift {c : PidConf} {g : Gains} {R K : ℚ} (hg : HasGains c g) (hm : SizedGains g R K) :
    ∀ {hist : List (Dbl × Dbl)} {exact : List (ℚ × ℚ)}, List.Forall₂ (Numbers R) hist exact →
    ∀ {k : PidCtl} {s : Exactly} {δ : ℚ}, KeepsNear c R K δ k.info s → 0 ≤ δ → δ + hist.length * (36 * (eps * K)) ≤ K →
    ∀ (n : Nat) (d : Dbl) (q : ℚ), (loopRun k hist)[n]? = some d → (g.outputs s exact)[n]? = some q →
      Near d q K (δ + (n + 1) * (36 * (eps * K))) := by
  intro hist exact h
  induction h with
  | nil => intro k s δ _ _ _ n d q hd; simp [loopRun] at hd
  | @cons a b l l' hab hl ih =>
    intro k s δ ht h0 hle n d q hd hq
    obtain ⟨p1, p2, p3, p4, p5, p6, p7, p8, p9, p10, p11, p12⟩ := proportions hm
    obtain ⟨r, sp⟩ := a
    obtain ⟨x, y⟩ := b
    obtain ⟨n1, n2, n3, n4⟩ := hab
    have hlen : (0 : ℚ) ≤ l.length * (36 * (eps * K)) := by positivity
    rw [List.length_cons] at hle
    push_cast at hle
    rw [add_mul, one_mul] at hle
    obtain ⟨a1, a2⟩ := pid_near hg hm (by linarith) ht h0 n1 n2 n3 n4
    have e := pidStep_plain (k := k) (by rw [ht.conf]; exact hg.check) (by rw [ht.conf]; exact hg.plus)
      (by rw [ht.conf]; exact hg.minus) sp r
    simp only [loopRun, Gains.outputs, e] at hd hq
    cases n with
    | zero =>
      simp only [List.getElem?_cons_zero, Option.some.injEq] at hd hq
      subst hd; subst hq
      exact a1.mono le_rfl (by push_cast; linarith)
    | succ n =>
      rw [List.getElem?_cons_succ] at hd hq
      exact (ih (k := ⟨(pid k.info r sp).2, r⟩) a2 (by linarith) (by linarith) n d q hd hq).mono le_rfl (by push_cast; linarith)

/-- **C136** Rounding does not add up: after `n` further calculations the output of a loop is within `(n + 1) * K / 2 ^ 46` of what
exact arithmetic gives for the same settings, readings and set points, where `K` is the size of the terms. -/
theorem C136_drift {c : PidConf} {g : Gains} {R K : ℚ} (hg : HasGains c g) (hm : SizedGains g R K) {hist : List (Dbl × Dbl)}
    {exact : List (ℚ × ℚ)} (h : List.Forall₂ (Numbers R) hist exact) (hn : hist.length ≤ 2 ^ 46) :
    (loopRun (freshLoop c) hist).length = (g.outputs .start exact).length ∧
    ∀ (n : Nat) (d : Dbl) (q : ℚ), (loopRun (freshLoop c) hist)[n]? = some d → (g.outputs .start exact)[n]? = some q →
      ∃ v, DoubleOf d v ∧ |v - q| ≤ (n + 1) * (K / 2 ^ 46) := by
  obtain ⟨p1, p2, p3, p4, p5, p6, p7, p8, p9, p10, p11, p12⟩ := proportions hm
  have hl1 : ∀ (l : List (Dbl × Dbl)) (k : PidCtl), (loopRun k l).length = l.length := by
    intro l
    induction l with
    | nil => intro k; rfl
    | cons a l ih => intro k; simp only [loopRun, List.length_cons, ih]
  have hl2 : ∀ (l : List (ℚ × ℚ)) (s : Exactly), (g.outputs s l).length = l.length := by
    intro l
    induction l with
    | nil => intro k; rfl
    | cons a l ih => intro k; simp only [Gains.outputs, List.length_cons, ih]
  refine ⟨by rw [hl1, hl2, h.length_eq], fun n d q hd hq => ?_⟩
  have ht : KeepsNear c R K 0 (freshLoop c).info Exactly.start := by
    have zero : ∀ B E : ℚ, 0 ≤ B → 0 ≤ E → Near (0 : Dbl) 0 B E := by
      intro B E hB hE
      rw [zero_eq]
      exact ⟨by rwa [abs_zero], 0, _, rfl, by rwa [sub_self, abs_zero]⟩
    exact ⟨rfl, zero _ _ (by linarith) le_rfl, zero _ _ (by linarith) le_rfl, zero _ _ (by linarith) (by linarith), rfl⟩
  have h36 : 36 * (eps * K) ≤ K / 2 ^ 46 := by
    unfold eps
    rw [show K / 2 ^ 46 = 64 * (1 / 2 ^ 52 * K) by ring]
    have : 0 ≤ 1 / 2 ^ 52 * K := by positivity
    linarith
  have hn' : (hist.length : ℚ) ≤ 2 ^ 46 := by exact_mod_cast hn
  obtain ⟨-, v, hv, e, hE⟩ := drift hg hm h ht le_rfl (by
    calc (0 : ℚ) + hist.length * (36 * (eps * K)) ≤ 0 + 2 ^ 46 * (K / 2 ^ 46) := by gcongr
      _ = K := by field_simp; ring) n d q hd hq
  refine ⟨v, ⟨hv, e⟩, hE.trans ?_⟩
  rw [zero_add]
  gcongr

/-- **C136** The number a fan gets is within one step, plus the error of the percentage, of the exact place of the percentage in the
range of the fan. -/
theorem C136_fan {min max : Int} (h0 : 0 ≤ min) (h1 : min ≤ max) (h2 : max ≤ 2 ^ 53) {wr : Writer} (hp : IsPercent min max wr)
    {d : Dbl} {v q E : ℚ} (hd : DoubleOf d v) (hv0 : 0 ≤ v) (hv1 : v ≤ 100) (hE : |v - q| ≤ E) :
    ∃ u : Int, Sends wr (d / 100) u ∧ |(u : ℚ) - (min + (max - min) * (q / 100))| ≤ 1 + (max - min) * (E / 100) + (max + 1) / 2 ^ 50 := by
  have k1 := eps_pos; have k2 := eps_small; have k3 := tiny_pos; have k4 := tiny_small
  have m0 : (0 : ℚ) ≤ min := by exact_mod_cast h0
  have m1 : (min : ℚ) ≤ max := by exact_mod_cast h1
  have m2 : (max : ℚ) ≤ 2 ^ 53 := by exact_mod_cast h2
  have n100 : DoubleOf (100 : Dbl) 100 := ⟨FloatModel.rep_int 100 (by norm_num) (by norm_num), ofRat_rep _⟩
  have a1 : Near (d / 100) (v / 100) 1 eps := by
    have := (near_number hd (B := 100) (by rw [abs_le]; constructor <;> linarith)).div n100 (by norm_num) (B := 1) (by norm_num)
      (by linarith) (by norm_num) (by norm_num)
    exact this.mono le_rfl (by norm_num)
  have hr0 : 0 ≤ d / 100 ∧ d / 100 ≤ 1 := by
    obtain ⟨hd', rfl⟩ := hd
    obtain ⟨h', e⟩ := n100
    have hz : (0 : Dbl) = ofRat 0 := by rw [zero_eq]; exact (ofRat_rep FloatModel.rep_zero).symm
    have ho : (1 : Dbl) = ofRat 1 := rfl
    rw [e, fin_div_fin (by norm_num)]
    refine ⟨?_, ?_⟩
    · rw [hz]; exact ofRat_mono (by positivity)
    · rw [ho]; exact ofRat_mono (by rw [div_le_one (by norm_num)]; exact hv1)
  obtain ⟨u, e1, e2, -, -⟩ := percent_casts h0 h1 h2 hr0.1 hr0.2
  refine ⟨u, percent_sends h0 h1 h2 hp e1 e2, ?_⟩
  have hrange := range_eq (F := binary64) h0 h1 h2
  have nrange : DoubleOf (ofInt max - ofInt min) ((max - min : Int) : ℚ) := ⟨_, hrange⟩
  have nmin : DoubleOf (ofInt min) (min : ℚ) := ⟨rep_intRat (by omega) (by omega), ofRat_rep _⟩
  have hM : |((max - min : Int) : ℚ)| ≤ max + 1 := by
    push_cast; rw [abs_le]; constructor <;> linarith
  have a2 := a1.mul_left nrange (B := (max : ℚ) + 1) (by linarith) (by linarith) (by nlinarith [abs_nonneg ((max - min : Int) : ℚ)])
    (by norm_num at m2 ⊢; linarith)
  have hle : eps * |((max - min : Int) : ℚ)| ≤ eps * (max + 1) := mul_le_mul_of_nonneg_left hM k1.le
  have hle2 : 1000000 * (eps * (max + 1 : ℚ)) ≤ max + 1 := by nlinarith
  have a3 := (a2.mono le_rfl (E' := 2 * (eps * (max + 1))) (by linarith)).add
    (near_number nmin (B := (max : ℚ) + 1) (by rw [abs_le]; constructor <;> linarith)) (by linarith) (by linarith)
    (by norm_num at m2 ⊢; linarith)
  obtain ⟨-, t, ht, e, hE2⟩ := a3
  have et : percentToRaw min max (d / 100) = fin t ht := e
  have htrunc : |(u : ℚ) - t| ≤ 1 := by
    rw [et, toI64, castInt] at e1
    split_ifs at e1
    injection e1 with e1
    subst e1
    unfold truncQ
    rw [abs_le]
    split_ifs
    · have := Int.floor_le t; have := Int.lt_floor_add_one t; constructor <;> linarith
    · have := Int.le_ceil t; have := Int.ceil_lt_add_one t; constructor <;> linarith
  have hq : |((max - min : Int) : ℚ) * (v / 100) - (max - min) * (q / 100)| ≤ (max - min) * (E / 100) := by
    push_cast
    rw [show ((max : ℚ) - min) * (v / 100) - (max - min) * (q / 100) = (max - min) * ((v - q) / 100) by ring, abs_mul,
      abs_of_nonneg (by linarith : (0 : ℚ) ≤ max - min), abs_div, abs_of_pos (by norm_num : (0 : ℚ) < 100)]
    have : (0 : ℚ) ≤ max - min := by linarith
    gcongr
  have h50 : 2 * (eps * (max + 1)) + 0 + eps * ((max + 1 : ℚ) + (max + 1)) = (max + 1) / 2 ^ 50 := by
    unfold eps; ring
  rw [h50] at hE2
  rw [abs_le] at *
  constructor <;> linarith

namespace Ex

theorem number_of {d : Dbl} {q : ℚ} (h : (match d with | .fin x _ => decide (x = q) | _ => false) = true) : DoubleOf d q := by
  cases d with
  | fin x hx =>
    have := of_decide_eq_true h
    subst this
    exact ⟨hx, rfl⟩
  | _ => cases h

/-- a loop with an integral, run ten times a second; one tenth is not a double -/
def conf136 : PidConf :=
  { checkHysterWithSetpt := false, ts := ofRat (1 / 10), proportionalCoeff := -2, integralCoeff := - ofRat (1 / 10), derivativeCoeff := 0,
    feedFwdOffset := 0, feedFwdGain := 0, integralLimit := ⟨0, 100⟩, outLim := ⟨0, 100⟩, slewNeg := 0, slewPos := 0,
    positiveHysteresis := 0, negativeHysteresis := 0 }

def tenth : ℚ := B64.rnd (1 / 10)
def gains136 : Gains := ⟨-2, -tenth, 0, 0, 0, tenth, 0, 100, 0, 100, 0, 0⟩

theorem hasGains136 : HasGains conf136 gains136 := by
  refine ⟨rfl, rfl, rfl, ?_, ?_, ?_, ?_, ?_, ?_, ?_, ?_, ?_, ?_, ?_, ?_⟩ <;> exact number_of (by decide +kernel)

theorem moderate136 : SizedGains gains136 50 100 := by
  refine ⟨?_, ?_, ?_, ?_, ?_, ?_, ?_, ?_, ?_, ?_, ?_, ?_, ?_, ?_, ?_, ?_, ?_⟩ <;> decide +kernel

/-- C136: thirty years of any readings and set points between 0 and 50 degrees, ten times a second: rounding moves the output by less
than a fiftieth of a percent -/
theorem C136_thirty_years {hist : List (Dbl × Dbl)} {exact : List (ℚ × ℚ)} (h : List.Forall₂ (Numbers 50) hist exact)
    (hn : hist.length ≤ 30 * 366 * 24 * 60 * 60 * 10) (n : Nat) (d : Dbl) (q : ℚ)
    (hd : (loopRun (freshLoop conf136) hist)[n]? = some d) (hq : (gains136.outputs .start exact)[n]? = some q) :
    ∃ v, DoubleOf d v ∧ |v - q| ≤ 1 / 50 := by
  obtain ⟨hl, hall⟩ := C136_drift hasGains136 moderate136 h (hn.trans (by norm_num))
  obtain ⟨v, hv, he⟩ := hall n d q hd hq
  refine ⟨v, hv, he.trans ?_⟩
  have hlt : n < (loopRun (freshLoop conf136) hist).length := by
    by_contra hc
    rw [List.getElem?_eq_none (by omega)] at hd
    cases hd
  have hlen : ∀ (l : List (Dbl × Dbl)) (k : PidCtl), (loopRun k l).length = l.length := by
    intro l
    induction l with
    | nil => intro k; rfl
    | cons a l ih => intro k; simp only [loopRun, List.length_cons, ih]
  rw [hlen] at hlt
  have : (n : ℚ) + 1 ≤ 9486720000 := by exact_mod_cast (by omega : n + 1 ≤ 9486720000)
  calc ((n : ℚ) + 1) * (100 / 2 ^ 46) ≤ 9486720000 * (100 / 2 ^ 46) := by gcongr
    _ ≤ 1 / 50 := by norm_num

/-- the number of a double -/
def value136 : Dbl → Option ℚ
  | .fin q _ => some q
  | _ => none

/-- three seconds too hot: there is some rounding -/
example : (loopRun (freshLoop conf136) [(33, 30), (33, 30), (33, 30)]).map value136 ≠
    (gains136.outputs .start [(33, 30), (33, 30), (33, 30)]).map some := by decide +kernel
example : List.Forall₂ (Numbers 50) [((33 : Dbl), (30 : Dbl))] [(33, 30)] :=
  .cons ⟨number_of (by decide +kernel), number_of (by decide +kernel), by decide +kernel, by decide +kernel⟩ .nil

/-- C136_fan: 50 percent of 0 to 255 -/
example : ∃ u : Int, Sends (.sysfsPercent "/pwm1" 0 255) ((50 : Dbl) / 100) u ∧ |(u : ℚ) - 255 / 2| ≤ 1 + 256 / 2 ^ 50 := by
  obtain ⟨u, h1, h2⟩ := C136_fan (min := 0) (max := 255) (by norm_num) (by norm_num) (by norm_num) (.sysfs "/pwm1")
    (d := 50) (v := 50) (q := 50) (E := 0) (number_of (by decide +kernel)) (by norm_num) (by norm_num) (by norm_num)
  refine ⟨u, h1, ?_⟩
  norm_num at h2 ⊢
  exact h2

/-- a loop that asks for full speed whenever it acts, with a hysteresis around the set point -/
def full136 (check : Bool) (hysteresis : Dbl) : PidConf :=
  { conf136 with checkHysterWithSetpt := check, positiveHysteresis := hysteresis, feedFwdGain := 100, feedFwdOffset := 10 }

/-- **Finding** With a hysteresis rounding can decide whether the loop acts: the reading is above the set point plus the
hysteresis, but the sum is rounded up to the reading, and the loop stays off. -/
theorem C136_hysteresis : ∃ setpoint hysteresis reading : Dbl, ∃ s h r : ℚ, DoubleOf setpoint s ∧ DoubleOf hysteresis h ∧
    DoubleOf reading r ∧ s + h < r ∧
    (loopRun (freshLoop (full136 true hysteresis)) [(reading, setpoint)]) = [0] ∧
    (loopRun (freshLoop (full136 false 0)) [(reading, setpoint)]) = [100] :=
  ⟨ofRat (1 / 10), ofRat (2 / 10), ofRat (1 / 10) + ofRat (2 / 10), B64.rnd (1 / 10), B64.rnd (2 / 10),
    B64.rnd (B64.rnd (1 / 10) + B64.rnd (2 / 10)), number_of (by decide +kernel), number_of (by decide +kernel),
    number_of (by decide +kernel), by decide +kernel, by decide +kernel, by decide +kernel⟩

end Ex

end
end Verif
