import Verif.Base.Dbl

/-! Helper lemmas on `Dbl` (not claims). -/

namespace Verif
variable [F : FloatModel]
namespace Dbl

theorem lt_def (a b : Dbl) : a < b ↔ ltb a b = true := Iff.rfl
theorem le_def (a b : Dbl) : a ≤ b ↔ leb a b = true := Iff.rfl

@[simp] theorem not_nan_lt (a : Dbl) : ¬ nan < a := by cases a <;> simp [lt_def, ltb]
@[simp] theorem not_lt_nan (a : Dbl) : ¬ a < nan := by cases a <;> simp [lt_def, ltb]
@[simp] theorem not_nan_le (a : Dbl) : ¬ nan ≤ a := by cases a <;> simp [le_def, leb]
@[simp] theorem not_le_nan (a : Dbl) : ¬ a ≤ nan := by cases a <;> simp [le_def, leb]
@[simp] theorem fin_lt_fin {p q : Rat} {hp hq} : (fin p hp : Dbl) < fin q hq ↔ p < q := by
  simp [lt_def, ltb]
@[simp] theorem fin_le_fin {p q : Rat} {hp hq} : (fin p hp : Dbl) ≤ fin q hq ↔ p ≤ q := by
  simp [le_def, leb]
@[simp] theorem not_lt_ninf (a : Dbl) : ¬ a < ninf := by cases a <;> simp [lt_def, ltb]
@[simp] theorem not_pinf_lt (a : Dbl) : ¬ pinf < a := by cases a <;> simp [lt_def, ltb]
@[simp] theorem ninf_lt_fin {p : Rat} {hp} : (ninf : Dbl) < fin p hp := by simp [lt_def, ltb]
@[simp] theorem fin_lt_pinf {p : Rat} {hp} : (fin p hp : Dbl) < pinf := by simp [lt_def, ltb]
@[simp] theorem ninf_lt_pinf : (ninf : Dbl) < pinf := by simp [lt_def, ltb]
@[simp] theorem ninf_le_fin {p : Rat} {hp} : (ninf : Dbl) ≤ fin p hp := by simp [le_def, leb]
@[simp] theorem fin_le_pinf {p : Rat} {hp} : (fin p hp : Dbl) ≤ pinf := by simp [le_def, leb]
@[simp] theorem ninf_le_pinf : (ninf : Dbl) ≤ pinf := by simp [le_def, leb]
@[simp] theorem ninf_le_ninf : (ninf : Dbl) ≤ ninf := by simp [le_def, leb]
@[simp] theorem pinf_le_pinf : (pinf : Dbl) ≤ pinf := by simp [le_def, leb]
@[simp] theorem not_fin_le_ninf {p : Rat} {hp} : ¬ (fin p hp : Dbl) ≤ ninf := by simp [le_def, leb]
@[simp] theorem not_pinf_le_ninf : ¬ (pinf : Dbl) ≤ ninf := by simp [le_def, leb]
@[simp] theorem not_pinf_le_fin {p : Rat} {hp} : ¬ (pinf : Dbl) ≤ fin p hp := by simp [le_def, leb]

theorem lt_irrefl (a : Dbl) : ¬ a < a := by cases a <;> simp
theorem lt_trans {a b c : Dbl} : a < b → b < c → a < c := by
  cases a <;> cases b <;> cases c <;> simp <;> intros <;> linarith
theorem le_trans {a b c : Dbl} : a ≤ b → b ≤ c → a ≤ c := by
  cases a <;> cases b <;> cases c <;> simp <;> intros <;> linarith
theorem lt_of_lt_of_le {a b c : Dbl} : a < b → b ≤ c → a < c := by
  cases a <;> cases b <;> cases c <;> simp <;> intros <;> linarith
theorem lt_of_le_of_lt {a b c : Dbl} : a ≤ b → b < c → a < c := by
  cases a <;> cases b <;> cases c <;> simp <;> intros <;> linarith
theorem le_of_lt {a b : Dbl} : a < b → a ≤ b := by
  cases a <;> cases b <;> simp <;> intros <;> linarith
theorem not_lt_of_le {a b : Dbl} : a ≤ b → ¬ b < a := by
  cases a <;> cases b <;> simp
theorem not_le_of_lt {a b : Dbl} : a < b → ¬ b ≤ a := by
  cases a <;> cases b <;> simp
theorem le_refl {a : Dbl} (h : a ≠ nan) : a ≤ a := by
  cases a <;> simp at *
theorem le_antisymm {a b : Dbl} : a ≤ b → b ≤ a → a = b := by
  cases a <;> cases b <;> simp
  intro h1 h2; exact _root_.le_antisymm h1 h2
theorem le_of_not_lt {a b : Dbl} (ha : a ≠ nan) (hb : b ≠ nan) : ¬ b < a → a ≤ b := by
  cases a <;> cases b <;> simp at *
theorem lt_of_not_le {a b : Dbl} (ha : a ≠ nan) (hb : b ≠ nan) : ¬ b ≤ a → a < b := by
  cases a <;> cases b <;> simp at *
theorem le_total {a b : Dbl} (ha : a ≠ nan) (hb : b ≠ nan) : a ≤ b ∨ b ≤ a := by
  cases a <;> cases b <;> simp at *
  exact _root_.le_total _ _
theorem ne_nan_of_le_left {a b : Dbl} : a ≤ b → a ≠ nan := by rintro h rfl; simp at h
theorem ne_nan_of_le_right {a b : Dbl} : a ≤ b → b ≠ nan := by rintro h rfl; simp at h
theorem ne_nan_of_lt_left {a b : Dbl} : a < b → a ≠ nan := by rintro h rfl; simp at h
theorem ne_nan_of_lt_right {a b : Dbl} : a < b → b ≠ nan := by rintro h rfl; simp at h
theorem lt_iff_le_not_le {a b : Dbl} : a < b ↔ a ≤ b ∧ ¬ b ≤ a := by
  cases a <;> cases b <;> simp
  intro h; exact _root_.le_of_lt h
theorem le_iff_lt_or_eq {a b : Dbl} (ha : a ≠ nan) : a ≤ b ↔ a < b ∨ a = b := by
  cases a <;> cases b <;> simp at *
  exact _root_.le_iff_lt_or_eq

/-! ### rounding -/

theorem ofRat_rep {q : Rat} (h : F.rep q) : ofRat q = fin q h := by
  unfold ofRat
  have h1 := F.rep_le h
  have h2 := FloatModel.neg_le_rep h
  have h3 := F.rnd_rep h
  rw [dif_neg (by rw [h3]; linarith), dif_neg (by rw [h3]; linarith)]
  simp [h3]

theorem ofRat_ne_nan (q : Rat) : ofRat q ≠ nan := by
  unfold ofRat; split <;> [simp; (split <;> simp)]

theorem ofRat_mono {p q : Rat} (h : p ≤ q) : ofRat p ≤ ofRat q := by
  have hm := F.rnd_mono h
  have := FloatModel.maxFin_pos (F := F)
  unfold ofRat
  split
  · rw [dif_pos (by linarith)]; simp
  · split
    · split <;> [simp; (split <;> simp)]
    · split <;> [simp; (split <;> [skip; simp])]
      · linarith
      · exact hm

theorem zero_eq : (0 : Dbl) = fin 0 FloatModel.rep_zero := by
  show ofRat ((0:Nat):Rat) = _
  have : ((0:Nat):Rat) = 0 := by norm_num
  rw [this]
  exact ofRat_rep _

theorem one_eq : (1 : Dbl) = fin 1 FloatModel.rep_one := by
  show ofRat ((1:Nat):Rat) = _
  have : ((1:Nat):Rat) = 1 := by norm_num
  rw [this]
  exact ofRat_rep _

theorem rep_nat {n : Nat} (h : n ≤ 2 ^ 53) : F.rep (n : Rat) := by
  have := F.rep_int (n : Int) (by omega) (by omega)
  simpa using this

theorem nat_eq {n : Nat} [n.AtLeastTwo] (h : n ≤ 2 ^ 53) : (OfNat.ofNat n : Dbl) = fin (n : Rat) (rep_nat h) :=
  ofRat_rep _

theorem ofInt_eq {n : Int} (h₁ : -(2 ^ 53) ≤ n) (h₂ : n ≤ 2 ^ 53) : (ofInt n : Dbl) = fin (n : Rat) (F.rep_int n h₁ h₂) :=
  ofRat_rep _

theorem ofInt_ne_nan (n : Int) : (ofInt n : Dbl) ≠ nan := ofRat_ne_nan _

@[simp] theorem zero_ne_nan : (0 : Dbl) ≠ nan := by rw [zero_eq]; simp
@[simp] theorem one_ne_nan : (1 : Dbl) ≠ nan := by rw [one_eq]; simp

/-! ### arithmetic -/

theorem add_def (a b : Dbl) : a + b = Dbl.add a b := rfl
theorem sub_def (a b : Dbl) : a - b = Dbl.add a (Dbl.neg b) := rfl
theorem neg_def (a : Dbl) : -a = Dbl.neg a := rfl
theorem mul_def (a b : Dbl) : a * b = Dbl.mul a b := rfl
theorem div_def (a b : Dbl) : a / b = Dbl.div a b := rfl

@[simp] theorem fin_add_fin {p q : Rat} {hp hq} : (fin p hp : Dbl) + fin q hq = ofRat (p + q) := rfl
@[simp] theorem fin_sub_fin {p q : Rat} {hp hq} : (fin p hp : Dbl) - fin q hq = ofRat (p - q) := by
  simp [sub_def, Dbl.neg, Dbl.add, sub_eq_add_neg]
@[simp] theorem fin_mul_fin {p q : Rat} {hp hq} : (fin p hp : Dbl) * fin q hq = ofRat (p * q) := rfl
theorem fin_div_fin {p q : Rat} {hp hq} (h : q ≠ 0) : (fin p hp : Dbl) / fin q hq = ofRat (p / q) := by
  simp [div_def, Dbl.div, h]

@[simp] theorem nan_add (a : Dbl) : nan + a = nan := by cases a <;> rfl
@[simp] theorem add_nan (a : Dbl) : a + nan = nan := by cases a <;> rfl
@[simp] theorem nan_sub (a : Dbl) : nan - a = nan := by cases a <;> rfl
@[simp] theorem sub_nan (a : Dbl) : a - nan = nan := by cases a <;> rfl
@[simp] theorem nan_mul (a : Dbl) : nan * a = nan := by cases a <;> rfl
@[simp] theorem mul_nan (a : Dbl) : a * nan = nan := by cases a <;> rfl
@[simp] theorem nan_div (a : Dbl) : nan / a = nan := by cases a <;> rfl
@[simp] theorem div_nan (a : Dbl) : a / nan = nan := by cases a <;> rfl

theorem sub_self_fin {q : Rat} {h} : (fin q h : Dbl) - fin q h = 0 := by
  rw [fin_sub_fin, sub_self, zero_eq]; exact ofRat_rep _

/-- addition is monotone as long as no NaN arises -/
theorem add_le_add {a b c d : Dbl} (h₁ : a ≤ b) (h₂ : c ≤ d) (n₁ : a + c ≠ nan) (n₂ : b + d ≠ nan) :
    a + c ≤ b + d := by
  cases a <;> cases b <;> cases c <;> cases d <;>
    simp [add_def, Dbl.add] at * <;>
    (try exact ofRat_mono (by linarith)) <;>
    (rename_i q _ r _; try (generalize hz : ofRat _ = z at *; cases z <;> simp at *))

theorem neg_le_neg {a b : Dbl} (h : a ≤ b) : -b ≤ -a := by
  cases a <;> cases b <;> simp [neg_def, Dbl.neg] at *
  linarith

theorem sub_eq_add_neg (a b : Dbl) : a - b = a + -b := rfl

theorem sub_le_sub {a b c d : Dbl} (h₁ : a ≤ b) (h₂ : c ≤ d) (n₁ : a - d ≠ nan) (n₂ : b - c ≠ nan) :
    a - d ≤ b - c := by
  rw [sub_eq_add_neg, sub_eq_add_neg] at *
  exact add_le_add h₁ (neg_le_neg h₂) n₁ n₂

theorem eqb_iff {a b : Dbl} : eqb a b = true ↔ a = b ∧ a ≠ nan := by
  cases a <;> cases b <;> simp [eqb]

theorem ofRat_cases (q : Rat) : (ofRat q = ninf) ∨ (ofRat q = pinf) ∨ ∃ r h, ofRat q = fin r h := by
  generalize hz : ofRat q = z
  cases z
  · exact absurd hz (ofRat_ne_nan q)
  · simp
  · simp
  · right; right; exact ⟨_, _, rfl⟩

theorem ninf_le_ofRat (q : Rat) : ninf ≤ ofRat q := by
  rcases ofRat_cases q with h | h | ⟨r, hr, h⟩ <;> rw [h] <;> simp

theorem ofRat_le_pinf (q : Rat) : ofRat q ≤ pinf := by
  rcases ofRat_cases q with h | h | ⟨r, hr, h⟩ <;> rw [h] <;> simp

/-- multiplication by a nonnegative factor is monotone as long as no NaN arises -/
theorem mul_le_mul_left_of_nonneg {k a b : Dbl} (hk : 0 ≤ k) (h : a ≤ b) (n₁ : k * a ≠ nan) (n₂ : k * b ≠ nan) :
    k * a ≤ k * b := by
  rw [zero_eq] at hk
  cases k with
  | nan => simp at hk
  | ninf => simp at hk
  | pinf =>
    cases a <;> cases b <;> simp [mul_def, Dbl.mul, sgn, infOfSign] at * <;>
      (split_ifs at * <;> simp_all <;> linarith)
  | fin k hk' =>
    simp only [fin_le_fin] at hk
    rcases lt_or_eq_of_le hk with hk0 | hk0
    · have : ¬ k < 0 := by linarith
      cases a <;> cases b <;> simp [mul_def, Dbl.mul, sgn, infOfSign, hk0, this] at *
      · exact ninf_le_ofRat _
      · exact ofRat_le_pinf _
      · exact ofRat_mono (mul_le_mul_of_nonneg_left h hk)
    · subst hk0
      cases a <;> cases b <;> simp [mul_def, Dbl.mul, sgn, infOfSign] at *
      exact ofRat_mono (by simp)

theorem mul_comm (a b : Dbl) : a * b = b * a := by
  cases a <;> cases b <;> simp [mul_def, Dbl.mul, sgn, infOfSign, _root_.mul_comm]

theorem ofRat_neg (q : Rat) : ofRat (-q) = -(ofRat q : Dbl) := by
  have hp := FloatModel.maxFin_pos (F := F)
  have e := F.rnd_neg q
  unfold ofRat
  by_cases h1 : F.maxFin < F.rnd q
  · have h3 : ¬ F.maxFin < F.rnd (-q) := by rw [e]; linarith
    have h4 : F.rnd (-q) < - F.maxFin := by rw [e]; linarith
    simp only [h1, h3, h4, dite_true, dite_false]; rfl
  · by_cases h2 : F.rnd q < -F.maxFin
    · have h3 : F.maxFin < F.rnd (-q) := by rw [e]; linarith
      simp only [h1, h2, h3, dite_true, dite_false]; rfl
    · have h3 : ¬ F.maxFin < F.rnd (-q) := by rw [e]; linarith
      have h4 : ¬ (F.rnd (-q) < - F.maxFin) := by rw [e]; linarith
      rw [dif_neg h3, dif_neg h4, dif_neg h1, dif_neg h2]
      simp [neg_def, Dbl.neg, e]

theorem neg_neg (a : Dbl) : - -a = a := by cases a <;> simp [neg_def, Dbl.neg]

theorem neg_mul (a b : Dbl) : -a * b = -(a * b) := by
  have e : ∀ (p : Rat) (hp : F.rep p), -(fin p hp : Dbl) = fin (-p) (F.rep_neg hp) := fun _ _ => rfl
  have e1 : -(ninf : Dbl) = pinf := rfl
  have e2 : -(pinf : Dbl) = ninf := rfl
  have e3 : -(nan : Dbl) = nan := rfl
  cases a with
  | nan => cases b <;> rfl
  | ninf =>
    cases b <;> simp [e1, mul_def, Dbl.mul, sgn, infOfSign] <;> try rfl
    split_ifs <;> first | rfl | simp_all
  | pinf =>
    cases b <;> simp [e2, mul_def, Dbl.mul, sgn, infOfSign] <;> try rfl
    split_ifs <;> first | rfl | simp_all
  | fin p hp =>
    rw [e]
    cases b with
    | nan => rfl
    | fin q hq => rw [fin_mul_fin, fin_mul_fin, ← ofRat_neg]; congr 1; simp
    | ninf =>
      simp [mul_def, Dbl.mul, sgn, infOfSign]
      rcases lt_trichotomy p 0 with h | h | h
      · have h' : ¬ 0 < p := by linarith
        simp [h, h']; rfl
      · simp [h]; rfl
      · have h' : ¬ p < 0 := by linarith
        simp [h, h']; rfl
    | pinf =>
      simp [mul_def, Dbl.mul, sgn, infOfSign]
      rcases lt_trichotomy p 0 with h | h | h
      · have h' : ¬ 0 < p := by linarith
        simp [h, h']; rfl
      · simp [h]; rfl
      · have h' : ¬ p < 0 := by linarith
        simp [h, h']; rfl

theorem neg_ne_nan {a : Dbl} : -a ≠ nan ↔ a ≠ nan := by cases a <;> simp [neg_def, Dbl.neg]

/-- multiplication by a nonpositive factor is antitone as long as no NaN arises -/
theorem mul_le_mul_left_of_nonpos {k a b : Dbl} (hk : k ≤ 0) (h : a ≤ b) (n₁ : k * a ≠ nan) (n₂ : k * b ≠ nan) :
    k * b ≤ k * a := by
  have hk' : 0 ≤ -k := by
    have := neg_le_neg hk
    have e : -(0 : Dbl) = 0 := by rw [zero_eq]; simp [neg_def, Dbl.neg]
    rwa [e] at this
  have h1 := mul_le_mul_left_of_nonneg hk' h (by rw [neg_mul]; exact neg_ne_nan.2 n₁) (by rw [neg_mul]; exact neg_ne_nan.2 n₂)
  rw [neg_mul, neg_mul] at h1
  have := neg_le_neg h1
  rwa [neg_neg, neg_neg] at this

/-- division by a positive divisor is monotone as long as no NaN arises -/
theorem div_le_div_of_pos {k a b : Dbl} (hk : 0 < k) (h : a ≤ b) (n₁ : a / k ≠ nan) (n₂ : b / k ≠ nan) :
    a / k ≤ b / k := by
  rw [zero_eq] at hk
  cases k with
  | nan => simp at hk
  | ninf => simp at hk
  | pinf =>
    cases a <;> cases b <;> simp [div_def, Dbl.div] at *
  | fin k hk' =>
    simp only [fin_lt_fin] at hk
    have h1 : ¬ k < 0 := by linarith
    have h2 : k ≠ 0 := by linarith
    cases a <;> cases b <;> simp [div_def, Dbl.div, h1, h2] at *
    · exact ninf_le_ofRat _
    · exact ofRat_le_pinf _
    · exact ofRat_mono (div_le_div_of_nonneg_right h hk.le)

end Dbl
end Verif
