import Verif.Base.Dbl
import Mathlib.Data.Int.Log
import Mathlib.Tactic.FieldSimp
import Mathlib.Tactic.Ring
import Mathlib.Tactic.Positivity

/-!
# The two instances of `FloatModel`

* `binary64`: IEEE-754 double precision, round to nearest, ties to even, gradual underflow.
* `exact`: every rational in the double range is representable; no rounding.
-/

namespace Verif
namespace B64

/-- round to the nearest integer, ties to even -/
def roundEven (x : Rat) : Int :=
  if x - ⌊x⌋ < 1 / 2 then ⌊x⌋
  else if 1 / 2 < x - ⌊x⌋ then ⌊x⌋ + 1
  else if ⌊x⌋ % 2 = 0 then ⌊x⌋ else ⌊x⌋ + 1

theorem roundEven_int (n : Int) : roundEven n = n := by
  simp [roundEven]

theorem roundEven_lo (x : Rat) : ⌊x⌋ ≤ roundEven x := by
  unfold roundEven; split <;> [omega; (split <;> [omega; (split <;> omega)])]

theorem roundEven_hi (x : Rat) : roundEven x ≤ ⌊x⌋ + 1 := by
  unfold roundEven; split <;> [omega; (split <;> [omega; (split <;> omega)])]

theorem roundEven_mono {x y : Rat} (h : x ≤ y) : roundEven x ≤ roundEven y := by
  have hf : ⌊x⌋ ≤ ⌊y⌋ := Int.floor_le_floor h
  rcases lt_or_eq_of_le hf with hlt | heq
  · have := roundEven_hi x; have := roundEven_lo y; omega
  · unfold roundEven
    rw [← heq]
    split_ifs <;> first | omega | (exfalso; linarith)

theorem roundEven_le_int {x : Rat} {n : Int} (h : x ≤ n) : roundEven x ≤ n := by
  have := roundEven_mono h
  rwa [roundEven_int] at this

theorem int_le_roundEven {x : Rat} {n : Int} (h : (n : Rat) ≤ x) : n ≤ roundEven x := by
  have := roundEven_mono h
  rwa [roundEven_int] at this

/-- exponent of the unit in the last place for a positive number -/
def ulpExp (q : Rat) : Int := max (Int.log 2 q) (-1022) - 52

/-- rounding of a positive number -/
def rndPos (q : Rat) : Rat := roundEven (q / 2 ^ ulpExp q) * 2 ^ ulpExp q

/-- round to nearest even with unbounded exponent range upwards -/
def rnd (q : Rat) : Rat := if 0 < q then rndPos q else if q < 0 then - rndPos (-q) else 0

/-- finite binary64 numbers: `m * 2^e` with a 53 bit significand -/
def rep (q : Rat) : Prop := ∃ m e : Int, |m| < 2 ^ 53 ∧ -1074 ≤ e ∧ e ≤ 971 ∧ q = m * 2 ^ e

/-- largest finite binary64 number -/
def maxFin : Rat := (2 ^ 53 - 1) * 2 ^ (971 : Int)

theorem two_zpow_pos (e : Int) : (0 : Rat) < 2 ^ e := zpow_pos (by norm_num) e

theorem zpow_mono {a b : Int} (h : a ≤ b) : (2 : Rat) ^ a ≤ 2 ^ b :=
  zpow_le_zpow_right₀ (by norm_num) h

theorem log_le {q : Rat} (h : 0 < q) : (2 : Rat) ^ Int.log 2 q ≤ q :=
  Int.zpow_log_le_self (b := 2) (by norm_num) h

theorem lt_log (q : Rat) : q < (2 : Rat) ^ (Int.log 2 q + 1) :=
  Int.lt_zpow_succ_log_self (b := 2) (by norm_num) q

theorem zpow_add' (a b : Int) : (2 : Rat) ^ (a + b) = 2 ^ a * 2 ^ b :=
  zpow_add₀ (by norm_num) a b

/-- scaled significand is below 2^53 -/
theorem scaled_lt {q : Rat} : q / 2 ^ ulpExp q < 2 ^ 53 := by
  rw [div_lt_iff₀ (two_zpow_pos _)]
  calc q < 2 ^ (Int.log 2 q + 1) := lt_log q
    _ ≤ 2 ^ (53 + ulpExp q) := zpow_mono (by unfold ulpExp; omega)
    _ = 2 ^ 53 * 2 ^ ulpExp q := by rw [zpow_add']; norm_cast

/-- in the normal range it is at least 2^52 -/
theorem le_scaled {q : Rat} (h : 0 < q) (hn : -1074 < ulpExp q) : 2 ^ 52 ≤ q / 2 ^ ulpExp q := by
  rw [le_div_iff₀ (two_zpow_pos _)]
  calc (2 : Rat) ^ 52 * 2 ^ ulpExp q = 2 ^ (52 + ulpExp q) := by rw [zpow_add']; norm_cast
    _ ≤ 2 ^ Int.log 2 q := zpow_mono (by unfold ulpExp at *; omega)
    _ ≤ q := log_le h

theorem neg_1074_le (q : Rat) : -1074 ≤ ulpExp q := by unfold ulpExp; omega

theorem ulpExp_mono {p q : Rat} (hp : 0 < p) (h : p ≤ q) : ulpExp p ≤ ulpExp q := by
  have := Int.log_mono_right (b := 2) hp h
  unfold ulpExp; omega

theorem rndPos_nonneg {q : Rat} (h : 0 < q) : 0 ≤ rndPos q := by
  unfold rndPos
  have h1 : (0 : Int) ≤ roundEven (q / 2 ^ ulpExp q) := by
    apply int_le_roundEven
    have := two_zpow_pos (ulpExp q)
    simp; positivity
  have := two_zpow_pos (ulpExp q)
  have h2 : (0 : Rat) ≤ roundEven (q / 2 ^ ulpExp q) := by exact_mod_cast h1
  positivity

theorem rndPos_mono {p q : Rat} (hp : 0 < p) (h : p ≤ q) : rndPos p ≤ rndPos q := by
  have hq : 0 < q := lt_of_lt_of_le hp h
  have hE := ulpExp_mono hp h
  rcases lt_or_eq_of_le hE with hlt | heq
  · have h1 : 2 ^ 52 ≤ roundEven (q / 2 ^ ulpExp q) := by
      apply int_le_roundEven
      have := le_scaled hq (by have := neg_1074_le p; omega)
      exact_mod_cast this
    have h2 : roundEven (p / 2 ^ ulpExp p) ≤ 2 ^ 53 := by
      apply roundEven_le_int
      have := (scaled_lt (q := p)).le
      exact_mod_cast this
    have h1' : (2 : Rat) ^ 52 ≤ roundEven (q / 2 ^ ulpExp q) := by exact_mod_cast h1
    have h2' : (roundEven (p / 2 ^ ulpExp p) : Rat) ≤ 2 ^ 53 := by exact_mod_cast h2
    unfold rndPos
    calc _ ≤ (2 : Rat) ^ 53 * 2 ^ ulpExp p := by
            apply mul_le_mul_of_nonneg_right h2' (two_zpow_pos _).le
      _ = 2 ^ (53 + ulpExp p) := by rw [zpow_add']; norm_cast
      _ ≤ 2 ^ (52 + ulpExp q) := zpow_mono (by omega)
      _ = 2 ^ 52 * 2 ^ ulpExp q := by rw [zpow_add']; norm_cast
      _ ≤ _ := by apply mul_le_mul_of_nonneg_right h1' (two_zpow_pos _).le
  · unfold rndPos
    rw [heq]
    apply mul_le_mul_of_nonneg_right _ (two_zpow_pos _).le
    have : p / 2 ^ ulpExp q ≤ q / 2 ^ ulpExp q := by
      apply div_le_div_of_nonneg_right h (two_zpow_pos _).le
    exact_mod_cast roundEven_mono this

theorem rnd_mono {p q : Rat} (h : p ≤ q) : rnd p ≤ rnd q := by
  unfold rnd
  by_cases hp : 0 < p
  · rw [if_pos hp, if_pos (by linarith)]; exact rndPos_mono hp h
  · rw [if_neg hp]
    by_cases hq : 0 < q
    · rw [if_pos hq]
      have := rndPos_nonneg hq
      split
      · have := rndPos_nonneg (q := -p) (by linarith); linarith
      · exact this
    · rw [if_neg hq]
      by_cases hq' : q < 0
      · rw [if_pos hq', if_pos (by linarith)]
        have := rndPos_mono (p := -q) (q := -p) (by linarith) (by linarith)
        linarith
      · rw [if_neg hq']
        split
        · have := rndPos_nonneg (q := -p) (by linarith); linarith
        · exact le_refl _

theorem rnd_neg (q : Rat) : rnd (-q) = - rnd q := by
  unfold rnd
  by_cases h1 : 0 < q
  · rw [if_pos h1, if_neg (by linarith), if_pos (by linarith)]; simp
  · by_cases h2 : q < 0
    · rw [if_pos (by linarith), if_neg h1, if_pos h2]; simp
    · rw [if_neg (by linarith), if_neg (by linarith), if_neg h1, if_neg h2]; simp

theorem rep_neg {q : Rat} (h : rep q) : rep (-q) := by
  obtain ⟨m, e, h1, h2, h3, rfl⟩ := h
  exact ⟨-m, e, by rwa [abs_neg], h2, h3, by push_cast; ring⟩

theorem rndPos_rep {q : Rat} (h : 0 < q) (hr : rep q) : rndPos q = q := by
  obtain ⟨m, e, h1, h2, h3, rfl⟩ := hr
  have key : ∃ k : Int, (m * 2 ^ e : Rat) / 2 ^ ulpExp (m * 2 ^ e) = k := by
    generalize hE : ulpExp (m * 2 ^ e : Rat) = E
    by_cases hle : E ≤ e
    · refine ⟨m * 2 ^ (e - E).toNat, ?_⟩
      have : (2 : Rat) ^ e = 2 ^ (e - E).toNat * 2 ^ E := by
        rw [← zpow_natCast, ← zpow_add']; congr 1; omega
      rw [this]; have := two_zpow_pos E
      push_cast; field_simp
    · exfalso
      have hn : -1074 < ulpExp (m * 2 ^ e : Rat) := by omega
      have h4 := le_scaled h hn
      rw [hE, le_div_iff₀ (two_zpow_pos _)] at h4
      have h5 : (2 : Rat) ^ 53 * 2 ^ e ≤ 2 ^ 52 * 2 ^ E := by
        calc (2 : Rat) ^ 53 * 2 ^ e = 2 ^ (53 + e) := by rw [zpow_add']; norm_cast
          _ ≤ 2 ^ (52 + E) := zpow_mono (by omega)
          _ = _ := by rw [zpow_add']; norm_cast
      have h6 : (2 : Rat) ^ 53 * 2 ^ e ≤ m * 2 ^ e := h5.trans h4
      have h7 := le_of_mul_le_mul_right h6 (two_zpow_pos e)
      have h8 : (2 : Int) ^ 53 ≤ m := by exact_mod_cast h7
      have := le_abs_self m
      omega
  obtain ⟨k, hk⟩ := key
  unfold rndPos
  rw [hk, roundEven_int, ← hk]
  have := two_zpow_pos (ulpExp (m * 2 ^ e : Rat))
  field_simp

theorem rnd_rep {q : Rat} (hr : rep q) : rnd q = q := by
  unfold rnd
  by_cases h1 : 0 < q
  · rw [if_pos h1]; exact rndPos_rep h1 hr
  · by_cases h2 : q < 0
    · rw [if_neg h1, if_pos h2, rndPos_rep (by linarith) (rep_neg hr)]; simp
    · rw [if_neg h1, if_neg h2]; linarith

theorem maxFin_lt : maxFin < 2 ^ (1024 : Int) := by
  unfold maxFin
  have h : (2 : Rat) ^ (1024 : Int) = 2 ^ (53 : Int) * 2 ^ (971 : Int) := by rw [← zpow_add']; norm_num
  rw [h]
  have := two_zpow_pos 971
  apply mul_lt_mul_of_pos_right _ this
  norm_num

theorem rep_rndPos {q : Rat} (h : 0 < q) (hm : rndPos q ≤ maxFin) : rep (rndPos q) := by
  have hlt : rndPos q < 2 ^ (1024 : Int) := lt_of_le_of_lt hm maxFin_lt
  unfold rndPos at *
  generalize hk : roundEven (q / 2 ^ ulpExp q) = k at *
  have hk0 : 0 ≤ k := by
    rw [← hk]; apply int_le_roundEven
    have := two_zpow_pos (ulpExp q)
    simp; positivity
  have hk1 : k ≤ 2 ^ 53 := by
    rw [← hk]; apply roundEven_le_int
    have := (scaled_lt (q := q)).le
    exact_mod_cast this
  have hE : ulpExp q ≤ 971 := by
    by_contra hc
    have h1 : (2 : Int) ^ 52 ≤ k := by
      rw [← hk]; apply int_le_roundEven
      have := le_scaled h (by omega)
      exact_mod_cast this
    have h1' : (2 : Rat) ^ 52 ≤ k := by exact_mod_cast h1
    have : (2 : Rat) ^ (1024 : Int) ≤ k * 2 ^ ulpExp q := by
      calc (2 : Rat) ^ (1024 : Int) ≤ 2 ^ (52 + ulpExp q) := zpow_mono (by omega)
        _ = 2 ^ 52 * 2 ^ ulpExp q := by rw [zpow_add']; norm_cast
        _ ≤ _ := mul_le_mul_of_nonneg_right h1' (two_zpow_pos _).le
    linarith
  rcases lt_or_eq_of_le hk1 with hk2 | hk2
  · exact ⟨k, ulpExp q, by rw [abs_of_nonneg hk0]; exact hk2, neg_1074_le q, hE, rfl⟩
  · subst hk2
    have hE' : ulpExp q + 1 ≤ 971 := by
      by_contra hc
      have : (2 : Rat) ^ (1024 : Int) ≤ ((2 ^ 53 : Int) : Rat) * 2 ^ ulpExp q := by
        calc (2 : Rat) ^ (1024 : Int) ≤ 2 ^ (53 + ulpExp q) := zpow_mono (by omega)
          _ = 2 ^ 53 * 2 ^ ulpExp q := by rw [zpow_add']; norm_cast
          _ = _ := by norm_cast
      linarith
    refine ⟨2 ^ 52, ulpExp q + 1, by norm_num, by have := neg_1074_le q; omega, hE', ?_⟩
    rw [zpow_add']; push_cast; ring

theorem rep_zero : rep 0 := ⟨0, 0, by norm_num, by norm_num, by norm_num, by norm_num⟩

theorem rep_rnd {q : Rat} (h1 : -maxFin ≤ rnd q) (h2 : rnd q ≤ maxFin) : rep (rnd q) := by
  unfold rnd at *
  by_cases hq : 0 < q
  · rw [if_pos hq] at *; exact rep_rndPos hq h2
  · by_cases hq' : q < 0
    · rw [if_neg hq, if_pos hq'] at *
      exact rep_neg (rep_rndPos (by linarith) (by linarith))
    · rw [if_neg hq, if_neg hq']; exact rep_zero

theorem rep_le {q : Rat} (h : rep q) : q ≤ maxFin := by
  obtain ⟨m, e, h1, h2, h3, rfl⟩ := h
  have hm : m ≤ 2 ^ 53 - 1 := by have := le_abs_self m; omega
  have hm' : (m : Rat) ≤ 2 ^ 53 - 1 := by exact_mod_cast hm
  unfold maxFin
  calc (m : Rat) * 2 ^ e ≤ (2 ^ 53 - 1) * 2 ^ e := mul_le_mul_of_nonneg_right hm' (two_zpow_pos _).le
    _ ≤ (2 ^ 53 - 1) * 2 ^ (971 : Int) := mul_le_mul_of_nonneg_left (zpow_mono h3) (by norm_num)

theorem rep_maxFin : rep maxFin :=
  ⟨2 ^ 53 - 1, 971, by norm_num, by norm_num, by norm_num, by unfold maxFin; push_cast; ring⟩

theorem rep_int (n : Int) (h1 : -(2 ^ 53) ≤ n) (h2 : n ≤ 2 ^ 53) : rep n := by
  rcases lt_or_eq_of_le h2 with h | h
  · rcases lt_or_eq_of_le h1 with h' | h'
    · exact ⟨n, 0, by rw [abs_lt]; exact ⟨h', h⟩, by norm_num, by norm_num, by simp⟩
    · exact ⟨-2 ^ 52, 1, by norm_num, by norm_num, by norm_num, by rw [← h']; norm_num⟩
  · exact ⟨2 ^ 52, 1, by norm_num, by norm_num, by norm_num, by rw [h]; norm_num⟩

theorem rep_frac (n : Int) (h1 : -(2 ^ 53) ≤ n) (h2 : n ≤ 2 ^ 53) : rep (n / 2 ^ 20) := by
  rcases lt_or_eq_of_le h2 with h | h
  · rcases lt_or_eq_of_le h1 with h' | h'
    · exact ⟨n, -20, by rw [abs_lt]; exact ⟨h', h⟩, by norm_num, by norm_num, by rw [div_eq_mul_inv, zpow_neg]; rfl⟩
    · exact ⟨-2 ^ 52, -19, by norm_num, by norm_num, by norm_num, by rw [← h']; norm_num⟩
  · exact ⟨2 ^ 52, -19, by norm_num, by norm_num, by norm_num, by rw [h]; norm_num⟩

/-- every representable number is a multiple of the smallest one -/
theorem rep_multiple {q : Rat} (h : rep q) : ∃ k : Int, q = k * 2 ^ (-1074 : Int) := by
  obtain ⟨m, e, _, h1, _, rfl⟩ := h
  obtain ⟨n, hn⟩ := Int.eq_ofNat_of_zero_le (by omega : 0 ≤ e + 1074)
  refine ⟨m * 2 ^ n, ?_⟩
  have : (2 : Rat) ^ e = 2 ^ n * 2 ^ (-1074 : Int) := by
    have he : e = (n : Int) + (-1074) := by omega
    rw [he, zpow_add', zpow_natCast]
  rw [this]; push_cast; ring

theorem rnd_sub_pos {p q : Rat} (hp : rep p) (hq : rep q) (h : p < q) : 0 < rnd (q - p) := by
  obtain ⟨a, rfl⟩ := rep_multiple hp
  obtain ⟨b, rfl⟩ := rep_multiple hq
  have ht : (0 : Rat) < 2 ^ (-1074 : Int) := two_zpow_pos _
  have hab : a + 1 ≤ b := by
    have : (a : Rat) < b := lt_of_mul_lt_mul_right h ht.le
    exact_mod_cast this
  have hr : rep ((2 : Rat) ^ (-1074 : Int)) := ⟨1, -1074, by norm_num, by norm_num, by norm_num, by push_cast; ring⟩
  have : (2 : Rat) ^ (-1074 : Int) ≤ b * 2 ^ (-1074 : Int) - a * 2 ^ (-1074 : Int) := by
    have hab' : (a : Rat) + 1 ≤ b := by exact_mod_cast hab
    nlinarith
  have := rnd_mono this
  rw [rnd_rep hr] at this
  exact lt_of_lt_of_le ht this

end B64

/-- IEEE-754 binary64. `pow10` is taken as correctly rounded. -/
@[reducible] def binary64 : FloatModel where
  rep := B64.rep
  maxFin := B64.maxFin
  rnd := B64.rnd
  pow10 := fun k => 10 ^ k
  rep_maxFin := B64.rep_maxFin
  rep_neg := B64.rep_neg
  rep_le := B64.rep_le
  rep_int := B64.rep_int
  rep_frac := B64.rep_frac
  rnd_mono := B64.rnd_mono
  rnd_rep := B64.rnd_rep
  rep_rnd := B64.rep_rnd
  rnd_neg := B64.rnd_neg
  rnd_sub_pos := B64.rnd_sub_pos
  pow10_zero := by norm_num
  pow10_nonneg := fun k => (zpow_pos (by norm_num) k).le

/-- Doubles without rounding: every rational in the binary64 range is representable. -/
@[reducible] def exact : FloatModel where
  rep := fun q => -B64.maxFin ≤ q ∧ q ≤ B64.maxFin
  maxFin := B64.maxFin
  rnd := fun q => q
  pow10 := fun k => 10 ^ k
  rep_maxFin := ⟨by linarith [B64.rep_le B64.rep_zero], le_refl _⟩
  rep_neg := fun h => ⟨by linarith [h.2], by linarith [h.1]⟩
  rep_le := fun h => h.2
  rep_int := fun n h1 h2 => by
    have h := B64.rep_int n h1 h2
    exact ⟨by linarith [B64.rep_le (B64.rep_neg h)], B64.rep_le h⟩
  rep_frac := fun n h1 h2 => by
    have h := B64.rep_frac n h1 h2
    exact ⟨by linarith [B64.rep_le (B64.rep_neg h)], B64.rep_le h⟩
  rnd_mono := fun h => h
  rnd_rep := fun _ => rfl
  rep_rnd := fun h1 h2 => ⟨h1, h2⟩
  rnd_neg := fun _ => rfl
  rnd_sub_pos := fun _ _ h => sub_pos.2 h
  pow10_zero := by norm_num
  pow10_nonneg := fun k => (zpow_pos (by norm_num) k).le

end Verif
