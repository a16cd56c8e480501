import Mathlib.Algebra.Order.Field.Rat
import Mathlib.Data.Rat.Floor
import Mathlib.Tactic.Linarith

/-!
# C++ `double`

`FloatModel` describes a floating-point format together with its rounding; `Dbl` is the type of its values.
`Verif/Base/Binary64.lean` constructs the IEEE-754 binary64 instance and an instance without rounding.

Simplification: the zeros `+0.0` and `-0.0` are one value (`fin 0`).
-/

namespace Verif

/-- A floating-point format with its rounding of exact results (unbounded exponent; overflow is handled by
`Dbl.ofRat`). Only the laws listed here are used by the theorems. -/
class FloatModel where
  /-- the representable finite numbers -/
  rep : Rat → Prop
  /-- largest finite number, `std::numeric_limits<double>::max()` -/
  maxFin : Rat
  /-- rounding of an exact result -/
  rnd : Rat → Rat
  /-- `std::pow(10.0, k)` before overflow handling -/
  pow10 : Int → Rat
  rep_maxFin : rep maxFin
  rep_neg : ∀ {q}, rep q → rep (-q)
  rep_le : ∀ {q}, rep q → q ≤ maxFin
  rep_int : ∀ n : Int, -(2 ^ 53) ≤ n → n ≤ 2 ^ 53 → rep n
  /-- multiples of 2^-20 (about a millionth) of moderate size -/
  rep_frac : ∀ n : Int, -(2 ^ 53) ≤ n → n ≤ 2 ^ 53 → rep (n / 2 ^ 20)
  rnd_mono : ∀ {p q}, p ≤ q → rnd p ≤ rnd q
  rnd_rep : ∀ {q}, rep q → rnd q = q
  rep_rnd : ∀ {q}, -maxFin ≤ rnd q → rnd q ≤ maxFin → rep (rnd q)
  rnd_neg : ∀ q, rnd (-q) = - rnd q
  /-- gradual underflow: the difference of different numbers does not vanish -/
  rnd_sub_pos : ∀ {p q}, rep p → rep q → p < q → 0 < rnd (q - p)
  pow10_zero : pow10 0 = 1
  pow10_nonneg : ∀ k, 0 ≤ pow10 k

/-- A C++ `double`. -/
inductive Dbl [F : FloatModel] where
  | nan
  | ninf
  | pinf
  | fin (q : Rat) (h : F.rep q)

variable [F : FloatModel]

namespace FloatModel

theorem rep_zero : F.rep 0 := by
  have := F.rep_int 0 (by norm_num) (by norm_num)
  simpa using this

theorem rnd_zero : F.rnd 0 = 0 := F.rnd_rep rep_zero

theorem rep_one : F.rep 1 := by
  have := F.rep_int 1 (by norm_num) (by norm_num)
  simpa using this

theorem le_maxFin_int : (2 ^ 53 : Rat) ≤ F.maxFin := by
  have := F.rep_le (F.rep_int (2 ^ 53) (by norm_num) (by norm_num))
  exact_mod_cast this

theorem maxFin_pos : 0 < F.maxFin := lt_of_lt_of_le (by norm_num) le_maxFin_int

theorem neg_le_rep {q : Rat} (h : F.rep q) : -F.maxFin ≤ q := by
  have := F.rep_le (F.rep_neg h)
  linarith

theorem rnd_nonneg {q : Rat} (h : 0 ≤ q) : 0 ≤ F.rnd q := by
  have := F.rnd_mono h
  rwa [rnd_zero] at this

theorem rnd_nonpos {q : Rat} (h : q ≤ 0) : F.rnd q ≤ 0 := by
  have := F.rnd_mono h
  rwa [rnd_zero] at this

end FloatModel

namespace Dbl

instance : DecidableEq (Dbl (F := F)) := fun a b =>
  match a, b with
  | nan, nan => isTrue rfl
  | ninf, ninf => isTrue rfl
  | pinf, pinf => isTrue rfl
  | fin p hp, fin q hq =>
    if h : p = q then isTrue (by subst h; rfl)
    else isFalse (fun e => h (by cases e; rfl))
  | nan, ninf | nan, pinf | nan, fin _ _ | ninf, nan | ninf, pinf | ninf, fin _ _
  | pinf, nan | pinf, ninf | pinf, fin _ _ | fin _ _, nan | fin _ _, ninf | fin _ _, pinf =>
    isFalse (fun e => by cases e)

/-- Round an exact rational result to a double; results beyond the largest finite number become infinite. -/
def ofRat (q : Rat) : Dbl :=
  if h₁ : F.maxFin < F.rnd q then pinf
  else if h₂ : F.rnd q < -F.maxFin then ninf
  else fin (F.rnd q) (F.rep_rnd (not_lt.mp h₂) (not_lt.mp h₁))

/-- Conversion of an integer (`int`, `int64_t`) to double. -/
def ofInt (n : Int) : Dbl := ofRat n

/-- Numeric literals. -/
instance (n : Nat) : OfNat Dbl n := ⟨ofRat n⟩

instance : Inhabited Dbl := ⟨0⟩

/-- IEEE `a < b`; false when either side is NaN. -/
def ltb : Dbl → Dbl → Bool
  | nan, _ => false
  | _, nan => false
  | _, ninf => false
  | ninf, _ => true
  | pinf, _ => false
  | fin _ _, pinf => true
  | fin p _, fin q _ => decide (p < q)

/-- IEEE `a <= b`; false when either side is NaN. -/
def leb : Dbl → Dbl → Bool
  | nan, _ => false
  | _, nan => false
  | ninf, _ => true
  | _, ninf => false
  | _, pinf => true
  | pinf, _ => false
  | fin p _, fin q _ => decide (p ≤ q)

/-- IEEE `a == b`; false when either side is NaN. -/
def eqb : Dbl → Dbl → Bool
  | nan, _ => false
  | _, nan => false
  | a, b => decide (a = b)

instance : LT Dbl := ⟨fun a b => ltb a b = true⟩
instance : LE Dbl := ⟨fun a b => leb a b = true⟩
instance (a b : Dbl) : Decidable (a < b) := inferInstanceAs (Decidable (ltb a b = true))
instance (a b : Dbl) : Decidable (a ≤ b) := inferInstanceAs (Decidable (leb a b = true))

/-- `std::isnan` -/
def isNaN : Dbl → Bool
  | nan => true
  | _ => false

/-- `std::isfinite` -/
def isFinite : Dbl → Bool
  | fin _ _ => true
  | _ => false

protected def neg : Dbl → Dbl
  | nan => nan
  | ninf => pinf
  | pinf => ninf
  | fin q h => fin (-q) (F.rep_neg h)

protected def add : Dbl → Dbl → Dbl
  | nan, _ => nan
  | _, nan => nan
  | ninf, pinf => nan
  | pinf, ninf => nan
  | ninf, _ => ninf
  | _, ninf => ninf
  | pinf, _ => pinf
  | _, pinf => pinf
  | fin p _, fin q _ => ofRat (p + q)

protected def sub (a b : Dbl) : Dbl := Dbl.add a (Dbl.neg b)

/-- sign as used for products with infinities: `none` for NaN -/
def sgn : Dbl → Option Int
  | nan => none
  | ninf => some (-1)
  | pinf => some 1
  | fin q _ => some (if q < 0 then -1 else if 0 < q then 1 else 0)

/-- infinity with the sign of an integer; a zero sign gives NaN (`0 * inf`, `inf / inf`) -/
def infOfSign (s : Int) : Dbl := if s < 0 then ninf else if 0 < s then pinf else nan

protected def mul : Dbl → Dbl → Dbl
  | nan, _ => nan
  | _, nan => nan
  | fin p _, fin q _ => ofRat (p * q)
  | a, b => match sgn a, sgn b with
    | some s, some t => infOfSign (s * t)
    | _, _ => nan

/-- IEEE division. A zero divisor counts as `+0.0`. -/
protected def div : Dbl → Dbl → Dbl
  | nan, _ => nan
  | _, nan => nan
  | fin p _, fin q _ =>
    if q = 0 then infOfSign (if p < 0 then -1 else if 0 < p then 1 else 0) else ofRat (p / q)
  | fin _ _, _ => fin 0 FloatModel.rep_zero
  | pinf, fin q _ => if q < 0 then ninf else pinf
  | ninf, fin q _ => if q < 0 then pinf else ninf
  | _, _ => nan

instance : Neg Dbl := ⟨Dbl.neg⟩
instance : Add Dbl := ⟨Dbl.add⟩
instance : Sub Dbl := ⟨Dbl.sub⟩
instance : Mul Dbl := ⟨Dbl.mul⟩
instance : Div Dbl := ⟨Dbl.div⟩

/-- `std::numeric_limits<double>::max()` -/
def dblMax : Dbl := fin F.maxFin F.rep_maxFin

/-- `std::numeric_limits<double>::lowest()` -/
def lowest : Dbl := fin (-F.maxFin) (F.rep_neg F.rep_maxFin)

/-- `std::pow(10, k)` -/
def pow10 (k : Int) : Dbl := ofRat (F.pow10 k)

/-- `std::max(a, b)`: `(a < b) ? b : a` -/
def cmax (a b : Dbl) : Dbl := if a < b then b else a

/-- `std::min(a, b)`: `(b < a) ? b : a` -/
def cmin (a b : Dbl) : Dbl := if b < a then b else a

/-- truncation toward zero -/
def truncQ (q : Rat) : Int := if 0 ≤ q then ⌊q⌋ else ⌈q⌉

/-- `static_cast` to an integer type with range `[lo, hi]`; `none` is undefined behaviour
(NaN, infinity, or truncated value out of range). -/
def castInt (lo hi : Int) : Dbl → Option Int
  | fin q _ => if lo ≤ truncQ q ∧ truncQ q ≤ hi then some (truncQ q) else none
  | _ => none

/-- `static_cast<int64_t>` -/
def toI64 : Dbl → Option Int := castInt (-(2 ^ 63)) (2 ^ 63 - 1)

/-- `static_cast<uint64_t>` -/
def toU64 : Dbl → Option Int := castInt 0 (2 ^ 64 - 1)

/-- `static_cast<int>` (32 bit) -/
def toI32 : Dbl → Option Int := castInt (-(2 ^ 31)) (2 ^ 31 - 1)

end Dbl

end Verif
