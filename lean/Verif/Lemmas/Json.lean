import Verif.Spec.Json
import Verif.Lemmas.Fold
import Verif.Lemmas.OMap
import Mathlib.Tactic.Linarith
import Mathlib.Algebra.Order.Field.Rat
import Mathlib.Algebra.Order.Floor.Ring

/-! # Accessors of configuration values against their specification -/

namespace Verif
variable [F : FloatModel]
open Dbl

theorem findMember_iff (k : String) (v : Json) : ∀ l : List (String × Json),
    findMember k l = some v ↔ ∃ pre post, l = pre ++ (k, v) :: post ∧ ∀ e ∈ pre, e.1 ≠ k
  | [] => by simp [findMember]
  | (k', v') :: rest => by
    unfold findMember
    by_cases hk : k = k'
    · subst hk
      rw [if_pos rfl]
      constructor
      · intro h
        injection h with h
        subst h
        exact ⟨[], rest, rfl, by simp⟩
      · rintro ⟨pre, post, he, hp⟩
        cases pre with
        | nil => simp at he; simp [he.1]
        | cons a pre =>
          simp at he
          exact absurd (by rw [← he.1]) (hp a List.mem_cons_self)
    · rw [if_neg hk, findMember_iff k v rest]
      constructor
      · rintro ⟨pre, post, he, hp⟩
        refine ⟨(k', v') :: pre, post, by simp [he], ?_⟩
        intro e hm
        rcases List.mem_cons.1 hm with rfl | hm
        · exact fun h => hk h.symm
        · exact hp e hm
      · rintro ⟨pre, post, he, hp⟩
        cases pre with
        | nil => simp at he; exact absurd he.1.1.symm hk
        | cons a pre =>
          simp at he
          exact ⟨pre, post, he.2, fun e hm => hp e (List.mem_cons_of_mem _ hm)⟩

theorem member_iff {j : Json} {k : String} {v : Json} : Member j k v ↔ j.find? k = some v := by
  cases j with
  | obj l => simp only [Member, Json.find?, findMember_iff, Json.obj.injEq]
  | _ => simp [Member, Json.find?]

theorem lacks_iff {j : Json} {k : String} : Lacks j k ↔ j.find? k = none := by
  simp only [Lacks, member_iff]
  cases j.find? k <;> simp

theorem atKey_iff {j : Json} {k : String} {v : Json} : j.atKey k = .ok v ↔ Member j k v := by
  rw [member_iff]
  cases j with
  | obj l => simp only [Json.atKey, Json.find?]; cases findMember k l <;> simp
  | _ => simp [Json.atKey, Json.find?]

theorem index_iff {j : Json} {k : String} {v : Json} : j.index k = .ok v ↔ Member j k v := by
  rw [member_iff]
  cases j with
  | obj l => simp only [Json.index, Json.find?]; cases findMember k l <;> simp
  | _ => simp [Json.index, Json.find?]

theorem member_unique {j : Json} {k : String} {v v' : Json} (h : Member j k v) (h' : Member j k v') : v = v' := by
  rw [member_iff] at h h'
  rw [h] at h'
  exact Option.some.inj h'

/-- The accessor `get` succeeds exactly with what `R` describes. -/
def Accesses {α : Type} (get : Json → Res α) (R : Json → α → Prop) : Prop := ∀ j x, get j = .ok x ↔ R j x

theorem req_iff {α : Type} {get : Json → Res α} {R : Json → α → Prop} (hr : Accesses get R) {j : Json} {k : String} {x : α} :
    j.req k get = .ok x ↔ Setting j k R x := by
  simp only [Json.req, bind_eq_ok, Setting, atKey_iff]
  constructor
  · rintro ⟨v, hv, h⟩; exact ⟨v, hv, (hr v x).1 h⟩
  · rintro ⟨v, hv, h⟩; exact ⟨v, hv, (hr v x).2 h⟩

theorem opt_iff {α : Type} {get : Json → Res α} {R : Json → α → Prop} (hr : Accesses get R) {j : Json} {k : String}
    {d x : α} : j.opt k d get = .ok x ↔ SettingOr j k R d x := by
  simp only [Json.opt, SettingOr, Setting, lacks_iff, member_iff]
  cases hf : j.find? k with
  | none => simp [eq_comm]
  | some v => simp [hr v x]

theorem reads_str : Accesses Json.getStr IsText := by
  intro j x
  cases j <;> simp [Json.getStr, IsText]

theorem reads_bool : Accesses Json.getBool IsFlag := by
  intro j x
  cases j <;> simp [Json.getBool, IsFlag]

theorem reads_dbl : Accesses Json.getDbl IsNumber := by
  intro j x
  cases j <;> simp [Json.getDbl, IsNumber, eq_comm]

theorem truncates_iff {q : Rat} {n : Int} : Truncates q n ↔ truncQ q = n := by
  unfold Truncates truncQ
  by_cases hq : 0 ≤ q
  · rw [if_pos hq, Int.floor_eq_iff, abs_of_nonneg hq]
    constructor
    · rintro ⟨h1, h2, h3⟩
      by_cases hn : 0 ≤ n
      · rw [abs_of_nonneg (by exact_mod_cast hn)] at h1 h2
        exact ⟨h1, h2⟩
      · exfalso
        have hn1 : (n : Rat) ≤ -1 := by exact_mod_cast (by omega : n ≤ -1)
        rw [abs_of_nonpos (by linarith)] at h1 h2
        nlinarith
    · rintro ⟨h1, h2⟩
      have hn : 0 ≤ n := by
        have : (-1 : Rat) < n := by linarith
        have : -1 < n := by exact_mod_cast this
        omega
      have hn' : (0 : Rat) ≤ n := by exact_mod_cast hn
      rw [abs_of_nonneg hn']
      exact ⟨h1, h2, mul_nonneg hn' hq⟩
  · rw [if_neg hq, Int.ceil_eq_iff]
    have hq' : q < 0 := lt_of_not_ge hq
    rw [abs_of_neg hq']
    constructor
    · rintro ⟨h1, h2, h3⟩
      by_cases hn : n ≤ 0
      · rw [abs_of_nonpos (by exact_mod_cast hn)] at h1 h2
        exact ⟨by linarith, by linarith⟩
      · exfalso
        have hn1 : (1 : Rat) ≤ n := by exact_mod_cast (by omega : 1 ≤ n)
        rw [abs_of_nonneg (by linarith)] at h1 h2
        nlinarith
    · rintro ⟨h1, h2⟩
      have hn : n ≤ 0 := by
        have : (n : Rat) < 1 := by linarith
        have : n < 1 := by exact_mod_cast this
        omega
      have hn' : (n : Rat) ≤ 0 := by exact_mod_cast hn
      rw [abs_of_nonpos hn']
      exact ⟨by linarith, by linarith, by nlinarith⟩

theorem castOr_castInt {what : String} {lo hi : Int} {d : Dbl} {n : Int} :
    castOr what (castInt lo hi d) = .ok n ↔ ∃ q h, d = .fin q h ∧ Truncates q n ∧ lo ≤ n ∧ n ≤ hi := by
  cases d with
  | fin q hq =>
    simp only [castInt]
    by_cases h : lo ≤ truncQ q ∧ truncQ q ≤ hi
    · rw [if_pos h]
      simp only [castOr, Except.ok.injEq]
      constructor
      · rintro rfl
        exact ⟨q, hq, rfl, truncates_iff.2 rfl, h⟩
      · rintro ⟨q', h', he, ht, _⟩
        injection he with he
        subst he
        exact truncates_iff.1 ht
    · rw [if_neg h]
      simp only [castOr, reduceCtorEq, false_iff]
      rintro ⟨q', h', he, ht, hr⟩
      injection he with he
      subst he
      rw [truncates_iff] at ht
      rw [ht] at h
      exact h hr
  | _ => simp [castInt, castOr]

theorem wrap_iff {lo : Int} {bits : Nat} {i n : Int} :
    ((i - lo) % 2 ^ bits + lo = n) ↔ (lo ≤ n ∧ n < lo + 2 ^ bits ∧ (2 ^ bits : Int) ∣ i - n) := by
  have hp : (0 : Int) < 2 ^ bits := by positivity
  constructor
  · rintro rfl
    have h1 := Int.emod_nonneg (i - lo) hp.ne'
    have h2 := Int.emod_lt_of_pos (i - lo) hp
    refine ⟨by omega, by omega, ?_⟩
    have := Int.emod_add_mul_ediv (i - lo) (2 ^ bits)
    exact ⟨(i - lo) / 2 ^ bits, by omega⟩
  · rintro ⟨h1, h2, c, hc⟩
    have he : i - lo = (n - lo) + 2 ^ bits * c := by omega
    rw [he, Int.add_mul_emod_self_left, Int.emod_eq_of_lt (by omega) (by omega)]
    omega

theorem reads_i64 : Accesses Json.getI64 IsInt64 := by
  intro j n
  cases j with
  | int i =>
    simp only [Json.getI64, Except.ok.injEq, IsInt64, IsWhole, Json.int.injEq, exists_eq_left', reduceCtorEq, false_and,
      exists_const, exists_false, or_false]
    have := @wrap_iff _ (-(2 ^ 63)) 64 i n
    rw [← this, sub_neg_eq_add]
    omega
  | float d =>
    simp only [Json.getI64, toI64, castOr_castInt, IsInt64, IsWhole, reduceCtorEq, false_and, exists_const, false_or,
      Json.float.injEq]
    constructor
    · rintro ⟨q, h, he, ht, h1, h2⟩
      exact ⟨h1, by omega, q, h, he, ht⟩
    · rintro ⟨h1, h2, q, h, he, ht⟩
      exact ⟨q, h, he, ht, h1, by omega⟩
  | _ => simp [Json.getI64, IsWhole]

theorem reads_i32 : Accesses Json.getI32 IsInt32 := by
  intro j n
  cases j with
  | int i =>
    simp only [Json.getI32, Except.ok.injEq, IsInt32, IsWholeOrFlag, IsWhole, Json.int.injEq, exists_eq_left',
      reduceCtorEq, false_and, exists_const, exists_false, or_false]
    have := @wrap_iff _ (-(2 ^ 31)) 32 i n
    rw [← this, sub_neg_eq_add]
    omega
  | float d =>
    simp only [Json.getI32, toI32, castOr_castInt, IsInt32, IsWholeOrFlag, IsWhole, reduceCtorEq, false_and,
      exists_const, false_or, or_false, Json.float.injEq]
    constructor
    · rintro ⟨q, h, he, ht, h1, h2⟩
      exact ⟨h1, by omega, q, h, he, ht⟩
    · rintro ⟨h1, h2, q, h, he, ht⟩
      exact ⟨q, h, he, ht, h1, by omega⟩
  | bool b => cases b <;> simp [Json.getI32, IsWholeOrFlag, IsWhole, eq_comm]
  | _ => simp [Json.getI32, IsWholeOrFlag, IsWhole]

theorem getU64_iff (j : Json) (n : Nat) : j.getU64 = .ok n ↔ IsWhole 0 64 j n := by
  cases j with
  | int i =>
    simp only [Json.getU64, Except.ok.injEq, IsWhole, Json.int.injEq, exists_eq_left', reduceCtorEq, false_and,
      exists_const, exists_false, or_false]
    have := @wrap_iff _ 0 64 i n
    rw [← this, sub_zero, add_zero]
    have h1 := Int.emod_nonneg i (by norm_num : (2 ^ 64 : Int) ≠ 0)
    omega
  | float d =>
    simp only [Json.getU64, toU64, bind_eq_ok, castOr_castInt, IsWhole, reduceCtorEq, false_and, exists_const, false_or,
      Json.float.injEq, Except.ok.injEq]
    constructor
    · rintro ⟨m, ⟨q, h, he, ht, h1, h2⟩, rfl⟩
      rw [Int.toNat_of_nonneg h1]
      exact ⟨h1, by omega, q, h, he, ht⟩
    · rintro ⟨h1, h2, q, h, he, ht⟩
      exact ⟨n, ⟨q, h, he, ht, h1, by omega⟩, by simp⟩
  | _ => simp [Json.getU64, IsWhole]

theorem getAll_iff {α : Type} {get : Json → Res α} {R : Json → α → Prop} (hr : Accesses get R) :
    ∀ (xs : List Json) (l : List α), Json.getAll get xs = .ok l ↔ List.Forall₂ R xs l
  | [], l => by simp [Json.getAll, eq_comm]
  | x :: xs, l => by
    simp only [Json.getAll, bind_eq_ok, List.forall₂_cons_left_iff, Except.ok.injEq]
    constructor
    · rintro ⟨a, ha, as, has, rfl⟩
      exact ⟨a, as, (hr x a).1 ha, (getAll_iff hr xs as).1 has, rfl⟩
    · rintro ⟨a, as, ha, has, rfl⟩
      exact ⟨a, (hr x a).2 ha, as, (getAll_iff hr xs as).2 has, rfl⟩

theorem reads_vec {α : Type} {get : Json → Res α} {R : Json → α → Prop} (hr : Accesses get R) :
    Accesses (Json.getVec get) (IsList R) := by
  intro j l
  cases j <;> simp [Json.getVec, IsList, getAll_iff hr]

theorem entries_iff {j : Json} {es : List Json} : Entries j es ↔ j.elems = es := by
  constructor
  · rintro (_ | _ | _ | _ | _ | _ | _) <;> rfl
  · rintro rfl
    cases j <;> constructor

theorem size_iff {j : Json} : j.size = 0 ↔ Entries j [] := by
  rw [entries_iff]
  cases j <;> simp [Json.size, Json.elems]

theorem count_iff {j : Json} {k : String} : j.count k = 1 ↔ ∃ v, Member j k v := by
  simp only [Json.count, member_iff]
  cases j.find? k <;> simp

end Verif
