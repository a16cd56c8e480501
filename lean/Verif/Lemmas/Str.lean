import Verif.Base.Basic
import Mathlib.Data.List.Infix

/-! # String search -/

namespace Verif

theorem findSub_isSome (pat : List Char) : ∀ s : List Char, (findSub pat s).isSome = true ↔ pat <:+: s
  | [] => by
    unfold findSub
    by_cases h : pat = [] <;> simp [h]
  | c :: s => by
    unfold findSub
    rw [List.infix_cons_iff]
    by_cases h : pat.isPrefixOf (c :: s) = true
    · simp only [h, if_true, Option.isSome_some, true_iff]
      exact .inl (List.isPrefixOf_iff_prefix.1 h)
    · simp only [h, if_false, Bool.false_eq_true, Option.isSome_map, findSub_isSome pat s]
      constructor
      · exact .inr
      · rintro (h' | h')
        · exact absurd (List.isPrefixOf_iff_prefix.2 h') h
        · exact h'

theorem containsSub_iff (s pat : String) : containsSub s pat = true ↔ pat.toList <:+: s.toList :=
  findSub_isSome _ _

end Verif
