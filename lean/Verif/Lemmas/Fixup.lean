import Verif.Spec.BuildSensors
import Verif.Lemmas.Str

/-! # Paths with missing pieces -/

namespace Verif

theorem findSub_first {pat : List Char} (hp : pat ≠ []) : ∀ {a b : List Char}, ¬ pat <:+: a ++ pat.dropLast →
    findSub pat (a ++ (pat ++ b)) = some a.length
  | [], b, _ => by
    cases pat with
    | nil => exact absurd rfl hp
    | cons c pat => 
      have : (c :: pat).isPrefixOf (c :: (pat ++ b)) = true := List.isPrefixOf_iff_prefix.2 (List.prefix_append (c :: pat) b)
      simp [findSub, this]
  | c :: a, b, h => by
    rw [List.cons_append, List.infix_cons_iff, not_or] at h
    have h1 : ¬ pat.isPrefixOf (c :: (a ++ (pat ++ b))) = true := by
      rw [List.isPrefixOf_iff_prefix]
      intro hq
      apply h.1
      refine List.prefix_of_prefix_length_le hq ?_ ?_
      · rw [List.cons_prefix_cons]
        refine ⟨rfl, List.prefix_append_right_inj a |>.2 ?_⟩
        exact (List.dropLast_prefix pat).trans (List.prefix_append _ _)
      · have := List.length_pos_iff.2 hp
        simp
        omega
    rw [List.cons_append, findSub, if_neg h1, findSub_first hp h.2]
    rfl

theorem findSub_split {pat : List Char} (hp : pat ≠ []) : ∀ {s : List Char} {n : Nat}, findSub pat s = some n →
    ∃ a b, s = a ++ (pat ++ b) ∧ a.length = n ∧ ¬ pat <:+: a ++ pat.dropLast
  | [], n, h => by simp [findSub, hp] at h
  | c :: s, n, h => by
    rw [findSub] at h
    by_cases h1 : pat.isPrefixOf (c :: s) = true
    · rw [if_pos h1] at h
      cases h
      obtain ⟨b, hb⟩ := List.isPrefixOf_iff_prefix.1 h1
      refine ⟨[], b, hb.symm, rfl, fun hi => ?_⟩
      have := hi.length_le
      have := List.length_pos_iff.2 hp
      simp at *
      omega
    · rw [if_neg h1, Option.map_eq_some_iff] at h
      obtain ⟨m, hm, rfl⟩ := h
      obtain ⟨a, b, rfl, rfl, h2⟩ := findSub_split hp hm
      refine ⟨c :: a, b, rfl, rfl, ?_⟩
      rw [List.cons_append, List.infix_cons_iff, not_or]
      refine ⟨fun hq => h1 (List.isPrefixOf_iff_prefix.2 (hq.trans ?_)), h2⟩
      rw [List.cons_prefix_cons]
      exact ⟨rfl, List.prefix_append_right_inj a |>.2 ((List.dropLast_prefix pat).trans (List.prefix_append _ _))⟩

theorem fixup_split {dirs : Dirs} {a b : String} (h : ¬ "**".toList <:+: (a ++ "*").toList) :
    fixupPath dirs (a ++ "**" ++ b) = match dirs a with
      | none => .error (.exc "filesystem_error")
      | some [] => .ok (a ++ "**" ++ b)
      | some (name :: _) => .ok (joinPath a name ++ b) := by
  have h1 : findSub "**".toList (a ++ "**" ++ b).toList = some a.toList.length := by
    rw [String.toList_append, String.toList_append, List.append_assoc]
    exact findSub_first (by decide) (by rw [String.toList_append] at h; exact h)
  have h2 : String.ofList (List.take a.toList.length (a ++ "**" ++ b).toList) = a := by
    rw [String.toList_append, String.toList_append, List.append_assoc, List.take_left, String.ofList_toList]
  have h3 : String.ofList (List.drop (a.toList.length + 2) (a ++ "**" ++ b).toList) = b := by
    rw [String.toList_append, String.toList_append]
    have : a.toList.length + 2 = (a.toList ++ "**".toList).length := by simp
    rw [this, List.drop_left, String.ofList_toList]
  unfold fixupPath
  rw [h1]
  dsimp only
  rw [h2, h3]
  rcases dirs a with _ | (_ | _) <;> rfl

theorem fixup_iff {dirs : Dirs} {p q : String} : fixupPath dirs p = .ok q ↔ Stands dirs p q := by
  constructor
  · intro h
    cases hf : findSub "**".toList p.toList with
    | none =>
      unfold fixupPath at h
      rw [hf] at h
      cases h
      refine .plain (fun hi => ?_)
      rw [← findSub_isSome, hf] at hi
      cases hi
    | some n =>
      obtain ⟨a, b, hs, -, h2⟩ := findSub_split (by decide) hf
      have hp : p = String.ofList a ++ "**" ++ String.ofList b := by
        apply String.toList_injective
        simp [hs]
      have h2' : ¬ "**".toList <:+: (String.ofList a ++ "*").toList := by
        have e : (String.ofList a ++ "*").toList = a ++ "**".toList.dropLast := by
          rw [String.toList_append, String.toList_ofList]
          rfl
        rw [e]
        exact h2
      rw [hp, fixup_split h2'] at h
      rw [hp]
      cases hd : dirs (String.ofList a) with
      | none => rw [hd] at h; cases h
      | some l =>
        rw [hd] at h
        cases l with
        | nil => cases h; exact .empty h2' hd
        | cons d rest => cases h; exact .entry h2' hd
  · intro h
    cases h with
    | plain h =>
      unfold fixupPath
      have : findSub "**".toList p.toList = none := by
        rw [← findSub_isSome] at h
        simpa using h
      rw [this]
    | entry h hd => rw [fixup_split h, hd]; rfl
    | empty h hd => rw [fixup_split h, hd]

end Verif
