import Verif.Base.Basic
import Mathlib.Data.String.Basic

/-! # Lemmas about `OMap` -/

namespace Verif.OMap
variable {K V : Type} [DecidableEq K]

section
variable [LT K] [DecidableLT K]

theorem lookupL_insertL (k j : K) (v : V) (l : List (K × V)) :
    lookupL j (insertL k v l) = if j = k then some v else lookupL j l := by
  induction l with
  | nil => simp [insertL, lookupL]
  | cons e t ih =>
    obtain ⟨k', v'⟩ := e
    simp only [insertL]
    split_ifs with h1 h2 h3 h4 h5
    · subst h1; simp [lookupL, h2]
    · subst h1; simp [lookupL, h2]
    · simp [lookupL, h4]
    · simp [lookupL, h4]
    · subst h5; simp [lookupL, h1, ih]
    · simp [lookupL, ih, h5]

theorem find?_insert (m : OMap K V) (k j : K) (v : V) :
    (m.insert k v).find? j = if j = k then some v else m.find? j := lookupL_insertL k j v m.entries

@[simp] theorem find?_insert_self (m : OMap K V) (k : K) (v : V) : (m.insert k v).find? k = some v := by
  simp [find?_insert]

theorem find?_insert_ne (m : OMap K V) {k j : K} (h : j ≠ k) (v : V) : (m.insert k v).find? j = m.find? j := by
  simp [find?_insert, h]

end

theorem lookupL_filter (k j : K) (l : List (K × V)) :
    lookupL j (l.filter (fun e => e.1 ≠ k)) = if j = k then none else lookupL j l := by
  induction l with
  | nil => simp [lookupL]
  | cons e t ih =>
    obtain ⟨k', v'⟩ := e
    by_cases h : k' = k
    · subst h
      by_cases hj : j = k'
      · subst hj; simpa using ih
      · simp only [List.filter_cons, ne_eq, not_true_eq_false, decide_false, Bool.false_eq_true, if_false, if_neg hj]
        rw [if_neg hj] at ih
        simpa [lookupL, hj] using ih
    · simp only [List.filter_cons, ne_eq, h, not_false_eq_true, decide_true, if_true, lookupL]
      by_cases hj : j = k'
      · subst hj; simp [h]
      · simp only [hj, if_false]; simpa using ih

theorem find?_erase (m : OMap K V) (k j : K) : (m.erase k).find? j = if j = k then none else m.find? j :=
  lookupL_filter k j m.entries

@[simp] theorem find?_empty (k : K) : (({} : OMap K V).find? k) = none := rfl

theorem lookupL_none_iff (k : K) (l : List (K × V)) : lookupL k l = none ↔ ∀ e ∈ l, e.1 ≠ k := by
  induction l with
  | nil => simp [lookupL]
  | cons e t ih =>
    obtain ⟨k', v'⟩ := e
    simp only [lookupL]
    split_ifs with h
    · subst h; simp
    · simp only [ih, List.mem_cons, forall_eq_or_imp, ne_eq]
      constructor
      · exact fun hh => ⟨fun e => h e.symm, hh⟩
      · exact fun hh => hh.2

theorem isEmpty_iff (m : OMap K V) : m.isEmpty = true ↔ ∀ k, m.find? k = none := by
  obtain ⟨l⟩ := m
  cases l with
  | nil => simp [isEmpty, find?, lookupL]
  | cons e t =>
    simp only [isEmpty, List.isEmpty_cons, Bool.false_eq_true, false_iff, not_forall]
    exact ⟨e.1, by simp [find?, lookupL]⟩

theorem isEmpty_false_iff (m : OMap K V) : m.isEmpty = false ↔ ∃ k v, m.find? k = some v := by
  rw [← Bool.not_eq_true, isEmpty_iff]
  push_neg
  constructor
  · rintro ⟨k, h⟩
    obtain ⟨v, hv⟩ := Option.ne_none_iff_exists'.mp h
    exact ⟨k, v, hv⟩
  · rintro ⟨k, v, h⟩; exact ⟨k, by simp [h]⟩

theorem contains_iff (m : OMap K V) (k : K) : m.contains k = true ↔ ∃ v, m.find? k = some v := by
  simp [contains, Option.isSome_iff_exists]

theorem contains_false_iff (m : OMap K V) (k : K) : m.contains k = false ↔ m.find? k = none := by
  simp [contains]

theorem atKey_ok_iff (m : OMap K V) (k : K) (v : V) : m.atKey k = .ok v ↔ m.find? k = some v := by
  unfold atKey
  cases h : m.find? k <;> simp

theorem atKey_of_find? {m : OMap K V} {k : K} {v : V} (h : m.find? k = some v) : m.atKey k = .ok v :=
  (atKey_ok_iff m k v).2 h

/-- What is needed of the key order. -/
class StrictOrd (K : Type) [LT K] : Prop where
  irrefl : ∀ a : K, ¬ a < a
  trans : ∀ {a b c : K}, a < b → b < c → a < c
  total : ∀ {a b : K}, ¬ a < b → a ≠ b → b < a

instance : StrictOrd String where
  irrefl := lt_irrefl
  trans := lt_trans
  total h1 h2 := lt_of_le_of_ne (not_lt.mp h1) (Ne.symm h2)

instance : StrictOrd Int where
  irrefl := lt_irrefl
  trans := lt_trans
  total h1 h2 := lt_of_le_of_ne (not_lt.mp h1) (Ne.symm h2)

section
variable [LT K] [DecidableLT K] [StrictOrd K]

/-- The keys are in strictly increasing order, as in a `std::map`. -/
def WF (m : OMap K V) : Prop := m.entries.Pairwise (fun a b => a.1 < b.1)

theorem wf_empty : (({} : OMap K V)).WF := List.Pairwise.nil

theorem mem_insertL {k : K} {v : V} {l : List (K × V)} {e : K × V} (h : e ∈ insertL k v l) : e = (k, v) ∨ e ∈ l := by
  induction l with
  | nil => simpa [insertL] using h
  | cons a t ih =>
    simp only [insertL] at h
    split_ifs at h
    · rcases List.mem_cons.1 h with h | h
      · exact .inl h
      · exact .inr (List.mem_cons_of_mem _ h)
    · rcases List.mem_cons.1 h with h | h
      · exact .inl h
      · exact .inr h
    · rcases List.mem_cons.1 h with h | h
      · exact .inr (by rw [h]; exact List.mem_cons_self)
      · rcases ih h with h | h
        · exact .inl h
        · exact .inr (List.mem_cons_of_mem _ h)

theorem wf_insert {m : OMap K V} (h : m.WF) (k : K) (v : V) : (m.insert k v).WF := by
  obtain ⟨l⟩ := m
  simp only [WF, insert] at h ⊢
  induction l with
  | nil => simp [insertL]
  | cons a t ih =>
    obtain ⟨k', v'⟩ := a
    rw [List.pairwise_cons] at h
    simp only [insertL]
    split_ifs with h1 h2
    · subst h1; exact List.pairwise_cons.2 h
    · refine List.pairwise_cons.2 ⟨?_, List.pairwise_cons.2 h⟩
      intro e he
      rcases List.mem_cons.1 he with he | he
      · rw [he]; exact h2
      · exact StrictOrd.trans h2 (h.1 e he)
    · refine List.pairwise_cons.2 ⟨?_, ih h.2⟩
      intro e he
      rcases mem_insertL he with he | he
      · rw [he]; exact StrictOrd.total h2 h1
      · exact h.1 e he

theorem wf_erase {m : OMap K V} (h : m.WF) (k : K) : (m.erase k).WF :=
  List.Pairwise.sublist List.filter_sublist h

theorem wf_nodup {m : OMap K V} (h : m.WF) : (m.entries.map Prod.fst).Nodup := by
  rw [List.Nodup, List.pairwise_map]
  refine List.Pairwise.imp ?_ h
  intro a b hab he
  rw [he] at hab
  exact StrictOrd.irrefl _ hab

theorem mem_entries_iff {m : OMap K V} (h : m.WF) (k : K) (v : V) : (k, v) ∈ m.entries ↔ m.find? k = some v := by
  obtain ⟨l⟩ := m
  simp only [WF, find?] at h ⊢
  induction l with
  | nil => simp [lookupL]
  | cons a t ih =>
    obtain ⟨k', v'⟩ := a
    rw [List.pairwise_cons] at h
    simp only [lookupL, List.mem_cons, Prod.mk.injEq]
    split_ifs with h1
    · subst h1
      simp only [true_and, Option.some.injEq]
      constructor
      · rintro (h2 | h2)
        · exact h2.symm
        · exact absurd (h.1 _ h2) (StrictOrd.irrefl _)
      · exact fun h2 => .inl h2.symm
    · simp [h1, ih h.2]

end

end Verif.OMap
