import Verif.Lemmas.Num
import Verif.Spec.Zone

/-! # Folds with `std::min`/`std::max`, and the error monad -/

namespace Verif
theorem bind_eq_ok {α β : Type} {x : Res α} {f : α → Res β} {b : β} :
    (x >>= f) = .ok b ↔ ∃ a, x = .ok a ∧ f a = .ok b := by
  cases x <;> simp [bind, Except.bind]

@[simp] theorem ok_bind {α β : Type} (a : α) (f : α → Res β) : ((Except.ok a : Res α) >>= f) = f a := rfl
@[simp] theorem error_bind {α β : Type} (e : Err) (f : α → Res β) :
    ((Except.error e : Res α) >>= f) = .error e := rfl

variable [F : FloatModel]
open Dbl

theorem Largest.unique {S : Dbl → Prop} {a b : Dbl} (ha : Largest S a) (hb : Largest S b) : a = b :=
  Dbl.le_antisymm (hb.2 _ ha.1) (ha.2 _ hb.1)

theorem Smallest.unique {S : Dbl → Prop} {a b : Dbl} (ha : Smallest S a) (hb : Smallest S b) : a = b :=
  Dbl.le_antisymm (ha.2 _ hb.1) (hb.2 _ ha.1)

theorem Largest.congr {S T : Dbl → Prop} {a : Dbl} (h : ∀ x, S x ↔ T x) (ha : Largest S a) : Largest T a :=
  ⟨(h a).1 ha.1, fun x hx => ha.2 x ((h x).2 hx)⟩

theorem Smallest.congr {S T : Dbl → Prop} {a : Dbl} (h : ∀ x, S x ↔ T x) (ha : Smallest S a) : Smallest T a :=
  ⟨(h a).1 ha.1, fun x hx => ha.2 x ((h x).2 hx)⟩

theorem foldl_cmax_largest (l : List Dbl) : ∀ {v : Dbl}, v ≠ nan →
    Largest (fun x => x = v ∨ (x ∈ l ∧ x ≠ nan)) (l.foldl cmax v) := by
  induction l with
  | nil => intro v hv; exact ⟨by simp, fun x hx => by simp at hx; subst hx; exact Dbl.le_refl hv⟩
  | cons y l ih =>
    intro v hv
    rw [List.foldl_cons]
    by_cases hy : v < y
    · have e : cmax v y = y := by simp [cmax, hy]
      rw [e]
      have hyn := ne_nan_of_lt_right hy
      obtain ⟨h1, h2⟩ := ih hyn
      refine ⟨?_, ?_⟩
      · rcases h1 with h1 | h1
        · right; rw [h1]; exact ⟨List.mem_cons_self, hyn⟩
        · right; exact ⟨List.mem_cons_of_mem _ h1.1, h1.2⟩
      · rintro x (hx | ⟨hx, hn⟩)
        · subst hx; exact Dbl.le_trans (Dbl.le_of_lt hy) (h2 y (.inl rfl))
        · rcases List.mem_cons.1 hx with hx | hx
          · exact h2 x (.inl hx)
          · exact h2 x (.inr ⟨hx, hn⟩)
    · have e : cmax v y = v := by simp [cmax, hy]
      rw [e]
      obtain ⟨h1, h2⟩ := ih hv
      refine ⟨?_, ?_⟩
      · rcases h1 with h1 | h1
        · exact .inl h1
        · exact .inr ⟨List.mem_cons_of_mem _ h1.1, h1.2⟩
      · rintro x (hx | ⟨hx, hn⟩)
        · exact h2 x (.inl hx)
        · rcases List.mem_cons.1 hx with hx | hx
          · subst hx; exact Dbl.le_trans (le_of_not_lt hn hv hy) (h2 v (.inl rfl))
          · exact h2 x (.inr ⟨hx, hn⟩)

theorem foldl_cmin_smallest (l : List Dbl) : ∀ {v : Dbl}, v ≠ nan →
    Smallest (fun x => x = v ∨ (x ∈ l ∧ x ≠ nan)) (l.foldl cmin v) := by
  induction l with
  | nil => intro v hv; exact ⟨by simp, fun x hx => by simp at hx; subst hx; exact Dbl.le_refl hv⟩
  | cons y l ih =>
    intro v hv
    rw [List.foldl_cons]
    by_cases hy : y < v
    · have e : cmin v y = y := by simp [cmin, hy]
      rw [e]
      have hyn := ne_nan_of_lt_left hy
      obtain ⟨h1, h2⟩ := ih hyn
      refine ⟨?_, ?_⟩
      · rcases h1 with h1 | h1
        · right; rw [h1]; exact ⟨List.mem_cons_self, hyn⟩
        · right; exact ⟨List.mem_cons_of_mem _ h1.1, h1.2⟩
      · rintro x (hx | ⟨hx, hn⟩)
        · subst hx; exact Dbl.le_trans (h2 y (.inl rfl)) (Dbl.le_of_lt hy)
        · rcases List.mem_cons.1 hx with hx | hx
          · exact h2 x (.inl hx)
          · exact h2 x (.inr ⟨hx, hn⟩)
    · have e : cmin v y = v := by simp [cmin, hy]
      rw [e]
      obtain ⟨h1, h2⟩ := ih hv
      refine ⟨?_, ?_⟩
      · rcases h1 with h1 | h1
        · exact .inl h1
        · exact .inr ⟨List.mem_cons_of_mem _ h1.1, h1.2⟩
      · rintro x (hx | ⟨hx, hn⟩)
        · exact h2 x (.inl hx)
        · rcases List.mem_cons.1 hx with hx | hx
          · subst hx; exact Dbl.le_trans (h2 v (.inl rfl)) (le_of_not_lt hv hn hy)
          · exact h2 x (.inr ⟨hx, hn⟩)

theorem minElement_eq (x : Dbl) (xs : List Dbl) : minElement x xs = xs.foldl cmin x := rfl

theorem maxElement_eq (x : Dbl) (xs : List Dbl) : ZoneData.maxElement x xs = xs.foldl cmax x := rfl

theorem foldl_cmin_nan (l : List Dbl) : l.foldl cmin nan = nan := by
  induction l with
  | nil => rfl
  | cons y l ih => simpa [cmin] using ih

theorem foldl_cmax_nan (l : List Dbl) : l.foldl cmax nan = nan := by
  induction l with
  | nil => rfl
  | cons y l ih => simpa [cmax] using ih

theorem isFinite_iff {x : Dbl} : x.isFinite = true ↔ ∃ q h, x = fin q h := by
  cases x with
  | fin q h => simp [isFinite, h]
  | _ => simp [isFinite]

theorem isFinite_ne_nan {x : Dbl} (h : x.isFinite = true) : x ≠ nan := by rintro rfl; simp [isFinite] at h

end Verif
