import Verif.Lemmas.Cycle
import Verif.Lemmas.Str

/-! # Helper lemmas about profiles and accumulated set points -/

namespace Verif

theorem findSub_char (c : Char) : ∀ s : List Char,
    (c ∉ s → findSub [c] s = none) ∧ ∀ a b, c ∉ a → s = a ++ c :: b → findSub [c] s = some a.length
  | [] => ⟨fun _ => by simp [findSub], fun a b _ h => by simp at h⟩
  | d :: s => by
    obtain ⟨h1, h2⟩ := findSub_char c s
    refine ⟨fun h => ?_, fun a b ha h => ?_⟩
    · have hd : ¬ c = d := fun e => h (by rw [e]; exact List.mem_cons_self)
      have hs : c ∉ s := fun e => h (List.mem_cons_of_mem _ e)
      simp [findSub, List.isPrefixOf, hd, h1 hs]
    · cases a with
      | nil =>
        simp only [List.nil_append, List.cons.injEq] at h
        simp [findSub, List.isPrefixOf, h.1]
      | cons x a =>
        simp only [List.cons_append, List.cons.injEq] at h
        obtain ⟨rfl, h⟩ := h
        have hd : ¬ c = d := fun e => ha (by rw [e]; exact List.mem_cons_self)
        have hs : c ∉ a := fun e => ha (List.mem_cons_of_mem _ e)
        simp [findSub, List.isPrefixOf, hd, h2 a b hs h]

theorem isProfile_iff (name p : String) : IsProfile name p ↔ p = ZoneData.profileName name := by
  by_cases h : '_' ∈ name.toList
  · obtain ⟨a, b, h1, h2⟩ := List.eq_append_cons_of_mem h
    have hf := (findSub_char '_' name.toList).2 a b h2 h1
    have e : ZoneData.profileName name = String.ofList b := by
      unfold ZoneData.profileName
      rw [hf, h1]
      simp
    rw [e]
    constructor
    · rintro (⟨a', h3, h4⟩ | ⟨h3, _⟩)
      · have hf' := (findSub_char '_' name.toList).2 a' p.toList h3 h4
        rw [hf] at hf'
        have hl : a.length = a'.length := by simpa using hf'
        rw [h1] at h4
        have := (List.append_inj h4 hl).2
        simp only [List.cons.injEq, true_and] at this
        rw [this, String.ofList_toList]
      · exact absurd h h3
    · rintro rfl
      exact .inl ⟨a, h2, by rw [h1, String.toList_ofList]⟩
  · have := (findSub_char '_' name.toList).1 h
    unfold IsProfile ZoneData.profileName
    rw [this]
    constructor
    · rintro (⟨a, _, e⟩ | ⟨_, e⟩)
      · exact absurd (by rw [e]; simp) h
      · exact e
    · intro e; exact .inr ⟨h, e⟩

theorem joinPlus_append (a b : String) (l : List String) :
    joinPlus ((a ++ (" + " ++ b)) :: l) = a ++ (" + " ++ joinPlus (b :: l)) := by
  cases l with
  | nil => rfl
  | cons c l => simp only [joinPlus, String.append_assoc]

theorem joinIds_acc (p : String) : ∀ (ids : List String) (acc : String), acc ≠ "" →
    ZoneData.joinIds p acc ids = joinPlus (acc :: ids.filter (fun id => p.toList <:+: id.toList))
  | [], acc, _ => rfl
  | id :: ids, acc, h => by
    by_cases hc : containsSub id p = true
    · have hc' := (containsSub_iff id p).1 hc
      have hne : acc ++ (" + " ++ id) ≠ "" := by
        intro e
        have := congrArg String.length e
        simp [String.length_append] at this
      simp only [ZoneData.joinIds, hc, if_true, h, if_false, List.filter_cons, hc', decide_true]
      rw [joinIds_acc p ids _ hne, joinPlus_append]
      rfl
    · have hc' : ¬ p.toList <:+: id.toList := fun h => hc ((containsSub_iff id p).2 h)
      simp only [ZoneData.joinIds, hc, List.filter_cons, hc', decide_false, Bool.false_eq_true, if_false]
      exact joinIds_acc p ids acc h

theorem joinIds_eq (p : String) : ∀ (ids : List String), (∀ id ∈ ids, id ≠ "") →
    ZoneData.joinIds p "" ids = namesWith p ids
  | [], _ => rfl
  | id :: ids, h => by
    unfold namesWith
    by_cases hc : containsSub id p = true
    · have hc' := (containsSub_iff id p).1 hc
      simp only [ZoneData.joinIds, hc, if_true, List.filter_cons, hc', decide_true]
      exact joinIds_acc p ids id (h id List.mem_cons_self)
    · have hc' : ¬ p.toList <:+: id.toList := fun h => hc ((containsSub_iff id p).2 h)
      simp only [ZoneData.joinIds, hc, List.filter_cons, hc', decide_false, Bool.false_eq_true, if_false]
      exact joinIds_eq p ids (fun i hi => h i (List.mem_cons_of_mem _ hi))

variable [F : FloatModel]
open Dbl

theorem profileValues_snoc (z : ZoneData) (subs : List Submission) (s : Submission) (p : String) :
    profileValues z (subs ++ [s]) p = profileValues z subs p ++ profileValues z [s] p := by
  unfold profileValues
  rw [List.filterMap_append]

open Classical in
theorem profileValues_setPoint (z : ZoneData) (n : String) (v : Dbl) (p : String) :
    profileValues z [.setPoint n v] p = if enabledB z n = true ∧ p = ZoneData.profileName n then [v] else [] := by
  unfold profileValues
  simp only [List.filterMap_cons, List.filterMap_nil, isProfile_iff, enabledB_iff]
  split_ifs <;> simp_all

theorem profileValues_ceiling (z : ZoneData) (v : Dbl) (p : String) : profileValues z [.ceiling v] p = [] := by
  simp [profileValues]

theorem sumUp_snoc (l : List Dbl) (v : Dbl) : sumUp (l ++ [v]) = sumUp l + v := by
  simp [sumUp, List.foldl_append]

theorem RunningSum.snoc {z : ZoneData} {subs : List Submission} {x : Dbl} (h : RunningSum z subs x) (s : Submission) :
    RunningSum z (subs ++ [s]) x := by
  obtain ⟨pre, p, h1, h2⟩ := h
  exact ⟨pre, p, h1.trans (List.prefix_append _ _), h2⟩

theorem runningSum_snoc_iff (z : ZoneData) (subs : List Submission) (s : Submission) (x : Dbl) :
    RunningSum z (subs ++ [s]) x ↔ RunningSum z subs x ∨
      ∃ p, profileValues z (subs ++ [s]) p ≠ [] ∧ x = sumUp (profileValues z (subs ++ [s]) p) := by
  constructor
  · rintro ⟨pre, p, h1, h2⟩
    rcases List.prefix_concat_iff.1 h1 with rfl | h1
    · exact .inr ⟨p, h2⟩
    · exact .inl ⟨pre, p, h1, h2⟩
  · rintro (h | ⟨p, h⟩)
    · exact h.snoc s
    · exact ⟨_, p, List.prefix_rfl, h⟩

theorem acc_spec {z : ZoneData} (hacc : z.accumulateSetPoint = true) (subs : List Submission) :
    (∀ p, ((subs.foldl sub1 (cleared z)).setPoints.find? p).getD 0 = sumUp (profileValues z subs p)) ∧
      Largest (fun x => x = 0 ∨ (x ≠ nan ∧ RunningSum z subs x)) (subs.foldl sub1 (cleared z)).maximumSetPoint := by
  induction subs using List.reverseRecOn with
  | nil =>
    refine ⟨fun p => ?_, .inl rfl, ?_⟩
    · simp [cleared, ZoneData.clearSetPoints, ZoneData.clearRPMCeilings, OMap.find?_empty, profileValues, sumUp]
    · rintro x (rfl | ⟨_, pre, p, h1, h2, _⟩)
      · exact Dbl.le_refl Dbl.zero_ne_nan
      · rw [List.prefix_nil] at h1
        subst h1
        exact absurd rfl h2
  | append_singleton subs s ih =>
    obtain ⟨ih1, ih2⟩ := ih
    rw [List.foldl_append]
    simp only [List.foldl_cons, List.foldl_nil]
    have hsame := foldl_sub1_same subs (cleared z)
    generalize subs.foldl sub1 (cleared z) = y at ih1 ih2 hsame ⊢
    have hya : y.accumulateSetPoint = true := hsame.acc.trans hacc
    have hyp : y.procs = z.procs := hsame.procs
    have hyn : y.maximumSetPoint ≠ nan := ne_nan_of_le_right (ih2.2 0 (.inl rfl))
    -- a submission that changes nothing
    have idle : (∀ p, profileValues z [s] p = []) → sub1 y s = y ∨ (∃ v, s = .ceiling v) →
        (∀ p, ((sub1 y s).setPoints.find? p).getD 0 = sumUp (profileValues z (subs ++ [s]) p)) ∧
          Largest (fun x => x = 0 ∨ (x ≠ nan ∧ RunningSum z (subs ++ [s]) x)) (sub1 y s).maximumSetPoint := by
      intro h0 hs
      have e1 : (sub1 y s).setPoints = y.setPoints ∧ (sub1 y s).maximumSetPoint = y.maximumSetPoint := by
        rcases hs with hs | ⟨v, rfl⟩
        · rw [hs]; exact ⟨rfl, rfl⟩
        · exact ⟨rfl, rfl⟩
      rw [e1.1, e1.2]
      refine ⟨fun p => ?_, ih2.congr (fun x => ?_)⟩
      · rw [profileValues_snoc, h0, List.append_nil]; exact ih1 p
      · rw [runningSum_snoc_iff]
        constructor
        · rintro (h | ⟨h1, h2⟩)
          · exact .inl h
          · exact .inr ⟨h1, .inl h2⟩
        · rintro (h | ⟨h1, h2 | ⟨p, h2, h3⟩⟩)
          · exact .inl h
          · exact .inr ⟨h1, h2⟩
          · rw [profileValues_snoc, h0, List.append_nil] at h2 h3
            exact .inr ⟨h1, subs, p, List.prefix_rfl, h2, h3⟩
    cases s with
    | ceiling v => exact idle (profileValues_ceiling z v) (.inr ⟨v, rfl⟩)
    | setPoint n v =>
      cases he : enabledB z n with
      | false =>
        refine idle (fun p => ?_) (.inl ?_)
        · rw [profileValues_setPoint]; simp [he]
        · simp [sub1, enabledB_congr hyp, he]
      | true =>
        have e : sub1 y (.setPoint n v) = withRequest y (ZoneData.profileName n)
            (sumUp (profileValues z subs (ZoneData.profileName n)) + v) := by
          simp only [sub1, enabledB_congr hyp, he, if_true, reqKey, reqNew, hya, ih1]
        have hpv : ∀ p, profileValues z (subs ++ [.setPoint n v]) p =
            if p = ZoneData.profileName n then profileValues z subs p ++ [v] else profileValues z subs p := by
          intro p
          rw [profileValues_snoc, profileValues_setPoint]
          by_cases hp : p = ZoneData.profileName n <;> simp [he, hp]
        rw [e]
        refine ⟨fun p => ?_, ?_⟩
        · simp only [withRequest, OMap.find?_insert, hpv]
          by_cases hp : ZoneData.profileName n = p
          · subst hp; simp [sumUp_snoc]
          · have hp' : ¬ p = ZoneData.profileName n := fun e => hp e.symm
            simp only [hp, hp', if_false]; exact ih1 p
        · rw [withRequest_max]
          have hnew : RunningSum z (subs ++ [.setPoint n v]) (sumUp (profileValues z subs (ZoneData.profileName n)) + v) := by
            rw [runningSum_snoc_iff]
            refine .inr ⟨ZoneData.profileName n, ?_⟩
            rw [hpv, if_pos rfl, sumUp_snoc]
            exact ⟨by simp, rfl⟩
          refine ⟨?_, ?_⟩
          · unfold cmax
            split_ifs with hl
            · exact .inr ⟨ne_nan_of_lt_right hl, hnew⟩
            · rcases ih2.1 with h | ⟨h1, h2⟩
              · exact .inl h
              · exact .inr ⟨h1, h2.snoc _⟩
          · rintro x (rfl | ⟨h1, h2⟩)
            · exact Dbl.le_trans (ih2.2 0 (.inl rfl)) (cmax_ge_left hyn)
            · rcases (runningSum_snoc_iff z subs _ x).1 h2 with h2 | ⟨p, h2, h3⟩
              · exact Dbl.le_trans (ih2.2 x (.inr ⟨h1, h2⟩)) (cmax_ge_left hyn)
              · rw [hpv] at h2 h3
                by_cases hp : p = ZoneData.profileName n
                · rw [if_pos hp, sumUp_snoc] at h3
                  subst hp
                  rw [← h3]
                  exact cmax_ge_right hyn h1
                · rw [if_neg hp] at h2 h3
                  exact Dbl.le_trans (ih2.2 x (.inr ⟨h1, subs, p, List.prefix_rfl, h2, h3⟩)) (cmax_ge_left hyn)

theorem profileValues_prefix {z : ZoneData} {pre subs : List Submission} (h : pre <+: subs) (p : String) :
    profileValues z pre p <+: profileValues z subs p := by
  obtain ⟨t, rfl⟩ := h
  unfold profileValues
  rw [List.filterMap_append]
  exact List.prefix_append _ _

theorem add_nonneg_ne_nan {a x : Dbl} (ha : 0 ≤ a) (hx : 0 ≤ x) : a + x ≠ nan := by
  rw [zero_eq] at ha hx
  cases a with
  | nan => simp at ha
  | ninf => simp at ha
  | pinf => cases x <;> simp_all [add_def, Dbl.add]
  | fin q h =>
    cases x with
    | nan => simp at hx
    | ninf => simp at hx
    | pinf => simp [add_def, Dbl.add]
    | fin r h' => rw [fin_add_fin]; exact ofRat_ne_nan _

theorem foldl_add_nonneg (l : List Dbl) : ∀ {a : Dbl}, 0 ≤ a → (∀ x ∈ l, 0 ≤ x) → a ≤ l.foldl (· + ·) a := by
  induction l with
  | nil => intro a ha _; exact Dbl.le_refl (ne_nan_of_le_right ha)
  | cons y l ih =>
    intro a ha h
    have hy := h y List.mem_cons_self
    have h1 := le_add_nonneg hy (add_nonneg_ne_nan ha hy)
    exact Dbl.le_trans h1 (ih (Dbl.le_trans ha h1) (fun x hx => h x (List.mem_cons_of_mem _ hx)))

theorem sumUp_prefix {l l' : List Dbl} (h : l <+: l') (hn : ∀ x ∈ l', 0 ≤ x) : sumUp l ≤ sumUp l' := by
  obtain ⟨t, rfl⟩ := h
  unfold sumUp
  rw [List.foldl_append]
  exact foldl_add_nonneg t (foldl_add_nonneg l (Dbl.le_refl Dbl.zero_ne_nan) (fun x hx => hn x (List.mem_append_left _ hx)))
    (fun x hx => hn x (List.mem_append_right _ hx))

theorem sumUp_nonneg {l : List Dbl} (hn : ∀ x ∈ l, 0 ≤ x) : 0 ≤ sumUp l :=
  foldl_add_nonneg l (Dbl.le_refl Dbl.zero_ne_nan) hn

theorem mem_profileValues {z : ZoneData} {subs : List Submission} {p : String} {x : Dbl}
    (h : x ∈ profileValues z subs p) : Requested z subs x := by
  unfold profileValues at h
  obtain ⟨s, hs, e⟩ := List.mem_filterMap.1 h
  cases s with
  | ceiling v => simp at e
  | setPoint n v =>
    simp only at e
    split_ifs at e with hh
    cases e
    exact ⟨n, hs, hh.1⟩

/-! ## Requester names -/

theorem sub1_name_nonacc {z : ZoneData} (h : NonAccInv z) (n : String) (v : Dbl) :
    (sub1 z (.setPoint n v)).maximumSetPointName =
      if enabledB z n = true ∧ z.maximumSetPoint < v then n else z.maximumSetPointName := by
  obtain ⟨hacc, h1, h2, h3⟩ := h
  have h4 : (z.setPoints.find? n).getD 0 ≤ z.maximumSetPoint := by
    cases hf : z.setPoints.find? n with
    | none => exact h2
    | some x => exact h3 n x hf
  simp only [sub1]
  by_cases he : enabledB z n = true
  · simp only [he, if_true, true_and, withRequest, reqNew_nonacc hacc]
    have hk : reqKey z.accumulateSetPoint n = n := by simp [reqKey, hacc]
    rw [hk]
    have : z.maximumSetPoint < cmax ((z.setPoints.find? n).getD 0) v ↔ z.maximumSetPoint < v := by
      unfold cmax
      split_ifs with hl
      · rfl
      · constructor
        · intro h; exact absurd h (not_lt_of_le h4)
        · intro h; exact absurd (Dbl.lt_of_le_of_lt h4 h) hl
    by_cases hv : z.maximumSetPoint < v
    · rw [if_pos (this.2 hv), if_pos hv]
    · rw [if_neg (fun h => hv (this.1 h)), if_neg hv]
  · simp [he]

theorem nonAcc_foldl (subs : List Submission) : ∀ {z : ZoneData}, NonAccInv z → NonAccInv (subs.foldl sub1 z) := by
  induction subs with
  | nil => exact fun h => h
  | cons s ss ih => exact fun h => ih (h.sub1 s)

theorem requests_append (z : ZoneData) (a b : List Submission) : requests z (a ++ b) = requests z a ++ requests z b := by
  induction a with
  | nil => rfl
  | cons s a ih =>
    cases s with
    | ceiling v => exact ih
    | setPoint n v => simp only [List.cons_append, requests, ih]; split_ifs <;> rfl

/-- the requester recorded by a round of submissions -/
theorem round_name {z : ZoneData} (hacc : z.accumulateSetPoint = false) (subs : List Submission) :
    ((∀ x, Requested z subs x → ¬ 0 < x) ∧ (subs.foldl sub1 (cleared z)).maximumSetPointName = "" ∧
        (subs.foldl sub1 (cleared z)).maximumSetPoint = 0) ∨
      ∃ pre n v post, subs = pre ++ .setPoint n v :: post ∧ Enabled z n ∧ 0 < v ∧
        (subs.foldl sub1 (cleared z)).maximumSetPoint = v ∧ (subs.foldl sub1 (cleared z)).maximumSetPointName = n ∧
        ∀ x, Requested z pre x → ¬ v ≤ x := by
  induction subs using List.reverseRecOn with
  | nil => exact .inl ⟨by simp [Requested], rfl, rfl⟩
  | append_singleton subs s ih =>
    have hinv : NonAccInv (subs.foldl sub1 (cleared z)) := nonAcc_foldl subs (nonAccInv_clear hacc)
    have hmax := foldl_cmax_largest (requests z subs) Dbl.zero_ne_nan
    rw [← round_max hacc subs] at hmax
    have hprocs : (subs.foldl sub1 (cleared z)).procs = z.procs := (foldl_sub1_same subs (cleared z)).procs
    rw [List.foldl_append]
    simp only [List.foldl_cons, List.foldl_nil]
    generalize subs.foldl sub1 (cleared z) = y at *
    -- nothing changes
    have idle : (sub1 y s).maximumSetPointName = y.maximumSetPointName → (sub1 y s).maximumSetPoint = y.maximumSetPoint →
        (∀ x, Requested z [s] x → ¬ y.maximumSetPoint < x) →
        ((∀ x, Requested z (subs ++ [s]) x → ¬ 0 < x) ∧ (sub1 y s).maximumSetPointName = "" ∧
            (sub1 y s).maximumSetPoint = 0) ∨
          ∃ pre n v post, subs ++ [s] = pre ++ .setPoint n v :: post ∧ Enabled z n ∧ 0 < v ∧
            (sub1 y s).maximumSetPoint = v ∧ (sub1 y s).maximumSetPointName = n ∧ ∀ x, Requested z pre x → ¬ v ≤ x := by
      intro e1 e2 h0
      rw [e1, e2]
      rcases ih with ⟨h1, h2, h3⟩ | ⟨pre, n, v, post, h1, h2, h3, h4, h5, h6⟩
      · refine .inl ⟨?_, h2, h3⟩
        rintro x ⟨n, hx, hn⟩
        rcases List.mem_append.1 hx with hx | hx
        · exact h1 x ⟨n, hx, hn⟩
        · have := h0 x ⟨n, hx, hn⟩
          rwa [h3] at this
      · exact .inr ⟨pre, n, v, post ++ [s], by rw [h1]; simp, h2, h3, h4, h5, h6⟩
    cases s with
    | ceiling v => exact idle rfl rfl (by rintro x ⟨n, hx, _⟩; simp at hx)
    | setPoint n v =>
      have hb : enabledB y n = enabledB z n := enabledB_congr hprocs n
      by_cases hc : enabledB y n = true ∧ y.maximumSetPoint < v
      · right
        refine ⟨subs, n, v, [], rfl, (enabledB_iff z n).1 (hb ▸ hc.1), Dbl.lt_of_le_of_lt hinv.2.2.1 hc.2, ?_, ?_, ?_⟩
        · rw [sub1_max_nonacc hinv, if_pos hc.1]; simp [cmax, hc.2]
        · rw [sub1_name_nonacc hinv, if_pos hc]
        · intro x hx hle
          have := hmax.2 x (.inr ⟨(mem_requests z subs x).2 hx, ne_nan_of_le_right hle⟩)
          exact absurd (Dbl.lt_of_le_of_lt this hc.2) (not_lt_of_le hle)
      · refine idle (by rw [sub1_name_nonacc hinv, if_neg hc]) ?_ ?_
        · rw [sub1_max_nonacc hinv]
          by_cases he : enabledB y n = true
          · have : ¬ y.maximumSetPoint < v := fun h => hc ⟨he, h⟩
            simp [he, cmax, this]
          · simp [he]
        · rintro x ⟨m, hx, hm⟩ hl
          simp only [List.mem_singleton, Submission.setPoint.injEq] at hx
          obtain ⟨rfl, rfl⟩ := hx
          exact hc ⟨by rw [hb]; exact (enabledB_iff z m).2 hm, hl⟩

/-- the profile recorded by a round of submissions to an accumulating zone -/
theorem acc_name {z : ZoneData} (hacc : z.accumulateSetPoint = true) (subs : List Submission) :
    ((subs.foldl sub1 (cleared z)).maximumSetPointName = "" ∧ (subs.foldl sub1 (cleared z)).maximumSetPoint = 0) ∨
      ∃ pre n v post p, subs = pre ++ .setPoint n v :: post ∧ Enabled z n ∧ IsProfile n p ∧
        0 < (subs.foldl sub1 (cleared z)).maximumSetPoint ∧
        (subs.foldl sub1 (cleared z)).maximumSetPoint = sumUp (profileValues z (pre ++ [.setPoint n v]) p) ∧
        (subs.foldl sub1 (cleared z)).maximumSetPointName = p ∧
        ∀ x, RunningSum z pre x → ¬ (subs.foldl sub1 (cleared z)).maximumSetPoint ≤ x := by
  induction subs using List.reverseRecOn with
  | nil => exact .inl ⟨rfl, rfl⟩
  | append_singleton subs s ih =>
    obtain ⟨hs1, hs2⟩ := acc_spec hacc subs
    rw [List.foldl_append]
    simp only [List.foldl_cons, List.foldl_nil]
    have hsame := foldl_sub1_same subs (cleared z)
    generalize subs.foldl sub1 (cleared z) = y at hs1 hs2 hsame ih ⊢
    have hya : y.accumulateSetPoint = true := hsame.acc.trans hacc
    have hyp : y.procs = z.procs := hsame.procs
    have idle : (sub1 y s).maximumSetPointName = y.maximumSetPointName → (sub1 y s).maximumSetPoint = y.maximumSetPoint →
        ((sub1 y s).maximumSetPointName = "" ∧ (sub1 y s).maximumSetPoint = 0) ∨
          ∃ pre n v post p, subs ++ [s] = pre ++ .setPoint n v :: post ∧ Enabled z n ∧ IsProfile n p ∧
            0 < (sub1 y s).maximumSetPoint ∧
            (sub1 y s).maximumSetPoint = sumUp (profileValues z (pre ++ [.setPoint n v]) p) ∧
            (sub1 y s).maximumSetPointName = p ∧ ∀ x, RunningSum z pre x → ¬ (sub1 y s).maximumSetPoint ≤ x := by
      intro e1 e2
      rw [e1, e2]
      rcases ih with h | ⟨pre, n, v, post, p, h1, h2⟩
      · exact .inl h
      · exact .inr ⟨pre, n, v, post ++ [s], p, by rw [h1]; simp, h2⟩
    cases s with
    | ceiling v => exact idle rfl rfl
    | setPoint n v =>
      cases he : enabledB z n with
      | false =>
        have e : sub1 y (.setPoint n v) = y := by simp [sub1, enabledB_congr hyp, he]
        exact idle (by rw [e]) (by rw [e])
      | true =>
        have e : sub1 y (.setPoint n v) = withRequest y (ZoneData.profileName n)
            (sumUp (profileValues z subs (ZoneData.profileName n)) + v) := by
          simp only [sub1, enabledB_congr hyp, he, if_true, reqKey, reqNew, hya, hs1]
        by_cases hl : y.maximumSetPoint < sumUp (profileValues z subs (ZoneData.profileName n)) + v
        · have em : (sub1 y (.setPoint n v)).maximumSetPoint = sumUp (profileValues z subs (ZoneData.profileName n)) + v := by
            rw [e, withRequest_max]; simp [cmax, hl]
          refine .inr ⟨subs, n, v, [], ZoneData.profileName n, rfl, (enabledB_iff z n).1 he, (isProfile_iff n _).2 rfl, ?_, ?_,
            ?_, ?_⟩
          · rw [em]; exact Dbl.lt_of_le_of_lt (hs2.2 0 (.inl rfl)) hl
          · rw [em, profileValues_snoc, profileValues_setPoint]
            simp [he, sumUp_snoc]
          · rw [e]; simp [withRequest, hl]
          · intro x hx hle
            rw [em] at hle
            have := hs2.2 x (.inr ⟨ne_nan_of_le_right hle, hx⟩)
            exact absurd (Dbl.lt_of_le_of_lt this hl) (not_lt_of_le hle)
        · exact idle (by rw [e]; simp [withRequest, hl]) (by rw [e, withRequest_max]; simp [cmax, hl])

end Verif
