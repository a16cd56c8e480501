import Verif.Spec.Collect
import Verif.Lemmas.OMap

/-! # Helper lemmas about collecting configurations -/

namespace Verif
variable [F : FloatModel]

/-- an interface of a configuration -/
def isConf (i : String) : Bool := i = pidInterface || i = zoneInterface || i = stepwiseInterface

theorem noteInterface_fold (path : String) : ∀ (is : List String) (v : Bool × String),
    is.foldl (noteInterface path) v = (v.1 || is.any isConf, if objectManagerInterface ∈ is then path else v.2)
  | [], v => by simp
  | i :: is, v => by
    rw [List.foldl_cons, noteInterface_fold path is]
    simp only [noteInterface, isConf, List.any_cons, List.mem_cons, Bool.or_assoc, Prod.mk.injEq, true_and]
    by_cases h1 : objectManagerInterface ∈ is
    · simp [h1]
    · by_cases h2 : i = objectManagerInterface
      · simp [h2]
      · have h3 : ¬ objectManagerInterface = i := fun e => h2 e.symm
        simp [h1, h2, h3]

/-- what is noted for a service -/
def noted (m : OMap String (Bool × String)) (s : String) : Bool × String := (m.find? s).getD (false, "")

theorem noted_insert (m : OMap String (Bool × String)) (s s' : String) (v : Bool × String) :
    noted (m.insert s' v) s = if s = s' then v else noted m s := by
  unfold noted
  rw [OMap.find?_insert]
  split_ifs <;> rfl

theorem noteOwners_noted (path s : String) : ∀ (l : List (String × List String)) (m : OMap String (Bool × String)),
    noted (noteOwners path m l) s =
      ((noted m s).1 || l.any (fun o => o.1 = s && o.2.any isConf),
        if ∃ o ∈ l, o.1 = s ∧ objectManagerInterface ∈ o.2 then path else (noted m s).2)
  | [], m => by simp [noteOwners]
  | o :: l, m => by
    have ih := noteOwners_noted path s l (m.insert o.1 (o.2.foldl (noteInterface path) (noted m o.1)))
    have e : noteOwners path m (o :: l) = noteOwners path (m.insert o.1 (o.2.foldl (noteInterface path) (noted m o.1))) l := rfl
    rw [e, ih, noted_insert, noteInterface_fold]
    by_cases h : s = o.1
    · subst h
      by_cases h1 : ∃ o' ∈ l, o'.1 = o.1 ∧ objectManagerInterface ∈ o'.2
      · have h2 : ∃ o' ∈ o :: l, o'.1 = o.1 ∧ objectManagerInterface ∈ o'.2 := by
          obtain ⟨x, hx, hy⟩ := h1; exact ⟨x, List.mem_cons_of_mem _ hx, hy⟩
        rw [if_pos h1, if_pos h2]
        simp [Bool.or_assoc]
      · by_cases h3 : objectManagerInterface ∈ o.2
        · have h2 : ∃ o' ∈ o :: l, o'.1 = o.1 ∧ objectManagerInterface ∈ o'.2 := ⟨o, List.mem_cons_self, rfl, h3⟩
          rw [if_neg h1, if_pos h2]
          simp [Bool.or_assoc, h3]
        · have h2 : ¬ ∃ o' ∈ o :: l, o'.1 = o.1 ∧ objectManagerInterface ∈ o'.2 := by
            rintro ⟨x, hx, hy⟩
            rcases List.mem_cons.1 hx with rfl | hx
            · exact h3 hy.2
            · exact h1 ⟨x, hx, hy⟩
          rw [if_neg h1, if_neg h2]
          simp [Bool.or_assoc, h3]
    · have h' : ¬ o.1 = s := fun e => h e.symm
      have h2 : (∃ o' ∈ o :: l, o'.1 = s ∧ objectManagerInterface ∈ o'.2) ↔ ∃ o' ∈ l, o'.1 = s ∧ objectManagerInterface ∈ o'.2 := by
        simp only [List.mem_cons, exists_eq_or_imp, h', false_and, false_or]
      rw [if_neg h]
      simp only [h2, List.any_cons, h', decide_false, Bool.false_and, Bool.false_or]

theorem owners_noted (s : String) : ∀ (reply : SubTree) (m : OMap String (Bool × String)),
    ((noted (reply.foldl (fun m p => noteOwners p.1 m p.2) m) s).1 = true ↔
      (noted m s).1 = true ∨ ∃ p ∈ reply, ∃ o ∈ p.2, o.1 = s ∧ ∃ i ∈ o.2, isConf i = true) ∧
    ((∃ p ∈ reply, (∃ o ∈ p.2, o.1 = s ∧ objectManagerInterface ∈ o.2) ∧
        (noted (reply.foldl (fun m p => noteOwners p.1 m p.2) m) s).2 = p.1) ∨
      (∀ p ∈ reply, ∀ o ∈ p.2, o.1 = s → objectManagerInterface ∉ o.2) ∧
        (noted (reply.foldl (fun m p => noteOwners p.1 m p.2) m) s).2 = (noted m s).2)
  | [], m => by simp
  | p :: reply, m => by
    obtain ⟨ih1, ih2⟩ := owners_noted s reply (noteOwners p.1 m p.2)
    rw [List.foldl_cons]
    have e1 : ((noted (noteOwners p.1 m p.2) s).1 = true ↔
        (noted m s).1 = true ∨ ∃ o ∈ p.2, o.1 = s ∧ ∃ i ∈ o.2, isConf i = true) := by
      rw [noteOwners_noted]
      simp
    refine ⟨?_, ?_⟩
    · rw [ih1, e1]
      simp only [List.mem_cons, exists_eq_or_imp]
      rw [or_assoc]
    · rcases ih2 with ⟨q, hq, h1, h2⟩ | ⟨h1, h2⟩
      · exact .inl ⟨q, List.mem_cons_of_mem _ hq, h1, h2⟩
      · rw [h2, noteOwners_noted]
        by_cases hm : ∃ o ∈ p.2, o.1 = s ∧ objectManagerInterface ∈ o.2
        · exact .inl ⟨p, List.mem_cons_self, hm, by rw [if_pos hm]⟩
        · refine .inr ⟨?_, by rw [if_neg hm]⟩
          intro q hq o ho hs hmi
          rcases List.mem_cons.1 hq with rfl | hq
          · exact hm ⟨o, ho, hs, hmi⟩
          · exact h1 q hq o ho hs hmi

theorem owners_wf (reply : SubTree) : ∀ m : OMap String (Bool × String), m.WF → (reply.foldl (fun m p => noteOwners p.1 m p.2) m).WF := by
  induction reply with
  | nil => exact fun m h => h
  | cons p reply ih =>
    intro m h
    refine ih _ ?_
    have : ∀ (l : List (String × List String)) (m : OMap String (Bool × String)), m.WF → (noteOwners p.1 m l).WF := by
      intro l
      induction l with
      | nil => exact fun m h => h
      | cons o l ih2 => exact fun m h => ih2 _ (OMap.wf_insert h _ _)
    exact this p.2 m h

/-! ## Collecting -/

theorem addConfigurations_wf : ∀ (l : List (String × ConfObj)) {m : OMap String ConfObj}, m.WF → (addConfigurations m l).WF
  | [], _, h => h
  | o :: l, m, h => by
    refine addConfigurations_wf l (m := if hasConfiguration o.2 && !m.contains o.1 then m.insert o.1 o.2 else m) ?_
    split
    · exact OMap.wf_insert h _ _
    · exact h

/-- the configurations in `S` have different paths -/
def OnePerPath (S : String → ConfObj → Prop) : Prop := ∀ p a b, S p a → S p b → a = b

theorem addConfigurations_find? {S : String → ConfObj → Prop} (hS : OnePerPath S) : ∀ {l : List (String × ConfObj)}
    {m : OMap String ConfObj}, (∀ p a, m.find? p = some a → S p a) → (∀ o ∈ l, hasConfiguration o.2 = true → S o.1 o.2) →
    (∀ p a, (addConfigurations m l).find? p = some a → S p a) ∧
    ∀ p a, (addConfigurations m l).find? p = some a ↔ m.find? p = some a ∨ (hasConfiguration a = true ∧ (p, a) ∈ l)
  | [], m, hm, _ => ⟨hm, by intro p a; simp [addConfigurations]⟩
  | o :: l, m, hm, hl => by
    let m1 := if hasConfiguration o.2 && !m.contains o.1 then m.insert o.1 o.2 else m
    have e : addConfigurations m (o :: l) = addConfigurations m1 l := rfl
    have h1 : ∀ p a, m1.find? p = some a ↔ m.find? p = some a ∨ (hasConfiguration a = true ∧ (p, a) = o) := by
      intro p a
      simp only [m1]
      by_cases hc : hasConfiguration o.2 = true
      · cases hco : m.contains o.1 with
        | true =>
          simp only [hc, Bool.not_true, Bool.and_false, Bool.false_eq_true, if_false]
          refine ⟨.inl, ?_⟩
          rintro (h | ⟨_, rfl⟩)
          · exact h
          · obtain ⟨v, hv⟩ := (OMap.contains_iff _ _).1 hco
            rw [hv, hS _ _ _ (hm _ _ hv) (hl _ List.mem_cons_self hc)]
        | false =>
          simp only [hc, Bool.not_false, Bool.and_self, if_true]
          rw [OMap.find?_insert]
          have hn := (OMap.contains_false_iff _ _).1 hco
          split_ifs with hp
          · subst hp
            rw [hn]
            constructor
            · rintro ⟨⟩; exact .inr ⟨hc, rfl⟩
            · rintro (h | ⟨_, h⟩)
              · cases h
              · rw [← h]
          · constructor
            · exact .inl
            · rintro (h | ⟨_, h⟩)
              · exact h
              · exact absurd (congrArg Prod.fst h) hp
      · simp only [hc, Bool.false_and, Bool.false_eq_true, if_false]
        refine ⟨.inl, ?_⟩
        rintro (h | ⟨h, rfl⟩)
        · exact h
        · exact absurd h hc
    have hm1 : ∀ p a, m1.find? p = some a → S p a := by
      intro p a h
      rcases (h1 p a).1 h with h | ⟨hc, rfl⟩
      · exact hm p a h
      · exact hl _ List.mem_cons_self hc
    obtain ⟨a1, a2⟩ := addConfigurations_find? hS hm1 (fun o ho => hl o (List.mem_cons_of_mem _ ho))
    rw [e]
    refine ⟨a1, fun p a => ?_⟩
    rw [a2, h1, List.mem_cons]
    constructor
    · rintro ((h | h) | h)
      · exact .inl h
      · exact .inr ⟨h.1, .inl h.2⟩
      · exact .inr ⟨h.1, .inr h.2⟩
    · rintro (h | ⟨h, h' | h'⟩)
      · exact .inl (.inl h)
      · exact .inl (.inr ⟨h, h'⟩)
      · exact .inr ⟨h, h'⟩

theorem collectFrom_spec {managed : String → String → Option (List (String × ConfObj))} {S : String → ConfObj → Prop}
    (hS : OnePerPath S) : ∀ {es : List (String × Bool × String)} {m : OMap String ConfObj}, m.WF →
    (∀ p a, m.find? p = some a → S p a) →
    (∀ e ∈ es, e.2.1 = true → ∃ l, managed e.1 e.2.2 = some l ∧ ∀ o ∈ l, hasConfiguration o.2 = true → S o.1 o.2) →
    ∃ m', collectFrom managed m es = .ok m' ∧ m'.WF ∧ ∀ p a, m'.find? p = some a ↔ m.find? p = some a ∨
      (hasConfiguration a = true ∧ ∃ e ∈ es, e.2.1 = true ∧ ∃ l, managed e.1 e.2.2 = some l ∧ (p, a) ∈ l)
  | [], m, hw, hm, _ => ⟨m, rfl, hw, by simp⟩
  | (s, has, path) :: es, m, hw, hm, hl => by
    cases has with
    | false =>
      obtain ⟨m', a1, a2, a3⟩ := collectFrom_spec hS hw hm (fun e he => hl e (List.mem_cons_of_mem _ he))
      refine ⟨m', by simp only [collectFrom, Bool.false_eq_true, if_false]; exact a1, a2, fun p a => ?_⟩
      rw [a3]
      simp
    | true =>
      obtain ⟨l, h1, h2⟩ := hl _ List.mem_cons_self rfl
      obtain ⟨b1, b2⟩ := addConfigurations_find? hS hm h2
      obtain ⟨m', a1, a2, a3⟩ := collectFrom_spec hS (addConfigurations_wf l hw) b1 (fun e he => hl e (List.mem_cons_of_mem _ he))
      refine ⟨m', ?_, a2, fun p a => ?_⟩
      · dsimp only at h1
        simp only [collectFrom, if_true, h1]
        exact a1
      · rw [a3, b2]
        dsimp only at h1
        constructor
        · rintro ((h | ⟨h, h'⟩) | ⟨h, e, he, h'⟩)
          · exact .inl h
          · exact .inr ⟨h, _, List.mem_cons_self, rfl, l, h1, h'⟩
          · exact .inr ⟨h, e, List.mem_cons_of_mem _ he, h'⟩
        · rintro (h | ⟨h, e, he, h1', l', h2', h3'⟩)
          · exact .inl (.inl h)
          · rcases List.mem_cons.1 he with rfl | he
            · rw [h1] at h2'; cases h2'
              exact .inl (.inr ⟨h, h3'⟩)
            · exact .inr ⟨h, e, he, h1', l', h2', h3'⟩

theorem hasConfiguration_iff (o : BusObject) : hasConfiguration o.interfaces = true ↔ o.Configures := by
  unfold hasConfiguration BusObject.Configures BusObject.Has
  rw [Bool.or_eq_true, Bool.or_eq_true, OMap.contains_iff, OMap.contains_iff, OMap.contains_iff, or_assoc,
    ← Option.ne_none_iff_exists', ← Option.ne_none_iff_exists', ← Option.ne_none_iff_exists']

theorem collectFrom_error {managed : String → String → Option (List (String × ConfObj))} :
    ∀ {es : List (String × Bool × String)} {m : OMap String ConfObj}, (∃ e ∈ es, e.2.1 = true ∧ managed e.1 e.2.2 = none) →
    ∃ x, collectFrom managed m es = .error (.exc x)
  | [], _, h => by simp at h
  | (s, has, path) :: es, m, h => by
    simp only [collectFrom]
    cases has with
    | false =>
      simp only [Bool.false_eq_true, if_false]
      refine collectFrom_error ?_
      obtain ⟨e, he, h1, h2⟩ := h
      rcases List.mem_cons.1 he with rfl | he
      · cases h1
      · exact ⟨e, he, h1, h2⟩
    | true =>
      simp only [if_true]
      cases hm : managed s path with
      | none => exact ⟨_, rfl⟩
      | some l =>
        refine collectFrom_error ?_
        obtain ⟨e, he, h1, h2⟩ := h
        rcases List.mem_cons.1 he with rfl | he
        · rw [hm] at h2; cases h2
        · exact ⟨e, he, h1, h2⟩

end Verif
