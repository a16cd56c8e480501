import Verif.Spec.Reload

/-! # Reload requests: properties C93, C94 -/

namespace Verif

/-! ## C93: which signals ask for a reload -/

theorem underNamespace_iff (ns s : String) : underNamespace ns s = true ↔ Within ns s := by
  unfold underNamespace Within
  simp only [Bool.or_eq_true, decide_eq_true_eq, List.isPrefixOf_iff_prefix]

theorem skipLoop_iff (data : List String) : skipLoop skipList data = true ↔ OnlyAssociations data := by
  unfold skipList OnlyAssociations
  simp only [skipLoop]
  by_cases h1 : "xyz.openbmc_project.Association" ∈ data
  · rw [if_pos h1]
    have hne : data ≠ [] := List.ne_nil_of_mem h1
    by_cases h2 : data.filter (fun d => d ≠ "xyz.openbmc_project.Association") = []
    · rw [if_pos h2]
      simp only [List.filter_eq_nil_iff, decide_eq_true_eq, ne_eq, not_not] at h2
      exact ⟨fun _ => ⟨hne, fun i hi => .inl (h2 i hi)⟩, fun _ => rfl⟩
    · rw [if_neg h2]
      split_ifs with h3 h4
      · refine ⟨fun _ => ⟨hne, fun i hi => ?_⟩, fun _ => rfl⟩
        by_cases hi1 : i = "xyz.openbmc_project.Association"
        · exact .inl hi1
        · refine .inr ?_
          by_contra hi2
          have : i ∈ (data.filter (fun d => d ≠ "xyz.openbmc_project.Association")).filter
              (fun d => d ≠ "xyz.openbmc_project.Association.Definitions") := by simp [hi, hi1, hi2]
          rw [h4] at this
          simp at this
      · refine ⟨fun h => absurd h (by simp), fun ⟨_, h⟩ => absurd ?_ h4⟩
        rw [List.filter_eq_nil_iff]
        intro i hi
        obtain ⟨hi, hi'⟩ := List.mem_filter.1 hi
        rcases h i hi with rfl | rfl
        · simp at hi'
        · simp
      · refine ⟨fun h => absurd h (by simp), fun ⟨_, h⟩ => absurd ?_ h2⟩
        rw [List.filter_eq_nil_iff]
        intro i hi
        rcases h i hi with rfl | rfl
        · simp
        · exact absurd (List.mem_filter.2 ⟨hi, by decide⟩) h3
  · rw [if_neg h1]
    split_ifs with h3 h4
    · simp only [List.filter_eq_nil_iff, decide_eq_true_eq, ne_eq, not_not] at h4
      exact ⟨fun _ => ⟨List.ne_nil_of_mem h3, fun i hi => .inr (h4 i hi)⟩, fun _ => rfl⟩
    · refine ⟨fun h => absurd h (by simp), fun ⟨_, h⟩ => absurd ?_ h4⟩
      rw [List.filter_eq_nil_iff]
      intro i hi
      rcases h i hi with rfl | rfl
      · exact absurd hi h1
      · simp
    · refine ⟨fun h => absurd h (by simp), fun ⟨hne, h⟩ => ?_⟩
      obtain ⟨i, t, rfl⟩ := List.exists_cons_of_ne_nil hne
      rcases h i (by simp) with rfl | rfl
      · exact absurd (by simp) h1
      · exact absurd (by simp) h3

theorem pathMatches_iff {s : String} (hs : ObjectPath s) :
    pathMatches "/xyz/openbmc_project/sensors/" s = true ↔ SensorObject s ∨ s = "/" := by
  unfold pathMatches SensorObject
  simp only [Bool.or_eq_true, Bool.and_eq_true, decide_eq_true_eq, List.isPrefixOf_iff_prefix]
  constructor
  · rintro ((rfl | ⟨_, h⟩) | ⟨h, _⟩)
    · exact .inl (List.prefix_refl _)
    · exact .inl h
    · rcases hs with rfl | hs
      · exact .inr rfl
      · exact absurd h hs
  · rintro (h | rfl)
    · exact .inl (.inr ⟨by decide, h⟩)
    · exact .inr ⟨by decide, by decide⟩

theorem zone_within_pid {s : String} (h : Within "xyz.openbmc_project.Configuration.Pid.Zone" s) :
    Within "xyz.openbmc_project.Configuration.Pid" s := by
  rcases h with rfl | h
  · exact .inr (by decide)
  · exact .inr (List.IsPrefix.trans (by decide) h)

/-- **C93** A signal on the bus arms the reload timer exactly when it says that a thermal mode, PID, zone or stepwise
property changed, that a sensor object lost an interface, or that a sensor object gained an interface other than the
two association interfaces. -/
theorem C93_signals (s : BusSignal) (hs : s.member ≠ "PropertiesChanged" → ObjectPath s.arg0) :
    armsReload s = true ↔ AsksReload s := by
  unfold armsReload AsksReload handlerArms reloadRules
  simp only [List.any_cons, List.any_nil, MatchRule.accepts, Bool.or_false, Bool.and_eq_true, Bool.or_eq_true,
    decide_eq_true_eq, underNamespace_iff]
  by_cases hp : s.member = "PropertiesChanged"
  · simp only [hp, true_and, reduceCtorEq, String.reduceEq, false_and, or_false, if_false, and_true]
    constructor
    · rintro (h | h | h | h)
      · exact .inl h
      · exact .inr (.inl h)
      · exact .inr (.inl (zone_within_pid h))
      · exact .inr (.inr h)
    · rintro (h | h | h)
      · exact .inl h
      · exact .inr (.inl h)
      · exact .inr (.inr (.inr h))
  · rw [pathMatches_iff (hs hp)]
    simp only [hp, false_and, false_or]
    by_cases ha : s.member = "InterfacesAdded"
    · simp only [ha, true_and, String.reduceEq, false_and, or_false, false_or, if_true, Bool.not_eq_true',
        ← skipLoop_iff, Bool.not_eq_true]
    · simp only [ha, false_and, false_or, or_false, if_false, and_true]

/-- A sensor that appears with its value interface leads to a reload; its associations alone do not. -/
example : armsReload ⟨"InterfacesAdded", "/xyz/openbmc_project/sensors/temperature/cpu",
      ["xyz.openbmc_project.Sensor.Value", "xyz.openbmc_project.Association.Definitions"]⟩ = true ∧
    armsReload ⟨"InterfacesAdded", "/xyz/openbmc_project/sensors/temperature/cpu",
      ["xyz.openbmc_project.Association.Definitions"]⟩ = false ∧
    armsReload ⟨"PropertiesChanged", "xyz.openbmc_project.Configuration.Pid.Zone", []⟩ = true ∧
    armsReload ⟨"PropertiesChanged", "xyz.openbmc_project.Configuration.PidNot", []⟩ = false := by decide +kernel

/-- **C93** (finding) A PID configuration object that appears or disappears at run time does not lead to a reload:
configuration objects live outside the sensor tree, and only sensor objects are watched for new interfaces. -/
theorem C93_new_configuration (s : BusSignal) (hm : s.member = "InterfacesAdded" ∨ s.member = "InterfacesRemoved")
    (hp : "/xyz/openbmc_project/inventory/".toList <+: s.arg0.toList) (hs : ObjectPath s.arg0) :
    armsReload s = false := by
  rw [Bool.eq_false_iff, ne_eq, C93_signals s (fun _ => hs)]
  have hno : ¬ (SensorObject s.arg0 ∨ s.arg0 = "/") := by
    rintro (h | h)
    · unfold SensorObject at h
      rcases List.prefix_or_prefix_of_prefix h hp with h | h <;> revert h <;> decide
    · rw [h] at hp
      revert hp
      decide
  rintro (⟨h, _⟩ | ⟨_, h⟩ | ⟨_, h, _⟩)
  · rcases hm with hm | hm <;> rw [hm] at h <;> simp at h
  · exact hno h
  · exact hno h

example : armsReload ⟨"InterfacesAdded", "/xyz/openbmc_project/inventory/system/board/Main/Pid_CPU",
    ["xyz.openbmc_project.Configuration.Pid"]⟩ = false := by decide +kernel

/-! ## C94: one restart per burst -/

theorem snoc_split {α : Type} {tr a b : List α} {x y : α} (h : tr ++ [x] = a ++ y :: b) :
    (b = [] ∧ tr = a ∧ x = y) ∨ ∃ b', b = b' ++ [x] ∧ tr = a ++ y :: b' := by
  rcases List.eq_nil_or_concat b with rfl | ⟨b', z, rfl⟩
  · obtain ⟨h1, h2⟩ := List.append_inj' h rfl
    exact .inl ⟨rfl, h1, by simpa using h2⟩
  · rw [List.concat_eq_append] at h ⊢
    have h' : tr ++ [x] = (a ++ y :: b') ++ [z] := by rw [h]; simp
    obtain ⟨h1, h2⟩ := List.append_inj' h' rfl
    simp only [List.cons.injEq, and_true] at h2
    exact .inr ⟨b', by rw [h2], h1⟩

theorem bursts_restart (delay v : Int) (tr : List (Int × QuietEv)) :
    bursts delay (tr ++ [(v, .restart)]) = bursts delay tr := by
  induction tr with
  | nil => simp [bursts]
  | cons x tr ih =>
    obtain ⟨u, e⟩ := x
    have : (∀ x ∈ tr ++ [(v, QuietEv.restart)], x.2 = QuietEv.trigger → u + delay ≤ x.1) ↔
        ∀ x ∈ tr, x.2 = QuietEv.trigger → u + delay ≤ x.1 := by
      constructor
      · exact fun h x hx => h x (List.mem_append_left _ hx)
      · intro h x hx hxe
        rcases List.mem_append.1 hx with hx | hx
        · exact h x hx hxe
        · rw [List.mem_singleton] at hx
          rw [hx] at hxe
          cases hxe
    simp only [List.cons_append, bursts, ih, this]

theorem bursts_trigger (delay v : Int) : ∀ tr : List (Int × QuietEv),
    (∀ a u b, tr = a ++ (u, .trigger) :: b → (∀ x ∈ b, x.2 = QuietEv.trigger → u + delay ≤ x.1) → u + delay ≤ v) →
    bursts delay (tr ++ [(v, .trigger)]) = bursts delay tr + 1
  | [], _ => by simp [bursts]
  | (u, e) :: tr, h => by
    have ih := bursts_trigger delay v tr (fun a w b hb hx => h ((u, e) :: a) w b (by rw [hb]; rfl) hx)
    simp only [List.cons_append, bursts, ih]
    have : (e = .trigger ∧ ∀ x ∈ tr ++ [(v, QuietEv.trigger)], x.2 = QuietEv.trigger → u + delay ≤ x.1) ↔
        (e = .trigger ∧ ∀ x ∈ tr, x.2 = QuietEv.trigger → u + delay ≤ x.1) := by
      constructor
      · rintro ⟨he, hx⟩
        exact ⟨he, fun x hxm => hx x (List.mem_append_left _ hxm)⟩
      · rintro ⟨rfl, hx⟩
        refine ⟨rfl, fun x hxm hxe => ?_⟩
        rcases List.mem_append.1 hxm with hxm | hxm
        · exact hx x hxm hxe
        · rw [List.mem_singleton] at hxm
          subst hxm
          exact h [] u tr rfl hx
    simp only [this]
    omega

theorem bursts_pos (delay v : Int) : ∀ b : List (Int × QuietEv), 1 ≤ bursts delay (b ++ [(v, .trigger)])
  | [] => by simp [bursts]
  | (u, e) :: b => by
    have := bursts_pos delay v b
    simp only [List.cons_append, bursts]
    omega

theorem bursts_none (delay : Int) : ∀ b : List (Int × QuietEv), (∀ v, (v, QuietEv.trigger) ∉ b) → bursts delay b = 0
  | [], _ => rfl
  | (u, e) :: b, h => by
    have ih := bursts_none delay b (fun v hv => h v (List.mem_cons_of_mem _ hv))
    cases e with
    | restart => simp [bursts, ih]
    | trigger => exact absurd (List.mem_cons_self ..) (h u)

theorem bursts_replace (delay : Int) {u v : Int} {b : List (Int × QuietEv)} (hb : ∀ w, (w, QuietEv.trigger) ∉ b)
    (huv : u ≤ v) : ∀ a : List (Int × QuietEv),
    bursts delay (a ++ (u, .trigger) :: b) ≤ bursts delay ((a ++ (u, .trigger) :: b) ++ [(v, .trigger)])
  | [] => by
    have := bursts_pos delay v b
    simp only [List.nil_append, List.cons_append, bursts, bursts_none delay b hb]
    split_ifs <;> omega
  | (w, e) :: a => by
    have ih := bursts_replace delay hb huv a
    simp only [List.cons_append, bursts] at ih ⊢
    have : (e = .trigger ∧ ∀ x ∈ a ++ (u, .trigger) :: b, x.2 = QuietEv.trigger → w + delay ≤ x.1) →
        (e = .trigger ∧ ∀ x ∈ a ++ (u, .trigger) :: b ++ [(v, .trigger)], x.2 = QuietEv.trigger → w + delay ≤ x.1) := by
      rintro ⟨rfl, hx⟩
      refine ⟨rfl, fun x hxm hxe => ?_⟩
      rcases List.mem_append.1 hxm with hxm | hxm
      · exact hx x hxm hxe
      · rw [List.mem_singleton] at hxm
        subst hxm
        have := hx (u, .trigger) (by simp) rfl
        simp only at this ⊢
        omega
    by_cases hc : (e = .trigger ∧ ∀ x ∈ a ++ (u, .trigger) :: b, x.2 = QuietEv.trigger → w + delay ≤ x.1)
    · rw [if_pos hc, if_pos (this hc)]
      omega
    · rw [if_neg hc]
      omega

theorem QuietAfter.append {delay : Int} {tr : List (Int × QuietEv)} {u v : Int} {e : QuietEv}
    (h : QuietAfter delay tr u) (hv : e = .trigger → u + delay ≤ v) : QuietAfter delay (tr ++ [(v, e)]) u := by
  obtain ⟨a, b, rfl, hb⟩ := h
  refine ⟨a, b ++ [(v, e)], by simp, fun w hw => ?_⟩
  rcases List.mem_append.1 hw with hw | hw
  · exact hb w hw
  · simp only [List.mem_singleton, Prod.mk.injEq] at hw
    obtain ⟨rfl, rfl⟩ := hw
    exact hv rfl

structure QuietInv (delay : Int) (tr : List (Int × QuietEv)) (s : Quiet) : Prop where
  count : countEv .restart tr + s.ready.countP id + (if s.pending.isSome then 1 else 0) ≤ bursts delay tr
  past : ∀ v e, (v, e) ∈ tr → v ≤ s.now
  pend : ∀ d, s.pending = some d → ∃ a b, tr = a ++ (d - delay, .trigger) :: b ∧ ∀ v, (v, QuietEv.trigger) ∉ b
  rdy : true ∈ s.ready → ∃ u, QuietAfter delay tr u ∧ u + delay ≤ s.now
  resp : ∀ a t b, tr = a ++ (t, .restart) :: b → ∃ u, QuietAfter delay a u ∧ u + delay ≤ t
  ans : ∀ a u b, tr = a ++ (u, .trigger) :: b → (∀ v, (v, QuietEv.trigger) ∉ b) →
    s.pending = some (u + delay) ∨
    (s.pending = none ∧ u + delay ≤ s.now ∧
      (s.ready.getLast? = some true ∨ ∃ v, (v, QuietEv.restart) ∈ b ∧ u + delay ≤ v))

theorem countEv_append (e : QuietEv) (a b : List (Int × QuietEv)) :
    countEv e (a ++ b) = countEv e a + countEv e b := by
  induction a with
  | nil => simp [countEv]
  | cons x a ih => obtain ⟨t, e'⟩ := x; simp only [List.cons_append, countEv, ih]; omega

theorem last_unique {a a' b b' : List (Int × QuietEv)} {u u' : Int}
    (h : a ++ (u, QuietEv.trigger) :: b = a' ++ (u', .trigger) :: b') (hb : ∀ v, (v, QuietEv.trigger) ∉ b)
    (hb' : ∀ v, (v, QuietEv.trigger) ∉ b') : a = a' ∧ u = u' ∧ b = b' := by
  rcases List.append_eq_append_iff.1 h with ⟨c, hc, hc'⟩ | ⟨c, hc, hc'⟩
  · cases c with
    | nil => simp only [List.nil_append, List.cons.injEq, Prod.mk.injEq, and_true] at hc'
             exact ⟨by simpa using hc.symm, hc'.1, hc'.2⟩
    | cons x c =>
      simp only [List.cons_append, List.cons.injEq] at hc'
      exact absurd (by rw [hc'.2]; simp) (hb u')
  · cases c with
    | nil => simp only [List.nil_append, List.cons.injEq, Prod.mk.injEq, and_true] at hc'
             exact ⟨by simpa using hc, hc'.1.symm, hc'.2.symm⟩
    | cons x c =>
      simp only [List.cons_append, List.cons.injEq] at hc'
      exact absurd (by rw [hc'.2]; simp) (hb' u)

theorem quiet_inv {delay t0 : Int} (hd : 0 ≤ delay) {tr : List (Int × QuietEv)} {s : Quiet}
    (h : QuietRun delay t0 tr s) : QuietInv delay tr s := by
  induction h with
  | start =>
    exact ⟨by simp [countEv, bursts], by simp, by simp, by simp, by simp, by simp⟩
  | @silent tr s s' _ hs ih =>
    generalize ho : (none : Option QuietEv) = o at hs
    cases hs with
    | trigger => cases ho
    | fire => cases ho
    | expire d hp hdn =>
      refine ⟨?_, ih.past, by simp, ?_, ih.resp, ?_⟩
      · have := ih.count
        simp only [hp, Option.isSome_some, if_true] at this
        simp only [List.countP_append, List.countP_cons, List.countP_nil, id, if_true, Option.isSome_none,
          Bool.false_eq_true, if_false]
        omega
      · intro _
        obtain ⟨a, b, hab, hb⟩ := ih.pend d hp
        exact ⟨d - delay, ⟨a, b, hab, fun v hv => absurd hv (hb v)⟩, by simpa using hdn⟩
      · intro a u b hab hb
        rcases ih.ans a u b hab hb with h | ⟨h, _⟩
        · rw [hp] at h
          cases h
          exact .inr ⟨rfl, hdn, .inl (by simp)⟩
        · rw [hp] at h
          cases h
    | drop rest hr =>
      refine ⟨?_, ih.past, ih.pend, fun h => ih.rdy (by rw [hr]; exact List.mem_cons_of_mem _ h), ih.resp, ?_⟩
      · have := ih.count
        rw [hr] at this
        simpa using this
      · intro a u b hab hb
        rcases ih.ans a u b hab hb with h | ⟨h, hn, h'⟩
        · exact .inl h
        · refine .inr ⟨h, hn, ?_⟩
          rcases h' with h' | h'
          · rw [hr] at h'
            cases rest with
            | nil => simp at h'
            | cons x rest => exact .inl (by simpa [List.getLast?_cons_cons] using h')
          · exact .inr h'
    | tick t ht =>
      refine ⟨ih.count, fun v e h => Int.le_trans (ih.past v e h) ht, ih.pend, ?_, ih.resp, ?_⟩
      · intro h
        obtain ⟨u, hu, hn⟩ := ih.rdy h
        exact ⟨u, hu, Int.le_trans hn ht⟩
      · intro a u b hab hb
        rcases ih.ans a u b hab hb with h | ⟨h, hn, h'⟩
        · exact .inl h
        · exact .inr ⟨h, Int.le_trans hn ht, h'⟩
  | @event tr s s' e hrun hs ih =>
    generalize ho : some e = o at hs
    cases hs with
    | expire => cases ho
    | drop => cases ho
    | tick => cases ho
    | trigger =>
      cases ho
      have hcount : (tr.length = tr.length ∧ bursts delay tr + (if s.pending.isSome then 0 else 1) ≤
          bursts delay (tr ++ [(s.now, .trigger)])) := by
        refine ⟨rfl, ?_⟩
        rcases hp : s.pending with _ | d
        · rw [bursts_trigger]
          · simp
          · intro a u b hab hx
            by_cases hb : ∀ v, (v, QuietEv.trigger) ∉ b
            · rcases ih.ans a u b hab hb with h | ⟨_, h, _⟩
              · rw [hp] at h
                cases h
              · exact h
            · push Not at hb
              obtain ⟨v, hv⟩ := hb
              exact Int.le_trans (hx _ hv rfl) (ih.past v .trigger (by rw [hab]; simp [hv]))
        · obtain ⟨a, b, hab, hb⟩ := ih.pend d hp
          have := bursts_replace delay hb (ih.past (d - delay) .trigger (by rw [hab]; simp)) a
          rw [← hab] at this
          simpa using this
      refine ⟨?_, ?_, ?_, ?_, ?_, ?_⟩
      · have := ih.count
        have h2 := hcount.2
        rcases hp : s.pending with _ | d
        · simp only [hp, Option.isSome_none, Bool.false_eq_true, if_false, List.append_nil, countEv_append, countEv,
            Option.isSome_some, if_true, reduceCtorEq] at this h2 ⊢
          omega
        · simp only [hp, Option.isSome_some, if_true, countEv_append, countEv, List.countP_append, List.countP_cons,
            List.countP_nil, id, Bool.false_eq_true, if_false, reduceCtorEq] at this h2 ⊢
          omega
      · intro v e hv
        rcases List.mem_append.1 hv with hv | hv
        · exact ih.past v e hv
        · simp only [List.mem_singleton, Prod.mk.injEq] at hv
          exact Int.le_of_eq hv.1
      · rintro d hd'
        cases hd'
        exact ⟨tr, [], by simp, by simp⟩
      · intro h
        have h' : true ∈ s.ready := by
          rcases List.mem_append.1 h with h | h
          · exact h
          · split_ifs at h <;> simp at h
        obtain ⟨u, hu, hn⟩ := ih.rdy h'
        exact ⟨u, hu.append (fun _ => hn), hn⟩
      · intro a t b hab
        rcases snoc_split hab with ⟨_, _, h⟩ | ⟨b', _, h⟩
        · cases h
        · exact ih.resp a t b' h
      · intro a u b hab hb
        rcases snoc_split hab with ⟨_, _, h⟩ | ⟨b', rfl, h⟩
        · cases h
          exact .inl rfl
        · exact absurd (by simp) (hb s.now)
    | fire rest hr =>
      cases ho
      obtain ⟨u0, hu0, hn0⟩ := ih.rdy (by rw [hr]; simp)
      refine ⟨?_, ?_, ?_, ?_, ?_, ?_⟩
      · have := ih.count
        rw [hr] at this
        rw [bursts_restart]
        simp only [countEv_append, countEv, List.countP_cons, id, if_true] at this ⊢
        omega
      · intro v e hv
        rcases List.mem_append.1 hv with hv | hv
        · exact ih.past v e hv
        · simp only [List.mem_singleton, Prod.mk.injEq] at hv
          exact Int.le_of_eq hv.1
      · intro d hd'
        obtain ⟨a, b, hab, hb⟩ := ih.pend d hd'
        refine ⟨a, b ++ [(s.now, .restart)], by rw [hab]; simp, fun v hv => ?_⟩
        rcases List.mem_append.1 hv with hv | hv
        · exact hb v hv
        · simp at hv
      · intro h
        obtain ⟨u, hu, hn⟩ := ih.rdy (by rw [hr]; exact List.mem_cons_of_mem _ h)
        exact ⟨u, hu.append (fun h => by cases h), hn⟩
      · intro a t b hab
        rcases snoc_split hab with ⟨_, rfl, h⟩ | ⟨b', _, h⟩
        · cases h
          exact ⟨u0, hu0, hn0⟩
        · exact ih.resp a t b' h
      · intro a u b hab hb
        rcases snoc_split hab with ⟨_, _, h⟩ | ⟨b', rfl, h⟩
        · cases h
        · have hb' : ∀ v, (v, QuietEv.trigger) ∉ b' := fun v hv => hb v (List.mem_append_left _ hv)
          rcases ih.ans a u b' h hb' with h | ⟨h, hn, h'⟩
          · exact .inl h
          · exact .inr ⟨h, hn, .inr ⟨s.now, by simp, hn⟩⟩

/-- **C94** A burst of triggers leads to at most one restart request: there are never more requests than triggers that
were not followed by another trigger within the delay. -/
theorem C94_one_per_burst {delay t0 : Int} (hd : 0 ≤ delay) {tr : List (Int × QuietEv)} {s : Quiet}
    (h : QuietRun delay t0 tr s) : countEv .restart tr ≤ bursts delay tr := by
  have := (quiet_inv hd h).count
  omega

/-- **C94** Every restart request answers a trigger that was followed by quiet: it comes no earlier than the delay after
that trigger, and no trigger came in between. -/
theorem C94_waits {delay t0 : Int} (hd : 0 ≤ delay) {a b : List (Int × QuietEv)} {t : Int} {s : Quiet}
    (h : QuietRun delay t0 (a ++ (t, .restart) :: b) s) : ∃ u, QuietAfter delay a u ∧ u + delay ≤ t :=
  (quiet_inv hd h).resp a t b rfl

/-- **C94** No trigger is forgotten: after the last trigger, at time `u`, the timer is waiting for `u + delay`, or that
moment has passed and a handler that requests a restart is queued, or a restart was requested after `u + delay`. -/
theorem C94_not_forgotten {delay t0 : Int} (hd : 0 ≤ delay) {a b : List (Int × QuietEv)} {u : Int} {s : Quiet}
    (h : QuietRun delay t0 (a ++ (u, .trigger) :: b) s) (hb : ∀ v, (v, QuietEv.trigger) ∉ b) :
    s.pending = some (u + delay) ∨ (u + delay ≤ s.now ∧ true ∈ s.ready) ∨
      ∃ v, (v, QuietEv.restart) ∈ b ∧ u + delay ≤ v := by
  rcases (quiet_inv hd h).ans a u b rfl hb with h | ⟨_, h, h' | h'⟩
  · exact .inl h
  · exact .inr (.inl ⟨h, List.mem_of_getLast? h'⟩)
  · exact .inr (.inr h')

/-- **C94** After signals on the bus the quiet time is two seconds. -/
theorem C94_bus {t0 : Int} {a b : List (Int × QuietEv)} {t : Int} {s : Quiet}
    (h : QuietRun busDelay t0 (a ++ (t, .restart) :: b) s) : ∃ u, QuietAfter 2000 a u ∧ u + 2000 ≤ t :=
  C94_waits (by decide) h

/-- **C94** After hang-up signals it is one second. -/
theorem C94_hangup {t0 : Int} {a b : List (Int × QuietEv)} {t : Int} {s : Quiet}
    (h : QuietRun hupDelay t0 (a ++ (t, .restart) :: b) s) : ∃ u, QuietAfter 1000 a u ∧ u + 1000 ≤ t :=
  C94_waits (by decide) h

/-- Two signals half a second apart: one restart request, two seconds after the second. -/
theorem ex_burst : ∃ s, QuietRun busDelay 0
    [(100, .trigger), (600, .trigger), (2600, .restart)] s ∧ s.pending = none ∧ s.ready = [] := by
  have h0 := QuietRun.start (delay := busDelay) (t0 := 0)
  have h1 := h0.silent (.tick _ 100 (by decide))
  have h2 := h1.event (.trigger _)
  have h3 := h2.silent (.tick _ 600 (by decide))
  have h4 := h3.event (.trigger _)
  have h5 := h4.silent (.drop _ [] rfl)
  have h6 := h5.silent (.tick _ 2600 (by decide))
  have h7 := h6.silent (.expire _ 2600 rfl (by decide))
  have h8 := h7.event (.fire _ [] rfl)
  exact ⟨_, h8, rfl, rfl⟩

example : bursts busDelay [(100, .trigger), (600, .trigger), (2600, .restart)] = 1 := by decide

end Verif
