import Verif.Spec.FailsafeLog
import Verif.Lemmas.OMap
import Mathlib.Data.List.Induction
import Mathlib.Data.List.Nodup
import Mathlib.Tactic.Linarith

/-! # Failsafe log: C68, C69, C75 -/

namespace Verif

theorem subU64_of_le {a b : Nat} (h : b ≤ a) (ha : a < 2 ^ 64) : subU64 a b = a - b := by
  unfold subU64 uint64Mod
  have : a + 18446744073709551616 - b = (a - b) + 18446744073709551616 := by omega
  rw [this, Nat.add_mod_right, Nat.mod_eq_of_lt (by omega)]

theorem removeOutdated_eq {now : Nat} (hn : now < 2 ^ 64) : ∀ (l : List Nat), (∀ p ∈ l, p ≤ now) → l.Pairwise (· ≤ ·) →
    removeOutdated now l = l.filter (fun p => decide (now < p + 1000))
  | [], _, _ => rfl
  | t :: rest, hle, hs => by
    have ht : t ≤ now := hle t (by simp)
    have ih := removeOutdated_eq hn rest (fun p hp => hle p (by simp [hp])) (List.pairwise_cons.1 hs).2
    unfold removeOutdated
    rw [subU64_of_le ht hn]
    by_cases h : 1000 ≤ now - t
    · rw [if_pos h, ih, List.filter_cons_of_neg (by simp; omega)]
    · rw [if_neg h, List.filter_cons_of_pos (by simp; omega)]
      congr 1
      symm
      rw [List.filter_eq_self]
      intro p hp
      have := (List.pairwise_cons.1 hs).1 p hp
      simp; omega

/-- what a logger remembers about the attempts, with `ps` the times that were entered -/
structure FsInv (max : Nat) (init : Bool) (h : List FsAttempt) (l : FsLogger) (ps : List Nat) : Prop where
  max_eq : l.logMaxCountPerSecond = max
  state_eq : l.currentFailsafeState = reportedState init h
  sorted : ps.Pairwise (· ≤ ·)
  before : ∀ p ∈ ps, ∃ a ∈ h, a.now = p
  counted : ∀ t, printedInSecond h t ≤ (ps.filter (fun p => decide (t ≤ p) && decide (p < t + 1000))).length
  short : ps.length ≤ h.length
  attempts : ∀ t, (ps.filter (fun p => decide (t < p + 1000))).length ≤
    (h.filter (fun a => decide (t < a.now + 1000))).length
  limit : ∀ t, (ps.filter (fun p => decide (t ≤ p) && decide (p < t + 1000))).length ≤ max
  stamps : ∀ now, (∀ a ∈ h, a.now ≤ now) → now < 2 ^ 64 →
    removeOutdated now l.logTimestamps = ps.filter (fun p => decide (now < p + 1000))

theorem reportedState_snoc (init : Bool) (h : List FsAttempt) (a : FsAttempt) : reportedState init (h ++ [a]) = a.state := by
  simp [reportedState]

/-- what a single attempt does -/
theorem output_cases {l l' : FsLogger} {now : Nat} {zone : Int} {state : Bool} {location reason : String}
    {line : Option FsLine} (h : l.output now zone state location reason = (line, l')) :
    (line = none ∧ l' = { l with currentFailsafeState := state, logTimestamps := removeOutdated now l.logTimestamps, logsInCurrentState := if state != l.currentFailsafeState then [] else l.logsInCurrentState } ∧
      (l.logMaxCountPerSecond ≤ (removeOutdated now l.logTimestamps).length ∨
        location ++ " @ " ++ reason ∈ (if state != l.currentFailsafeState then [] else l.logsInCurrentState))) ∨
    (line = (if state || l.currentFailsafeState then some ⟨zone, state, location, reason⟩ else none) ∧
      (removeOutdated now l.logTimestamps).length < l.logMaxCountPerSecond ∧
      location ++ " @ " ++ reason ∉ (if state != l.currentFailsafeState then [] else l.logsInCurrentState) ∧
      l' = { l with currentFailsafeState := state, logTimestamps := removeOutdated now l.logTimestamps ++ [now], logsInCurrentState := (location ++ " @ " ++ reason) :: (if state != l.currentFailsafeState then [] else l.logsInCurrentState) }) := by
  unfold FsLogger.output at h
  dsimp only at h
  split_ifs at h <;> simp_all

theorem removeOutdated_sub (now : Nat) : ∀ l : List Nat, ∃ l1, l = l1 ++ removeOutdated now l
  | [] => ⟨[], rfl⟩
  | t :: rest => by
    unfold removeOutdated
    split_ifs
    · obtain ⟨l1, h1⟩ := removeOutdated_sub now rest
      exact ⟨t :: l1, by rw [List.cons_append, ← h1]⟩
    · exact ⟨[], rfl⟩

theorem fsInv {max : Nat} {init : Bool} {zone : Int} {h : List FsAttempt} {l : FsLogger} (hl : FsLogged max init zone h l)
    (hf : ClockForward h) (hb : ClockFits h) : ∃ ps, FsInv max init h l ps := by
  induction hl with
  | start =>
    exact ⟨[], rfl, rfl, List.Pairwise.nil, by simp, by simp [printedInSecond], by simp, by simp, by simp, by
      intro now _ _; rfl⟩
  | @attempt h l l' line now state location reason _ hout ih =>
    have hf' : ClockForward h := (List.pairwise_append.1 hf).1
    have hlast : ∀ a ∈ h, a.now ≤ now := fun a ha => (List.pairwise_append.1 hf).2.2 a ha _ (List.mem_singleton.2 rfl)
    have hnow : now < 2 ^ 64 := hb ⟨now, state, location, reason, line⟩ (by simp)
    obtain ⟨ps, i⟩ := ih hf' (fun a ha => hb a (by simp [ha]))
    have hst := i.stamps now hlast hnow
    have hple : ∀ p ∈ ps, p ≤ now := fun p hp => by
      obtain ⟨a, ha, rfl⟩ := i.before p hp
      exact hlast a ha
    rcases output_cases hout with ⟨rfl, rfl, hc⟩ | ⟨rfl, hlen, hkey, rfl⟩
    · refine ⟨ps, i.max_eq, by simp [reportedState_snoc], i.sorted, ?_, ?_, ?_, ?_, i.limit, ?_⟩
      · intro p hp
        obtain ⟨a, ha, e⟩ := i.before p hp
        exact ⟨a, by simp [ha], e⟩
      · intro t
        have := i.counted t
        simpa [printedInSecond, List.filter_append] using this
      · have := i.short; simp; omega
      · intro t
        have := i.attempts t
        rw [List.filter_append, List.length_append]; omega
      · intro now' hle hn'
        have h1 : now ≤ now' := hle ⟨now, state, location, reason, none⟩ (by simp)
        rw [hst, removeOutdated_eq hn' _ (by intro p hp; have := hple p (List.mem_filter.1 hp).1; omega)
          (i.sorted.filter _), List.filter_filter]
        congr 1; funext p
        by_cases hp : now' < p + 1000
        · have : now < p + 1000 := by omega
          simp [hp, this]
        · simp [hp]
    · refine ⟨ps ++ [now], i.max_eq, by simp [reportedState_snoc], ?_, ?_, ?_, ?_, ?_, ?_, ?_⟩
      · rw [List.pairwise_append]
        exact ⟨i.sorted, by simp, fun a ha b hb => by rw [List.mem_singleton.1 hb]; exact hple a ha⟩
      · intro p hp
        rcases List.mem_append.1 hp with hp | hp
        · obtain ⟨a, ha, e⟩ := i.before p hp
          exact ⟨a, by simp [ha], e⟩
        · exact ⟨_, List.mem_append_right _ (List.mem_singleton.2 rfl), (List.mem_singleton.1 hp).symm⟩
      · intro t
        have := i.counted t
        unfold printedInSecond at this ⊢
        rw [List.filter_append, List.length_append, List.filter_append, List.length_append]
        refine Nat.add_le_add this ?_
        by_cases hw : t ≤ now ∧ now < t + 1000
        · simp only [List.filter_cons, List.filter_nil, hw.1, hw.2, decide_true, Bool.and_true]
          split_ifs <;> simp
        · rcases not_and_or.1 hw with hw | hw <;> simp [hw]
      · have := i.short; simp; omega
      · intro t
        have := i.attempts t
        rw [List.filter_append, List.length_append, List.filter_append, List.length_append]
        refine Nat.add_le_add this (by simp only [List.filter_cons, List.filter_nil]; split_ifs <;> simp)
      · intro t
        rw [List.filter_append, List.length_append]
        by_cases hw : t ≤ now ∧ now < t + 1000
        · have h1 : (ps.filter (fun p => decide (t ≤ p) && decide (p < t + 1000))).length ≤
              (ps.filter (fun p => decide (now < p + 1000))).length := by
            refine (List.monotone_filter_right ps ?_).length_le
            intro p hp
            simp only [Bool.and_eq_true, decide_eq_true_eq] at hp ⊢
            omega
          rw [← hst] at h1
          rw [i.max_eq] at hlen
          simp [hw.1, hw.2]; omega
        · have h0 : ([now].filter (fun p => decide (t ≤ p) && decide (p < t + 1000))).length = 0 := by
            rcases not_and_or.1 hw with hw | hw <;> simp [hw]
          rw [h0]
          exact i.limit t
      · intro now' hle hn'
        have h1 : now ≤ now' := hle ⟨now, state, location, reason, _⟩ (List.mem_append_right _ (List.mem_singleton.2 rfl))
        rw [hst, removeOutdated_eq hn', List.filter_append, List.filter_filter, List.filter_append]
        · congr 2; funext p
          by_cases hp : now' < p + 1000
          · have : now < p + 1000 := by omega
            simp [hp, this]
          · simp [hp]
        · intro p hp
          rcases List.mem_append.1 hp with hp | hp
          · have := hple p (List.mem_filter.1 hp).1; omega
          · rw [List.mem_singleton.1 hp]; exact h1
        · rw [List.pairwise_append]
          exact ⟨i.sorted.filter _, by simp, fun a ha b hb => by
            rw [List.mem_singleton.1 hb]; exact hple a (List.mem_filter.1 ha).1⟩

/-- **C68** With a clock that does not go backwards, no second contains more printed lines than the limit. -/
theorem C68_rate {max : Nat} {init : Bool} {zone : Int} {h : List FsAttempt} {l : FsLogger}
    (hl : FsLogged max init zone h l) (hf : ClockForward h) (hb : ClockFits h) (t : Nat) : printedInSecond h t ≤ max := by
  obtain ⟨ps, i⟩ := fsInv hl hf hb
  exact (i.counted t).trans (i.limit t)

/-- the texts remembered since the last change of state -/
theorem seen_inv {max : Nat} {init : Bool} {zone : Int} {h : List FsAttempt} {l : FsLogger}
    (hl : FsLogged max init zone h l) :
    l.currentFailsafeState = reportedState init h ∧
    (∀ k ∈ l.logsInCurrentState, ∃ h1 a h2, h = h1 ++ a :: h2 ∧ a.location ++ " @ " ++ a.reason = k ∧
      ∀ b ∈ a :: h2, b.state = l.currentFailsafeState) ∧
    (∀ h1 a h2, h = h1 ++ a :: h2 → a.printed.isSome → (∀ b ∈ a :: h2, b.state = l.currentFailsafeState) →
      a.location ++ " @ " ++ a.reason ∈ l.logsInCurrentState) := by
  induction hl with
  | start => exact ⟨rfl, by simp [FsLogger.ctor], by simp⟩
  | @attempt h l l' line now state location reason _ hout ih =>
    obtain ⟨h0, ih, ihp⟩ := ih
    have old : ∀ k ∈ (if state != l.currentFailsafeState then [] else l.logsInCurrentState),
        ∃ h1 a h2, h ++ [⟨now, state, location, reason, line⟩] = h1 ++ a :: h2 ∧ a.location ++ " @ " ++ a.reason = k ∧
          ∀ b ∈ a :: h2, b.state = state := by
      intro k hk
      split_ifs at hk with hs
      · cases hk
      · obtain ⟨h1, a, h2, e, ek, hall⟩ := ih k hk
        refine ⟨h1, a, h2 ++ [⟨now, state, location, reason, line⟩], by simp [e], ek, ?_⟩
        have hs' : l.currentFailsafeState = state := by
          cases hl : l.currentFailsafeState <;> cases hl2 : state <;> simp_all
        intro b hb
        rw [← List.cons_append] at hb
        rcases List.mem_append.1 hb with hb | hb
        · rw [hall b hb, hs']
        · rw [List.mem_singleton.1 hb]
    -- a printed line of the past that is still remembered
    have past : ∀ h1 a h2, h = h1 ++ a :: h2 → a.printed.isSome → (∀ b ∈ a :: h2, b.state = state) →
        a.location ++ " @ " ++ a.reason ∈ (if state != l.currentFailsafeState then [] else l.logsInCurrentState) := by
      intro h1 a h2 e hp hall
      have hst : l.currentFailsafeState = state := by
        rw [h0, e]
        cases h2 using List.reverseRecOn with
        | nil => rw [reportedState_snoc]; exact hall a (by simp)
        | append_singleton xs x =>
          rw [← List.cons_append, ← List.append_assoc, reportedState_snoc]; exact hall x (by simp)
      rw [if_neg (by simp [hst])]
      exact ihp h1 a h2 e hp (by rw [hst]; exact hall)
    have key : ∀ h1 a h2, h ++ [⟨now, state, location, reason, line⟩] = h1 ++ a :: h2 → 
        (h2 = [] ∧ a = ⟨now, state, location, reason, line⟩) ∨ ∃ h3, h2 = h3 ++ [⟨now, state, location, reason, line⟩] ∧ h = h1 ++ a :: h3 := by
      intro h1 a h2 e
      cases h2 using List.reverseRecOn with
      | nil =>
        have := List.append_inj' e rfl
        exact .inl ⟨rfl, by simpa using this.2.symm⟩
      | append_singleton xs x =>
        rw [← List.cons_append, ← List.append_assoc] at e
        have := List.append_inj' e rfl
        exact .inr ⟨xs, by simpa using this.2.symm, this.1⟩
    rcases output_cases hout with ⟨rfl, rfl, hc⟩ | ⟨rfl, hlen, hkey, rfl⟩
    · refine ⟨by simp [reportedState_snoc], old, ?_⟩
      intro h1 a h2 e hp hall
      rcases key h1 a h2 e with ⟨-, rfl⟩ | ⟨h3, rfl, e3⟩
      · cases hp
      · exact past h1 a h3 e3 hp (fun b hb => hall b (by rw [← List.cons_append]; exact List.mem_append_left _ hb))
    · refine ⟨by simp [reportedState_snoc], ?_, ?_⟩
      · intro k hk
        rcases List.mem_cons.1 hk with rfl | hk
        · exact ⟨h, _, [], rfl, rfl, by simp⟩
        · exact old k hk
      · intro h1 a h2 e hp hall
        rcases key h1 a h2 e with ⟨-, rfl⟩ | ⟨h3, rfl, e3⟩
        · exact List.mem_cons_self
        · exact List.mem_cons_of_mem _
            (past h1 a h3 e3 hp (fun b hb => hall b (by rw [← List.cons_append]; exact List.mem_append_left _ hb)))

/-- a history is a history of its beginning followed by an attempt -/
theorem FsLogged.split {max : Nat} {init : Bool} {zone : Int} : ∀ {h2 h1 : List FsAttempt} {b : FsAttempt} {l : FsLogger},
    FsLogged max init zone (h1 ++ b :: h2) l →
    ∃ l1 l2, FsLogged max init zone h1 l1 ∧ l1.output b.now zone b.state b.location b.reason = (b.printed, l2) := by
  intro h2
  induction h2 using List.reverseRecOn with
  | nil =>
    intro h1 b l hl
    generalize e : h1 ++ [b] = h at hl
    cases hl with
    | start => simp at e
    | attempt now state location reason hl hout =>
      have := List.append_inj' e rfl
      obtain ⟨rfl, rfl⟩ : h1 = _ ∧ b = _ := ⟨this.1, by simpa using this.2⟩
      exact ⟨_, _, hl, hout⟩
  | append_singleton xs x ih =>
    intro h1 b l hl
    rw [← List.cons_append, ← List.append_assoc] at hl
    generalize e : (h1 ++ b :: xs) ++ [x] = h at hl
    cases hl with
    | start => simp at e
    | attempt now state location reason hl hout =>
      obtain rfl := (List.append_inj' e rfl).1
      exact ih hl

/-- **C69** While the zone's state does not change, the same location and reason is printed at most once. -/
theorem C69_once {max : Nat} {init : Bool} {zone : Int} {h1 h2 h3 : List FsAttempt} {a b : FsAttempt} {l : FsLogger}
    (hl : FsLogged max init zone (h1 ++ a :: h2 ++ b :: h3) l) (ha : a.printed.isSome) (hb : b.printed.isSome)
    (hsame : ∀ c ∈ h2 ++ [b], c.state = a.state) : ¬ (a.location = b.location ∧ a.reason = b.reason) := by
  rintro ⟨el, er⟩
  obtain ⟨l1, l2, hl1, hout⟩ := hl.split
  obtain ⟨hst, -, hseen⟩ := seen_inv hl1
  have hcur : l1.currentFailsafeState = a.state := by
    rw [hst]
    cases h2 using List.reverseRecOn with
    | nil => rw [reportedState_snoc]
    | append_singleton xs x =>
      rw [← List.cons_append, ← List.append_assoc, reportedState_snoc]; exact hsame x (by simp)
  have hmem := hseen h1 a h2 rfl ha (by
    intro c hc
    rcases List.mem_cons.1 hc with rfl | hc
    · exact hcur.symm
    · rw [hcur]; exact hsame c (by simp [hc]))
  have hbs : b.state = l1.currentFailsafeState := by rw [hcur]; exact hsame b (by simp)
  rcases output_cases hout with ⟨e, -⟩ | ⟨-, -, hkey, -⟩
  · rw [e] at hb; cases hb
  · rw [hbs] at hkey
    simp only [bne_self_eq_false, Bool.false_eq_true, if_false] at hkey
    exact hkey (by rw [← el, ← er]; exact hmem)

/-- **C69** A line that is printed tells the zone, the state, location and reason of the attempt; while the state does
not change it is about being in failsafe mode. -/
theorem C69_line {max : Nat} {init : Bool} {zone : Int} {h1 h2 : List FsAttempt} {a : FsAttempt} {l : FsLogger} {line : FsLine}
    (hl : FsLogged max init zone (h1 ++ a :: h2) l) (hp : a.printed = some line) :
    line = ⟨zone, a.state, a.location, a.reason⟩ ∧ (a.state = reportedState init h1 → line.enters = true) := by
  obtain ⟨l1, l2, hl1, hout⟩ := hl.split
  obtain ⟨hst, -⟩ := seen_inv hl1
  rcases output_cases hout with ⟨e, -⟩ | ⟨e, -⟩
  · rw [e] at hp; cases hp
  · rw [e] at hp
    split_ifs at hp with hc
    cases hp
    refine ⟨rfl, fun hs => ?_⟩
    rw [← hst] at hs
    rw [← hs] at hc
    simpa using hc

/-- **C69** (nothing relevant is suppressed) An attempt that finds the zone in failsafe mode, or leaving it, prints its
line if fewer attempts than the limit were made within the last second and no attempt since the last change of state had
the same text. -/
theorem C69_printed {max : Nat} {init : Bool} {zone : Int} {h1 h2 : List FsAttempt} {a : FsAttempt} {l : FsLogger}
    (hl : FsLogged max init zone (h1 ++ a :: h2) l) (hf : ClockForward (h1 ++ a :: h2)) (hb : ClockFits (h1 ++ a :: h2))
    (hrel : a.state = true ∨ reportedState init h1 = true)
    (hfew : (h1.filter (fun b => decide (a.now < b.now + 1000))).length < max)
    (hnew : ∀ g1 b g2, h1 = g1 ++ b :: g2 → (∀ c ∈ b :: g2, c.state = a.state) →
      b.location ++ " @ " ++ b.reason ≠ a.location ++ " @ " ++ a.reason) :
    a.printed = some ⟨zone, a.state, a.location, a.reason⟩ := by
  obtain ⟨l1, l2, hl1, hout⟩ := hl.split
  obtain ⟨hst, hseen, -⟩ := seen_inv hl1
  obtain ⟨ps, i⟩ := fsInv hl1 (List.pairwise_append.1 hf).1 (fun c hc => hb c (by simp [hc]))
  have hstamps := i.stamps a.now (fun c hc => (List.pairwise_append.1 hf).2.2 c hc a (by simp)) (hb a (by simp))
  rcases output_cases hout with ⟨-, -, hc | hc⟩ | ⟨e, -⟩
  · exfalso
    rw [hstamps, i.max_eq] at hc
    have := i.attempts a.now
    omega
  · exfalso
    split_ifs at hc with hs
    · cases hc
    · have hs' : l1.currentFailsafeState = a.state := by
        cases hl : l1.currentFailsafeState <;> cases hl2 : a.state <;> simp_all
      obtain ⟨g1, b, g2, eg, ek, hall⟩ := hseen _ hc
      rw [hs'] at hall
      exact hnew g1 b g2 eg hall ek
  · rw [e, if_pos]
    rcases hrel with hr | hr
    · simp [hr]
    · rw [hst, hr]; simp

/-! ## C75: routing of messages to the loggers -/

theorem addSensorZone_find (zone : Int) : ∀ (ns : List String) (m : OMap String (List Int)) (s : String) (i : Int),
    (i ∈ ((addSensorZone zone ns m).find? s).getD [] ↔ i ∈ (m.find? s).getD [] ∨ (i = zone ∧ s ∈ ns)) ∧
    (((m.find? s).getD []).Nodup → (((addSensorZone zone ns m).find? s).getD []).Nodup)
  | [], m, s, i => by simp [addSensorZone]
  | n :: ns, m, s, i => by
    unfold addSensorZone
    dsimp only
    have ih := addSensorZone_find zone ns
      (m.insert n (if zone ∈ (m.find? n).getD [] then (m.find? n).getD [] else (m.find? n).getD [] ++ [zone])) s i
    rw [OMap.find?_insert] at ih
    by_cases hs : s = n
    · subst hs
      rw [if_pos rfl, Option.getD_some] at ih
      refine ⟨ih.1.trans ?_, fun hn => ih.2 ?_⟩
      · by_cases hz : zone ∈ (m.find? s).getD []
        · rw [if_pos hz]
          constructor
          · rintro (h | ⟨h, h'⟩)
            · exact .inl h
            · exact .inr ⟨h, by simp⟩
          · rintro (h | ⟨h, h'⟩)
            · exact .inl h
            · exact .inl (h ▸ hz)
        · rw [if_neg hz]
          simp only [List.mem_append, List.mem_singleton, List.mem_cons, true_or, and_true]
          tauto
      · by_cases hz : zone ∈ (m.find? s).getD []
        · rw [if_pos hz]; exact hn
        · rw [if_neg hz, List.nodup_append]
          refine ⟨hn, by simp, ?_⟩
          intro a ha b hb e
          rw [List.mem_singleton.1 hb] at e
          exact hz (e ▸ ha)
    · rw [if_neg hs] at ih
      refine ⟨ih.1.trans ?_, ih.2⟩
      simp [hs]

theorem buildFrom_spec (max : Nat) : ∀ (zs : List FsZone) (s : FsLoggers), (zs.map FsZone.id).Nodup →
    (∀ n i, (i ∈ ((buildFailsafeLoggersFrom max zs s).sensorNameToZoneId.find? n).getD [] ↔
        i ∈ (s.sensorNameToZoneId.find? n).getD [] ∨ ∃ z ∈ zs, z.id = i ∧ n ∈ z.sensors) ∧
      (((s.sensorNameToZoneId.find? n).getD []).Nodup →
        (((buildFailsafeLoggersFrom max zs s).sensorNameToZoneId.find? n).getD []).Nodup)) ∧
    (∀ z ∈ zs, (buildFailsafeLoggersFrom max zs s).zoneIdToFailsafeLogger.find? z.id = some (FsLogger.ctor max z.failsafe)) ∧
    (∀ i, i ∉ zs.map FsZone.id → (buildFailsafeLoggersFrom max zs s).zoneIdToFailsafeLogger.find? i =
      s.zoneIdToFailsafeLogger.find? i)
  | [], s, _ => by simp [buildFailsafeLoggersFrom]
  | z :: zs, s, hn => by
    rw [List.map_cons, List.nodup_cons] at hn
    unfold buildFailsafeLoggersFrom
    obtain ⟨h1, h2, h3⟩ := buildFrom_spec max zs
      { zoneIdToFailsafeLogger := s.zoneIdToFailsafeLogger.insert z.id (FsLogger.ctor max z.failsafe)
        sensorNameToZoneId := addSensorZone z.id z.sensors s.sensorNameToZoneId } hn.2
    refine ⟨fun n i => ⟨(h1 n i).1.trans ?_, fun hd => (h1 n i).2 ((addSensorZone_find _ _ _ _ i).2 hd)⟩, ?_, ?_⟩
    · rw [(addSensorZone_find _ _ _ _ _).1]
      constructor
      · rintro ((h | ⟨rfl, h⟩) | ⟨z', hz, h⟩)
        · exact .inl h
        · exact .inr ⟨z, by simp, rfl, h⟩
        · exact .inr ⟨z', by simp [hz], h⟩
      · rintro (h | ⟨z', hz, e, h⟩)
        · exact .inl (.inl h)
        · rcases List.mem_cons.1 hz with rfl | hz
          · exact .inl (.inr ⟨e.symm, h⟩)
          · exact .inr ⟨z', hz, e, h⟩
    · intro z' hz'
      rcases List.mem_cons.1 hz' with rfl | hz'
      · rw [h3 _ hn.1]; simp [OMap.find?_insert]
      · exact h2 z' hz'
    · intro i hi
      rw [List.map_cons, List.mem_cons, not_or] at hi
      rw [h3 i hi.2]
      exact OMap.find?_insert_ne _ hi.1 _

/-- the loggers and printed lines after an attempt for a list of zones -/
theorem withZones_spec (now : Nat) (state : Bool) (location reason : String) : ∀ (ids : List Int) (s : FsLoggers), ids.Nodup →
    (s.withZones now state location reason ids).2.sensorNameToZoneId = s.sensorNameToZoneId ∧
    ∀ k, ((s.withZones now state location reason ids).2.zoneIdToFailsafeLogger.find? k =
        if k ∈ ids then (s.zoneIdToFailsafeLogger.find? k).map (fun l => (l.output now k state location reason).2)
        else s.zoneIdToFailsafeLogger.find? k) ∧
      (s.withZones now state location reason ids).1.filter (fun x => decide (x.zone = k)) =
        if k ∈ ids then (match s.zoneIdToFailsafeLogger.find? k with
          | none => []
          | some l => (l.output now k state location reason).1.toList)
        else []
  | [], s, _ => by simp [FsLoggers.withZones]
  | z :: ids, s, hn => by
    rw [List.nodup_cons] at hn
    have lineZone : ∀ (l : FsLogger) (k : Int), ((l.output now z state location reason).1.toList).filter
        (fun x => decide (x.zone = k)) = if k = z then (l.output now z state location reason).1.toList else [] := by
      intro l k
      rcases hh : l.output now z state location reason with ⟨line, l'⟩
      have hc := output_cases hh
      dsimp only
      cases line with
      | none => simp
      | some x =>
        have hx : x.zone = z := by
          rcases hc with ⟨e, -⟩ | ⟨e, -⟩
          · cases e
          · split_ifs at e
            · cases e; rfl
        by_cases hk : k = z
        · simp [hk, hx]
        · have : ¬ z = k := fun e => hk e.symm
          simp [hk, hx, this]
    have ih := withZones_spec now state location reason ids (s.withZone now z state location reason).2 hn.2
    have h1 : (s.withZone now z state location reason).2.sensorNameToZoneId = s.sensorNameToZoneId := by
      unfold FsLoggers.withZone
      cases s.zoneIdToFailsafeLogger.find? z <;> rfl
    have h2 : ∀ k, (s.withZone now z state location reason).2.zoneIdToFailsafeLogger.find? k =
        if k = z then (s.zoneIdToFailsafeLogger.find? k).map (fun l => (l.output now k state location reason).2)
        else s.zoneIdToFailsafeLogger.find? k := by
      intro k
      unfold FsLoggers.withZone
      cases hz : s.zoneIdToFailsafeLogger.find? z with
      | none =>
        by_cases hk : k = z
        · subst hk; simp [hz]
        · simp [hk]
      | some l =>
        dsimp only
        rw [OMap.find?_insert]
        by_cases hk : k = z
        · subst hk; simp [hz]
        · simp [hk]
    have h3 : ∀ k, (s.withZone now z state location reason).1.filter (fun x => decide (x.zone = k)) =
        if k = z then (match s.zoneIdToFailsafeLogger.find? k with
          | none => []
          | some l => (l.output now k state location reason).1.toList) else [] := by
      intro k
      unfold FsLoggers.withZone
      cases hz : s.zoneIdToFailsafeLogger.find? z with
      | none =>
        by_cases hk : k = z
        · subst hk; simp [hz]
        · simp [hk]
      | some l =>
        dsimp only
        rw [lineZone]
        by_cases hk : k = z
        · subst hk; simp [hz]
        · simp [hk]
    unfold FsLoggers.withZones
    dsimp only
    refine ⟨ih.1.trans h1, fun k => ⟨?_, ?_⟩⟩
    · rw [(ih.2 k).1, h2 k]
      by_cases hk : k = z
      · subst hk
        simp [hn.1]
      · simp [hk]
    · rw [List.filter_append, h3 k, (ih.2 k).2, h2 k]
      by_cases hk : k = z
      · subst hk
        simp [hn.1]
      · simp [hk]

/-- **C75** Whatever messages about sensors and zones are logged, in any order: every zone has its own logger, which
handles exactly the messages about the zone or about a sensor of the zone, each once; the lines printed for the zone are
exactly the ones its logger prints. -/
theorem C75_routed {max : Nat} {zones : List FsZone} (hd : (zones.map FsZone.id).Nodup) {evs : List FsEvent} {s : FsLoggers}
    (hr : FsRun max zones evs s) {z : FsZone} (hz : z ∈ zones) :
    (∃ l, s.zoneIdToFailsafeLogger.find? z.id = some l ∧
      FsLogged max z.failsafe z.id ((evs.filter (fun e => z.concernedBy e)).map z.attempt) l) ∧
    (∀ e ∈ evs, (e.printed.filter (fun x => decide (x.zone = z.id))).length ≤ if z.concernedBy e then 1 else 0) := by
  obtain ⟨b1, b2, b3⟩ := buildFrom_spec max zones { zoneIdToFailsafeLogger := {}, sensorNameToZoneId := {} } hd
  have topo : ∀ n i, (i ∈ ((buildFailsafeLoggers max zones).sensorNameToZoneId.find? n).getD [] ↔
      ∃ z ∈ zones, z.id = i ∧ n ∈ z.sensors) ∧ (((buildFailsafeLoggers max zones).sensorNameToZoneId.find? n).getD []).Nodup := by
    intro n i
    have e0 : (({} : OMap String (List Int)).find? n) = none := rfl
    refine ⟨(b1 n i).1.trans ?_, (b1 n i).2 ?_⟩ <;> simp [e0]
  have uniq : ∀ z' ∈ zones, z'.id = z.id → z' = z := fun z' hz' e => List.inj_on_of_nodup_map hd hz' hz e
  have main : s.sensorNameToZoneId = (buildFailsafeLoggers max zones).sensorNameToZoneId ∧
      (∃ l, s.zoneIdToFailsafeLogger.find? z.id = some l ∧
        FsLogged max z.failsafe z.id ((evs.filter (fun e => z.concernedBy e)).map z.attempt) l) ∧
      (∀ e ∈ evs, (e.printed.filter (fun x => decide (x.zone = z.id))).length ≤ if z.concernedBy e then 1 else 0) := by
    clear b3
    induction hr with
    | start => exact ⟨rfl, ⟨_, b2 z hz, .start⟩, by simp⟩
    | @sensor evs s s' lines now n state location reason _ hout ih =>
      obtain ⟨ht, ⟨l, hl, hlog⟩, hlen⟩ := ih
      obtain ⟨w1, w2⟩ := withZones_spec now state location reason ((s.sensorNameToZoneId.find? n).getD []) s (by
        rw [ht]; exact (topo n 0).2)
      have hout' : s.withZones now state location reason ((s.sensorNameToZoneId.find? n).getD []) = (lines, s') := hout
      rw [hout'] at w1 w2
      obtain ⟨w3, w4⟩ := w2 z.id
      have hc : z.id ∈ (s.sensorNameToZoneId.find? n).getD [] ↔
          z.concernedBy ⟨.sensor n, now, state, location, reason, lines⟩ = true := by
        rw [ht, (topo n z.id).1]
        simp only [FsZone.concernedBy, decide_eq_true_eq]
        constructor
        · rintro ⟨z', hz', e, hn⟩; rw [← uniq z' hz' e]; exact hn
        · intro hn; exact ⟨z, hz, rfl, hn⟩
      simp only [hl] at w3 w4
      refine ⟨w1.trans ht, ?_, ?_⟩
      · by_cases hcc : z.concernedBy ⟨.sensor n, now, state, location, reason, lines⟩ = true
        · rw [if_pos (hc.2 hcc)] at w3 w4
          refine ⟨_, w3, ?_⟩
          rw [List.filter_append, List.map_append, List.filter_cons_of_pos hcc, List.filter_nil, List.map_singleton]
          refine FsLogged.attempt now state location reason hlog ?_
          simp only [w4]
          rcases l.output now z.id state location reason with ⟨_ | _, _⟩ <;> rfl
        · rw [if_neg (fun h => hcc (hc.1 h))] at w3
          refine ⟨_, w3, ?_⟩
          rw [List.filter_append, List.filter_cons_of_neg hcc, List.filter_nil, List.append_nil]
          exact hlog
      · intro e he
        rcases List.mem_append.1 he with he | he
        · exact hlen e he
        · rw [List.mem_singleton.1 he]
          dsimp only
          rw [w4]
          by_cases hcc : z.concernedBy ⟨.sensor n, now, state, location, reason, lines⟩ = true
          · rw [if_pos (hc.2 hcc), if_pos hcc]
            rcases l.output now z.id state location reason with ⟨_ | _, _⟩ <;> simp
          · rw [if_neg (fun h => hcc (hc.1 h))]; simp
    | @zone evs s s' lines now i state location reason _ hout ih =>
      obtain ⟨ht, ⟨l, hl, hlog⟩, hlen⟩ := ih
      obtain ⟨w1, w2⟩ := withZones_spec now state location reason [i] s (by simp)
      have hout' : s.withZones now state location reason [i] = (lines, s') := by
        simp [FsLoggers.withZones, hout]
      rw [hout'] at w1 w2
      obtain ⟨w3, w4⟩ := w2 z.id
      have hc : z.id ∈ [i] ↔ z.concernedBy ⟨.zone i, now, state, location, reason, lines⟩ = true := by
        simp [FsZone.concernedBy]
      simp only [hl] at w3 w4
      refine ⟨w1.trans ht, ?_, ?_⟩
      · by_cases hcc : z.concernedBy ⟨.zone i, now, state, location, reason, lines⟩ = true
        · rw [if_pos (hc.2 hcc)] at w3 w4
          refine ⟨_, w3, ?_⟩
          rw [List.filter_append, List.map_append, List.filter_cons_of_pos hcc, List.filter_nil, List.map_singleton]
          refine FsLogged.attempt now state location reason hlog ?_
          simp only [w4]
          rcases l.output now z.id state location reason with ⟨_ | _, _⟩ <;> rfl
        · rw [if_neg (fun h => hcc (hc.1 h))] at w3
          refine ⟨_, w3, ?_⟩
          rw [List.filter_append, List.filter_cons_of_neg hcc, List.filter_nil, List.append_nil]
          exact hlog
      · intro e he
        rcases List.mem_append.1 he with he | he
        · exact hlen e he
        · rw [List.mem_singleton.1 he]
          dsimp only
          rw [w4]
          by_cases hcc : z.concernedBy ⟨.zone i, now, state, location, reason, lines⟩ = true
          · rw [if_pos (hc.2 hcc), if_pos hcc]
            rcases l.output now z.id state location reason with ⟨_ | _, _⟩ <;> simp
          · rw [if_neg (fun h => hcc (hc.1 h))]; simp
  exact main.2

/-- **C68** for the whole program: however many sensors report, no zone gets more lines in a second than the limit. -/
theorem C68_program {max : Nat} {zones : List FsZone} (hd : (zones.map FsZone.id).Nodup) {evs : List FsEvent} {s : FsLoggers}
    (hr : FsRun max zones evs s) (hf : evs.Pairwise (fun a b => a.now ≤ b.now)) (hb : ∀ e ∈ evs, e.now < 2 ^ 64)
    {z : FsZone} (hz : z ∈ zones) (t : Nat) : linesInSecond z.id evs t ≤ max := by
  obtain ⟨⟨l, -, hlog⟩, hlen⟩ := C75_routed hd hr hz
  refine le_trans (le_of_eq ?_) (C68_rate hlog ?_ ?_ t)
  · clear hr hf hb hlog
    induction evs with
    | nil => rfl
    | cons e evs ih =>
      have ih := ih (fun e he => hlen e (by simp [he]))
      have he := hlen e (by simp)
      unfold linesInSecond printedInSecond at ih ⊢
      rw [List.filter_cons (x := e) (p := fun e => z.concernedBy e)]
      by_cases hw : t ≤ e.now ∧ e.now < t + 1000
      · rw [List.filter_cons_of_pos (by simp [hw]), List.flatMap_cons, List.length_append]
        by_cases hc : z.concernedBy e = true
        · rw [if_pos hc] at he
          rw [if_pos hc, List.map_cons, List.filter_cons]
          have h1 : (z.attempt e).now = e.now := rfl
          have h2 : (z.attempt e).printed = (e.printed.filter (fun x => decide (x.zone = z.id))).head? := rfl
          rw [h1, h2]
          generalize (e.printed.filter (fun x => decide (x.zone = z.id))) = ls at he ⊢
          match ls, he with
          | [], _ => simpa using ih
          | [x], _ => simp [hw, ih]; omega
        · rw [if_neg hc] at he
          rw [if_neg hc]
          omega
      · rw [List.filter_cons_of_neg (by simp; omega)]
        by_cases hc : z.concernedBy e = true
        · rw [if_pos hc, List.map_cons, List.filter_cons_of_neg]
          · exact ih
          · have h1 : (z.attempt e).now = e.now := rfl
            rw [h1]
            rcases not_and_or.1 hw with hw | hw <;> simp [hw]
        · rw [if_neg hc]; exact ih
  · exact List.pairwise_map.2 ((hf.filter _).imp (fun h => h))
  · intro a ha
    obtain ⟨e, he, rfl⟩ := List.mem_map.1 ha
    exact hb e (List.mem_filter.1 he).1

/-! ## Examples and findings -/

/-- attempts handled one after the other -/
def fsAll (zone : Int) : List (Nat × Bool × String × String) → FsLogger → List (Option FsLine) × FsLogger
  | [], l => ([], l)
  | (now, state, location, reason) :: rest, l =>
    let r := l.output now zone state location reason
    let rs := fsAll zone rest r.2
    (r.1 :: rs.1, rs.2)

/-- Limit 2: the third message within a second is dropped, a repeated one too, and after a second there is room. -/
example : ((fsAll 1 [(5000, true, "a", "x"), (5010, true, "a", "x"), (5020, true, "b", "x"), (5030, true, "c", "x"),
      (6000, true, "c", "x"), (6100, false, "c", "x")] (FsLogger.ctor 2 false)).1.map (fun l => l.map FsLine.enters)) =
    [some true, none, some true, none, some true, some false] := by decide +kernel

/-- **C68** (finding) When the clock is set back, remembered times lie in the future, the unsigned difference is huge and
they are dropped: two lines within a millisecond although the limit is one. -/
theorem C68_clock_set_back : ∃ h l, FsLogged 1 false 0 h l ∧ ClockFits h ∧ 1 < printedInSecond h 4999 := by
  refine ⟨_, _, .attempt 4999 true "b" "x" (.attempt 5000 true "a" "x" .start rfl) rfl, ?_, ?_⟩
  · intro a ha
    simp only [List.nil_append, List.singleton_append, List.mem_cons, List.not_mem_nil, or_false] at ha
    rcases ha with rfl | rfl <;> decide
  · decide +kernel

/-- **C68** (finding) Attempts that print nothing use up the limit as well: a zone outside failsafe mode gets a message
that is not printed, and the message about entering failsafe mode in the same second is then lost. -/
theorem C68_silent_counts : ∃ h l, FsLogged 1 false 0 h l ∧ ClockForward h ∧ ClockFits h ∧
    h.map (fun a => (a.state, a.printed)) = [(false, none), (true, none)] := by
  refine ⟨_, _, .attempt 5001 true "b" "x" (.attempt 5000 false "a" "x" .start rfl) rfl, ?_, ?_, ?_⟩
  · simp [ClockForward]
  · intro a ha
    simp only [List.nil_append, List.singleton_append, List.mem_cons, List.not_mem_nil, or_false] at ha
    rcases ha with rfl | rfl <;> decide
  · decide +kernel

/-- **C69** (finding) Location and reason are only compared after joining them, so two different pairs can be taken for
the same message. -/
theorem C69_joined : ∃ h l, FsLogged 20 false 0 h l ∧ ClockForward h ∧
    h.map (fun a => (a.location, a.reason, a.printed.isSome)) = [("a @ b", "c", true), ("a", "b @ c", false)] := by
  refine ⟨_, _, .attempt 5001 true "a" "b @ c" (.attempt 5000 true "a @ b" "c" .start rfl) rfl, ?_, ?_⟩
  · simp [ClockForward]
  · decide +kernel

def exFsZones : List FsZone := [⟨0, false, ["cpu", "fan0"]⟩, ⟨1, true, ["cpu", "fan1"]⟩]

/-- A sensor of two zones is reported for both, a fan only for its own, and an unknown sensor for none. -/
example : ((((buildFailsafeLoggers 20 exFsZones).withSensor 5000 "cpu" true "cpu" "bad").1.map FsLine.zone,
    ((buildFailsafeLoggers 20 exFsZones).withSensor 5000 "fan1" true "fan1" "bad").1.map FsLine.zone,
    ((buildFailsafeLoggers 20 exFsZones).withSensor 5000 "none" true "none" "bad").1.map FsLine.zone)) =
    ([0, 1], [1], []) := by decide +kernel

end Verif
