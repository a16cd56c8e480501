import Verif.Spec.Logged
import Verif.Props.FailsafeMsgs
import Mathlib.Data.List.Dedup

/-! # Lemmas about the failsafe log of the running daemon -/

namespace Verif

/-- the times a logger remembers are times of attempts -/
theorem stamps_mem {max : Nat} {init : Bool} {zone : Int} {h : List FsAttempt} {l : FsLogger} (hl : FsLogged max init zone h l) :
    l.logMaxCountPerSecond = max ∧ ∀ p ∈ l.logTimestamps, ∃ a ∈ h, a.now = p := by
  induction hl with
  | start => exact ⟨rfl, by simp [FsLogger.ctor]⟩
  | @attempt h l l' line now state location reason _ hout ih =>
    have sub : ∀ p ∈ removeOutdated now l.logTimestamps, ∃ a ∈ h, a.now = p := by
      intro p hp
      obtain ⟨l1, h1⟩ := removeOutdated_sub now l.logTimestamps
      exact ih.2 p (by rw [h1]; exact List.mem_append_right _ hp)
    rcases output_cases hout with ⟨-, rfl, -⟩ | ⟨-, -, -, rfl⟩
    · refine ⟨ih.1, fun p hp => ?_⟩
      obtain ⟨a, ha, e⟩ := sub p hp
      exact ⟨a, List.mem_append_left _ ha, e⟩
    · refine ⟨ih.1, fun p hp => ?_⟩
      rcases List.mem_append.1 hp with hp | hp
      · obtain ⟨a, ha, e⟩ := sub p hp
        exact ⟨a, List.mem_append_left _ ha, e⟩
      · rw [List.mem_singleton] at hp
        exact ⟨_, List.mem_append_right _ (List.mem_singleton.2 rfl), hp.symm⟩

theorem removeOutdated_old {now : Nat} (hn : now < 2 ^ 64) : ∀ {old new : List Nat}, (∀ p ∈ old, p + 1000 ≤ now) →
    removeOutdated now (old ++ new) = removeOutdated now new
  | [], _, _ => rfl
  | p :: old, new, h => by
    have hp := h p (by simp)
    rw [List.cons_append, removeOutdated, subU64_of_le (by omega) hn, if_pos (by omega)]
    exact removeOutdated_old hn (fun q hq => h q (List.mem_cons_of_mem _ hq))

theorem removeOutdated_length (now : Nat) (l : List Nat) : (removeOutdated now l).length ≤ l.length := by
  obtain ⟨l1, h1⟩ := removeOutdated_sub now l
  have := congrArg List.length h1
  rw [List.length_append] at this
  omega

/-- a suffix of two lists -/
theorem suffix_split {α : Type} {old new rest l1 : List α} (h : old ++ new = l1 ++ rest) :
    ∃ old' new', rest = old' ++ new' ∧ (∀ p ∈ old', p ∈ old) ∧ new'.length ≤ new.length := by
  rcases List.append_eq_append_iff.1 h with ⟨as, h1, h2⟩ | ⟨bs, h1, h2⟩
  · exact ⟨[], rest, rfl, by simp, by rw [h2]; simp⟩
  · exact ⟨bs, new, h2, fun p hp => by rw [h1]; exact List.mem_append_right _ hp, le_refl _⟩

/-- While the reported state is `s`, the times remembered since are as many as different texts. -/
theorem steady_inv {max : Nat} {init : Bool} {zone : Int} {g : List FsAttempt} {s : Bool} {win : List FsAttempt} :
    ∀ {l : FsLogger}, FsLogged max init zone (g ++ win) l → (∀ b ∈ win, b.state = s) →
    ∃ (old new : List Nat) (K : List String), l.logTimestamps = old ++ new ∧ (∀ p ∈ old, ∃ a ∈ g, a.now = p) ∧
      new.length ≤ K.length ∧ K.Nodup ∧ (∀ k ∈ K, k ∈ win.map FsAttempt.text) ∧
      (win ≠ [] → l.currentFailsafeState = s ∧ ∀ k ∈ K, k ∈ l.logsInCurrentState) := by
  induction win using List.reverseRecOn with
  | nil =>
    intro l hl _
    rw [List.append_nil] at hl
    exact ⟨l.logTimestamps, [], [], by simp, (stamps_mem hl).2, by simp, List.nodup_nil, by simp, fun h => absurd rfl h⟩
  | append_singleton win x ih =>
    intro l hl hs
    rw [← List.append_assoc] at hl
    generalize e : (g ++ win) ++ [x] = h at hl
    cases hl with
    | start => simp at e
    | @attempt h l0 _ line now state location reason hl hout =>
      have := List.append_inj' e rfl
      obtain ⟨rfl, hx⟩ : g ++ win = h ∧ x = ⟨now, state, location, reason, line⟩ := ⟨this.1, by simpa using this.2⟩
      obtain ⟨old, new, K, h1, h2, h3, h4, h5, h6⟩ := ih hl (fun b hb => hs b (by simp [hb]))
      have hst : state = s := by
        have := hs x (by simp)
        rw [hx] at this
        exact this
      obtain ⟨l1, hl1⟩ := removeOutdated_sub now l0.logTimestamps
      rw [h1] at hl1
      obtain ⟨old', new', g1, g2, g3⟩ := suffix_split hl1
      rw [← h1] at g1
      have hmem : ∀ k ∈ K, k ∈ (win ++ [x]).map FsAttempt.text := fun k hk => by
        rw [List.map_append]; exact List.mem_append_left _ (h5 k hk)
      have hkeep : ∀ k ∈ K, k ∈ (if state != l0.currentFailsafeState then [] else l0.logsInCurrentState) := by
        intro k hk
        have hne : win ≠ [] := by
          rintro rfl
          exact absurd (h5 k hk) (by simp)
        obtain ⟨a, b⟩ := h6 hne
        rw [if_neg (by simp [hst, a])]
        exact b k hk
      rcases output_cases hout with ⟨-, rfl, -⟩ | ⟨-, -, hkey, rfl⟩
      · exact ⟨old', new', K, g1, fun p hp => h2 p (g2 p hp), by omega, h4, hmem, fun _ => ⟨hst, hkeep⟩⟩
      · refine ⟨old', new' ++ [now], (location ++ " @ " ++ reason) :: K, by simp [g1], fun p hp => h2 p (g2 p hp), ?_, ?_, ?_,
          fun _ => ⟨hst, ?_⟩⟩
        · simp; omega
        · exact List.nodup_cons.2 ⟨fun hk => hkey (hkeep _ hk), h4⟩
        · intro k hk
          rcases List.mem_cons.1 hk with rfl | hk
          · rw [hx]; simp [FsAttempt.text]
          · exact hmem k hk
        · intro k hk
          rcases List.mem_cons.1 hk with rfl | hk
          · exact List.mem_cons_self
          · exact List.mem_cons_of_mem _ (hkeep k hk)

theorem removeOutdated_idem (now : Nat) : ∀ (l : List Nat), removeOutdated now (removeOutdated now l) = removeOutdated now l
  | [] => rfl
  | t :: rest => by
    by_cases h : 1000 ≤ subU64 now t
    · have : removeOutdated now (t :: rest) = removeOutdated now rest := by rw [removeOutdated, if_pos h]
      rw [this]
      exact removeOutdated_idem now rest
    · have : removeOutdated now (t :: rest) = t :: rest := by rw [removeOutdated, if_neg h]
      rw [this, this]

theorem subU64_self (a : Nat) : subU64 a a = 0 := by
  unfold subU64 uint64Mod
  rw [Nat.add_sub_cancel_left]

theorem removeOutdated_snoc (now : Nat) (l : List Nat) :
    removeOutdated now (removeOutdated now l ++ [now]) = removeOutdated now l ++ [now] := by
  have h := removeOutdated_idem now l
  cases hl : removeOutdated now l with
  | nil => simp [removeOutdated, subU64_self]
  | cons t rest =>
    rw [hl] at h
    rw [List.cons_append]
    by_cases ht : 1000 ≤ subU64 now t
    · rw [removeOutdated, if_pos ht] at h
      have := removeOutdated_length now rest
      rw [h] at this
      simp at this
    · rw [removeOutdated, if_neg ht]

/-- A burst of messages at one time, each reporting no failsafe mode: no line says otherwise, and either the limit is reached
or all texts are remembered. -/
theorem quietBurst_inv {max : Nat} {init : Bool} {zone : Int} {g : List FsAttempt} {t : Nat} (hg : g = [] ∧ init = false ∨ reportedState init g = true)
    {quiet : List FsAttempt} : ∀ {l : FsLogger}, FsLogged max init zone (g ++ quiet) l → (∀ a ∈ quiet, a.now = t ∧ a.state = false) →
    (∀ a ∈ quiet, ∀ line, a.printed = some line → line.enters = false) ∧
    (quiet ≠ [] → removeOutdated t l.logTimestamps = l.logTimestamps ∧ l.currentFailsafeState = false ∧
      (max ≤ l.logTimestamps.length ∨ ((∀ k, k ∈ l.logsInCurrentState ↔ k ∈ quiet.map FsAttempt.text) ∧
        different (quiet.map FsAttempt.text) ≤ l.logTimestamps.length))) := by
  induction quiet using List.reverseRecOn with
  | nil => intro l _ _; exact ⟨by simp, fun h => absurd rfl h⟩
  | append_singleton quiet x ih =>
    intro l hl hq
    rw [← List.append_assoc] at hl
    generalize e : (g ++ quiet) ++ [x] = h at hl
    cases hl with
    | start => simp at e
    | @attempt h l0 _ line now state location reason hl hout =>
      have := List.append_inj' e rfl
      obtain ⟨rfl, hx⟩ : g ++ quiet = h ∧ x = ⟨now, state, location, reason, line⟩ := ⟨this.1, by simpa using this.2⟩
      obtain ⟨a1, a2⟩ := ih hl (fun b hb => hq b (by simp [hb]))
      obtain ⟨rfl, rfl⟩ : now = t ∧ state = false := by
        have := hq x (by simp)
        rw [hx] at this
        exact this
      have hmax := (stamps_mem hl).1
      have hstate := (seen_inv hl).1
      -- the texts remembered when the attempt is handled
      have hlogs : max ≤ (removeOutdated now l0.logTimestamps).length ∨
          ((∀ k, k ∈ (if false != l0.currentFailsafeState then [] else l0.logsInCurrentState) ↔ k ∈ quiet.map FsAttempt.text) ∧
          different (quiet.map FsAttempt.text) ≤ (removeOutdated now l0.logTimestamps).length) := by
        by_cases hne : quiet = []
        · subst hne
          refine .inr ⟨fun k => ?_, by simp [different]⟩
          rcases hg with ⟨rfl, hi⟩ | hg
          · rw [List.append_nil] at hl
            generalize e : ([] : List FsAttempt) = h at hl
            cases hl with
            | start => simp [FsLogger.ctor]
            | attempt => simp at e
          · rw [List.append_nil] at hstate
            rw [hstate, hg]
            simp
        · obtain ⟨b1, b2, b3⟩ := a2 hne
          rw [b1, b2]
          exact b3
      have hprinted : ∀ a ∈ quiet ++ [x], ∀ line, a.printed = some line → line.enters = false := by
        intro a ha line' hp
        rcases List.mem_append.1 ha with ha | ha
        · exact a1 a ha line' hp
        · rw [List.mem_singleton] at ha
          rw [ha, hx] at hp
          rcases output_cases hout with ⟨h1, -⟩ | ⟨h1, -⟩
          · rw [h1] at hp
            cases hp
          · rw [h1] at hp
            dsimp only at hp
            split_ifs at hp
            cases hp
            rfl
      refine ⟨hprinted, fun _ => ?_⟩
      rcases output_cases hout with ⟨-, rfl, hc⟩ | ⟨-, hlen, hkey, rfl⟩
      · refine ⟨removeOutdated_idem _ _, rfl, ?_⟩
        dsimp only
        rcases hlogs with hlogs | ⟨c1, c2⟩
        · exact .inl hlogs
        · rcases hc with hc | hc
          · rw [hmax] at hc
            exact .inl hc
          · have hin : location ++ " @ " ++ reason ∈ quiet.map FsAttempt.text := (c1 _).1 hc
            refine .inr ⟨fun k => ?_, ?_⟩
            · rw [c1 k, List.map_append, List.mem_append]
              refine ⟨.inl, fun h => h.elim id (fun h => ?_)⟩
              rw [hx] at h
              simp only [List.map_cons, List.map_nil, List.mem_singleton] at h
              rw [h]
              exact hin
            · refine Nat.le_trans ?_ c2
              unfold different
              rw [List.map_append, hx]
              refine le_of_eq ?_
              have : (quiet.map FsAttempt.text ++ [FsAttempt.text ⟨now, false, location, reason, line⟩]).dedup.length =
                  (quiet.map FsAttempt.text).dedup.length := by
                apply List.Perm.length_eq
                refine (List.perm_ext_iff_of_nodup (List.nodup_dedup _) (List.nodup_dedup _)).2 (fun k => ?_)
                rw [List.mem_dedup, List.mem_dedup, List.mem_append, List.mem_singleton]
                exact ⟨fun h => h.elim id (fun h => by rw [h]; exact hin), .inl⟩
              exact this
      · refine ⟨removeOutdated_snoc _ _, rfl, ?_⟩
        dsimp only
        rcases hlogs with hlogs | ⟨c1, c2⟩
        · rw [hmax] at hlen
          omega
        · refine .inr ⟨fun k => ?_, ?_⟩
          · rw [List.mem_cons, c1 k, List.map_append, List.mem_append, or_comm, hx]
            simp [FsAttempt.text]
          · rw [List.length_append, List.length_singleton]
            refine Nat.le_trans ?_ (Nat.add_le_add_right c2 1)
            unfold different
            rw [List.map_append]
            have : ((quiet.map FsAttempt.text) ++ [x].map FsAttempt.text).dedup.length ≤
                ((quiet.map FsAttempt.text).dedup ++ [x.text]).length := by
              apply List.Nodup.length_le_of_subset (List.nodup_dedup _)
              intro k hk
              rw [List.mem_dedup, List.mem_append] at hk
              rw [List.mem_append, List.mem_dedup]
              simpa using hk
            simpa using this

end Verif
