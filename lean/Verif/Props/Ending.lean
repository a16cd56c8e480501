import Verif.Spec.Ending
import Verif.Props.Reloading

/-! # Theorems about the end of the process (C142) -/

namespace Verif
open Dbl

section
variable [F : FloatModel]

theorem end_append {o : Opts} {late : Int} : ∀ {es es' : List EndEvent} {s s' : Ending},
    EndRun o late s (es ++ es') s' ↔ ∃ x, EndRun o late s es x ∧ EndRun o late x es' s'
  | [], es', s, s' => ⟨fun h => ⟨s, .nil, h⟩, fun ⟨x, h1, h2⟩ => by cases h1; exact h2⟩
  | e :: es, es', s, s' => by
    constructor
    · intro h
      cases h with
      | cons h1 h2 =>
        obtain ⟨x, h3, h4⟩ := end_append.1 h2
        exact ⟨x, .cons h1 h3, h4⟩
    · rintro ⟨x, h1, h2⟩
      cases h1 with
      | cons h3 h4 => exact .cons h3 (end_append.2 ⟨x, h4, h2⟩)

/-- what an attempt to terminate comes to -/
theorem end_attempted {o : Opts} {s s' : Ending} (h : s.attempt o = .ok s') :
    (s.daemon.tries.whole.NoneRuns ∧ ∃ w, s.daemon.tries.whole.stop o = .ok w ∧ s' = ⟨s.daemon, s.termAt, some w⟩) ∨
    (s.daemon.tries.whole.d.zones.isEmpty = false ∧ s'.now = s.now ∧ s'.daemon.tries.whole = s.daemon.tries.whole.cut ∧
      s'.daemon.tries.retryAt = s.daemon.tries.retryAt ∧ s'.daemon.busAt = s.daemon.busAt ∧ s'.daemon.hupAt = s.daemon.hupAt ∧
      s'.termAt = some (s.now + termDelay) ∧ s'.ended = none) := by
  unfold Ending.attempt at h
  split_ifs at h with h1
  · obtain ⟨w, h2, h3⟩ := bind_eq_ok.1 h
    cases h3
    exact .inl ⟨h1, w, h2, rfl⟩
  · cases h
    exact .inr ⟨by simpa using h1, rfl, rfl, rfl, rfl, rfl, rfl, rfl⟩

/-- a wait that ends before `b` -/
def soonBefore (b : Int) : Option Int → Int
  | some u => if u < b then 1 else 0
  | none => 0

omit F in
theorem soonBefore_nonneg (b : Int) (u : Option Int) : 0 ≤ soonBefore b u ∧ soonBefore b u ≤ 1 := by
  unfold soonBefore
  split
  · split_ifs <;> omega
  · omega

omit F in
theorem soonBefore_late {b u : Int} (h : b ≤ u) : soonBefore b (some u) = 0 := by
  unfold soonBefore
  dsimp only
  rw [if_neg (by omega)]

omit F in
theorem soonBefore_due {b u : Int} (h : u < b) : soonBefore b (some u) = 1 := by
  unfold soonBefore
  dsimp only
  rw [if_pos h]

/-- how often loops can still be in the way of the end -/
def Reloading.hurdles (b : Int) (s : Reloading) : Int :=
  soonBefore b s.tries.retryAt + soonBefore b s.busAt + soonBefore b s.hupAt + if s.tries.whole.d.zones.isEmpty then 0 else 1

theorem hurdles_bounds (b : Int) (s : Reloading) : 0 ≤ s.hurdles b := by
  unfold Reloading.hurdles
  have h1 := soonBefore_nonneg b s.tries.retryAt
  have h2 := soonBefore_nonneg b s.busAt
  have h3 := soonBefore_nonneg b s.hupAt
  split_ifs <;> omega

/-- an attempt that a timer led to removes a hurdle for the one it may put up -/
theorem attempt_hurdles {o : Opts} {r : Found} {b : Int} {s s' : Retrying} (h : s.attempt o r = .ok s') (hb : b ≤ s.now + 10000) :
    s'.now = s.now ∧ soonBefore b s'.retryAt ≤ soonBefore b s.retryAt := by
  have hd : retryDelay = 10000 := rfl
  have h0 := soonBefore_nonneg b s.retryAt
  obtain ⟨h1, ⟨-, -, ⟨-, h2⟩ | ⟨-, h2⟩⟩ | ⟨-, -, h2⟩⟩ := attempted h
  · exact ⟨h1, by rw [h2, soonBefore_late (by omega)]; exact h0.1⟩
  · exact ⟨h1, by rw [h2]⟩
  · exact ⟨h1, by rw [h2, soonBefore_late (by omega)]; exact h0.1⟩

/-- while the process goes on after SIGTERM at time `t` -/
structure Ending.Going (late t : Int) (s : Ending) : Prop where
  armed : ∃ u, s.termAt = some u ∧ s.now ≤ u + late ∧ u ≤ t + 50 + (3 - s.daemon.hurdles (t + 1000)) * (50 + late)
  since : t ≤ s.now

theorem Ending.Going.bound {late t : Int} (hl : 0 ≤ late) {s : Ending} (g : s.Going late t) : s.now ≤ t + 200 + 4 * late := by
  obtain ⟨u, -, h1, h2⟩ := g.armed
  have h3 := hurdles_bounds (t + 1000) s.daemon
  have h4 : (3 - s.daemon.hurdles (t + 1000)) * (50 + late) ≤ 3 * (50 + late) :=
    mul_le_mul_of_nonneg_right (by omega) (by omega)
  omega

theorem going_of_le {late t u : Int} (hl : 0 ≤ late) {s s' : Ending} (hu : s'.termAt = some u)
    (hn : s'.now ≤ u + late) (h : u ≤ t + 50 + (3 - s.daemon.hurdles (t + 1000)) * (50 + late)) (ht : t ≤ s'.now)
    (hle : s'.daemon.hurdles (t + 1000) ≤ s.daemon.hurdles (t + 1000)) : s'.Going late t := by
  refine ⟨⟨u, hu, hn, ?_⟩, ht⟩
  have h4 : (3 - s.daemon.hurdles (t + 1000)) * (50 + late) ≤ (3 - s'.daemon.hurdles (t + 1000)) * (50 + late) :=
    mul_le_mul_of_nonneg_right (by omega) (by omega)
  omega

/-- an attempt to terminate that finds loops -/
theorem going_cut {o : Opts} {late t : Int} (hl : 0 ≤ late) {s s' : Ending} (h : s.attempt o = .ok s') {u : Int}
    (hn : s.now ≤ u + late) (hu : u ≤ t + 50 + (3 - s.daemon.hurdles (t + 1000)) * (50 + late)) (ht : t ≤ s.now) :
    s'.ended.isSome = true ∨ s'.Going late t := by
  have hd : termDelay = 50 := rfl
  rcases end_attempted h with ⟨-, w, -, rfl⟩ | ⟨h1, h2, h3, h4, h5, h6, h7, -⟩
  · exact .inl rfl
  · refine .inr ⟨⟨_, h7, by omega, ?_⟩, by omega⟩
    have e : s'.daemon.hurdles (t + 1000) = s.daemon.hurdles (t + 1000) - 1 := by
      have hz : s'.daemon.tries.whole.d.zones.isEmpty = true := by rw [h3]; rfl
      unfold Reloading.hurdles
      rw [h4, h5, h6, hz, h1]
      simp
    rw [e]
    have : (3 - (s.daemon.hurdles (t + 1000) - 1)) * (50 + late) = (3 - s.daemon.hurdles (t + 1000)) * (50 + late) + (50 + late) := by
      ring
    omega

theorem going_step {o : Opts} {late t : Int} (hl : 0 ≤ late) (hs : 4 * late < 800) {e : EndEvent} {s s' : Ending}
    (g : s.Going late t) (h : EndStep o late s e s') (hone : ∀ r, e ≠ .other (.start r)) :
    s'.ended.isSome = true ∨ s'.Going late t := by
  have hb := g.bound hl
  obtain ⟨u, hu, hn, hle⟩ := g.armed
  have hsince := g.since
  have hbd : busDelay = 2000 := rfl
  have hhd : hupDelay = 1000 := rfl
  have n1 := soonBefore_nonneg (t + 1000) s.daemon.tries.retryAt
  have n2 := soonBefore_nonneg (t + 1000) s.daemon.busAt
  have n3 := soonBefore_nonneg (t + 1000) s.daemon.hupAt
  unfold Ending.now at hb hn hsince
  cases h with
  | sigterm _ h => exact going_cut hl h hn hle hsince
  | term _ _ _ h =>
    exact going_cut (s := { s with
      termAt := none }) hl h hn hle hsince
  | pass _ h1 h2 =>
    right
    cases h2 with
    | pass _ _ h2 =>
      cases h2 with
      | pass h3 _ => exact going_of_le hl hu (h1 u hu) hle (le_trans hsince h3) (le_refl _)
  | other _ hp h =>
    right
    cases h with
    | event h =>
      cases h with
      | event h =>
        refine going_of_le hl hu hn hle hsince (le_of_eq ?_)
        unfold Reloading.hurdles
        dsimp only
        rw [empty_step h]
    | start _ => exact absurd rfl (hone _)
    | signal =>
      refine going_of_le hl hu hn hle hsince ?_
      unfold Reloading.hurdles
      dsimp only
      have e1 : soonBefore (t + 1000) (some (s.daemon.tries.now + busDelay)) = 0 := soonBefore_late (by omega)
      split_ifs <;> omega
    | hangup =>
      refine going_of_le hl hu hn hle hsince ?_
      unfold Reloading.hurdles
      dsimp only
      rw [soonBefore_late (b := t + 1000) (u := s.daemon.tries.now + hupDelay) (by omega)]
      omega
    | bus j1 j2 h =>
      cases h with
      | request h =>
        obtain ⟨k1, k2⟩ := attempt_hurdles (b := t + 1000) h (by omega)
        refine going_of_le hl hu (le_of_eq_of_le k1 hn) hle (le_of_le_of_eq hsince k1.symm) ?_
        have : soonBefore (t + 1000) s.daemon.busAt = 1 := by rw [j1]; exact soonBefore_due (by omega)
        unfold Reloading.hurdles
        simp only [Reloading.after]
        rw [this]
        have e0 : soonBefore (t + 1000) none = 0 := rfl
        rw [e0]
        split_ifs <;> omega
    | hup j1 j2 h =>
      cases h with
      | request h =>
        obtain ⟨k1, k2⟩ := attempt_hurdles (b := t + 1000) h (by omega)
        refine going_of_le hl hu (le_of_eq_of_le k1 hn) hle (le_of_le_of_eq hsince k1.symm) ?_
        have : soonBefore (t + 1000) s.daemon.hupAt = 1 := by rw [j1]; exact soonBefore_due (by omega)
        unfold Reloading.hurdles
        simp only [Reloading.after]
        rw [this]
        have e0 : soonBefore (t + 1000) none = 0 := rfl
        rw [e0]
        split_ifs <;> omega
    | retry h =>
      cases h with
      | retry j1 j2 h =>
        obtain ⟨k1, k2⟩ := attempt_hurdles (b := t + 1000) h (by show _ ≤ s.daemon.tries.now + 10000; omega)
        refine going_of_le hl hu (le_of_eq_of_le k1 hn) hle (le_of_le_of_eq hsince k1.symm) ?_
        have : soonBefore (t + 1000) s.daemon.tries.retryAt = 1 := by rw [j1]; exact soonBefore_due (by omega)
        have e0 : soonBefore (t + 1000) none = 0 := rfl
        dsimp only at k2
        rw [e0] at k2
        unfold Reloading.hurdles
        simp only [Reloading.after]
        rw [this]
        split_ifs <;> omega
    | pass _ _ _ => exact absurd rfl (hp _)

theorem end_stays {o : Opts} {late : Int} {es : List EndEvent} {s s' : Ending} (h : EndRun o late s es s')
    (he : s.ended.isSome = true) : es = [] ∧ s' = s := by
  cases h with
  | nil => exact ⟨rfl, rfl⟩
  | cons h1 _ =>
    exfalso
    cases h1 with
    | other k _ _ => rw [k] at he; cases he
    | pass k _ _ => rw [k] at he; cases he
    | sigterm k _ => rw [k] at he; cases he
    | term k _ _ _ => rw [k] at he; cases he

/-- **C142** After SIGTERM the process ends within a fifth of a second (and four times the lateness of a timer, which is less than a
fifth of a second), whatever else happens: restarts that fall into this time, SIGHUP, signals on the bus or further SIGTERMs do not
keep it alive. -/
theorem C142_ends {o : Opts} {late : Int} (hl : 0 ≤ late) (hs : 4 * late < 800) {es : List EndEvent} {s s' : Ending}
    (h : EndRun o late s (.sigterm :: es) s') (hone : OneStart es) :
    s'.ended.isSome = true ∨ s'.now ≤ s.now + 200 + 4 * late := by
  have key : ∀ {es : List EndEvent} {x x' : Ending}, EndRun o late x es x' → OneStart es →
      (x.ended.isSome = true ∨ x.Going late s.now) → x'.ended.isSome = true ∨ x'.Going late s.now := by
    intro es x x' h
    induction h with
    | nil => exact fun _ h => h
    | @cons x x1 x2 e es k1 k2 ih =>
      intro hone hx
      rcases hx with hx | hx
      · obtain ⟨k3, -⟩ := end_stays (.cons k1 k2) hx
        cases k3
      · exact ih (fun r hr => hone r (List.mem_cons_of_mem _ hr))
          (going_step hl hs hx k1 (fun r hr => hone r (hr ▸ List.mem_cons_self)))
  cases h with
  | @cons _ s1 _ _ _ k1 k2 =>
    have hd : termDelay = 50 := rfl
    have h1 : s1.ended.isSome = true ∨ s1.Going late s.now := by
      cases k1 with
      | sigterm _ k =>
        rcases end_attempted k with ⟨-, w, -, rfl⟩ | ⟨h1, h2, h3, h4, h5, h6, h7, -⟩
        · exact .inl rfl
        · refine .inr ⟨⟨_, h7, by omega, ?_⟩, by omega⟩
          have hz : s1.daemon.tries.whole.d.zones.isEmpty = true := by rw [h3]; rfl
          have hh : s1.daemon.hurdles (s.now + 1000) ≤ 3 := by
            unfold Reloading.hurdles
            rw [hz]
            have n1 := soonBefore_nonneg (s.now + 1000) s1.daemon.tries.retryAt
            have n2 := soonBefore_nonneg (s.now + 1000) s1.daemon.busAt
            have n3 := soonBefore_nonneg (s.now + 1000) s1.daemon.hupAt
            simp only [if_true]
            omega
          have : 0 ≤ (3 - s1.daemon.hurdles (s.now + 1000)) * (50 + late) := mul_nonneg (by omega) (by omega)
          omega
    rcases key k2 hone h1 with h | h
    · exact .inl h
    · exact .inr (h.bound hl)

theorem ended_step {o : Opts} {late : Int} {e : EndEvent} {s s' : Ending} (h : EndStep o late s e s') {w : World}
    (he : s'.ended = some w) : s'.daemon.tries.whole.NoneRuns ∧ s'.daemon.tries.whole.stop o = .ok w := by
  cases h with
  | other k _ _ => dsimp only at he; rw [k] at he; cases he
  | pass k _ _ => dsimp only at he; rw [k] at he; cases he
  | sigterm _ k =>
    rcases end_attempted k with ⟨h1, w', h2, rfl⟩ | ⟨-, -, -, -, -, -, -, h8⟩
    · cases he; exact ⟨h1, h2⟩
    · rw [h8] at he; cases he
  | term _ _ _ k =>
    rcases end_attempted k with ⟨h1, w', h2, rfl⟩ | ⟨-, -, -, -, -, -, -, h8⟩
    · cases he; exact ⟨h1, h2⟩
    · rw [h8] at he; cases he

theorem ended_run {o : Opts} {late : Int} {es : List EndEvent} {s s' : Ending} (h : EndRun o late s es s') (hs : s.ended = none)
    {w : World} (he : s'.ended = some w) : s'.daemon.tries.whole.NoneRuns ∧ s'.daemon.tries.whole.stop o = .ok w := by
  induction h with
  | nil => rw [hs] at he; cases he
  | @cons s s1 s2 e es k1 k2 ih =>
    cases h1 : s1.ended with
    | none => exact ih h1 he
    | some w' =>
      obtain ⟨rfl, rfl⟩ := end_stays k2 (by rw [h1]; rfl)
      exact ended_step k1 he

/-- **C142** When the process ends, no loop runs, and the zones that are there are left as the option says. -/
theorem C142_final {o : Opts} {late : Int} {es : List EndEvent} {s s' : Ending} (h : EndRun o late s es s') (hs : s.ended = none)
    {w : World} (he : s'.ended = some w) : s'.daemon.tries.whole.NoneRuns ∧ Leaves o s'.daemon.tries.whole w := by
  obtain ⟨h1, h2⟩ := ended_run h hs he
  exact ⟨h1, C123_end h2⟩

/-- **C142** When no loop runs, SIGTERM ends the process at once. -/
theorem C142_at_once {o : Opts} {late : Int} {s s' : Ending} (h : EndStep o late s .sigterm s') (hs : s.daemon.tries.whole.NoneRuns) :
    ∃ w, s'.ended = some w ∧ Leaves o s.daemon.tries.whole w := by
  cases h with
  | sigterm _ k =>
    rcases end_attempted k with ⟨-, w, h2, rfl⟩ | ⟨h1, -⟩
    · exact ⟨w, rfl, C123_end h2⟩
    · unfold Whole.NoneRuns at hs
      rw [hs] at h1; cases h1

/-- between SIGTERM and the end, when no restart is attempted -/
structure Ending.Held (late t : Int) (s s0 : Ending) : Prop where
  none : s.daemon.tries.whole.NoneRuns
  zones : s.daemon.tries.whole.idle = s0.daemon.tries.whole.all
  trace : s.daemon.tries.whole.d.w.trace = s0.daemon.tries.whole.d.w.trace
  armed : s.termAt = some (t + 50)
  bound : s.now ≤ t + 50 + late
  goes : s.ended = .none

theorem held_step {o : Opts} {late t : Int} {e : EndEvent} {s0 s s' : Ending} (g : s.Held late t s0) (h : EndStep o late s e s')
    (hno : ∀ e' r, e = .other e' → ¬ e'.Attempts r) : (∃ w, s'.ended = some w ∧ s' = ⟨s.daemon, s'.termAt, some w⟩) ∨ s'.Held late t s0 := by
  obtain ⟨g1, g2, g3, g4, g5, g6⟩ := g
  unfold Ending.now at g5
  cases h with
  | sigterm _ k =>
    rcases end_attempted k with ⟨-, w, h2, rfl⟩ | ⟨h1, -⟩
    · exact .inl ⟨w, rfl, rfl⟩
    · unfold Whole.NoneRuns at g1
      rw [g1] at h1; cases h1
  | term _ _ _ k =>
    rcases end_attempted k with ⟨-, w, h2, rfl⟩ | ⟨h1, -⟩
    · exact .inl ⟨w, rfl, rfl⟩
    · unfold Whole.NoneRuns at g1
      dsimp only at h1
      rw [g1] at h1; cases h1
  | pass _ h1 h2 =>
    right
    cases h2 with
    | pass _ _ h2 =>
      cases h2 with
      | pass h3 _ => exact ⟨g1, g2, g3, g4, h1 _ g4, g6⟩
  | other _ hp h =>
    right
    cases h with
    | event h =>
      cases h with
      | event h =>
        exact ⟨(empty_step h).trans g1, g2, (quiet_run (es := [_]) (by unfold Daemon.run; rw [h]; rfl) g1).trans g3, g4, g5, g6⟩
    | start _ => exact absurd (.inl rfl) (hno _ _ rfl)
    | signal => exact ⟨g1, g2, g3, g4, g5, g6⟩
    | hangup => exact ⟨g1, g2, g3, g4, g5, g6⟩
    | bus _ _ _ => exact absurd (.inr (.inl rfl)) (hno _ _ rfl)
    | hup _ _ _ => exact absurd (.inr (.inr (.inl rfl))) (hno _ _ rfl)
    | retry _ => exact absurd (.inr (.inr (.inr rfl))) (hno _ _ rfl)
    | pass _ _ _ => exact absurd rfl (hp _)

/-- **C142** Unless a restart happens to be attempted meanwhile, the process ends within 50 ms of SIGTERM (and the lateness of the
timer). From SIGTERM on the loops write nothing, and what is left behind are the fans of the zones that ran, treated as the option
says. -/
theorem C142_leaves {o : Opts} {late : Int} (hl : 0 ≤ late) {es : List EndEvent} {s s' : Ending}
    (h : EndRun o late s (.sigterm :: es) s') (hno : NoAttempt es) :
    (s'.ended = none ∧ s'.now ≤ s.now + 50 + late ∧ s'.daemon.tries.whole.d.w.trace = s.daemon.tries.whole.d.w.trace) ∨
    (s'.now ≤ s.now + 50 + late ∧ ∃ w w0, s'.ended = some w ∧ w0.trace = s.daemon.tries.whole.d.w.trace ∧
      (o.offlineFailsafePwm = true → LeftSafe w0 s.daemon.tries.whole.all w) ∧ (o.offlineFailsafePwm = false → w = w0)) := by
  have key : ∀ {es : List EndEvent} {x x' : Ending}, EndRun o late x es x' → NoAttempt es → x.Held late s.now s →
      x'.Held late s.now s ∨ ∃ (y : Ending) (w : World), y.Held late s.now s ∧ x'.ended = some w ∧ x'.daemon = y.daemon := by
    intro es x x' h
    induction h with
    | nil => exact fun _ h => .inl h
    | @cons x x1 x2 e es k1 k2 ih =>
      intro hno hx
      rcases held_step hx k1 (fun e' r he => hno e' r (he ▸ List.mem_cons_self)) with ⟨w, h1, h2⟩ | h1
      · obtain ⟨-, rfl⟩ := end_stays k2 (by rw [h1]; rfl)
        exact .inr ⟨x, w, hx, h1, by rw [h2]⟩
      · exact ih (fun e' r he => hno e' r (List.mem_cons_of_mem _ he)) h1
  have hd : termDelay = 50 := rfl
  cases h with
  | @cons _ s1 _ _ _ k1 k2 =>
    cases k1 with
    | sigterm hs k =>
      rcases end_attempted k with ⟨-, w, h2, rfl⟩ | ⟨h1, h2, h3, h4, h5, h6, h7, h8⟩
      · obtain ⟨-, rfl⟩ := end_stays k2 rfl
        obtain ⟨a1, a2⟩ := C123_end h2
        refine .inr ⟨?_, w, _, rfl, rfl, a1, a2⟩
        show s.now ≤ _
        omega
      · have g : s1.Held late s.now s := by
          refine ⟨by rw [h3]; rfl, by rw [h3]; rfl, by rw [h3]; rfl, by rw [h7, hd], by omega, h8⟩
        rcases key k2 hno g with g' | ⟨y, w, g', he, hy⟩
        · exact .inl ⟨g'.goes, g'.bound, g'.trace⟩
        · obtain ⟨b1, b2⟩ := ended_run k2 h8 he
          obtain ⟨a1, a2⟩ := C123_end b2
          have ha : s'.daemon.tries.whole.all = s.daemon.tries.whole.all := by
            have hz : s'.daemon.tries.whole.d.zones.entries = [] := by
              have := b1
              unfold Whole.NoneRuns OMap.isEmpty at this
              simpa using this
            rw [← g'.zones, ← hy]
            unfold Whole.all
            rw [hz]
            rfl
          rw [ha] at a1
          have hb := g'.bound
          unfold Ending.now at hb
          refine .inr ⟨by unfold Ending.now; rw [hy]; exact hb, w, _, he, ?_, a1, a2⟩
          rw [hy]
          exact g'.trace

end

namespace Ex
section
attribute [local instance] binary64

/-- carries out a step -/
def step142 (late : Int) (s : Ending) (e : EndEvent) : Option Ending :=
  if s.ended.isNone then
    match e with
    | .other (.pass t) => if may141 s.termAt late t then (step141 late s.daemon (.pass t)).map fun x => ⟨x, s.termAt, s.ended⟩ else none
    | .other e => (step141 late s.daemon e).map fun x => ⟨x, s.termAt, s.ended⟩
    | .sigterm => (s.attempt {}).toOption
    | .term => if due141 s.termAt s.now then (Ending.attempt {} ⟨s.daemon, none, s.ended⟩).toOption else none
  else none

theorem toOption_some {α : Type} {x : Res α} {a : α} (h : x.toOption = some a) : x = .ok a := by
  cases x with
  | ok b => cases h; rfl
  | error e => cases h

theorem step142_sound {late : Int} {s s' : Ending} {e : EndEvent} (h : step142 late s e = some s') : EndStep {} late s e s' := by
  unfold step142 at h
  by_cases hi : s.ended.isNone = true
  swap
  · rw [if_neg hi] at h; cases h
  rw [if_pos hi] at h
  have hn := Option.isNone_iff_eq_none.1 hi
  split at h
  · split_ifs at h with hm
    obtain ⟨x, h1, rfl⟩ := Option.map_eq_some_iff.1 h
    exact .pass hn (may141_some hm) (step141_sound h1)
  · rename_i hp
    obtain ⟨x, h1, rfl⟩ := Option.map_eq_some_iff.1 h
    exact .other hn (fun t ht => hp t (by rw [ht])) (step141_sound h1)
  · exact .sigterm hn (toOption_some h)
  · split_ifs at h with hd
    obtain ⟨u, h2, h3⟩ := due141_some hd
    exact .term hn h2 h3 (toOption_some h)

/-- carries out steps -/
def steps142 (late : Int) : Ending → List EndEvent → Option Ending
  | s, [] => some s
  | s, e :: es =>
    match step142 late s e with
    | some s' => steps142 late s' es
    | none => none

theorem steps142_run {late : Int} : ∀ {es : List EndEvent} {s s' : Ending}, steps142 late s es = some s' → EndRun {} late s es s'
  | [], s, s', h => by cases h; exact .nil
  | e :: es, s, s', h => by
    unfold steps142 at h
    split at h
    · exact .cons (step142_sound ‹_›) (steps142_run h)
    · cases h

def sum142 (s : Ending) : Int × List Int × Option Int × Bool :=
  (s.now, s.daemon.tries.whole.d.zones.entries.map (fun e => e.1), s.termAt, s.ended.isSome)

/-- the loops run, and SIGHUP came 980 ms ago -/
def start142 : List EndEvent := [.other (.start file140), .other (.pass 5000), .other .hangup, .other (.pass 5980)]

/-- a restart gets in the way; the process ends after 102 ms nevertheless -/
def late142 : List EndEvent := [.other (.pass 6000), .other (.hup file140), .other (.pass 6031), .term, .other (.pass 6082), .term]

example : (steps142 100 (.init world113 0) (start142 ++ .sigterm :: late142.take 2)).map sum142 = some (6000, [3], some 6030, false) := by
  decide +kernel
example : (steps142 100 (.init world113 0) (start142 ++ .sigterm :: late142.take 4)).map sum142 = some (6031, [], some 6081, false) := by
  decide +kernel
example : (steps142 100 (.init world113 0) (start142 ++ .sigterm :: late142)).map sum142 = some (6082, [], none, true) := by
  decide +kernel

/-- C142_ends and C142_final on this -/
example : ∃ s s', EndRun {} 100 s (.sigterm :: late142) s' ∧ s.now = 5980 ∧ (s'.ended.isSome = true ∨ s'.now ≤ 5980 + 200 + 4 * 100) ∧
    ∃ w, s'.ended = some w ∧ Leaves {} s'.daemon.tries.whole w := by
  obtain ⟨s, h1, hP⟩ := any_some (x := steps142 100 (.init world113 0) start142)
    (P := fun s : Ending => decide (s.now = 5980) && s.ended.isNone &&
      (steps142 100 s (.sigterm :: late142)).any (fun s' : Ending => s'.ended.isSome)) (by decide +kernel)
  simp only [Bool.and_eq_true, decide_eq_true_eq, Option.isNone_iff_eq_none] at hP
  obtain ⟨⟨hn, he⟩, hP⟩ := hP
  obtain ⟨s', h2, h3⟩ := any_some hP
  obtain ⟨w, hw⟩ := Option.isSome_iff_exists.1 h3
  refine ⟨s, s', steps142_run h2, hn, ?_, w, hw, (C142_final (steps142_run h2) he hw).2⟩
  have := C142_ends (by decide) (by decide) (steps142_run h2) (fun r hr => by simp [late142] at hr)
  rw [hn] at this
  exact this

/-- with the option and no restart in the way, what the process leaves behind -/
example : ((do
    let s ← steps142 100 (.init world113 0) [.other (.start conf141), .other (.pass 5000), .other (.event (.tick 3))]
    let s ← (s.attempt { offlineFailsafePwm := true }).toOption
    let s ← (Ending.attempt { offlineFailsafePwm := true } s).toOption
    s.ended : Option World).map (fun w => w.trace)) = some
      [.dbusSet "/xyz/openbmc_project/control/fanpwm/Pwm_1" 76 true, .dbusSet "/xyz/openbmc_project/control/fanpwm/Pwm_1" 191 true] := by decide +kernel

end
end Ex
end Verif
