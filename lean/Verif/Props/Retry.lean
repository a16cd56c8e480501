import Verif.Spec.Retry
import Verif.Props.Whole

/-! # Theorems about the attempts to start the loops (C140) -/

namespace Verif
open Dbl

section
variable [F : FloatModel]

theorem retry_append {o : Opts} {late : Int} : ∀ {es es' : List RetryEvent} {s s' : Retrying},
    RetryRun o late s (es ++ es') s' ↔ ∃ x, RetryRun o late s es x ∧ RetryRun o late x es' s'
  | [], es', s, s' => ⟨fun h => ⟨s, .nil, h⟩, fun ⟨x, h1, h2⟩ => by cases h1; exact h2⟩
  | e :: es, es', s, s' => by
    constructor
    · intro h
      cases h with
      | cons h1 h2 =>
        obtain ⟨x, h3, h4⟩ := retry_append.1 h2
        exact ⟨x, .cons h1 h3, h4⟩
    · rintro ⟨x, h1, h2⟩
      cases h1 with
      | cons h3 h4 => exact .cons h3 (retry_append.2 ⟨x, h4, h2⟩)

/-- a reload leaves all zones running, or arms the timer, or leaves nothing -/
theorem reload_rests {o : Opts} {r : Found} {s s' : Whole} (h : s.reload o r = .ok s') (ha : s'.again = false) :
    s'.AllRun ∨ (s'.NoneRuns ∧ s'.idle = []) := by
  obtain ⟨w, -, ⟨b, rfl⟩ | ⟨c, m, -, -, h4, -⟩⟩ := reload_cases h
  · exact .inr ⟨rfl, rfl⟩
  · left
    obtain ⟨-, -, ⟨-, -, e2, -⟩ | ⟨zones, e, e2, e3, e4, e5, -⟩⟩ := startBuilt_cases h4
    · rw [ha] at e2; cases e2
    · rw [ha] at e5
      cases e with
      | some x => cases e5
      | none =>
        obtain ⟨k1, k2⟩ := startSome_none e4
        refine ⟨ha, k2, ?_⟩
        cases hl : zones.entries with
        | nil => rw [OMap.isEmpty, hl] at e3; cases e3
        | cons e l =>
          obtain ⟨i, z⟩ := e
          obtain ⟨a, -⟩ := startZones_find? (OMap.wf_nodup (buildZones_wf e2)) k1 i
          obtain ⟨z0, -, hz⟩ := a z (by rw [hl]; exact List.mem_cons_self)
          exact (OMap.isEmpty_false_iff _).2 ⟨i, _, hz⟩

/-- what an attempt comes to -/
theorem attempted {o : Opts} {r : Found} {s s' : Retrying} (h : s.attempt o r = .ok s') :
    s'.now = s.now ∧
    ((s.whole.NoneRuns ∧ s.whole.reload o r = .ok s'.whole ∧
        ((s'.whole.again = true ∧ s'.retryAt = some (s.now + retryDelay)) ∨
          (s'.whole.again = false ∧ s'.retryAt = s.retryAt))) ∨
      (s.whole.d.zones.isEmpty = false ∧ s'.whole = s.whole.suspended ∧ s'.retryAt = some (s.now + retryDelay))) := by
  unfold Retrying.attempt at h
  split_ifs at h with h1
  · obtain ⟨w, h2, h3⟩ := bind_eq_ok.1 h
    cases h3
    refine ⟨rfl, .inl ⟨h1, h2, ?_⟩⟩
    cases ha : w.again
    · exact .inr ⟨rfl, by simp⟩
    · exact .inl ⟨rfl, by simp⟩
  · cases h
    exact ⟨rfl, .inr ⟨by simpa using h1, rfl, rfl⟩⟩

/-- an attempt that finds no loop running and everything ready -/
theorem attempt_ready {o : Opts} {r : Found} {s s' : Retrying} (h : s.attempt o r = .ok s') (hn : s.whole.NoneRuns)
    (hr : r.Ready o s.whole) : s'.whole.AllRun ∧ s'.retryAt = s.retryAt ∧
      ∃ w, s.whole.stop o = .ok w ∧ attempt o r.conf r.files r.objects r.order r.bus r.now w = .running s'.whole.d := by
  obtain ⟨-, ⟨-, h1, h2⟩ | ⟨h1, -⟩⟩ := attempted h
  · obtain ⟨w, hw, -⟩ := reload_cases h1
    obtain ⟨d, hd⟩ := hr.1 w hw
    obtain ⟨s2, h3, h4, h5⟩ := C123_reloads hw hd hr.2
    rw [h1] at h3
    injection h3 with h3
    rw [← h3] at h4 h5
    refine ⟨h4, ?_, w, hw, by rw [h5]; exact hd⟩
    rcases h2 with ⟨h2, -⟩ | ⟨-, h2⟩
    · rw [h4.1] at h2; cases h2
    · exact h2
  · unfold Whole.NoneRuns at hn
    rw [hn] at h1; cases h1

/-- what holds between all steps -/
structure Retrying.Inv (late : Int) (s : Retrying) : Prop where
  armed : s.whole.again = true → s.retryAt.isSome = true
  rests : s.whole.again = false → s.whole.AllRun ∨ (s.whole.NoneRuns ∧ s.whole.idle = [])
  soon : ∀ u, s.retryAt = some u → u ≤ s.now + retryDelay
  run : ∀ u, s.retryAt = some u → s.now ≤ u + late

theorem Retrying.Inv.attempt {o : Opts} {late : Int} (hl : 0 ≤ late) {r : Found} {s s' : Retrying} (i : s.Inv late ∨ s.retryAt = none)
    (h : s.attempt o r = .ok s') : s'.Inv late := by
  have hd : (0 : Int) ≤ retryDelay := by decide
  obtain ⟨h0, ⟨-, h1, ⟨h2, h3⟩ | ⟨h2, h3⟩⟩ | ⟨-, h2, h3⟩⟩ := attempted h
  · refine ⟨fun _ => by rw [h3]; rfl, fun h => (by rw [h2] at h; cases h), fun u hu => ?_, fun u hu => ?_⟩
    all_goals rw [h3] at hu; cases hu; omega
  · refine ⟨fun h => (by rw [h2] at h; cases h), fun _ => reload_rests h1 h2, fun u hu => ?_, fun u hu => ?_⟩
    all_goals
      rw [h3] at hu; rw [h0]
      rcases i with i | i
      · first | exact i.soon u hu | exact i.run u hu
      · rw [i] at hu; cases hu
  · have h4 : s'.whole.again = true := by rw [h2]; rfl
    refine ⟨fun _ => by rw [h3]; rfl, fun h => (by rw [h4] at h; cases h), fun u hu => ?_, fun u hu => ?_⟩
    all_goals rw [h3] at hu; cases hu; omega

theorem Retrying.Inv.step {o : Opts} {late : Int} (hl : 0 ≤ late) {e : RetryEvent} {s s' : Retrying} (i : s.Inv late)
    (h : RetryStep o late s e s') : s'.Inv late := by
  cases h with
  | event h1 =>
    refine ⟨i.armed, fun ha => ?_, i.soon, i.run⟩
    have := empty_step h1
    rcases i.rests ha with ⟨a, b, c⟩ | ⟨a, b⟩
    · exact .inl ⟨a, b, this.trans c⟩
    · exact .inr ⟨this.trans a, b⟩
  | request h1 => exact Retrying.Inv.attempt hl (.inl i) h1
  | retry h1 h2 h3 => exact Retrying.Inv.attempt hl (.inr rfl) h3
  | pass h1 h2 =>
    refine ⟨i.armed, i.rests, fun u hu => ?_, fun u hu => h2 u hu⟩
    have := i.soon u hu
    show u ≤ _ + _
    dsimp only
    omega

theorem Retrying.Inv.run_inv {o : Opts} {late : Int} (hl : 0 ≤ late) {es : List RetryEvent} {s s' : Retrying} (i : s.Inv late)
    (h : RetryRun o late s es s') : s'.Inv late := by
  induction h with
  | nil => exact i
  | cons h1 _ ih => exact ih (i.step hl h1)

theorem Retrying.Inv.init (w : World) (t : Int) (late : Int) : (Retrying.init w t).Inv late :=
  ⟨fun h => (by cases h), fun _ => .inr ⟨rfl, rfl⟩, fun u h => (by cases h), fun u h => by cases h⟩

/-- **C140** No failure is forgotten: whatever happens to the daemon, between any two events all zones run, or the daemon will try
again at the latest ten seconds from then, or the configuration was not there when it was last looked for. -/
theorem C140_not_forgotten {o : Opts} {late : Int} (hl : 0 ≤ late) {w : World} {t0 : Int} {es : List RetryEvent} {s : Retrying}
    (h : RetryRun o late (Retrying.init w t0) es s) :
    s.whole.AllRun ∨ (∃ u, s.retryAt = some u ∧ u ≤ s.now + 10000) ∨
      (s.whole.NoneRuns ∧ s.whole.idle = [] ∧ s.whole.again = false) := by
  have i := (Retrying.Inv.init w t0 late).run_inv hl h
  cases ha : s.whole.again
  · rcases i.rests ha with k | ⟨k1, k2⟩
    · exact .inl k
    · exact .inr (.inr ⟨k1, k2, rfl⟩)
  · obtain ⟨u, hu⟩ := Option.isSome_iff_exists.1 (i.armed ha)
    exact .inr (.inl ⟨u, hu, i.soon u hu⟩)

/-- without an attempt loops neither start nor stop, and the timer is untouched -/
theorem between {o : Opts} {late : Int} {es : List RetryEvent} {s s' : Retrying} (h : RetryRun o late s es s') (h1 : NoRequest es)
    (h2 : NoRetry es) : s'.retryAt = s.retryAt ∧ s'.whole.d.zones.isEmpty = s.whole.d.zones.isEmpty ∧
      s'.whole.again = s.whole.again ∧ s'.whole.idle = s.whole.idle ∧ s'.whole.hosts = s.whole.hosts ∧
      (s.whole.NoneRuns → s'.whole.d.w.trace = s.whole.d.w.trace) := by
  induction h with
  | nil => exact ⟨rfl, rfl, rfl, rfl, rfl, fun _ => rfl⟩
  | @cons s s1 s2 e es k1 _ ih =>
    obtain ⟨a1, a2, a3, a4, a5, a6⟩ := ih (fun r hr => h1 r (List.mem_cons_of_mem _ hr)) (fun r hr => h2 r (List.mem_cons_of_mem _ hr))
    cases k1 with
    | event k =>
      have ke := empty_step k
      refine ⟨a1, a2.trans ke, a3, a4, a5, fun hn => (a6 (ke.trans hn)).trans ?_⟩
      exact quiet_run (es := [_]) (by unfold Daemon.run; rw [k]; rfl) hn
    | request k => exact absurd List.mem_cons_self (h1 _)
    | retry k1 k2 k3 => exact absurd List.mem_cons_self (h2 _)
    | pass k1 k2 => exact ⟨a1, a2, a3, a4, a5, a6⟩

omit F in
/-- the first retry of a sequence of events -/
theorem first_retry [FloatModel] : ∀ es : List RetryEvent, NoRetry es ∨ ∃ pre r post, es = pre ++ RetryEvent.retry r :: post ∧ NoRetry pre
  | [] => .inl fun _ h => by cases h
  | e :: es => by
    by_cases he : ∃ r, e = .retry r
    · obtain ⟨r, rfl⟩ := he
      exact .inr ⟨[], r, es, rfl, fun _ h => by cases h⟩
    · rcases first_retry es with h | ⟨pre, r, post, rfl, h⟩
      · refine .inl fun r hr => ?_
        rcases List.mem_cons.1 hr with hr | hr
        · exact he ⟨r, hr.symm⟩
        · exact h r hr
      · refine .inr ⟨e :: pre, r, post, rfl, fun r hr => ?_⟩
        rcases List.mem_cons.1 hr with hr | hr
        · exact he ⟨r, hr.symm⟩
        · exact h r hr

/-- time does not go back -/
theorem retry_now {o : Opts} {late : Int} {es : List RetryEvent} {s s' : Retrying} (h : RetryRun o late s es s') : s.now ≤ s'.now := by
  induction h with
  | nil => exact le_refl _
  | cons h1 _ ih =>
    refine le_trans ?_ ih
    cases h1 with
    | event _ => exact le_refl _
    | request h => rw [(attempted h).1]
    | retry _ _ h => rw [(attempted h).1]
    | pass h _ => exact h

theorem retry_step_det {o : Opts} {late : Int} {e : RetryEvent} {s x y : Retrying} (hx : RetryStep o late s e x)
    (hy : RetryStep o late s e y) : x = y := by
  cases hx with
  | event h1 => cases hy with | event h2 => rw [h1] at h2; cases h2; rfl
  | request h1 => cases hy with | request h2 => rw [h1] at h2; cases h2; rfl
  | retry _ _ h1 => cases hy with | retry _ _ h2 => rw [h1] at h2; cases h2; rfl
  | pass _ _ => cases hy with | pass _ _ => rfl

theorem retry_det {o : Opts} {late : Int} {es : List RetryEvent} {s x y : Retrying} (hx : RetryRun o late s es x)
    (hy : RetryRun o late s es y) : x = y := by
  induction hx with
  | nil => cases hy; rfl
  | cons h1 _ ih =>
    cases hy with
    | cons h2 h3 => exact ih (by rw [retry_step_det h1 h2]; exact h3)

/-- without a wait pending and without a request there is no attempt -/
theorem no_retry {o : Opts} {late : Int} {es : List RetryEvent} {s s' : Retrying} (h : RetryRun o late s es s') (h1 : NoRequest es)
    (h2 : s.retryAt = none) : NoRetry es := by
  induction h with
  | nil => exact fun _ h => by cases h
  | @cons s s1 s2 e es k1 _ ih =>
    have ht : s1.retryAt = none ∧ ∀ r, e ≠ .retry r := by
      cases k1 with
      | event k => exact ⟨h2, fun r hr => by cases hr⟩
      | request k => exact absurd List.mem_cons_self (h1 _)
      | retry k1 k2 k3 => rw [h2] at k1; cases k1
      | pass k1 k2 => exact ⟨h2, fun r hr => by cases hr⟩
    intro r hr
    rcases List.mem_cons.1 hr with hr | hr
    · exact ht.2 r hr.symm
    · exact ih (fun r hr => h1 r (List.mem_cons_of_mem _ hr)) ht.1 r hr

/-- **C140** When all zones run and no wait is pending, all zones go on running until somebody asks for a restart. -/
theorem C140_keeps {o : Opts} {late : Int} {es : List RetryEvent} {s s' : Retrying} (h : RetryRun o late s es s')
    (h1 : NoRequest es) (hs : s.whole.AllRun) (h2 : s.retryAt = none) : s'.whole.AllRun ∧ s'.retryAt = none := by
  obtain ⟨a1, a2, a3, a4, -, -⟩ := between h h1 (no_retry h h1 h2)
  exact ⟨⟨a3.trans hs.1, a4.trans hs.2.1, a2.trans hs.2.2⟩, a1.trans h2⟩

/-- **C140** When the configuration was not there, the daemon does not look for it again by itself: without a request no zone ever
runs and nothing is written to any fan. -/
theorem C140_waits {o : Opts} {late : Int} {es : List RetryEvent} {s s' : Retrying} (h : RetryRun o late s es s')
    (h1 : NoRequest es) (hs : s.Idle) : s'.Idle ∧ s'.whole.d.w.trace = s.whole.d.w.trace := by
  obtain ⟨a1, a2, -, -, -, a6⟩ := between h h1 (no_retry h h1 hs.2)
  exact ⟨⟨a2.trans hs.1, a1.trans hs.2⟩, a6 hs.1⟩

/-- from a wait for the next attempt while no loop runs -/
theorem starts_from_none {o : Opts} {late : Int} {es : List RetryEvent} {s s' : Retrying} (h : RetryRun o late s es s')
    (h1 : NoRequest es) (hs : s.whole.NoneRuns) {u : Int} (hu : s.retryAt = some u) (hnow : s.now ≤ u + late)
    (hg : ReadyThroughout o late s es) :
    (NoRetry es ∧ s'.now ≤ u + late) ∨ (s'.whole.AllRun ∧ s'.retryAt = none) := by
  have late_of : ∀ {es : List RetryEvent} {s s' : Retrying}, RetryRun o late s es s' → NoRequest es → NoRetry es →
      s.retryAt = some u → s.now ≤ u + late → s'.now ≤ u + late := by
    intro es s s' h
    induction h with
    | nil => exact fun _ _ _ h => h
    | @cons s s1 s2 e es k1 _ ih =>
      intro h1 h2 hu hn
      have h1' : NoRequest es := fun r hr => h1 r (List.mem_cons_of_mem _ hr)
      have h2' : NoRetry es := fun r hr => h2 r (List.mem_cons_of_mem _ hr)
      cases k1 with
      | event k => exact ih h1' h2' hu hn
      | request k => exact absurd List.mem_cons_self (h1 _)
      | retry k1 k2 k3 => exact absurd List.mem_cons_self (h2 _)
      | pass k1 k2 => exact ih h1' h2' hu (k2 u hu)
  rcases first_retry es with hr | ⟨pre, r, post, rfl, hp⟩
  · exact .inl ⟨hr, late_of h h1 hr hu hnow⟩
  · right
    obtain ⟨x, k1, k2⟩ := retry_append.1 h
    have hq1 : NoRequest pre := fun r hr => h1 r (List.mem_append_left _ hr)
    have hq2 : NoRequest post := fun r hr => h1 r (List.mem_append_right _ (List.mem_cons_of_mem _ hr))
    obtain ⟨-, a2, -, -, -, -⟩ := between k1 hq1 hp
    have hx : x.whole.NoneRuns := a2.trans hs
    cases k2 with
    | cons k3 k4 =>
      cases k3 with
      | retry k5 k6 k7 =>
        obtain ⟨b1, b2, -⟩ := attempt_ready k7 hx (hg pre r post x rfl k1 hx)
        exact C140_keeps k4 hq2 b1 b2

/-- **C140** From the moment on when what the daemon finds is ready — the sensors appeared on the bus, say — it takes at most ten
seconds (and the lateness of the timer) until all zones run, if none ran. -/
theorem C140_starts {o : Opts} {late : Int} (hl : 0 ≤ late) {w : World} {t0 : Int} {pre es : List RetryEvent} {s s' : Retrying}
    (h0 : RetryRun o late (Retrying.init w t0) pre s) (hs : s.whole.NoneRuns) (hp : s.retryAt.isSome = true)
    (h : RetryRun o late s es s') (h1 : NoRequest es) (hg : ReadyThroughout o late s es) (ht : s.now + 10000 + late < s'.now) :
    s'.whole.AllRun ∧ s'.retryAt = none := by
  have i := (Retrying.Inv.init w t0 late).run_inv hl h0
  obtain ⟨u, hu⟩ := Option.isSome_iff_exists.1 hp
  have hd : retryDelay = 10000 := rfl
  rcases starts_from_none h h1 hs hu (i.run u hu) hg with ⟨-, k⟩ | k
  · have := i.soon u hu
    omega
  · exact k

/-- from any wait for the next attempt -/
theorem retry_settles {o : Opts} {late : Int} (hl : 0 ≤ late) {es : List RetryEvent} {s s' : Retrying} (i : s.Inv late)
    (hp : s.retryAt.isSome = true) (h : RetryRun o late s es s') (h1 : NoRequest es) (hg : ReadyThroughout o late s es)
    (ht : s.now + 20000 + 2 * late < s'.now) : s'.whole.AllRun ∧ s'.retryAt = none := by
  obtain ⟨u, hu⟩ := Option.isSome_iff_exists.1 hp
  have hd : retryDelay = 10000 := rfl
  have hsoon := i.soon u hu
  by_cases hs : s.whole.NoneRuns
  · refine (starts_from_none h h1 hs hu (i.run u hu) hg).resolve_left ?_
    rintro ⟨-, k⟩
    omega
  · rcases first_retry es with hr | ⟨pre', r, post, rfl, hr⟩
    · have := (i.run_inv hl h).run u ((between h h1 hr).1.trans hu)
      omega
    · obtain ⟨x, k1, k2⟩ := retry_append.1 h
      have hq1 : NoRequest pre' := fun r hr => h1 r (List.mem_append_left _ hr)
      have hq2 : NoRequest post := fun r hr => h1 r (List.mem_append_right _ (List.mem_cons_of_mem _ hr))
      obtain ⟨a1, a2, -, -, -, -⟩ := between k1 hq1 hr
      have ix := i.run_inv hl k1
      have hxn := ix.run u (a1.trans hu)
      have hx : ¬ x.whole.NoneRuns := fun hx => hs (a2.symm.trans hx)
      cases k2 with
      | @cons _ y _ _ _ k3 k4 =>
        have iy := ix.step hl k3
        have k3' := k3
        cases k3 with
        | retry k5 k6 k7 =>
          obtain ⟨b0, ⟨b1, -⟩ | ⟨-, b2, b3⟩⟩ := attempted k7
          · exact absurd b1 hx
          · have hy : y.whole.NoneRuns := by rw [b2]; rfl
            refine (starts_from_none k4 hq2 hy b3 (iy.run _ b3) ?_).resolve_left ?_
            · intro p r' q z e kz hz
              refine hg (pre' ++ .retry r :: p) r' q z ?_ (retry_append.2 ⟨x, k1, .cons k3' kz⟩) hz
              rw [e]; simp
            · rintro ⟨-, k⟩
              dsimp only at k
              omega

/-- **C140** If some zones run while others could not be started, it takes at most twenty seconds (and twice the lateness): the next
attempt only stops the zones that run. -/
theorem C140_starts_anyhow {o : Opts} {late : Int} (hl : 0 ≤ late) {w : World} {t0 : Int} {pre es : List RetryEvent} {s s' : Retrying}
    (h0 : RetryRun o late (Retrying.init w t0) pre s) (hp : s.retryAt.isSome = true)
    (h : RetryRun o late s es s') (h1 : NoRequest es) (hg : ReadyThroughout o late s es) (ht : s.now + 20000 + 2 * late < s'.now) :
    s'.whole.AllRun ∧ s'.retryAt = none :=
  retry_settles hl ((Retrying.Inv.init w t0 late).run_inv hl h0) hp h h1 hg ht

/-- **C140** Without a request attempts are at least ten seconds apart. -/
theorem C140_apart {o : Opts} {late : Int} {mid : List RetryEvent} {s s' : Retrying} {r r' : Found} {e : RetryEvent}
    (he : e = .retry r ∨ (e = .request r ∧ s.retryAt = none)) (h : RetryRun o late s (e :: mid ++ [.retry r']) s') (h1 : NoRequest mid)
    (h2 : NoRetry mid) : s.now + 10000 ≤ s'.now := by
  have hd : retryDelay = 10000 := rfl
  obtain ⟨x, k1, k2⟩ := retry_append.1 h
  cases k1 with
  | @cons _ y _ _ _ k3 k4 =>
    obtain ⟨a1, -⟩ := between k4 h1 h2
    have hy : ∀ u, y.retryAt = some u → u = s.now + retryDelay := by
      intro u hu
      rcases he with rfl | ⟨rfl, he⟩
      · cases k3 with
        | retry k5 k6 k7 =>
          obtain ⟨-, ⟨-, -, ⟨-, b⟩ | ⟨-, b⟩⟩ | ⟨-, -, b⟩⟩ := attempted k7
          all_goals rw [b] at hu; cases hu
          all_goals rfl
      · cases k3 with
        | request k7 =>
          obtain ⟨-, ⟨-, -, ⟨-, b⟩ | ⟨-, b⟩⟩ | ⟨-, -, b⟩⟩ := attempted k7
          all_goals rw [b] at hu
          · cases hu; rfl
          · rw [he] at hu; cases hu
          · cases hu; rfl
    cases k2 with
    | cons k5 k6 =>
      cases k6
      cases k5 with
      | retry k7 k8 k9 =>
        have := hy _ (a1.symm.trans k7)
        rw [(attempted k9).1]
        dsimp only
        omega

/-- **C140** (finding) A request while loops run leaves the fans without control for ten seconds: until then nothing is written to
any fan, whatever happens, unless somebody asks again. -/
theorem C140_pause {o : Opts} {late : Int} {es : List RetryEvent} {s s' : Retrying} {r : Found}
    (h : RetryRun o late s (.request r :: es) s') (hs : s.whole.d.zones.isEmpty = false) (h1 : NoRequest es)
    (ht : s'.now < s.now + 10000) : s'.whole.NoneRuns ∧ s'.whole.d.w.trace = s.whole.d.w.trace ∧ s'.whole.all = s.whole.all := by
  have hd : retryDelay = 10000 := rfl
  cases h with
  | @cons _ y _ _ _ k3 k4 =>
    cases k3 with
    | request k7 =>
      obtain ⟨b0, ⟨b1, -⟩ | ⟨-, b2, b3⟩⟩ := attempted k7
      · unfold Whole.NoneRuns at b1; rw [hs] at b1; cases b1
      have hy : y.whole.NoneRuns := by rw [b2]; rfl
      have hr : NoRetry es := by
        rcases first_retry es with hr | ⟨pre, r', post, rfl, hp⟩
        · exact hr
        · obtain ⟨x, k1, k2⟩ := retry_append.1 k4
          obtain ⟨a1, -⟩ := between k1 (fun r hr => h1 r (List.mem_append_left _ hr)) hp
          have hx := retry_now k2
          cases k2 with
          | cons k5 k6 =>
            cases k5 with
            | retry k7 k8 k9 =>
              rw [a1, b3] at k7
              cases k7
              omega
      obtain ⟨a1, a2, a3, a4, a5, a6⟩ := between k4 h1 hr
      refine ⟨a2.trans hy, (a6 hy).trans (by rw [b2]; rfl), ?_⟩
      have hz : s'.whole.d.zones.entries = [] := by
        have : s'.whole.d.zones.isEmpty = true := a2.trans hy
        simpa [OMap.isEmpty] using this
      unfold Whole.all
      rw [hz, a4, b2]
      rfl

/-- **C140** A restart that was asked for while loops ran is complete ten seconds later, and the zones then run what is found at that
time. -/
theorem C140_restart {o : Opts} {late : Int} (hl : 0 ≤ late) {w : World} {t0 : Int} {pre es : List RetryEvent} {s s' : Retrying}
    {r : Found} (h0 : RetryRun o late (Retrying.init w t0) pre s) (hs : s.whole.d.zones.isEmpty = false)
    (h : RetryRun o late s (.request r :: es) s') (h1 : NoRequest es) (hg : ReadyThroughout o late s (.request r :: es))
    (ht : s.now + 10000 + late < s'.now) : s'.whole.AllRun ∧ s'.retryAt = none := by
  cases h with
  | @cons _ y _ _ _ k3 k4 =>
    have k3' := k3
    cases k3 with
    | request k7 =>
      obtain ⟨b0, ⟨b1, -⟩ | ⟨-, b2, b3⟩⟩ := attempted k7
      · unfold Whole.NoneRuns at b1; rw [hs] at b1; cases b1
      refine C140_starts hl (pre := pre ++ [.request r]) (retry_append.2 ⟨s, h0, .cons k3' .nil⟩) (by rw [b2]; rfl) (by rw [b3]; rfl)
        k4 h1 ?_ (by rw [b0]; exact ht)
      intro p r' q z e kz hz
      exact hg (.request r :: p) r' q z (by rw [e]; rfl) (.cons k3' kz) hz

/-- **C140** (finding) A request that succeeds does not call off the attempt that is pending: when its time comes, the loops are
stopped again for ten seconds, although nothing is wrong and nobody asked. -/
theorem C140_stopped_again {o : Opts} {late : Int} {mid es : List RetryEvent} {s s' s'' : Retrying} {r r' : Found} {u : Int}
    (hs : s.whole.NoneRuns) (hu : s.retryAt = some u) (hr : r.Ready o s.whole)
    (h : RetryRun o late s (.request r :: mid) s') (h1 : NoRequest mid) (h2 : NoRetry mid)
    (h3 : RetryRun o late s' (.retry r' :: es) s'') (h4 : NoRequest es) (ht : s''.now < s'.now + 10000) :
    s'.whole.AllRun ∧ s''.whole.NoneRuns ∧ s''.whole.d.w.trace = s'.whole.d.w.trace := by
  cases h with
  | @cons _ y _ _ _ k3 k4 =>
    cases k3 with
    | request k7 =>
      obtain ⟨b1, -, -⟩ := attempt_ready k7 hs hr
      obtain ⟨a1, a2, a3, a4, a5, a6⟩ := between k4 h1 h2
      have hall : s'.whole.AllRun := ⟨a3.trans b1.1, a4.trans b1.2.1, a2.trans b1.2.2⟩
      refine ⟨hall, ?_⟩
      cases h3 with
      | cons k8 k9 =>
        cases k8 with
        | retry k10 k11 k12 =>
          have k13 : RetryRun o late { s' with
              retryAt := none } (.request r' :: es) s'' := .cons (.request k12) k9
          obtain ⟨c1, c2, -⟩ := C140_pause k13 hall.2.2 h4 ht
          exact ⟨c1, c2⟩

/-- without an attempt the daemon just runs -/
theorem between_run {o : Opts} {late : Int} {es : List RetryEvent} {s s' : Retrying} (h : RetryRun o late s es s') (h1 : NoRequest es)
    (h2 : NoRetry es) : s.whole.d.run o (eventsIn es) = .ok s'.whole.d := by
  induction h with
  | nil => rfl
  | @cons s s1 s2 e es k1 _ ih =>
    have ih := ih (fun r hr => h1 r (List.mem_cons_of_mem _ hr)) (fun r hr => h2 r (List.mem_cons_of_mem _ hr))
    cases k1 with
    | event k =>
      show (s.whole.d.step o _ >>= _) = _
      rw [k, ok_bind]
      exact ih
    | request k => exact absurd List.mem_cons_self (h1 _)
    | retry k1 k2 k3 => exact absurd List.mem_cons_self (h2 _)
    | pass k1 k2 => exact ih

omit F in
/-- the last attempt -/
theorem last_attempt [FloatModel] : ∀ es : List RetryEvent, (NoRequest es ∧ NoRetry es) ∨
    ∃ pre e r post, es = pre ++ e :: post ∧ (e = RetryEvent.request r ∨ e = .retry r) ∧ NoRequest post ∧ NoRetry post
  | [] => .inl ⟨fun _ h => (by cases h), fun _ h => by cases h⟩
  | e :: es => by
    rcases last_attempt es with ⟨h1, h2⟩ | ⟨pre, e', r, post, rfl, h⟩
    · by_cases he : ∃ r, e = .request r ∨ e = .retry r
      · obtain ⟨r, he⟩ := he
        exact .inr ⟨[], e, r, es, rfl, he, h1, h2⟩
      · refine .inl ⟨fun r hr => ?_, fun r hr => ?_⟩
        · rcases List.mem_cons.1 hr with hr | hr
          · exact he ⟨r, .inl hr.symm⟩
          · exact h1 r hr
        · rcases List.mem_cons.1 hr with hr | hr
          · exact he ⟨r, .inr hr.symm⟩
          · exact h2 r hr
    · exact .inr ⟨e :: pre, e', r, post, rfl, h⟩

/-- **C140** Whenever all zones run, there was a last attempt, at which a daemon started from what was found would have run, and what
happened since happened to that daemon. So what is proved about a started daemon holds for it, with what was written before the
attempt put in front. -/
theorem C140_life {o : Opts} {late : Int} {w0 : World} {t0 : Int} {es : List RetryEvent} {s : Retrying}
    (h : RetryRun o late (Retrying.init w0 t0) es s) (hs : s.whole.AllRun) :
    ∃ (pre : List RetryEvent) (e : RetryEvent) (r : Found) (post : List RetryEvent) (x : Retrying) (w : World) (d0 d : Daemon),
      es = pre ++ e :: post ∧ (e = .request r ∨ e = .retry r) ∧ NoRequest post ∧ NoRetry post ∧
      RetryRun o late (Retrying.init w0 t0) pre x ∧ x.whole.NoneRuns ∧ x.whole.stop o = .ok w ∧
      attempt o r.conf r.files r.objects r.order r.bus r.now { w with trace := [] } = .running d0 ∧
      d0.run o (eventsIn post) = .ok d ∧ s.whole.d = ⟨d.w.since w.trace, d.zones⟩ := by
  rcases last_attempt es with ⟨h1, h2⟩ | ⟨pre, e, r, post, rfl, he, h1, h2⟩
  · obtain ⟨-, a2, -⟩ := between h h1 h2
    have := hs.2.2
    rw [a2] at this
    exact absurd this (by rw [Retrying.init, Whole.init]; exact Bool.noConfusion)
  · obtain ⟨x, k1, k2⟩ := retry_append.1 h
    cases k2 with
    | @cons _ y _ _ _ k3 k4 =>
      obtain ⟨-, a2, a3, a4, -, -⟩ := between k4 h1 h2
      have hy : y.whole.AllRun := ⟨a3.symm.trans hs.1, a4.symm.trans hs.2.1, a2.symm.trans hs.2.2⟩
      have hre : x.whole.NoneRuns ∧ x.whole.reload o r = .ok y.whole := by
        have key : ∀ x' : Retrying, x'.whole = x.whole → x'.attempt o r = .ok y →
            x.whole.NoneRuns ∧ x.whole.reload o r = .ok y.whole := by
          intro x' hx' hat
          obtain ⟨-, ⟨b1, b2, -⟩ | ⟨-, b2, -⟩⟩ := attempted hat
          · rw [hx'] at b1 b2; exact ⟨b1, b2⟩
          · have := hy.1; rw [b2] at this; cases this
        rcases he with rfl | rfl
        · cases k3 with
          | request k => exact key x rfl k
        · cases k3 with
          | retry _ _ k => exact key ⟨x.whole, x.now, none⟩ rfl k
      obtain ⟨w, h6, h7⟩ := C123_restart hre.2 hy
      obtain ⟨d0, h8, h9⟩ := attempt_since h7
      have h5 := between_run k4 h1 h2
      rw [h9] at h5
      obtain ⟨d', h10, h11⟩ := run_since h5
      exact ⟨pre, e, r, post, x, w, d0, d', rfl, he, h1, h2, k1, hre.1, h6, h8, h10, h11⟩

end

namespace Ex
section
attribute [local instance] binary64

theorem any_some {α : Type} {x : Option α} {P : α → Bool} (h : x.any P = true) : ∃ a, x = some a ∧ P a = true := by
  cases x with
  | none => cases h
  | some a => exact ⟨a, rfl, by simpa using h⟩

/-- carries out steps -/
def steps140 (late : Int) : Retrying → List RetryEvent → Option Retrying
  | s, [] => some s
  | s, .event e :: es =>
    match s.whole.d.step {} e with
    | .ok d => steps140 late ⟨{ s.whole with
        d := d }, s.now, s.retryAt⟩ es
    | .error _ => none
  | s, .request r :: es =>
    match s.attempt {} r with
    | .ok s' => steps140 late s' es
    | .error _ => none
  | s, .retry r :: es =>
    match s.retryAt with
    | none => none
    | some t =>
      if t ≤ s.now then
        match Retrying.attempt {} r ⟨s.whole, s.now, none⟩ with
        | .ok s' => steps140 late s' es
        | .error _ => none
      else none
  | s, .pass t :: es =>
    if s.now ≤ t ∧ (match s.retryAt with | none => true | some u => decide (t ≤ u + late)) = true then
      steps140 late ⟨s.whole, t, s.retryAt⟩ es
    else none

theorem steps140_run {late : Int} : ∀ {es : List RetryEvent} {s s' : Retrying}, steps140 late s es = some s' →
    RetryRun {} late s es s'
  | [], s, s', h => by cases h; exact .nil
  | .event e :: es, s, s', h => by
    unfold steps140 at h
    split at h
    · exact .cons (.event ‹_›) (steps140_run h)
    · cases h
  | .request r :: es, s, s', h => by
    unfold steps140 at h
    split at h
    · exact .cons (.request ‹_›) (steps140_run h)
    · cases h
  | .retry r :: es, s, s', h => by
    unfold steps140 at h
    split at h
    · cases h
    · split_ifs at h with ht
      split at h
      · exact .cons (.retry ‹_› ht ‹_›) (steps140_run h)
      · cases h
  | .pass t :: es, s, s', h => by
    unfold steps140 at h
    split_ifs at h with ht
    refine .cons (.pass ht.1 fun u hu => ?_) (steps140_run h)
    have := ht.2
    rw [hu] at this
    simpa using this

/-- the zones that run, when the next attempt is due, what was written -/
def sum140 (s : Retrying) : List Int × Nat × Option Int × List Effect :=
  (s.whole.d.zones.entries.map (fun e => e.1), s.whole.idle.length, s.retryAt, s.whole.d.w.trace)

/-- the file of C113; no file, and a bus without configurations -/
def file140 : Found := found123 files113 noConfig true
def none140 : Found := found123 nofiles108 (busOf107 [plain107 "hwmon" "/t" [valueInterface]] [] (fun _ _ => none)) true

/-- no file, and nobody on the bus answers -/
def mute140 : Found := found123 nofiles108 noConfig true

/-- the file of C113 with a second zone that needs a sensor that is not there -/
def bad140 : Found := found123 (files108 ["/var/lib/swampd/config.json"] (some (.obj [("sensors", .arr
  [sensorFan113, sensorCpu113]), ("zones", .arr [zone113, .obj
    [("failsafePercent", .int 75), ("id", .int 4), ("minThermalOutput", .int 20),
     ("pids", .arr [jsonLoop108 "temps4" "temp" "dimm" 0])]])])) (by decide) (by decide)) noConfig true

/-- the daemon starts; five seconds later somebody asks for a reload -/
def asked140 : List RetryEvent := [.request file140, .event (.tick 3), .pass 5000, .request file140]

/-- from then on nothing is written, until the attempt ten seconds later -/
example : ((steps140 100 (.init world113 0) asked140).map sum140) =
      some ([], 1, some 15000, [.sysfsWrite "/sys/class/hwmon/pwm1" 191]) ∧
    ((steps140 100 (.init world113 0) (asked140 ++ [.event (.tick 3), .pass 15050, .retry file140])).map sum140) =
      some ([3], 0, none, [.sysfsWrite "/sys/class/hwmon/pwm1" 191]) ∧
    ((steps140 100 (.init world113 0) (asked140 ++ [.pass 15101])).map sum140) = none ∧
    ((steps140 100 (.init world113 0) (asked140 ++ [.pass 14999, .retry file140])).map sum140) = none := by decide +kernel

/-- C140_pause on this -/
example : ∃ s s', RetryRun {} 100 s [.request file140, .event (.tick 3), .pass 9000] s' ∧ s.whole.d.zones.isEmpty = false ∧
    s'.now < s.now + 10000 ∧ s'.whole.NoneRuns ∧ s'.whole.d.w.trace = s.whole.d.w.trace := by
  obtain ⟨s, h1, hP⟩ := any_some (x := steps140 100 (.init world113 0) [.request file140, .event (.tick 3), .pass 5000])
    (P := fun s : Retrying => !s.whole.d.zones.isEmpty && decide (s.now = 5000) &&
      (steps140 100 s [.request file140, .event (.tick 3), .pass 9000]).any (fun s' : Retrying => decide (s'.now = 9000)))
    (by decide +kernel)
  simp only [Bool.and_eq_true, Bool.not_eq_true', decide_eq_true_eq] at hP
  obtain ⟨⟨hz, hn⟩, hs'⟩ := hP
  obtain ⟨s', h2, h3⟩ := any_some hs'
  have ht : s'.now < s.now + 10000 := by rw [of_decide_eq_true h3, hn]; decide
  obtain ⟨a, b, -⟩ := C140_pause (steps140_run h2) hz (fun r hr => by simp at hr) ht
  exact ⟨s, s', steps140_run h2, hz, ht, a, b⟩

/-- C140_starts_anyhow: the second zone cannot be started; the file is corrected, an attempt stops the first
zone, and the next starts what is in the file then -/
example : ((steps140 100 (.init world113 0) [.request bad140, .event (.tick 3)]).map sum140) =
      some ([3], 1, some 10000, [.sysfsWrite "/sys/class/hwmon/pwm1" 191]) := by decide +kernel
example : ((steps140 100 (.init world113 0) [.request bad140, .event (.tick 3), .pass 10000, .retry file140]).map sum140) =
      some ([], 2, some 20000, [.sysfsWrite "/sys/class/hwmon/pwm1" 191]) := by decide +kernel
example : ((steps140 100 (.init world113 0) [.request bad140, .event (.tick 3), .pass 10000, .retry file140, .pass 20000,
      .retry file140]).map sum140) = some ([3], 0, none, [.sysfsWrite "/sys/class/hwmon/pwm1" 191]) := by decide +kernel

/-- C140_stopped_again: asking twice makes two pauses -/
example : ((steps140 100 (.init world113 0) (asked140 ++ [.pass 7000, .request file140])).map sum140) =
      some ([3], 0, some 15000, [.sysfsWrite "/sys/class/hwmon/pwm1" 191]) ∧
    ((steps140 100 (.init world113 0) (asked140 ++ [.pass 7000, .request file140, .pass 15000, .retry file140])).map sum140) =
      some ([], 1, some 25000, [.sysfsWrite "/sys/class/hwmon/pwm1" 191]) := by decide +kernel

/-- C140_starts: nobody answers at first, so the daemon tries again every ten seconds; then there is a configuration on the bus -/
example : ((steps140 100 (.init world113 0) [.request mute140, .pass 10000, .retry mute140]).map sum140) =
      some ([], 0, some 20000, []) ∧
    ((steps140 100 (.init world113 0) [.request mute140, .pass 10000, .retry mute140, .pass 20000,
      .retry (found123 nofiles108 conf115 true)]).map sum140) = some ([3], 0, none, []) := by decide +kernel

/-- C140_waits: nothing is configured, and nothing is pending -/
example : ((steps140 100 (.init world113 0) [.request none140, .pass 1000000]).map sum140) = some ([], 0, none, []) := by
  decide +kernel

/-- the hypotheses of C140_restart hold for the file of C113, and the zones run in the end -/
example : ∃ s s', RetryRun {} 100 (.init world113 0) [.request file140, .event (.tick 3), .pass 5000] s ∧
    RetryRun {} 100 s [.request file140, .pass 15050, .retry file140, .pass 16000] s' ∧ s'.whole.AllRun ∧ s'.retryAt = none := by
  obtain ⟨s, h1, hP⟩ := any_some (x := steps140 100 (.init world113 0) [.request file140, .event (.tick 3), .pass 5000])
    (P := fun s : Retrying => !s.whole.d.zones.isEmpty && decide (s.now = 5000) &&
      (steps140 100 s [.request file140, .pass 15050]).any (fun x : Retrying => x.whole.hosts.isEmpty && ((x.whole.stop {}).toOption.any fun w : World =>
        match attempt {} file140.conf file140.files file140.objects file140.order file140.bus file140.now w with
        | .running _ => true
        | _ => false) &&
        (steps140 100 x [.retry file140, .pass 16000]).any (fun s' : Retrying => decide (s'.now = 16000))))
    (by decide +kernel)
  simp only [Bool.and_eq_true, Bool.not_eq_true', decide_eq_true_eq] at hP
  obtain ⟨⟨hz, hn⟩, hx⟩ := hP
  obtain ⟨x, h2, h3⟩ := any_some hx
  simp only [Bool.and_eq_true, List.isEmpty_iff] at h3
  obtain ⟨⟨hh, hw⟩, hs'⟩ := h3
  obtain ⟨s', h4, h5⟩ := any_some hs'
  obtain ⟨w, h6, h7⟩ := ok_of_any hw
  have hr : file140.Ready {} x.whole := by
    refine ⟨fun w' hw' => ?_, fun p hp => by rw [hh] at hp; cases hp⟩
    rw [h6] at hw'
    cases hw'
    split at h7
    · exact ⟨_, ‹_›⟩
    · cases h7
  have hrun : RetryRun {} 100 s ([.request file140, .pass 15050] ++ [.retry file140, .pass 16000]) s' :=
    retry_append.2 ⟨x, steps140_run h2, steps140_run h4⟩
  refine ⟨s, s', steps140_run h1, hrun, C140_restart (by decide) (steps140_run h1) hz hrun (fun r hr => by simp at hr) ?_
    (by rw [of_decide_eq_true h5, hn]; decide)⟩
  intro pre r post y e ky _
  have key : pre = [.request file140, .pass 15050] ∧ r = file140 := by
    rcases pre with _ | ⟨a, _ | ⟨b, _ | ⟨c, _ | ⟨d, _ | ⟨f, pre⟩⟩⟩⟩⟩
    all_goals simp at e
    all_goals first | exact ⟨by rw [e.1, e.2.1], e.2.2.1.symm⟩ | skip
  obtain ⟨rfl, rfl⟩ := key
  rw [retry_det ky (steps140_run h2)]
  exact hr

end
end Ex
end Verif
