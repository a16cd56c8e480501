import Verif.Spec.Reloading
import Verif.Props.Retry

/-! # Theorems about changes of the configuration (C141) -/

namespace Verif
open Dbl

section
variable [F : FloatModel]

theorem reload_append {o : Opts} {late : Int} : ∀ {es es' : List ReloadEvent} {s s' : Reloading},
    ReloadRun o late s (es ++ es') s' ↔ ∃ x, ReloadRun o late s es x ∧ ReloadRun o late x es' s'
  | [], es', s, s' => ⟨fun h => ⟨s, .nil, h⟩, fun ⟨x, h1, h2⟩ => by cases h1; exact h2⟩
  | e :: es, es', s, s' => by
    constructor
    · intro h
      cases h with
      | cons h1 h2 =>
        obtain ⟨x, h3, h4⟩ := reload_append.1 h2
        exact ⟨x, .cons h1 h3, h4⟩
    · rintro ⟨x, h1, h2⟩
      cases h1 with
      | cons h3 h4 => exact .cons h3 (reload_append.2 ⟨x, h4, h2⟩)

/-- what an event means for the attempts -/
def ReloadEvent.toRetry : ReloadEvent → List RetryEvent
  | .event e => [.event e]
  | .start r => [.request r]
  | .signal _ => []
  | .hangup => []
  | .bus r => [.request r]
  | .hup r => [.request r]
  | .retry r => [.retry r]
  | .pass t => [.pass t]

def triesOf (es : List ReloadEvent) : List RetryEvent := es.flatMap ReloadEvent.toRetry

omit F in
theorem triesOf_append [FloatModel] (a b : List ReloadEvent) : triesOf (a ++ b) = triesOf a ++ triesOf b := by
  simp [triesOf]

theorem tries_step {o : Opts} {late : Int} {e : ReloadEvent} {s s' : Reloading} (h : ReloadStep o late s e s') :
    RetryRun o late s.tries e.toRetry s'.tries := by
  cases h with
  | event h => exact .cons h .nil
  | start h => exact .cons h .nil
  | signal => exact .nil
  | hangup => exact .nil
  | bus _ _ h => exact .cons h .nil
  | hup _ _ h => exact .cons h .nil
  | retry h => exact .cons h .nil
  | pass _ _ h => exact .cons h .nil

theorem tries_run {o : Opts} {late : Int} {es : List ReloadEvent} {s s' : Reloading} (h : ReloadRun o late s es s') :
    RetryRun o late s.tries (triesOf es) s'.tries := by
  induction h with
  | nil => exact .nil
  | @cons s s1 s2 e es h1 _ ih =>
    show RetryRun o late s.tries (triesOf ([e] ++ es)) s2.tries
    rw [triesOf_append]
    exact retry_append.2 ⟨s1.tries, by simpa [triesOf] using tries_step h1, ih⟩

omit F in
/-- an attempt among the attempts is one among the events -/
theorem triesOf_split [FloatModel] {a : RetryEvent} : ∀ {es : List ReloadEvent} {p q : List RetryEvent}, triesOf es = p ++ a :: q →
    ∃ p' e q', es = p' ++ e :: q' ∧ e.toRetry = [a] ∧ triesOf p' = p ∧ triesOf q' = q
  | [], p, q, h => by simp [triesOf] at h
  | e :: es, p, q, h => by
    have h' : e.toRetry ++ triesOf es = p ++ a :: q := by simpa [triesOf] using h
    have hc : e.toRetry = [] ∨ ∃ b, e.toRetry = [b] := by cases e <;> simp [ReloadEvent.toRetry]
    rcases hc with hc | ⟨b, hc⟩
    · rw [hc, List.nil_append] at h'
      obtain ⟨p', e', q', rfl, h2, h3, h4⟩ := triesOf_split h'
      exact ⟨e :: p', e', q', rfl, h2, by show e.toRetry ++ triesOf p' = p; rw [hc, h3]; rfl, h4⟩
    · rw [hc, List.singleton_append] at h'
      cases p with
      | nil =>
        simp only [List.nil_append, List.cons.injEq] at h'
        obtain ⟨rfl, rfl⟩ := h'
        exact ⟨[], e, es, rfl, hc, rfl, rfl⟩
      | cons c p =>
        simp only [List.cons_append, List.cons.injEq] at h'
        obtain ⟨rfl, h'⟩ := h'
        obtain ⟨p', e', q', rfl, h2, h3, h4⟩ := triesOf_split h'
        exact ⟨e :: p', e', q', rfl, h2, by show e.toRetry ++ triesOf p' = _; rw [hc, h3]; rfl, h4⟩

omit F in
theorem toRetry_attempt [FloatModel] {e : ReloadEvent} {r : Found} : e.Attempts r ↔
    (e.toRetry = [.request r] ∨ e.toRetry = [.retry r]) := by
  unfold ReloadEvent.Attempts
  cases e <;> simp [ReloadEvent.toRetry]

omit F in
theorem eventsIn_tries [FloatModel] : ∀ es : List ReloadEvent, eventsIn (triesOf es) = daemonEvents es
  | [] => rfl
  | e :: es => by
    have ih := eventsIn_tries es
    cases e with
    | event e => show e :: eventsIn (triesOf es) = _; rw [ih]; rfl
    | _ => exact ih

/-- readiness carries over -/
theorem ready_tries {o : Opts} {late : Int} {es : List ReloadEvent} {s s' : Reloading} (h : ReloadRun o late s es s')
    (hg : FoundReady o late s es) : ReadyThroughout o late s.tries (triesOf es) := by
  intro p r q x hs hx hn
  obtain ⟨p', e, q', rfl, h2, rfl, -⟩ := triesOf_split hs
  obtain ⟨y, k1, -⟩ := reload_append.1 h
  have hxy : x = y.tries := retry_det hx (tries_run k1)
  subst hxy
  exact hg p' e r q' y rfl (toRetry_attempt.2 (.inr h2)) k1 hn

/-- what holds between all steps -/
structure Reloading.Inv (late : Int) (s : Reloading) : Prop where
  tries : s.tries.Inv late
  busSoon : ∀ u, s.busAt = some u → u ≤ s.tries.now + busDelay ∧ s.tries.now ≤ u + late
  hupSoon : ∀ u, s.hupAt = some u → u ≤ s.tries.now + hupDelay ∧ s.tries.now ≤ u + late

theorem Reloading.Inv.step {o : Opts} {late : Int} (hl : 0 ≤ late) {e : ReloadEvent} {s s' : Reloading} (i : s.Inv late)
    (h : ReloadStep o late s e s') : s'.Inv late := by
  have hb : (0 : Int) ≤ busDelay := by decide
  have hh : (0 : Int) ≤ hupDelay := by decide
  have it : s'.tries.Inv late := i.tries.run_inv hl (tries_step h)
  cases h with
  | event h =>
    cases h with
    | event h => exact ⟨it, i.busSoon, i.hupSoon⟩
  | start h =>
    cases h with
    | request h =>
      have hn := (attempted h).1
      exact ⟨it, fun u hu => by rw [Reloading.after, hn]; exact i.busSoon u hu, fun u hu => by rw [Reloading.after, hn]; exact i.hupSoon u hu⟩
  | signal =>
    refine ⟨it, fun u hu => ?_, i.hupSoon⟩
    dsimp only at hu ⊢
    split_ifs at hu
    · cases hu; omega
    · exact i.busSoon u hu
  | hangup =>
    refine ⟨it, i.busSoon, fun u hu => ?_⟩
    dsimp only at hu ⊢
    cases hu; omega
  | bus _ _ h =>
    cases h with
    | request h =>
      have hn := (attempted h).1
      exact ⟨it, fun u hu => (by cases hu), fun u hu => by rw [Reloading.after, hn]; exact i.hupSoon u hu⟩
  | hup _ _ h =>
    cases h with
    | request h =>
      have hn := (attempted h).1
      exact ⟨it, fun u hu => (by rw [Reloading.after, hn]; exact i.busSoon u hu), fun u hu => by cases hu⟩
  | retry h =>
    cases h with
    | retry _ _ h =>
      have hn := (attempted h).1
      exact ⟨it, fun u hu => by rw [Reloading.after, hn]; exact i.busSoon u hu, fun u hu => by rw [Reloading.after, hn]; exact i.hupSoon u hu⟩
  | pass h1 h2 h =>
    cases h with
    | pass h3 _ =>
      refine ⟨it, fun u hu => ⟨?_, h1 u hu⟩, fun u hu => ⟨?_, h2 u hu⟩⟩
      · have := (i.busSoon u hu).1
        dsimp only
        omega
      · have := (i.hupSoon u hu).1
        dsimp only
        omega

theorem Reloading.Inv.run_inv {o : Opts} {late : Int} (hl : 0 ≤ late) {es : List ReloadEvent} {s s' : Reloading} (i : s.Inv late)
    (h : ReloadRun o late s es s') : s'.Inv late := by
  induction h with
  | nil => exact i
  | cons h1 _ ih => exact ih (i.step hl h1)

theorem Reloading.Inv.init (w : World) (t : Int) (late : Int) : (Reloading.init w t).Inv late :=
  ⟨Retrying.Inv.init w t late, fun u h => (by cases h), fun u h => by cases h⟩

/-- while nobody asks, a wait for a quiet moment is pending unchanged or its attempt has taken place; `D` bounds the times -/
theorem waits_end {o : Opts} {late D : Int} {es : List ReloadEvent} {s s' : Reloading} (h : ReloadRun o late s es s')
    (hq : NobodyAsks es) (hb : ∀ u, s.busAt = some u → u ≤ D) (hh : ∀ u, s.hupAt = some u → u ≤ D) :
    (∀ u, s'.busAt = some u → u ≤ D) ∧ (∀ u, s'.hupAt = some u → u ≤ D) ∧
    (s.busAt = none → s'.busAt = none) ∧ (s.hupAt = none → s'.hupAt = none) ∧
    (s'.busAt = s.busAt ∨ ∃ r, ReloadEvent.bus r ∈ es) ∧ (s'.hupAt = s.hupAt ∨ ∃ r, ReloadEvent.hup r ∈ es) := by
  induction h with
  | nil => exact ⟨hb, hh, id, id, .inl rfl, .inl rfl⟩
  | @cons s s1 s2 e es h1 _ ih =>
    have hq' : NobodyAsks es := ⟨fun h => hq.1 (List.mem_cons_of_mem _ h), fun b hb h => hq.2.1 b hb (List.mem_cons_of_mem _ h),
      fun r h => hq.2.2 r (List.mem_cons_of_mem _ h)⟩
    have key : (s1.busAt = s.busAt ∨ (s1.busAt = none ∧ ∃ r, e = .bus r)) ∧ (s1.hupAt = s.hupAt ∨ (s1.hupAt = none ∧ ∃ r, e = .hup r)) := by
      cases h1 with
      | event h => exact ⟨.inl rfl, .inl rfl⟩
      | start h => exact absurd List.mem_cons_self (hq.2.2 _)
      | @signal b =>
        refine ⟨.inl ?_, .inl rfl⟩
        have : armsReload b = false := by
          by_contra hc
          exact hq.2.1 b (by simpa using hc) List.mem_cons_self
        simp [this]
      | hangup => exact absurd List.mem_cons_self hq.1
      | bus _ _ h => exact ⟨.inr ⟨rfl, _, rfl⟩, .inl rfl⟩
      | hup _ _ h => exact ⟨.inl rfl, .inr ⟨rfl, _, rfl⟩⟩
      | retry h => exact ⟨.inl rfl, .inl rfl⟩
      | pass _ _ h => exact ⟨.inl rfl, .inl rfl⟩
    obtain ⟨a1, a2, a3, a4, a5, a6⟩ := ih hq'
      (fun u hu => by
        rcases key.1 with k | ⟨k, -⟩
        · exact hb u (k ▸ hu)
        · rw [k] at hu; cases hu)
      (fun u hu => by
        rcases key.2 with k | ⟨k, -⟩
        · exact hh u (k ▸ hu)
        · rw [k] at hu; cases hu)
    refine ⟨a1, a2, fun hn => a3 ?_, fun hn => a4 ?_, ?_, ?_⟩
    · rcases key.1 with k | ⟨k, -⟩
      · rw [k, hn]
      · exact k
    · rcases key.2 with k | ⟨k, -⟩
      · rw [k, hn]
      · exact k
    · rcases a5 with a5 | ⟨r, a5⟩
      · rcases key.1 with k | ⟨-, r, rfl⟩
        · exact .inl (a5.trans k)
        · exact .inr ⟨r, List.mem_cons_self⟩
      · exact .inr ⟨r, List.mem_cons_of_mem _ a5⟩
    · rcases a6 with a6 | ⟨r, a6⟩
      · rcases key.2 with k | ⟨-, r, rfl⟩
        · exact .inl (a6.trans k)
        · exact .inr ⟨r, List.mem_cons_self⟩
      · exact .inr ⟨r, List.mem_cons_of_mem _ a6⟩

omit F in
/-- the last attempt somebody asked for -/
theorem last_request [FloatModel] : ∀ es : List ReloadEvent, NoRequest (triesOf es) ∨
    ∃ pre e r post, es = pre ++ e :: post ∧ e.toRetry = [.request r] ∧ NoRequest (triesOf post)
  | [] => .inl fun _ h => by cases h
  | e :: es => by
    rcases last_request es with h | ⟨pre, e', r, post, rfl, h⟩
    · by_cases he : ∃ r, e.toRetry = [.request r]
      · obtain ⟨r, he⟩ := he
        exact .inr ⟨[], e, r, es, rfl, he, h⟩
      · refine .inl fun r hr => ?_
        have hr : RetryEvent.request r ∈ e.toRetry ++ triesOf es := by simpa [triesOf] using hr
        rcases List.mem_append.1 hr with hr | hr
        · cases e <;> simp [ReloadEvent.toRetry] at hr he
        · exact h r hr
    · exact .inr ⟨e :: pre, e', r, post, rfl, h⟩

/-- all zones run, and not from before: the state is one a start among the events leads to -/
theorem runs_from {o : Opts} {late : Int} {es : List ReloadEvent} {s s' : Reloading} (h : ReloadRun o late s es s')
    (ha : s'.tries.whole.AllRun) (hr : ∃ e ∈ es, ∃ r, e.Attempts r) : RunsFrom o late s es s' := by
  refine ⟨ha, ?_⟩
  rcases last_attempt (triesOf es) with ⟨h1, h2⟩ | ⟨p, e, r, q, he, hk, h1, h2⟩
  · exfalso
    obtain ⟨e, he, r, hr⟩ := hr
    rcases toRetry_attempt.1 hr with hr | hr
    · exact h1 r (List.mem_flatMap.2 ⟨e, he, by rw [hr]; exact List.mem_cons_self⟩)
    · exact h2 r (List.mem_flatMap.2 ⟨e, he, by rw [hr]; exact List.mem_cons_self⟩)
  · obtain ⟨p', e', q', rfl, h4, rfl, rfl⟩ := triesOf_split he
    obtain ⟨x, k1, k2⟩ := reload_append.1 h
    cases k2 with
    | @cons _ y _ _ _ k3 k4 =>
      have t3 := tries_step k3
      have t4 := tries_run k4
      rw [h4] at t3
      obtain ⟨-, a2, a3, a4, -, -⟩ := between t4 h1 h2
      have hy : y.tries.whole.AllRun := ⟨a3.symm.trans ha.1, a4.symm.trans ha.2.1, a2.symm.trans ha.2.2⟩
      have hre : x.tries.whole.reload o r = .ok y.tries.whole := by
        have key : ∀ x' : Retrying, x'.whole = x.tries.whole → x'.attempt o r = .ok y.tries →
            x.tries.whole.reload o r = .ok y.tries.whole := by
          intro x' hx' hat
          obtain ⟨-, ⟨b1, b2, -⟩ | ⟨-, b2, -⟩⟩ := attempted hat
          · rw [hx'] at b2; exact b2
          · have := hy.1; rw [b2] at this; cases this
        rcases hk with rfl | rfl
        · cases t3 with
          | cons t5 t6 => cases t6; cases t5 with | request k => exact key x.tries rfl k
        · cases t3 with
          | cons t5 t6 => cases t6; cases t5 with | retry _ _ k => exact key ⟨x.tries.whole, x.tries.now, none⟩ rfl k
      obtain ⟨w, h6, h7⟩ := C123_restart hre hy
      obtain ⟨d0, h8, h9⟩ := attempt_since h7
      have h5 := between_run t4 h1 h2
      rw [h9] at h5
      obtain ⟨d', h10, h11⟩ := run_since h5
      rw [eventsIn_tries] at h10
      refine ⟨p', e', r, q', x, w, d0, d', rfl, ?_, k1, h6, h8, h10, h11⟩
      rcases hk with rfl | rfl
      · exact toRetry_attempt.2 (.inl h4)
      · exact toRetry_attempt.2 (.inr h4)

/-- after a moment from which on nobody asks any more: everything that was asked for has been done -/
theorem settles {o : Opts} {late : Int} (hl : 0 ≤ late) {es : List ReloadEvent} {s s' : Reloading} (i : s.Inv late)
    (h : ReloadRun o late s es s') (hq : NobodyAsks es) (hg : FoundReady o late s es)
    (hp : s.busAt.isSome = true ∨ s.hupAt.isSome = true) (ht : s.tries.now + 22000 + 3 * late < s'.tries.now) :
    s'.Calm ∧ RunsFrom o late s es s' := by
  have hbd : busDelay = 2000 := rfl
  have hhd : hupDelay = 1000 := rfl
  have hb : ∀ u, s.busAt = some u → u ≤ s.tries.now + 2000 := fun u hu => by have := (i.busSoon u hu).1; omega
  have hh : ∀ u, s.hupAt = some u → u ≤ s.tries.now + 2000 := fun u hu => by have := (i.hupSoon u hu).1; omega
  obtain ⟨a1, a2, a3, a4, a5, a6⟩ := waits_end h hq hb hh
  have i' := i.run_inv hl h
  have hb' : s'.busAt = none := by
    cases hu : s'.busAt with
    | none => rfl
    | some u => have := a1 u hu; have := (i'.busSoon u hu).2; omega
  have hh' : s'.hupAt = none := by
    cases hu : s'.hupAt with
    | none => rfl
    | some u => have := a2 u hu; have := (i'.hupSoon u hu).2; omega
  have hex : ∃ e ∈ es, ∃ r, e.toRetry = [.request r] := by
    rcases hp with hp | hp
    · rcases a5 with a5 | ⟨r, a5⟩
      · rw [← a5, hb'] at hp; cases hp
      · exact ⟨_, a5, r, rfl⟩
    · rcases a6 with a6 | ⟨r, a6⟩
      · rw [← a6, hh'] at hp; cases hp
      · exact ⟨_, a6, r, rfl⟩
  have hrun : (s'.tries.whole.AllRun ∧ s'.tries.retryAt = none) → s'.Calm ∧ RunsFrom o late s es s' := by
    rintro ⟨b1, b2⟩
    obtain ⟨e, he, r, her⟩ := hex
    exact ⟨⟨b2, hb', hh'⟩, runs_from h b1 ⟨e, he, r, toRetry_attempt.2 (.inl her)⟩⟩
  refine hrun ?_
  rcases last_request es with hn | ⟨pre, e, r, post, rfl, he, hn⟩
  · obtain ⟨e, he, r, her⟩ := hex
    exact absurd (List.mem_flatMap.2 ⟨e, he, by rw [her]; exact List.mem_cons_self⟩) (hn r)
  · obtain ⟨x, k1, k2⟩ := reload_append.1 h
    have hq1 : NobodyAsks pre := ⟨fun h => hq.1 (List.mem_append_left _ h), fun b hb h => hq.2.1 b hb (List.mem_append_left _ h),
      fun r h => hq.2.2 r (List.mem_append_left _ h)⟩
    obtain ⟨c1, c2, -, -, -, -⟩ := waits_end k1 hq1 hb hh
    have ix := i.run_inv hl k1
    cases k2 with
    | @cons _ y _ _ _ k3 k4 =>
      have iy := ix.step hl k3
      have t4 := tries_run k4
      have hat : x.tries.attempt o r = .ok y.tries ∧ x.tries.now ≤ s.tries.now + 2000 + late := by
        cases k3 with
        | event _ => cases he
        | start _ => exact absurd (List.mem_append_right _ List.mem_cons_self) (hq.2.2 _)
        | signal => cases he
        | hangup => cases he
        | bus j1 j2 j3 =>
          cases he
          cases j3 with
          | request j4 => exact ⟨j4, by have := c1 _ j1; have := (ix.busSoon _ j1).2; omega⟩
        | hup j1 j2 j3 =>
          cases he
          cases j3 with
          | request j4 => exact ⟨j4, by have := c2 _ j1; have := (ix.hupSoon _ j1).2; omega⟩
        | retry _ => cases he
        | pass _ _ _ => cases he
      obtain ⟨hat, hx⟩ := hat
      have hyn := (attempted hat).1
      have hg' : ReadyThroughout o late y.tries (triesOf post) := by
        refine ready_tries k4 fun p e' r' q z hs he' hz hnz => ?_
        refine hg (pre ++ e :: p) e' r' q z ?_ he' (reload_append.2 ⟨x, k1, .cons k3 hz⟩) hnz
        rw [hs]; simp
      cases hry : y.tries.retryAt with
      | none =>
        obtain ⟨-, ⟨b1, -, -⟩ | ⟨-, -, b3⟩⟩ := attempted hat
        · obtain ⟨c1, -, -⟩ := attempt_ready hat b1 (hg pre e r post x rfl (toRetry_attempt.2 (.inl he)) k1 b1)
          exact C140_keeps t4 hn c1 hry
        · rw [hry] at b3; cases b3
      | some u =>
        exact retry_settles hl iy.tries (by rw [hry]; rfl) t4 hn hg' (by omega)

/-- **C141** A change of the configuration takes effect: after SIGHUP, or after a signal of C93 (once the rules are installed), all
zones run at the latest 22 seconds (and three times the lateness of a timer) later, if nobody asks again and what the daemon finds
is ready. Then no timer is armed any more, and the zones run what was found at an attempt after the signal. -/
theorem C141_takes_effect {o : Opts} {late : Int} (hl : 0 ≤ late) {w : World} {t0 : Int} {pre es : List ReloadEvent}
    {s s' : Reloading} {e : ReloadEvent} (h0 : ReloadRun o late (Reloading.init w t0) pre s) (ha : s.Asked e)
    (h : ReloadRun o late s (e :: es) s') (hq : NobodyAsks es) (hg : FoundReady o late s (e :: es))
    (ht : s.tries.now + 22000 + 3 * late < s'.tries.now) : s'.Calm ∧ RunsFrom o late s (e :: es) s' := by
  have i := (Reloading.Inv.init w t0 late).run_inv hl h0
  have hh := h
  cases h with
  | @cons _ s1 _ _ _ k1 k2 =>
    have hn : s1.tries.now = s.tries.now ∧ (s1.busAt.isSome = true ∨ s1.hupAt.isSome = true) := by
      cases ha with
      | hangup => cases k1 with | hangup => exact ⟨rfl, .inr rfl⟩
      | signal h1 h2 => cases k1 with | signal => exact ⟨rfl, .inl (by simp [h1, h2])⟩
    obtain ⟨a, b⟩ := settles hl (i.step hl k1) k2 hq (fun p e' r q x hs he hx hnx =>
      hg (e :: p) e' r q x (by rw [hs]; rfl) he (.cons k1 hx) hnx) hn.2 (by rw [hn.1]; exact ht)
    obtain ⟨b1, p, e', r, q, x, w, d0, d, c1, c2, c3, c4⟩ := b
    exact ⟨a, b1, e :: p, e', r, q, x, w, d0, d, by rw [c1]; rfl, c2, .cons k1 c3, c4⟩

/-- with nothing pending there is no attempt -/
theorem no_request {o : Opts} {late : Int} {es : List ReloadEvent} {s s' : Reloading} (h : ReloadRun o late s es s')
    (hq : NobodyAsks es) (hb : s.busAt = none) (hh : s.hupAt = none) : NoRequest (triesOf es) := by
  intro r hr
  obtain ⟨e, he, her⟩ := List.mem_flatMap.1 hr
  obtain ⟨p, q, rfl⟩ := List.append_of_mem he
  obtain ⟨x, k1, k2⟩ := reload_append.1 h
  have hq1 : NobodyAsks p := ⟨fun h => hq.1 (List.mem_append_left _ h), fun b hb h => hq.2.1 b hb (List.mem_append_left _ h),
    fun r h => hq.2.2 r (List.mem_append_left _ h)⟩
  obtain ⟨-, -, c1, c2, -, -⟩ := waits_end (D := 0) k1 hq1 (fun u hu => by rw [hb] at hu; cases hu) (fun u hu => by rw [hh] at hu; cases hu)
  cases k2 with
  | cons k3 _ =>
    cases k3 with
    | start _ => exact hq.2.2 _ he
    | bus j1 _ _ => rw [c1 hb] at j1; cases j1
    | hup j1 _ _ => rw [c2 hh] at j1; cases j1
    | _ => simp [ReloadEvent.toRetry] at her

/-- **C141** The daemon does not restart its loops by itself: when all zones run and no timer is armed, they run on until somebody
asks, in the state the daemon reaches by what happens to it. -/
theorem C141_by_itself {o : Opts} {late : Int} {es : List ReloadEvent} {s s' : Reloading} (h : ReloadRun o late s es s')
    (hq : NobodyAsks es) (hc : s.Calm) (ha : s.tries.whole.AllRun) :
    s'.Calm ∧ s'.tries.whole.AllRun ∧ s.tries.whole.d.run o (daemonEvents es) = .ok s'.tries.whole.d := by
  have hn := no_request h hq hc.2.1 hc.2.2
  have t := tries_run h
  obtain ⟨a1, a2⟩ := C140_keeps t hn ha hc.1
  obtain ⟨-, -, c1, c2, -, -⟩ := waits_end (D := 0) h hq (fun u hu => by rw [hc.2.1] at hu; cases hu)
    (fun u hu => by rw [hc.2.2] at hu; cases hu)
  refine ⟨⟨a2, c1 hc.2.1, c2 hc.2.2⟩, a1, ?_⟩
  rw [← eventsIn_tries]
  exact between_run t hn (no_retry t hn hc.1)

omit F in
/-- the first attempt somebody asked for -/
theorem first_request [FloatModel] : ∀ es : List ReloadEvent, NoRequest (triesOf es) ∨
    ∃ pre e r post, es = pre ++ e :: post ∧ e.toRetry = [.request r] ∧ NoRequest (triesOf pre)
  | [] => .inl fun _ h => by cases h
  | e :: es => by
    by_cases he : ∃ r, e.toRetry = [.request r]
    · obtain ⟨r, he⟩ := he
      exact .inr ⟨[], e, r, es, rfl, he, fun _ h => by cases h⟩
    · have key : ∀ l, NoRequest (triesOf l) → NoRequest (triesOf (e :: l)) := by
        intro l h r hr
        have hr : RetryEvent.request r ∈ e.toRetry ++ triesOf l := by simpa [triesOf] using hr
        rcases List.mem_append.1 hr with hr | hr
        · cases e <;> simp [ReloadEvent.toRetry] at hr he
        · exact h r hr
      rcases first_request es with h | ⟨pre, e', r, post, rfl, h1, h2⟩
      · exact .inl (key _ h)
      · exact .inr ⟨e :: pre, e', r, post, rfl, h1, key _ h2⟩

/-- the first steps after somebody asked a daemon all of whose zones run -/
theorem asked_once {o : Opts} {late : Int} {s s1 : Reloading} {e : ReloadEvent} (ha : s.Asked e) (hc : s.Calm)
    (k : ReloadStep o late s e s1) : s1.tries = s.tries ∧
      ((s1.busAt = some (s.tries.now + e.quietTime) ∧ s1.hupAt = none) ∨ (s1.hupAt = some (s.tries.now + e.quietTime) ∧ s1.busAt = none)) := by
  cases ha with
  | hangup => cases k with | hangup => exact ⟨rfl, .inr ⟨rfl, hc.2.1⟩⟩
  | signal h1 h2 => cases k with | signal => exact ⟨rfl, .inl ⟨by simp [h1, h2, busDelay, ReloadEvent.quietTime], hc.2.2⟩⟩

/-- **C141** Until the moment is quiet, two seconds after a signal and one after SIGHUP, the zones run on as before. -/
theorem C141_until {o : Opts} {late : Int} {es : List ReloadEvent} {s s' : Reloading} {e : ReloadEvent} (hc : s.Calm)
    (hr : s.tries.whole.AllRun) (ha : s.Asked e) (h : ReloadRun o late s (e :: es) s') (hq : NobodyAsks es)
    (ht : s'.tries.now < s.tries.now + e.quietTime) :
    s'.tries.whole.AllRun ∧ s.tries.whole.d.run o (daemonEvents es) = .ok s'.tries.whole.d := by
  cases h with
  | @cons _ s1 _ _ _ k1 k2 =>
    obtain ⟨e1, e2⟩ := asked_once ha hc k1
    have hn : NoRequest (triesOf es) := by
      rcases first_request es with hn | ⟨p, e', r, q, rfl, h1, h2⟩
      · exact hn
      · exfalso
        obtain ⟨x, k3, k4⟩ := reload_append.1 k2
        have hq1 : NobodyAsks p := ⟨fun h => hq.1 (List.mem_append_left _ h), fun b hb h => hq.2.1 b hb (List.mem_append_left _ h),
          fun r h => hq.2.2 r (List.mem_append_left _ h)⟩
        have hnow := retry_now (tries_run k4)
        cases k4 with
        | cons k5 _ =>
          cases k5 with
          | start _ => exact hq.2.2 _ (List.mem_append_right _ List.mem_cons_self)
          | bus j1 j2 _ =>
            have : _ ∨ ∃ r, ReloadEvent.bus r ∈ p := (waits_end (D := s.tries.now + e.quietTime) k3 hq1
              (fun u hu => by rcases e2 with ⟨a, b⟩ | ⟨a, b⟩ <;> simp_all) (fun u hu => by rcases e2 with ⟨a, b⟩ | ⟨a, b⟩ <;> simp_all)).2.2.2.2.1
            rcases this with this | ⟨r', this⟩
            · rw [this] at j1
              rcases e2 with ⟨a, -⟩ | ⟨-, a⟩
              · rw [a] at j1; cases j1; omega
              · rw [a] at j1; cases j1
            · exact h2 r' (List.mem_flatMap.2 ⟨_, this, List.mem_cons_self⟩)
          | hup j1 j2 _ =>
            have : _ ∨ ∃ r, ReloadEvent.hup r ∈ p := (waits_end (D := s.tries.now + e.quietTime) k3 hq1
              (fun u hu => by rcases e2 with ⟨a, b⟩ | ⟨a, b⟩ <;> simp_all) (fun u hu => by rcases e2 with ⟨a, b⟩ | ⟨a, b⟩ <;> simp_all)).2.2.2.2.2
            rcases this with this | ⟨r', this⟩
            · rw [this] at j1
              rcases e2 with ⟨-, a⟩ | ⟨a, -⟩
              · rw [a] at j1; cases j1
              · rw [a] at j1; cases j1; omega
            · exact h2 r' (List.mem_flatMap.2 ⟨_, this, List.mem_cons_self⟩)
          | _ => cases h1
    have t := tries_run k2
    rw [e1] at t
    rw [← eventsIn_tries]
    exact ⟨(C140_keeps t hn hr hc.1).1, between_run t hn (no_retry t hn hc.1)⟩

/-- **C141** In the usual case — all zones run and no timer is armed — a change of the configuration takes effect within twelve
seconds (and twice the lateness), eleven after SIGHUP. -/
theorem C141_usually {o : Opts} {late : Int} (hl : 0 ≤ late) {w : World} {t0 : Int} {pre es : List ReloadEvent}
    {s s' : Reloading} {e : ReloadEvent} (h0 : ReloadRun o late (Reloading.init w t0) pre s) (hc : s.Calm)
    (hr : s.tries.whole.AllRun) (ha : s.Asked e) (h : ReloadRun o late s (e :: es) s') (hq : NobodyAsks es)
    (hg : FoundReady o late s (e :: es)) (ht : s.tries.now + e.quietTime + 10000 + 2 * late < s'.tries.now) :
    s'.Calm ∧ RunsFrom o late s (e :: es) s' := by
  have hd : retryDelay = 10000 := rfl
  have i := (Reloading.Inv.init w t0 late).run_inv hl h0
  have hh := h
  cases h with
  | @cons _ s1 _ _ _ k1 k2 =>
    obtain ⟨e1, e2⟩ := asked_once ha hc k1
    have i1 := i.step hl k1
    have hb : ∀ u, s1.busAt = some u → u ≤ s.tries.now + e.quietTime := fun u hu => by rcases e2 with ⟨a, b⟩ | ⟨a, b⟩ <;> simp_all
    have hp : ∀ u, s1.hupAt = some u → u ≤ s.tries.now + e.quietTime := fun u hu => by rcases e2 with ⟨a, b⟩ | ⟨a, b⟩ <;> simp_all
    obtain ⟨a1, a2, a3, a4, a5, a6⟩ := waits_end k2 hq hb hp
    have i' := i1.run_inv hl k2
    have hb' : s'.busAt = none := by
      cases hu : s'.busAt with
      | none => rfl
      | some u => have := a1 u hu; have := (i'.busSoon u hu).2; omega
    have hh' : s'.hupAt = none := by
      cases hu : s'.hupAt with
      | none => rfl
      | some u => have := a2 u hu; have := (i'.hupSoon u hu).2; omega
    rcases first_request es with hn | ⟨p, e', r, q, rfl, h1, h2⟩
    · exfalso
      rcases e2 with ⟨a, -⟩ | ⟨a, -⟩
      · rcases a5 with a5 | ⟨r, a5⟩
        · rw [hb', a] at a5; cases a5
        · exact hn r (List.mem_flatMap.2 ⟨_, a5, List.mem_cons_self⟩)
      · rcases a6 with a6 | ⟨r, a6⟩
        · rw [hh', a] at a6; cases a6
        · exact hn r (List.mem_flatMap.2 ⟨_, a6, List.mem_cons_self⟩)
    · obtain ⟨x, k3, k4⟩ := reload_append.1 k2
      have hq1 : NobodyAsks p := ⟨fun h => hq.1 (List.mem_append_left _ h), fun b hb h => hq.2.1 b hb (List.mem_append_left _ h),
        fun r h => hq.2.2 r (List.mem_append_left _ h)⟩
      have hq2 : NobodyAsks q := ⟨fun h => hq.1 (List.mem_append_right _ (List.mem_cons_of_mem _ h)),
        fun b hb h => hq.2.1 b hb (List.mem_append_right _ (List.mem_cons_of_mem _ h)),
        fun r h => hq.2.2 r (List.mem_append_right _ (List.mem_cons_of_mem _ h))⟩
      obtain ⟨b1, b2, b3, b4, -, -⟩ := waits_end k3 hq1 hb hp
      have ix := i1.run_inv hl k3
      have tx := tries_run k3
      rw [e1] at tx
      obtain ⟨c1, c2⟩ := C140_keeps tx h2 hr hc.1
      cases k4 with
      | @cons _ y _ _ _ k5 k6 =>
        have iy := ix.step hl k5
        have hat : x.tries.attempt o r = .ok y.tries ∧ x.tries.now ≤ s.tries.now + e.quietTime + late ∧ y.busAt = none ∧ y.hupAt = none := by
          cases k5 with
          | event _ => cases h1
          | start _ => exact absurd (List.mem_append_right _ List.mem_cons_self) (hq.2.2 _)
          | signal => cases h1
          | hangup => cases h1
          | bus j1 j2 j3 =>
            cases h1
            cases j3 with
            | request j4 =>
              refine ⟨j4, by have := b1 _ j1; have := (ix.busSoon _ j1).2; omega, rfl, ?_⟩
              rcases e2 with ⟨-, a⟩ | ⟨-, a⟩
              · exact b4 a
              · rw [b3 a] at j1; cases j1
          | hup j1 j2 j3 =>
            cases h1
            cases j3 with
            | request j4 =>
              refine ⟨j4, by have := b2 _ j1; have := (ix.hupSoon _ j1).2; omega, ?_, rfl⟩
              rcases e2 with ⟨-, a⟩ | ⟨-, a⟩
              · rw [b4 a] at j1; cases j1
              · exact b3 a
          | retry _ => cases h1
          | pass _ _ _ => cases h1
        obtain ⟨hat, hxn, hyb, hyh⟩ := hat
        obtain ⟨d0, ⟨d1, -⟩ | ⟨-, d2, d3⟩⟩ := attempted hat
        · unfold Whole.NoneRuns at d1; rw [c1.2.2] at d1; cases d1
        have hyn : y.tries.whole.NoneRuns := by rw [d2]; rfl
        have hg' : ReadyThroughout o late y.tries (triesOf q) := by
          refine ready_tries k6 fun p' f r' q' z hs hf hz hnz => ?_
          refine hg (e :: (p ++ e' :: p')) f r' q' z ?_ hf (.cons k1 (reload_append.2 ⟨x, k3, .cons k5 hz⟩)) hnz
          rw [hs]; simp
        have := (starts_from_none (tries_run k6) (no_request k6 hq2 hyb hyh) hyn d3 (iy.tries.run _ d3) hg').resolve_left
          (by rintro ⟨-, k⟩; omega)
        refine ⟨⟨this.2, hb', hh'⟩, runs_from hh this.1 ⟨e', by simp, r, toRetry_attempt.2 (.inl h1)⟩⟩

/-- **C141** As long as the configuration has come from a file at every attempt, no signal on the bus asks for a reload, not even
one that tells of new sensors: only SIGHUP does. And no reload ever follows a signal. -/
theorem C141_file {o : Opts} {late : Int} {w : World} {t0 : Int} {es : List ReloadEvent} {s : Reloading}
    (h : ReloadRun o late (Reloading.init w t0) es s)
    (hf : ∀ e ∈ es, ∀ r, e.Attempts r → ∃ path, Source r.conf r.files (some path)) :
    (∀ e, s.Asked e → e = .hangup) ∧ ∀ r, ReloadEvent.bus r ∉ es := by
  have key : ∀ {es : List ReloadEvent} {s s' : Reloading}, ReloadRun o late s es s' →
      (∀ e ∈ es, ∀ r, e.Attempts r → ∃ path, Source r.conf r.files (some path)) → s.matched = false → s.busAt = none →
      s'.matched = false ∧ ∀ r, ReloadEvent.bus r ∉ es := by
    intro es s s' h
    induction h with
    | nil => exact fun _ h _ => ⟨h, fun _ h => by cases h⟩
    | @cons s s1 s2 e es k1 _ ih =>
      intro hf hm hb
      have hno : ∀ r : Found, e.Attempts r → r.asksBus = false := by
        intro r hr
        obtain ⟨path, hs⟩ := hf e List.mem_cons_self r hr
        unfold Found.asksBus
        rcases source_path r.conf r.files with ⟨a, b⟩ | ⟨a, b⟩
        · simpa using a
        · cases source_unique hs b
      have hk : s1.matched = false ∧ s1.busAt = none ∧ ∀ r, e ≠ .bus r := by
        cases k1 with
        | event _ => exact ⟨hm, hb, fun _ h => by cases h⟩
        | start _ => exact ⟨by simp [Reloading.after, hm, hno _ (.inl rfl)], hb, fun _ h => by cases h⟩
        | signal => exact ⟨hm, by simp [hm, hb], fun _ h => by cases h⟩
        | hangup => exact ⟨hm, hb, fun _ h => by cases h⟩
        | bus h1 _ _ => rw [hb] at h1; cases h1
        | hup _ _ _ => exact ⟨by simp [Reloading.after, hm, hno _ (.inr (.inr (.inl rfl)))], hb, fun _ h => by cases h⟩
        | retry _ => exact ⟨by simp [Reloading.after, hm, hno _ (.inr (.inr (.inr rfl)))], hb, fun _ h => by cases h⟩
        | pass _ _ _ => exact ⟨hm, hb, fun _ h => by cases h⟩
      obtain ⟨g1, g2⟩ := ih (fun e he => hf e (List.mem_cons_of_mem _ he)) hk.1 hk.2.1
      refine ⟨g1, fun r hr => ?_⟩
      rcases List.mem_cons.1 hr with h | h
      · exact hk.2.2 r h.symm
      · exact g2 r h
  obtain ⟨g1, g2⟩ := key h hf rfl rfl
  refine ⟨fun e ha => ?_, g2⟩
  cases ha with
  | hangup => rfl
  | signal h1 _ => rw [g1] at h1; cases h1

theorem reload_step_det {o : Opts} {late : Int} {e : ReloadEvent} {s x y : Reloading} (hx : ReloadStep o late s e x)
    (hy : ReloadStep o late s e y) : x = y := by
  cases hx with
  | event h1 => cases hy with | event h2 => rw [retry_step_det h1 h2]
  | start h1 => cases hy with | start h2 => rw [retry_step_det h1 h2]
  | signal => cases hy with | signal => rfl
  | hangup => cases hy with | hangup => rfl
  | bus _ _ h1 => cases hy with | bus _ _ h2 => rw [retry_step_det h1 h2]
  | hup _ _ h1 => cases hy with | hup _ _ h2 => rw [retry_step_det h1 h2]
  | retry h1 => cases hy with | retry h2 => rw [retry_step_det h1 h2]
  | pass _ _ h1 => cases hy with | pass _ _ h2 => rw [retry_step_det h1 h2]

end

namespace Ex
section
attribute [local instance] binary64

/-- is a wait of this kind due? -/
def due141 (t : Option Int) (now : Int) : Bool :=
  match t with
  | some t => decide (t ≤ now)
  | none => false

/-- may time pass that far? -/
def may141 (u : Option Int) (late t : Int) : Bool :=
  match u with
  | some u => decide (t ≤ u + late)
  | none => true

/-- carries out a step -/
def step141 (late : Int) (s : Reloading) : ReloadEvent → Option Reloading
  | .event e => (steps140 late s.tries [.event e]).map fun x => ⟨x, s.matched, s.busAt, s.hupAt⟩
  | .start r => (steps140 late s.tries [.request r]).map fun x => s.after r x
  | .signal b => some ⟨s.tries, s.matched, if s.matched && armsReload b then some (s.tries.now + busDelay) else s.busAt, s.hupAt⟩
  | .hangup => some ⟨s.tries, s.matched, s.busAt, some (s.tries.now + hupDelay)⟩
  | .bus r =>
    if due141 s.busAt s.tries.now then
      (steps140 late s.tries [.request r]).map fun x => ⟨x, (s.after r x).matched, none, s.hupAt⟩
    else none
  | .hup r =>
    if due141 s.hupAt s.tries.now then
      (steps140 late s.tries [.request r]).map fun x => ⟨x, (s.after r x).matched, s.busAt, none⟩
    else none
  | .retry r => (steps140 late s.tries [.retry r]).map fun x => s.after r x
  | .pass t =>
    if may141 s.busAt late t && may141 s.hupAt late t then
      (steps140 late s.tries [.pass t]).map fun x => ⟨x, s.matched, s.busAt, s.hupAt⟩
    else none

theorem one140 {late : Int} {e : RetryEvent} {s x : Retrying} (h : steps140 late s [e] = some x) : RetryStep {} late s e x := by
  cases steps140_run h with
  | cons h1 h2 => cases h2; exact h1

theorem due141_some {t : Option Int} {now : Int} (h : due141 t now = true) : ∃ u, t = some u ∧ u ≤ now := by
  cases t with
  | none => cases h
  | some u => exact ⟨u, rfl, of_decide_eq_true h⟩

theorem may141_some {u : Option Int} {late t : Int} (h : may141 u late t = true) : ∀ v, u = some v → t ≤ v + late := by
  rintro v rfl
  exact of_decide_eq_true h

theorem step141_sound {late : Int} {s s' : Reloading} {e : ReloadEvent} (h : step141 late s e = some s') :
    ReloadStep {} late s e s' := by
  unfold step141 at h
  split at h
  · obtain ⟨x, h1, rfl⟩ := Option.map_eq_some_iff.1 h
    exact .event (one140 h1)
  · obtain ⟨x, h1, rfl⟩ := Option.map_eq_some_iff.1 h
    exact .start (one140 h1)
  · cases h; exact .signal
  · cases h; exact .hangup
  · split_ifs at h with hd
    obtain ⟨x, h1, rfl⟩ := Option.map_eq_some_iff.1 h
    obtain ⟨u, h2, h3⟩ := due141_some hd
    exact .bus h2 h3 (one140 h1)
  · split_ifs at h with hd
    obtain ⟨x, h1, rfl⟩ := Option.map_eq_some_iff.1 h
    obtain ⟨u, h2, h3⟩ := due141_some hd
    exact .hup h2 h3 (one140 h1)
  · obtain ⟨x, h1, rfl⟩ := Option.map_eq_some_iff.1 h
    exact .retry (one140 h1)
  · split_ifs at h with hd
    obtain ⟨x, h1, rfl⟩ := Option.map_eq_some_iff.1 h
    obtain ⟨h2, h3⟩ := (Bool.and_eq_true _ _).mp hd
    exact .pass (may141_some h2) (may141_some h3) (one140 h1)

/-- carries out steps -/
def steps141 (late : Int) : Reloading → List ReloadEvent → Option Reloading
  | s, [] => some s
  | s, e :: es =>
    match step141 late s e with
    | some s' => steps141 late s' es
    | none => none

theorem steps141_run {late : Int} : ∀ {es : List ReloadEvent} {s s' : Reloading}, steps141 late s es = some s' →
    ReloadRun {} late s es s'
  | [], s, s', h => by cases h; exact .nil
  | e :: es, s, s', h => by
    unfold steps141 at h
    split at h
    · exact .cons (step141_sound ‹_›) (steps141_run h)
    · cases h

/-- what an attempt finds is ready -/
def found141 (s : Reloading) (r : Found) : Bool :=
  !s.tries.whole.d.zones.isEmpty || (s.tries.whole.hosts.isEmpty && ((s.tries.whole.stop {}).toOption.any fun w : World =>
    match attempt {} r.conf r.files r.objects r.order r.bus r.now w with
    | .running _ => true
    | _ => false))

theorem found141_ready {s : Reloading} {r : Found} (h : found141 s r = true) (hn : s.tries.whole.NoneRuns) :
    r.Ready {} s.tries.whole := by
  unfold found141 at h
  rw [show s.tries.whole.d.zones.isEmpty = true from hn] at h
  simp only [Bool.not_true, Bool.false_or, Bool.and_eq_true, List.isEmpty_iff] at h
  obtain ⟨hh, hw⟩ := h
  obtain ⟨w, h6, h7⟩ := ok_of_any hw
  refine ⟨fun w' hw' => ?_, fun p hp => by rw [hh] at hp; cases hp⟩
  rw [h6] at hw'
  cases hw'
  split at h7
  · exact ⟨_, ‹_›⟩
  · cases h7

def finds141 (s : Reloading) : ReloadEvent → Bool
  | .start r => found141 s r
  | .bus r => found141 s r
  | .hup r => found141 s r
  | .retry r => found141 s r
  | _ => true

/-- at every attempt what is found is ready -/
def ready141 (late : Int) : Reloading → List ReloadEvent → Bool
  | _, [] => true
  | s, e :: es => finds141 s e &&
    match step141 late s e with
    | some s' => ready141 late s' es
    | none => false

theorem ready141_sound {late : Int} : ∀ {es : List ReloadEvent} {s : Reloading}, ready141 late s es = true → FoundReady {} late s es
  | [], s, _ => fun pre e r post x he => by simp at he
  | e :: es, s, h => by
    unfold ready141 at h
    obtain ⟨h1, h2⟩ := (Bool.and_eq_true _ _).mp h
    intro pre e' r post x he ha hx hn
    cases pre with
    | nil =>
      simp only [List.nil_append, List.cons.injEq] at he
      obtain ⟨rfl, rfl⟩ := he
      cases hx
      refine found141_ready ?_ hn
      rcases ha with rfl | rfl | rfl | rfl <;> exact h1
    | cons a pre =>
      simp only [List.cons_append, List.cons.injEq] at he
      obtain ⟨rfl, rfl⟩ := he
      cases hx with
      | cons k1 k2 =>
        split at h2
        · rename_i s1 hs1
          rw [reload_step_det k1 (step141_sound hs1)] at k2
          exact ready141_sound h2 pre e' r post x rfl ha k2 hn
        · cases h2

def sum141 (s : Reloading) : List Int × Option Int × Option Int × Option Int × List Effect :=
  (s.tries.whole.d.zones.entries.map (fun e => e.1), s.tries.retryAt, s.busAt, s.hupAt, s.tries.whole.d.w.trace)

/-- the configuration on the bus of C115 -/
def conf141 : Found := found123 nofiles108 conf115 true

/-- the thermal mode changes -/
def mode141 : BusSignal := ⟨"PropertiesChanged", "xyz.openbmc_project.Control.ThermalMode", []⟩

def start141 : List ReloadEvent := [.start conf141, .pass 5000]
def after141 : List ReloadEvent := [.signal mode141, .event (.tick 3), .pass 7020, .bus conf141, .pass 17050, .retry conf141, .pass 18000]


/-- the loops run on for two seconds, pause for ten, and run again; no timer is left -/
example : ((steps141 100 (.init world113 0) (start141 ++ after141.take 2)).map sum141) =
    some ([3], none, some 7000, none, [.dbusSet "/xyz/openbmc_project/control/fanpwm/Pwm_1" 76 true]) := by decide +kernel
example : ((steps141 100 (.init world113 0) (start141 ++ after141.take 4)).map sum141) =
    some ([], some 17020, none, none, [.dbusSet "/xyz/openbmc_project/control/fanpwm/Pwm_1" 76 true]) := by decide +kernel
example : ((steps141 100 (.init world113 0) (start141 ++ after141)).map sum141) =
    some ([3], none, none, none, [.dbusSet "/xyz/openbmc_project/control/fanpwm/Pwm_1" 76 true]) := by decide +kernel

/-- C141_usually on this -/
example : ∃ s s', ReloadRun {} 100 (.init world113 0) start141 s ∧ ReloadRun {} 100 s after141 s' ∧ s'.Calm ∧
    RunsFrom {} 100 s after141 s' := by
  obtain ⟨s, h1, hP⟩ := any_some (x := steps141 100 (.init world113 0) start141)
    (P := fun s : Reloading => (!s.tries.whole.again && s.tries.whole.idle.isEmpty && !s.tries.whole.d.zones.isEmpty) &&
      (decide (s.tries.now = 5000) && decide (s.tries.retryAt = none) && decide (s.busAt = none) && decide (s.hupAt = none)) &&
      (s.matched && ready141 100 s after141) &&
      (steps141 100 s after141).any (fun s' : Reloading => decide (s'.tries.now = 18000))) (by decide +kernel)
  simp only [Bool.and_eq_true, Bool.not_eq_true', decide_eq_true_eq, List.isEmpty_iff] at hP
  obtain ⟨⟨⟨⟨⟨a1, a2⟩, a3⟩, ⟨⟨⟨b1, b2⟩, b3⟩, b4⟩⟩, ⟨c1, c2⟩⟩, d⟩ := hP
  obtain ⟨s', h2, h3⟩ := any_some d
  refine ⟨s, s', steps141_run h1, steps141_run h2, ?_⟩
  refine C141_usually (by decide) (steps141_run h1) ⟨b2, b3, b4⟩ ⟨a1, a2, a3⟩ (.signal c1 (by decide +kernel)) (steps141_run h2) ?_
    (ready141_sound c2) (by rw [of_decide_eq_true h3, b1]; decide)
  exact ⟨by simp, fun b _ => by simp, fun r => by simp⟩

/-- with a file the same signal has no effect; SIGHUP has -/
example : ((steps141 100 (.init world113 0) [.start file140, .pass 5000, .signal mode141]).map sum141) = some ([3], none, none, none, []) := by
  decide +kernel
example : ((steps141 100 (.init world113 0) [.start file140, .pass 5000, .hangup]).map sum141) = some ([3], none, none, some 6000, []) := by
  decide +kernel

end
end Ex
end Verif
