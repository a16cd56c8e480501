import Verif.Spec.Watched
import Verif.Props.Host
import Verif.Props.Daemon
import Verif.Props.Recovery

/-! # Lemmas about the daemon with the host and the redundancy groups it watches -/

namespace Verif
open Dbl

section
variable [F : FloatModel]

theorem watched_cons {o : Opts} {x x' : Watched} {e : HeardEvent} {es : List HeardEvent} :
    x.run o (e :: es) = .ok x' ↔ ∃ y, x.step o e = .ok y ∧ y.run o es = .ok x' := bind_eq_ok

theorem watched_append {o : Opts} : ∀ {es es' : List HeardEvent} {x x' : Watched},
    x.run o (es ++ es') = .ok x' ↔ ∃ y, x.run o es = .ok y ∧ y.run o es' = .ok x'
  | [], es', x, x' => by
    constructor
    · exact fun h => ⟨x, rfl, h⟩
    · rintro ⟨y, h, h'⟩; cases h; exact h'
  | e :: es, es', x, x' => by
    rw [List.cons_append, watched_cons]
    constructor
    · rintro ⟨y, h1, h2⟩
      obtain ⟨z, h3, h4⟩ := watched_append.1 h2
      exact ⟨z, watched_cons.2 ⟨y, h1, h3⟩, h4⟩
    · rintro ⟨z, h1, h2⟩
      obtain ⟨y, h3, h4⟩ := watched_cons.1 h1
      exact ⟨y, h3, watched_append.2 ⟨z, h4, h2⟩⟩

theorem watched_step {o : Opts} {x x' : Watched} {e : HeardEvent} (h : x.step o e = .ok x') :
    x.d.step o (x.event e) = .ok x'.d ∧ x'.host = x.nextHost e ∧ x'.failed = x.nextFailed e := by
  obtain ⟨d, h1, h2⟩ := bind_eq_ok.1 h
  cases h2
  exact ⟨h1, rfl, rfl⟩

/-- what the events are to the daemon -/
def Watched.seen (o : Opts) : Watched → List HeardEvent → List DEvent
  | _, [] => []
  | x, e :: es => x.event e :: (match x.step o e with
    | .ok y => y.seen o es
    | .error _ => [])

theorem seen_cons {o : Opts} {x y : Watched} {e : HeardEvent} {es : List HeardEvent} (h : x.step o e = .ok y) :
    x.seen o (e :: es) = x.event e :: y.seen o es := by
  rw [Watched.seen, h]

theorem seen_run {o : Opts} : ∀ {es : List HeardEvent} {x x' : Watched}, x.run o es = .ok x' → x.d.run o (x.seen o es) = .ok x'.d
  | [], x, x', h => by cases h; rfl
  | e :: es, x, x', h => by
    obtain ⟨y, h1, h2⟩ := watched_cons.1 h
    rw [seen_cons h1, Daemon.run, (watched_step h1).1, ok_bind]
    exact seen_run h2

theorem seen_append {o : Opts} : ∀ {es : List HeardEvent} {x y : Watched} (es' : List HeardEvent), x.run o es = .ok y →
    x.seen o (es ++ es') = x.seen o es ++ y.seen o es'
  | [], x, y, es', h => by cases h; rfl
  | e :: es, x, y, es', h => by
    obtain ⟨z, h1, h2⟩ := watched_cons.1 h
    rw [List.cons_append, seen_cons h1, seen_cons h1, seen_append es' h2, List.cons_append]

theorem event_tick {x : Watched} {e : HeardEvent} {i : Int} (h : x.event e = .tick i) : e = .own (.tick i) := by
  cases e with
  | own e => cases e <;> first | exact congrArg _ h | cases h
  | host | group => cases h

/-- a cycle the daemon sees is one of the events -/
theorem seen_split {o : Opts} {i : Int} : ∀ {es : List HeardEvent} {x x' : Watched} {ds1 ds2 : List DEvent},
    x.run o es = .ok x' → x.seen o es = ds1 ++ .tick i :: ds2 →
    ∃ es1 es2 y, es = es1 ++ .own (.tick i) :: es2 ∧ x.run o es1 = .ok y ∧ x.seen o es1 = ds1
  | [], x, x', ds1, ds2, _, h => by
    have := congrArg List.length h
    simp [Watched.seen] at this
  | e :: es, x, x', ds1, ds2, hr, h => by
    obtain ⟨y, h1, h2⟩ := watched_cons.1 hr
    rw [seen_cons h1] at h
    cases ds1 with
    | nil =>
      injection h with h3 h4
      exact ⟨[], es, x, by rw [event_tick h3]; rfl, rfl, rfl⟩
    | cons a ds1 =>
      injection h with h3 h4
      obtain ⟨es1, es2, z, k1, k2, k3⟩ := seen_split h2 h4
      exact ⟨e :: es1, es2, z, by rw [k1]; rfl, watched_cons.2 ⟨y, h1, k2⟩, by rw [seen_cons h1, k3, h3]⟩

theorem seen_signals {o : Opts} (n : String) : ∀ {es : List HeardEvent} {x x' : Watched}, x.run o es = .ok x' →
    signalsFor n (x.seen o es) = signalsFor n (ownOf es)
  | [], x, x', _ => rfl
  | e :: es, x, x', h => by
    obtain ⟨y, h1, h2⟩ := watched_cons.1 h
    have ih := seen_signals n h2
    rw [seen_cons h1]
    cases e with
    | own e => cases e <;> simp only [Watched.event, ownOf, signalsFor, ih]
    | host | group => simp only [Watched.event, ownOf, signalsFor, ih]

theorem seen_mode {o : Opts} (i : Int) : ∀ {es : List HeardEvent} {x x' : Watched} (b : Bool), x.run o es = .ok x' →
    modeAfter i b (x.seen o es) = modeAfter i b (ownOf es)
  | [], x, x', b, _ => rfl
  | e :: es, x, x', b, h => by
    obtain ⟨y, h1, h2⟩ := watched_cons.1 h
    rw [seen_cons h1]
    cases e with
    | own e => cases e <;> simp only [Watched.event, ownOf, modeAfter, seen_mode i _ h2]
    | host | group => simp only [Watched.event, ownOf, modeAfter, seen_mode i _ h2]

theorem seen_ticks {o : Opts} (i : Int) : ∀ {es : List HeardEvent} {x x' : Watched} (b : Bool), x.run o es = .ok x' →
    autoTicks i b (x.seen o es) = autoTicks i b (ownOf es)
  | [], x, x', b, _ => rfl
  | e :: es, x, x', b, h => by
    obtain ⟨y, h1, h2⟩ := watched_cons.1 h
    rw [seen_cons h1]
    cases e with
    | own e => cases e <;> simp only [Watched.event, ownOf, autoTicks, seen_ticks i _ h2]
    | host | group => simp only [Watched.event, ownOf, autoTicks, seen_ticks i _ h2]

theorem ownOf_append : ∀ es es' : List HeardEvent, ownOf (es ++ es') = ownOf es ++ ownOf es'
  | [], _ => rfl
  | .own e :: es, es' => by simp only [List.cons_append, ownOf, ownOf_append es es']
  | .host m :: es, es' => by simp only [List.cons_append, ownOf, ownOf_append es es']
  | .group a b c :: es, es' => by simp only [List.cons_append, ownOf, ownOf_append es es']

/-! ## The daemon asks the monitors -/

/-- the daemon's world says what the monitors say -/
def Watched.Agrees (x : Watched) : Prop := x.d.w.hostOn = x.host.powerStatusOn ∧ x.d.w.redundancyFailed = x.failed

/-- events other than those from outside leave the host and the groups alone -/
theorem step_watched {o : Opts} {d d' : Daemon} {e : DEvent} (h : d.step o e = .ok d') :
    (∃ nf nt ho rf fi bo, e = .outside nf nt ho rf fi bo ∧ d'.w.hostOn = ho ∧ d'.w.redundancyFailed = rf) ∨
      (d'.w.hostOn = d.w.hostOn ∧ d'.w.redundancyFailed = d.w.redundancyFailed) := by
  cases e with
  | outside nf nt ho rf fi bo => cases h; exact .inl ⟨_, _, _, _, _, _, rfl, rfl, rfl⟩
  | signal k t' m =>
    have h : d.signal o k t' m = .ok d' := h
    unfold Daemon.signal at h
    split at h
    · split at h
      · obtain ⟨p', hp, h⟩ := bind_eq_ok.1 h
        cases h; exact .inr ⟨rfl, rfl⟩
      · cases h; exact .inr ⟨rfl, rfl⟩
    · cases h; exact .inr ⟨rfl, rfl⟩
  | hostWrite k t' v =>
    simp only [Daemon.step] at h
    split at h <;> (cases h; exact .inr ⟨rfl, rfl⟩)
  | manual j b => cases h; rw [onZone_w]; exact .inr ⟨rfl, rfl⟩
  | enable j l b => cases h; rw [onZone_w]; exact .inr ⟨rfl, rfl⟩
  | tick j =>
    simp only [Daemon.step] at h
    split at h
    · obtain ⟨⟨w', z', cnt'⟩, h3, h⟩ := bind_eq_ok.1 h
      cases h
      have := (tick_after h3).same
      rw [this]; exact .inr ⟨rfl, rfl⟩
    · cases h; exact .inr ⟨rfl, rfl⟩

theorem agrees_step {o : Opts} {x x' : Watched} {e : HeardEvent} (hx : x.Agrees) (h : x.step o e = .ok x') : x'.Agrees := by
  obtain ⟨h1, h2, h3⟩ := watched_step h
  unfold Watched.Agrees
  rw [h2, h3]
  cases e with
  | own e =>
    rcases step_watched h1 with ⟨nf, nt, ho, rf, fi, bo, k1, k2, k3⟩ | ⟨k1, k2⟩
    · cases e <;> cases k1
      exact ⟨k2, k3⟩
    · exact ⟨k1.trans hx.1, k2.trans hx.2⟩
  | host m =>
    injection h1 with h1
    rw [← h1]; exact ⟨rfl, rfl⟩
  | group a b c =>
    injection h1 with h1
    rw [← h1]; exact ⟨rfl, rfl⟩

theorem agrees_run {o : Opts} : ∀ {es : List HeardEvent} {x x' : Watched}, x.Agrees → x.run o es = .ok x' → x'.Agrees
  | [], x, x', hx, h => by cases h; exact hx
  | e :: es, x, x', hx, h => by
    obtain ⟨y, h1, h2⟩ := watched_cons.1 h
    exact agrees_run (agrees_step hx h1) h2

/-- the monitor after the events -/
theorem host_run {o : Opts} : ∀ {es : List HeardEvent} {x x' : Watched}, x.host.monitoring = true → x.run o es = .ok x' →
    x'.host.monitoring = true ∧ (x'.host.powerStatusOn = true ↔
      match (statesOf es).getLast? with
      | some s => Running s
      | none => x.host.powerStatusOn = true) := by
  have key : ∀ (hs : List HostEvent) (m : HostMonitor), m.monitoring = true → (∀ e ∈ hs, ∃ msg, e = .signal msg) →
      (hs.foldl HostMonitor.event m).monitoring = true := by
    intro hs
    induction hs with
    | nil => exact fun m hm _ => hm
    | cons a hs ih =>
      intro m hm ha
      refine ih _ ?_ (fun e he => ha e (List.mem_cons_of_mem _ he))
      obtain ⟨msg, rfl⟩ := ha a List.mem_cons_self
      show (m.signal msg).monitoring = true
      unfold HostMonitor.signal HostMonitor.handleStateChange
      rw [if_pos hm]
      split
      · exact hm
      · split
        · exact hm
        · simp only
          split_ifs <;> exact hm
  intro es x x' hx h
  have hs : ∃ hs : List HostEvent, x'.host = hs.foldl HostMonitor.event x.host ∧ (∀ e ∈ hs, ∃ msg, e = .signal msg) ∧
      heardStates true hs = statesOf es := by
    clear key hx
    induction es generalizing x with
    | nil => cases h; exact ⟨[], rfl, by simp, rfl⟩
    | cons e es ih =>
      obtain ⟨y, h1, h2⟩ := watched_cons.1 h
      obtain ⟨hs, k1, k2, k3⟩ := ih h2
      rw [(watched_step h1).2.1] at k1
      cases e with
      | own e => exact ⟨hs, k1, k2, k3⟩
      | group a b c => exact ⟨hs, k1, k2, k3⟩
      | host m =>
        refine ⟨.signal m :: hs, k1, ?_, ?_⟩
        · intro e he
          rcases List.mem_cons.1 he with rfl | he
          · exact ⟨_, rfl⟩
          · exact k2 e he
        · simp only [heardStates, statesOf, k3, if_true]
  obtain ⟨hs, k1, k2, k3⟩ := hs
  refine ⟨k1 ▸ key hs _ hx k2, ?_⟩
  rw [k1, events_status, hx, k3]
  rfl

/-- the failed fans after the events -/
theorem groups_run {o : Opts} {groups : String → List String} {first : FirstAnswers} : ∀ {es : List HeardEvent} {x x' : Watched}
    {h : List GroupReport}, Members groups es → x.run o es = .ok x' → Groups groups first h x.failed →
    Groups groups first (h ++ reportsOf es) x'.failed
  | [], x, x', h, _, hr, hg => by cases hr; simpa [reportsOf] using hg
  | e :: es, x, x', h, hm, hr, hg => by
    obtain ⟨y, h1, h2⟩ := watched_cons.1 hr
    have hm' : Members groups es := fun a b c hc => hm a b c (List.mem_cons_of_mem _ hc)
    have hf := (watched_step h1).2.2
    cases e with
    | own e => exact groups_run (es := es) hm' h2 (by rw [hf]; exact hg)
    | host m => exact groups_run (es := es) hm' h2 (by rw [hf]; exact hg)
    | group a b c =>
      have := groups_run (h := h ++ [⟨a, b, c.isSome⟩]) hm' h2 (by
        rw [hf]
        have := hg.report ⟨a, b, c.isSome⟩
        cases c with
        | none => exact this
        | some c =>
          have hc := hm a b c List.mem_cons_self
          rw [hc]
          exact this)
      rw [List.append_assoc] at this
      exact this

/-! ## The start -/

theorem watched_launch {o : Opts} {bus : BuildBus} {now : Int} {w : World} {reply : Option String}
    {answers : Option (List (Option RedundancyProps))} {sensors : OMap String SensorConfig} {pids : OMap Int PIDConf}
    {configs : OMap Int ZoneConfig} {x : Watched} (h : Watched.launch o bus now w reply answers sensors pids configs = .ok x) :
    (∃ w', Daemon.launch o bus now w' sensors pids configs = .ok x.d) ∧ x.Agrees ∧ x.host.monitoring = true ∧
      (x.host.powerStatusOn = true ↔ ∃ s, reply = some s ∧ Running s) ∧
      ((∃ e ∈ sensors.entries, ReadKind e.2.readPath .dbusPassive) → redundancyInit answers = .ok x.failed) := by
  unfold Watched.launch at h
  obtain ⟨failed, h1, h2⟩ := bind_eq_ok.1 h
  obtain ⟨d, h3, h4⟩ := bind_eq_ok.1 h2
  cases h4
  obtain ⟨m, zones, hL⟩ := launch_spec h3
  refine ⟨⟨_, h3⟩, ?_, rfl, ?_, ?_⟩
  · unfold Watched.Agrees
    rw [hL.world]
    exact ⟨rfl, rfl⟩
  · show (HostMonitor.ctor reply).powerStatusOn = true ↔ _
    cases reply with
    | none => simp [HostMonitor.ctor]
    | some s => simp [HostMonitor.ctor, Running, endsWith_iff]
  · rintro ⟨e, he, hk⟩
    unfold failedAtStart at h1
    rw [if_pos (List.any_eq_true.2 ⟨e, he, by simpa using (C65_read _ _).2 hk⟩)] at h1
    exact h1

end
end Verif
