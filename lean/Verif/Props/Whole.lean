import Verif.Lemmas.Whole
import Verif.Lemmas.ReadWf
import Verif.Props.Remote
import Verif.Props.BusWritten

/-! # Theorems about the whole life of the daemon (C123) -/

namespace Verif
open Dbl

section
variable [F : FloatModel]

/-- what a reload that does not end the process did -/
theorem reload_cases {o : Opts} {r : Found} {s s' : Whole} (h : s.reload o r = .ok s') :
    ∃ w, s.stop o = .ok w ∧ ((∃ b, s' = s.halted w b) ∨ ∃ c m, r.read = .got c ∧ buildSensors o r.bus r.now c.sensors = .ok m ∧
      startBuilt o c { w with sensors := m.sensors } = .ok s' ∧
      ¬ (r.refuses && ((hostObjects c.sensors).map Prod.fst).any (s.hosts.contains ·)) = true) := by
  unfold Whole.reload at h
  obtain ⟨w, h1, h⟩ := bind_eq_ok.1 h
  refine ⟨w, h1, ?_⟩
  cases hr : r.read with
  | wait => rw [hr] at h; cases h; exact .inl ⟨_, rfl⟩
  | again why => rw [hr] at h; cases h; exact .inl ⟨_, rfl⟩
  | ended why => rw [hr] at h; cases h
  | undefined why => rw [hr] at h; cases h
  | got c =>
    rw [hr] at h
    dsimp only at h
    unfold Whole.rebuild at h
    split_ifs at h with hc
    · cases h; exact .inl ⟨_, rfl⟩
    · cases hm : buildSensors o r.bus r.now c.sensors with
      | error e =>
        rw [hm] at h
        cases e with
        | exc why => cases h; exact .inl ⟨_, rfl⟩
        | ub why => cases h
      | ok m =>
        rw [hm] at h
        exact .inr ⟨c, m, rfl, hm, h, hc⟩

/-- what starting zones came to -/
theorem startBuilt_cases {o : Opts} {c : Config} {w : World} {s : Whole} (h : startBuilt o c w = .ok s) :
    s.d.w = w ∧ s.hosts = (hostObjects c.sensors).map Prod.fst ∧
    ((s.d.zones = {} ∧ s.idle = [] ∧ s.again = true ∧ ∃ why, buildZones c.pids c.zones = .error (.exc why)) ∨
     ∃ zones e, buildZones c.pids c.zones = .ok zones ∧ zones.isEmpty = false ∧
       startSome o w {} zones.entries = (s.d.zones, s.idle, e) ∧ s.again = e.isSome ∧ ∀ x, e = some x → ∃ why, x = .exc why) := by
  unfold startBuilt at h
  dsimp only at h
  cases hz : buildZones c.pids c.zones with
  | error e =>
    rw [hz] at h
    cases e with
    | exc why => cases h; exact ⟨rfl, rfl, .inl ⟨rfl, rfl, rfl, why, rfl⟩⟩
    | ub why => cases h
  | ok zones =>
    rw [hz] at h
    dsimp only at h
    split_ifs at h with he
    have he : zones.isEmpty = false := by simpa using he
    rcases hs : startSome o w {} zones.entries with ⟨zs, rest, e⟩
    rw [hs] at h
    cases e with
    | none =>
      cases h
      obtain ⟨-, rfl⟩ := startSome_none hs
      exact ⟨rfl, rfl, .inr ⟨zones, none, rfl, he, hs, rfl, fun _ h => by cases h⟩⟩
    | some e =>
      cases e with
      | exc why => cases h; exact ⟨rfl, rfl, .inr ⟨zones, _, rfl, he, hs, rfl, fun _ h => by cases h; exact ⟨why, rfl⟩⟩⟩
      | ub why => cases h

/-- `attempt` in terms of what was read -/
theorem attempt_read {o : Opts} {r : Found} {c : Config} (hr : r.read = .got c) (w : World) :
    attempt o r.conf r.files r.objects r.order r.bus r.now w = launched o r.bus r.now w c := by
  unfold Found.read at hr
  unfold attempt
  dsimp only at hr ⊢
  split_ifs at hr ⊢ with h1 h2 h2
  all_goals
    split at hr
    all_goals first | (cases hr; done) | skip
    all_goals rename_i hx; cases hr; rw [hx]

theorem read_of_running {o : Opts} {r : Found} {w : World} {d : Daemon}
    (h2 : attempt o r.conf r.files r.objects r.order r.bus r.now w = .running d) : ∃ c, r.read = .got c := by
  unfold attempt at h2
  unfold Found.read
  dsimp only at h2 ⊢
  split_ifs at h2 ⊢
  all_goals
    split at h2
    all_goals first | (cases h2; done) | skip
    all_goals rename_i hx; rw [hx]; exact ⟨_, rfl⟩

/-- starting does not depend on what was written before -/
theorem attempt_since {o : Opts} {r : Found} {w : World} {d : Daemon}
    (h : attempt o r.conf r.files r.objects r.order r.bus r.now w = .running d) :
    ∃ d0, attempt o r.conf r.files r.objects r.order r.bus r.now { w with trace := [] } = .running d0 ∧ d = d0.since w.trace := by
  obtain ⟨c, hc⟩ := read_of_running h
  rw [attempt_read hc, launched_running] at h
  simp only [attempt_read hc, launched_running]
  unfold Daemon.launch at h ⊢
  obtain ⟨m, h3, h⟩ := bind_eq_ok.1 h
  obtain ⟨zones, h4, h⟩ := bind_eq_ok.1 h
  split_ifs at h with h5
  obtain ⟨zs, h6, h⟩ := bind_eq_ok.1 h
  cases h
  have e : ({ w with sensors := m.sensors } : World) = World.since w.trace { w with sensors := m.sensors, trace := [] } := by
    simp [World.since]
  refine ⟨⟨{ w with sensors := m.sensors, trace := [] }, zs⟩, ?_, ?_⟩
  · rw [h3, ok_bind, h4, ok_bind, if_neg h5]
    rw [e, startZones_since] at h6
    show (startZones o { w with sensors := m.sensors, trace := [] } {} zones.entries >>= _) = _
    rw [h6]
    rfl
  · unfold Daemon.since
    rw [← e]

/-- **C123** After a reload that leaves every zone running, the daemon is in the state an attempt to start it leads to: nothing
is left of the zones and sensors it had before. -/
theorem C123_restart {o : Opts} {r : Found} {s s' : Whole} (h : s.reload o r = .ok s') (hs : s'.AllRun) :
    ∃ w, s.stop o = .ok w ∧ attempt o r.conf r.files r.objects r.order r.bus r.now w = .running s'.d := by
  obtain ⟨w, h1, ⟨b, rfl⟩ | ⟨c, m, h2, h3, h4, -⟩⟩ := reload_cases h
  · exact absurd hs.2.2 (by rw [Whole.halted]; exact Bool.noConfusion)
  · refine ⟨w, h1, ?_⟩
    obtain ⟨e1, -, ⟨-, -, e2, -⟩ | ⟨zones, e, e2, e3, e4, e5, -⟩⟩ := startBuilt_cases h4
    · rw [hs.1] at e2; cases e2
    · rw [hs.1] at e5
      cases e with
      | some x => cases e5
      | none =>
        rw [attempt_read h2, launched_running]
        unfold Daemon.launch
        rw [h3, ok_bind, e2, ok_bind, if_neg (by simp [e3]), (startSome_none e4).1, ok_bind, ← e1]

/-- **C123** Conversely, where an attempt to start leads to a running daemon, so does a reload, unless the bus refuses the object
of a host sensor. -/
theorem C123_reloads {o : Opts} {r : Found} {s : Whole} {w : World} {d : Daemon} (h1 : s.stop o = .ok w)
    (h2 : attempt o r.conf r.files r.objects r.order r.bus r.now w = .running d)
    (hh : ∀ p ∈ s.hosts, ¬ r.Clashes p) : ∃ s', s.reload o r = .ok s' ∧ s'.AllRun ∧ s'.d = d := by
  obtain ⟨c, hc⟩ := read_of_running h2
  rw [attempt_read hc, launched_running] at h2
  unfold Daemon.launch at h2
  obtain ⟨m, h3, h2⟩ := bind_eq_ok.1 h2
  obtain ⟨zones, h4, h2⟩ := bind_eq_ok.1 h2
  split_ifs at h2 with h5
  obtain ⟨zs, h6, h2⟩ := bind_eq_ok.1 h2
  cases h2
  have hne : (OMap.isEmpty zs) = false := by
    cases hl : zones.entries with
    | nil => exact absurd (by simp [OMap.isEmpty, hl]) h5
    | cons e l =>
      obtain ⟨i, z⟩ := e
      obtain ⟨a, -⟩ := startZones_find? (OMap.wf_nodup (buildZones_wf h4)) h6 i
      obtain ⟨z0, -, hz⟩ := a z (by rw [hl]; exact List.mem_cons_self)
      exact (OMap.isEmpty_false_iff _).2 ⟨i, _, hz⟩
  have hcl : ¬ (r.refuses && ((hostObjects c.sensors).map Prod.fst).any (s.hosts.contains ·)) = true := by
    intro hx
    obtain ⟨ha, hb⟩ := (Bool.and_eq_true _ _).mp hx
    obtain ⟨p, hp, hq⟩ := List.any_eq_true.1 hb
    obtain ⟨⟨p', n⟩, hn, rfl⟩ := List.mem_map.1 hp
    exact hh p' (by simpa using hq) ⟨ha, c, hc, n, hn⟩
  refine ⟨⟨⟨{ w with sensors := m.sensors }, zs⟩, [], (hostObjects c.sensors).map Prod.fst, false⟩, ?_, ⟨rfl, rfl, hne⟩, rfl⟩
  unfold Whole.reload
  rw [h1, ok_bind, hc]
  dsimp only
  unfold Whole.rebuild
  rw [if_neg hcl, h3]
  dsimp only
  unfold startBuilt
  dsimp only
  rw [h4]
  dsimp only
  rw [if_neg h5, startSome_of_startZones h6]

/-- **C123** Where an attempt to start would not lead to a running daemon, neither does a reload: if the configuration is not
there yet, no zone runs and the daemon waits for it; after an exception another attempt follows; and where the attempt would end the
process, so does the reload, although loops were running. -/
theorem C123_outcomes {o : Opts} {r : Found} {s : Whole} {w : World} (h1 : s.stop o = .ok w)
    (hh : ∀ p ∈ s.hosts, ¬ r.Clashes p) :
    (attempt o r.conf r.files r.objects r.order r.bus r.now w = .waiting →
      ∃ s', s.reload o r = .ok s' ∧ s'.NoneRuns ∧ s'.idle = [] ∧ s'.again = false) ∧
    (∀ why, attempt o r.conf r.files r.objects r.order r.bus r.now w = .retry why →
      ∃ s', s.reload o r = .ok s' ∧ s'.again = true) ∧
    (∀ why, attempt o r.conf r.files r.objects r.order r.bus r.now w = .exit why → s.reload o r = .error (.exc why)) := by
  have hcl : ∀ c, r.read = .got c → ¬ (r.refuses && ((hostObjects c.sensors).map Prod.fst).any (s.hosts.contains ·)) = true := by
    intro c hc hx
    obtain ⟨ha, hb⟩ := (Bool.and_eq_true _ _).mp hx
    obtain ⟨p, hp, hq⟩ := List.any_eq_true.1 hb
    obtain ⟨⟨p', n⟩, hn, rfl⟩ := List.mem_map.1 hp
    exact hh p' (by simpa using hq) ⟨ha, c, hc, n, hn⟩
  have hre : s.reload o r = match r.read with
      | .got c => s.rebuild o r w c
      | .wait => .ok (s.halted w false)
      | .again _ => .ok (s.halted w true)
      | .ended why => .error (.exc why)
      | .undefined why => .error (.ub why) := by
    unfold Whole.reload
    rw [h1, ok_bind]
    cases r.read <;> rfl
  have hat : attempt o r.conf r.files r.objects r.order r.bus r.now w = match r.read with
      | .got c => launched o r.bus r.now w c
      | .wait => .waiting
      | .again why => .retry why
      | .ended why => .exit why
      | .undefined why => .undefined why := by
    unfold attempt Found.read
    dsimp only
    split_ifs
    all_goals split <;> rename_i hx <;> simp only [hx]
  rw [hre, hat]
  cases hc : r.read with
  | wait => exact ⟨fun _ => ⟨_, rfl, rfl, rfl, rfl⟩, fun why h => (by cases h), fun why h => by cases h⟩
  | again x => exact ⟨fun h => (by cases h), fun why h => ⟨_, rfl, rfl⟩, fun why h => by cases h⟩
  | ended x => exact ⟨fun h => (by cases h), fun why h => (by cases h), fun why h => by cases h; rfl⟩
  | undefined x => exact ⟨fun h => (by cases h), fun why h => (by cases h), fun why h => by cases h⟩
  | got c =>
    dsimp only
    unfold Whole.rebuild launched
    rw [if_neg (hcl c hc)]
    cases buildSensors o r.bus r.now c.sensors with
    | error e =>
      cases e with
      | exc x => exact ⟨fun h => (by cases h), fun why h => ⟨_, rfl, rfl⟩, fun why h => by cases h⟩
      | ub x => exact ⟨fun h => (by cases h), fun why h => (by cases h), fun why h => by cases h⟩
    | ok m =>
      rw [ok_bind]
      dsimp only
      unfold startBuilt
      dsimp only
      cases buildZones c.pids c.zones with
      | error e =>
        cases e with
        | exc x => exact ⟨fun h => (by cases h), fun why h => ⟨_, rfl, rfl⟩, fun why h => by cases h⟩
        | ub x => exact ⟨fun h => (by cases h), fun why h => (by cases h), fun why h => by cases h⟩
      | ok zones =>
        rw [ok_bind]
        dsimp only
        split_ifs with he
        · exact ⟨fun h => (by cases h), fun why h => (by cases h), fun why h => by cases h; rfl⟩
        · cases hz : startZones o { w with sensors := m.sensors } {} zones.entries with
          | ok zs => exact ⟨fun h => (by cases h), fun why h => (by cases h), fun why h => by cases h⟩
          | error e =>
            rcases hs : startSome o { w with sensors := m.sensors } {} zones.entries with ⟨zs, rest, e'⟩
            have he' : e' = some e := startSome_error hs hz
            subst he'
            cases e with
            | exc x => exact ⟨fun h => (by cases h), fun why h => ⟨_, rfl, rfl⟩, fun why h => by cases h⟩
            | ub x => exact ⟨fun h => (by cases h), fun why h => (by cases h), fun why h => by cases h⟩

/-! ## Whole lives -/

theorem wrun_append {o : Opts} : ∀ {es es' : List WEvent} {s s' : Whole}, s.run o (es ++ es') = .ok s' ↔
    ∃ s1, s.run o es = .ok s1 ∧ s1.run o es' = .ok s'
  | [], es', s, s' => by simp [Whole.run]
  | e :: es, es', s, s' => by
    simp only [List.cons_append, Whole.run, bind_eq_ok]
    constructor
    · rintro ⟨s1, h1, h2⟩
      obtain ⟨s2, h3, h4⟩ := wrun_append.1 h2
      exact ⟨s2, ⟨s1, h1, h3⟩, h4⟩
    · rintro ⟨s2, ⟨s1, h1, h3⟩, h4⟩
      exact ⟨s1, h1, wrun_append.2 ⟨s2, h3, h4⟩⟩

/-- between reloads only the sensors and the running zones change -/
theorem wrun_events {o : Opts} : ∀ {es : List DEvent} {s s' : Whole}, s.run o (es.map .event) = .ok s' ↔
    ∃ d, s.d.run o es = .ok d ∧ s' = ⟨d, s.idle, s.hosts, s.again⟩
  | [], s, s' => by
    simp only [List.map_nil, Whole.run, Daemon.run, Except.ok.injEq]
    constructor
    · rintro rfl; exact ⟨_, rfl, rfl⟩
    · rintro ⟨d, rfl, rfl⟩; rfl
  | e :: es, s, s' => by
    simp only [List.map_cons, Whole.run, Daemon.run, Whole.step, bind_eq_ok]
    constructor
    · rintro ⟨s1, ⟨d1, h1, h2⟩, h3⟩
      cases h2
      obtain ⟨d, h4, h5⟩ := wrun_events.1 h3
      exact ⟨d, ⟨d1, h1, h4⟩, h5⟩
    · rintro ⟨d, ⟨d1, h1, h2⟩, h3⟩
      exact ⟨_, ⟨d1, h1, rfl⟩, wrun_events.2 ⟨d, h2, h3⟩⟩

omit F in
/-- the last reload of a life -/
theorem last_reload [FloatModel] : ∀ es : List WEvent,
    (∃ post : List DEvent, es = post.map .event) ∨ ∃ (pre : List WEvent) (r : Found) (post : List DEvent), es = pre ++ .reload r :: post.map .event
  | [] => .inl ⟨[], rfl⟩
  | e :: es => by
    rcases last_reload es with ⟨post, rfl⟩ | ⟨pre, r, post, rfl⟩
    · cases e with
      | event e => exact .inl ⟨e :: post, rfl⟩
      | reload r => exact .inr ⟨[], r, post, rfl⟩
    · exact .inr ⟨e :: pre, r, post, rfl⟩

theorem empty_step {o : Opts} {d d' : Daemon} {e : DEvent} (h : d.step o e = .ok d') :
    d'.zones.isEmpty = d.zones.isEmpty := by
  have key : ∀ {a b : OMap Int (Zone × Nat)}, (∀ i, (b.find? i).isSome = (a.find? i).isSome) → b.isEmpty = a.isEmpty := by
    intro a b hab
    rw [Bool.eq_iff_iff, OMap.isEmpty_iff, OMap.isEmpty_iff]
    constructor
    · intro h k
      have := hab k
      rw [h k] at this
      simpa using this.symm
    · intro h k
      have := hab k
      rw [h k] at this
      simpa using this
  refine key fun i => ?_
  cases hz : d.zones.find? i with
  | none => rw [step_none h hz]
  | some zc =>
    obtain ⟨z, cnt⟩ := zc
    obtain ⟨z', cnt', h1, -⟩ := step_zone h hz
    rw [h1]; rfl

theorem empty_run {o : Opts} : ∀ {es : List DEvent} {d d' : Daemon}, d.run o es = .ok d' →
    d'.zones.isEmpty = d.zones.isEmpty
  | [], _, _, h => by cases h; rfl
  | e :: es, d, d', h => by
    unfold Daemon.run at h
    obtain ⟨d1, h1, h2⟩ := bind_eq_ok.1 h
    exact (empty_run h2).trans (empty_step h1)

/-- **C123** Whatever happened in the life of the daemon — reloads, failed attempts, changes of the configuration — when all
zones run, there was a last reload, at which an attempt to start succeeded, and the daemon has run from there on its own. So what
is proved about a started daemon holds for it, with what was written before the reload put in front. -/
theorem C123_life {o : Opts} {w0 : World} {es : List WEvent} {s : Whole} (h : (Whole.init w0).run o es = .ok s) (hs : s.AllRun) :
    ∃ (pre : List WEvent) (r : Found) (post : List DEvent) (s1 : Whole) (w : World) (d0 d : Daemon),
      es = pre ++ .reload r :: post.map .event ∧ (Whole.init w0).run o pre = .ok s1 ∧ s1.stop o = .ok w ∧
      attempt o r.conf r.files r.objects r.order r.bus r.now { w with trace := [] } = .running d0 ∧ d0.run o post = .ok d ∧
      s.d = ⟨d.w.since w.trace, d.zones⟩ := by
  rcases last_reload es with ⟨post, rfl⟩ | ⟨pre, r, post, rfl⟩
  · obtain ⟨d, h1, rfl⟩ := wrun_events.1 h
    have := hs.2.2
    rw [empty_run h1] at this
    exact absurd this (by rw [Whole.init]; exact Bool.noConfusion)
  · obtain ⟨s1, h1, h2⟩ := wrun_append.1 h
    unfold Whole.run at h2
    obtain ⟨s2, h3, h4⟩ := bind_eq_ok.1 h2
    obtain ⟨d, h5, rfl⟩ := wrun_events.1 h4
    have hs2 : s2.AllRun := ⟨hs.1, hs.2.1, by rw [← empty_run h5]; exact hs.2.2⟩
    obtain ⟨w, h6, h7⟩ := C123_restart h3 hs2
    obtain ⟨d0, h8, h9⟩ := attempt_since h7
    rw [h9] at h5
    obtain ⟨d', h10, rfl⟩ := run_since h5
    exact ⟨pre, r, post, s1, w, d0, d', rfl, h1, h6, h8, h10, rfl⟩

theorem SameOutside.of_after {a b c d : World} (h : SameOutside a b) (h1 : AfterWrites a c) (h2 : AfterWrites b d) :
    SameOutside c d := by
  rw [h1.same, h2.same]
  exact h

/-- **C123** A reload forgets: two daemons with different zones, modes, readings, integral sums and pasts, reloaded with the same
configuration and the same surroundings, are the same afterwards. -/
theorem C123_forgets {o : Opts} {r : Found} (hr : r.refuses = false) {s1 s2 t1 t2 : Whole} (h1 : s1.reload o r = .ok t1)
    (h2 : s2.reload o r = .ok t2) (hw : SameOutside s1.d.w s2.d.w) :
    t2.d.zones = t1.d.zones ∧ t2.idle = t1.idle ∧ t2.again = t1.again ∧
      (t1.d.zones.isEmpty = false → t2.d.w.sensors = t1.d.w.sensors) := by
  unfold Whole.reload at h1 h2
  obtain ⟨w1, g1, h1⟩ := bind_eq_ok.1 h1
  obtain ⟨w2, g2, h2⟩ := bind_eq_ok.1 h2
  have hw := hw.of_after (stop_after g1) (stop_after g2)
  have hempty : ∀ w : World, (Daemon.mk w {}).zones.isEmpty = true := fun w => rfl
  cases hc : r.read with
  | wait => rw [hc] at h1 h2; cases h1; cases h2; exact ⟨rfl, rfl, rfl, fun h => absurd h (by rw [Whole.halted, hempty]; simp)⟩
  | again why => rw [hc] at h1 h2; cases h1; cases h2; exact ⟨rfl, rfl, rfl, fun h => absurd h (by rw [Whole.halted, hempty]; simp)⟩
  | ended why => rw [hc] at h1; cases h1
  | undefined why => rw [hc] at h1; cases h1
  | got c =>
    rw [hc] at h1 h2
    dsimp only at h1 h2
    unfold Whole.rebuild at h1 h2
    rw [hr] at h1 h2
    simp only [Bool.false_and, Bool.false_eq_true, if_false] at h1 h2
    cases hm : buildSensors o r.bus r.now c.sensors with
    | error e =>
      rw [hm] at h1 h2
      cases e with
      | exc why => cases h1; cases h2; exact ⟨rfl, rfl, rfl, fun h => absurd h (by rw [Whole.halted, hempty]; simp)⟩
      | ub why => cases h1
    | ok m =>
      rw [hm] at h1 h2
      dsimp only at h1 h2
      have ha : Agree [] { w1 with sensors := m.sensors } { w2 with sensors := m.sensors } := by
        obtain ⟨e1, e2, e3, e4, e5, e6⟩ := hw
        refine ⟨?_, fun _ => rfl, fun _ h => by cases h⟩
        obtain ⟨a1, a2, a3, a4, a5, a6, a7, a8⟩ := w1
        obtain ⟨b1, b2, b3, b4, b5, b6, b7, b8⟩ := w2
        dsimp only at e1 e2 e3 e4 e5 e6 ⊢
        rw [e1, e2, e3, e4, e5, e6]
      obtain ⟨k1, -, k⟩ := startBuilt_cases h1
      obtain ⟨l1, -, l⟩ := startBuilt_cases h2
      have hsens : t2.d.w.sensors = t1.d.w.sensors := by rw [k1, l1]
      rcases k with ⟨k2, k3, k4, why, k5⟩ | ⟨zones, e, k2, k3, k4, k5, -⟩
      · rcases l with ⟨l2, l3, l4, -⟩ | ⟨zones, e, l2, -⟩
        · exact ⟨by rw [k2, l2], by rw [k3, l3], by rw [k4, l4], fun _ => hsens⟩
        · rw [k5] at l2; cases l2
      · rcases l with ⟨l2, l3, l4, why, l5⟩ | ⟨zones', e', l2, l3, l4, l5, -⟩
        · rw [k2] at l5; cases l5
        · rw [k2] at l2
          cases l2
          rw [startSome_agree ha, k4] at l4
          injection l4 with i1 i2
          injection i2 with i2 i3
          exact ⟨i1.symm, i2.symm, by rw [k5, l5, i3], fun _ => hsens⟩

/-- **C123** After a reload every zone that runs is in automatic mode with all its loops switched on, whatever was set before. -/
theorem C123_fresh {o : Opts} {r : Found} {s s' : Whole} (h : s.reload o r = .ok s') {c : Config} (hc : r.read = .got c)
    (hw : c.pids.WF) (hl : ∀ e ∈ c.pids.entries, OMap.WF e.2) {i : Int} {z : Zone} {cnt : Nat}
    (hz : s'.d.zones.find? i = some (z, cnt)) :
    z.d.manualMode = false ∧ (∀ n p, z.d.procs.find? n = some p → p.enabled = true) ∧ cnt = 0 := by
  obtain ⟨w, -, ⟨b, rfl⟩ | ⟨c', m, h2, -, h4, -⟩⟩ := reload_cases h
  · rw [Whole.halted] at hz
    dsimp only at hz
    rw [OMap.find?_empty] at hz; cases hz
  · rw [hc] at h2
    cases h2
    obtain ⟨-, -, ⟨e1, -⟩ | ⟨zones, e, e2, -, e4, -⟩⟩ := startBuilt_cases h4
    · rw [e1, OMap.find?_empty] at hz; cases hz
    · obtain ⟨l1, l2, f1, f2, -⟩ := startSome_split e4
      have hwz := buildZones_wf e2
      have hn := OMap.wf_nodup hwz
      rw [f1, List.map_append] at hn
      obtain ⟨g1, g2⟩ := startZones_find? (List.nodup_append.1 hn).1 f2 i
      by_cases hm : ∃ z0, (i, z0) ∈ l1
      · obtain ⟨zb, hb⟩ := hm
        obtain ⟨z0, k1, k2⟩ := g1 zb hb
        rw [hz] at k2
        cases k2
        have hf : zones.find? i = some zb :=
          (OMap.mem_entries_iff hwz _ _).1 (by rw [f1]; exact List.mem_append_left _ hb)
        obtain ⟨q1, q2⟩ := C64_zones hw hl e2 i
        cases hp : c.pids.find? i with
        | none => rw [q2 hp] at hf; cases hf
        | some conf =>
          obtain ⟨zb', cc, j1, -, j3⟩ := q1 conf hp
          rw [hf] at j1
          cases j1
          refine ⟨by rw [(start_flags k1).1]; exact j3.manualMode, fun n p hnp => ?_, rfl⟩
          have hsw := processThermals_switches k1 n
          dsimp only at hsw
          have hi : zb.d.initializeCache.procs = zb.d.procs := by rw [(initializeCache_spec zb.d).eq]
          rw [hnp, hi] at hsw
          cases hq : zb.d.procs.find? n with
          | none => rw [hq] at hsw; cases hsw
          | some p0 =>
            rw [hq] at hsw
            obtain ⟨_, _, _, _, rfl⟩ := (j3.processes n p0).1 hq
            simpa using hsw
      · rw [g2 (fun e he hei => hm ⟨e.2, by rw [← hei]; exact he⟩), OMap.find?_empty] at hz
        cases hz

/-- **C123** Without the option for it, nothing is written to a fan when the configuration is reloaded: every fan stays as it was
told last, also when the new configuration cannot be used. -/
theorem C123_hold {o : Opts} (ho : o.offlineFailsafePwm = false) {r : Found} {s s' : Whole} (h : s.reload o r = .ok s') :
    s'.d.w.trace = s.d.w.trace := by
  obtain ⟨w, h1, h2⟩ := reload_cases h
  unfold Whole.stop at h1
  rw [destroyZones_nothing ho] at h1
  cases h1
  rcases h2 with ⟨b, rfl⟩ | ⟨c, m, -, -, h4, -⟩
  · rfl
  · rw [(startBuilt_cases h4).1]

/-- **C123** With the option, every fan of every zone is first commanded the failsafe percentage of its zone, whether the new
configuration can be used or not. -/
theorem C123_offline {o : Opts} (ho : o.offlineFailsafePwm = true) {r : Found} {s s' : Whole} (h : s.reload o r = .ok s') :
    ∃ w, LeftSafe s.d.w s.all w ∧ s'.d.w.trace = w.trace := by
  obtain ⟨w, h1, h2⟩ := reload_cases h
  refine ⟨w, destroyZones_safe ho h1, ?_⟩
  rcases h2 with ⟨b, rfl⟩ | ⟨c, m, -, -, h4, -⟩
  · rfl
  · rw [(startBuilt_cases h4).1]

/-- **C123** The same at the end of the process: with the option all fans are left at their failsafe percentages, without it
as they were told last. -/
theorem C123_end {o : Opts} {s : Whole} {w : World} (h : s.terminate o = .ok w) :
    (o.offlineFailsafePwm = true → LeftSafe s.d.w s.all w) ∧ (o.offlineFailsafePwm = false → w = s.d.w) := by
  refine ⟨fun ho => destroyZones_safe ho h, fun ho => ?_⟩
  unfold Whole.terminate Whole.stop at h
  rw [destroyZones_nothing ho] at h
  cases h; rfl

theorem quiet_run {o : Opts} : ∀ {es : List DEvent} {d d' : Daemon}, d.run o es = .ok d' → d.zones.isEmpty = true →
    d'.w.trace = d.w.trace
  | [], _, _, h, _ => by cases h; rfl
  | e :: es, d, d', h, hz => by
    unfold Daemon.run at h
    obtain ⟨d1, h1, h2⟩ := bind_eq_ok.1 h
    rw [quiet_run h2 (by rw [empty_step h1]; exact hz)]
    cases e with
    | tick i =>
      unfold Daemon.step at h1
      dsimp only at h1
      rw [(OMap.isEmpty_iff _).1 hz i] at h1
      cases h1; rfl
    | _ => exact trace_step h1 (fun i hi => by cases hi)

/-- **C123** While no zone runs — because the configuration is not there yet, or an attempt failed — nothing is written to any fan,
whatever happens, until a reload succeeds. -/
theorem C123_silent {o : Opts} {s s' : Whole} {es : List DEvent} (h : s.run o (es.map .event) = .ok s') (hs : s.NoneRuns) :
    s'.d.w.trace = s.d.w.trace ∧ s'.NoneRuns := by
  obtain ⟨d, h1, rfl⟩ := wrun_events.1 h
  exact ⟨quiet_run h1 hs, by unfold Whole.NoneRuns; rw [← hs]; exact empty_run h1⟩

/-- **C123** A configuration that was read leaves zones running in the order of their numbers up to the first that cannot be
started; then, and only then, another attempt follows. -/
theorem C123_some {o : Opts} {r : Found} {s s' : Whole} (h : s.reload o r = .ok s') {c : Config} (hc : r.read = .got c)
    {m : Manager} (hm : buildSensors o r.bus r.now c.sensors = .ok m) (hr : r.refuses = false) {zones : OMap Int Zone}
    (hz : buildZones c.pids c.zones = .ok zones) :
    ∃ l1 l2, zones.entries = l1 ++ l2 ∧ s'.idle.length = l2.length ∧ (s'.again = true ↔ l2 ≠ []) ∧
      (∀ i, (∃ e, s'.d.zones.find? i = some e) ↔ i ∈ l1.map Prod.fst) ∧
      (∀ e ∈ l1, ∃ z, e.2.start o s'.d.w = .ok z ∧ s'.d.zones.find? e.1 = some (z, 0)) ∧
      (∀ e l3, l2 = e :: l3 → ∃ why, e.2.start o s'.d.w = .error (.exc why)) := by
  unfold Whole.reload at h
  obtain ⟨w, -, h⟩ := bind_eq_ok.1 h
  rw [hc] at h
  dsimp only at h
  unfold Whole.rebuild at h
  rw [hr, hm] at h
  simp only [Bool.false_and, Bool.false_eq_true, if_false] at h
  obtain ⟨k1, -, ⟨-, -, -, why, k2⟩ | ⟨zones', e, k2, k3, k4, k5, k6⟩⟩ := startBuilt_cases h
  · rw [hz] at k2; cases k2
  · rw [hz] at k2
    cases k2
    rw [← k1] at k4
    obtain ⟨l1, l2, f1, f2, f3, f4, f5⟩ := startSome_split k4
    have hn := OMap.wf_nodup (buildZones_wf hz)
    rw [f1, List.map_append] at hn
    have hn1 := (List.nodup_append.1 hn).1
    have hg := startZones_find? hn1 f2
    have hin : ∀ e ∈ l1, ∃ z, e.2.start o s'.d.w = .ok z ∧ s'.d.zones.find? e.1 = some (z, 0) :=
      fun e he => (hg e.1).1 e.2 he
    refine ⟨l1, l2, f1, f3, ?_, fun i => ⟨fun ⟨x, hx⟩ => ?_, fun hi => ?_⟩, hin, fun x l3 hl => ?_⟩
    · rw [k5, Option.isSome_iff_ne_none]
      exact not_congr f4
    · by_contra hi
      rw [(hg i).2 (fun e he hei => hi (hei ▸ List.mem_map.2 ⟨e, he, rfl⟩)), OMap.find?_empty] at hx
      cases hx
    · obtain ⟨e, he, rfl⟩ := List.mem_map.1 hi
      obtain ⟨z, -, hz⟩ := hin e he
      exact ⟨_, hz⟩
    · cases e with
      | none => rw [f4.1 rfl] at hl; cases hl
      | some err =>
        obtain ⟨i, z, l3', g1, g2⟩ := f5 err rfl
        rw [hl] at g1
        cases g1
        obtain ⟨why, rfl⟩ := k6 err rfl
        exact ⟨why, g2⟩

/-- **C123** A critical alarm raises the fans after any number of reloads: in any life, if the last reload left all zones running
from configuration `c` and a D-Bus temperature sensor reported a critical alarm since, the automatic cycles of its zone command its
fans at least the percentage configured for the sensor (from the ceil(T/F)-th on, as long as the alarm is not withdrawn). -/
theorem C123_alarm {o : Opts} (ho : o.tuningEnabled = false) {w0 : World} {life : List WEvent} {r : Found} {c : Config}
    (hread : r.read = .got c) {i : Int} {conf : PIDConf} {zc : ZoneConfig} (hp : c.pids.find? i = some conf) (hcc : c.zones.find? i = some zc)
    {n : String} (hs : MustRead conf.entries n) (hnum : ∀ e ∈ conf.entries, e.2.failSafePercent ≠ nan)
    (hzn : zc.failsafePercent ≠ nan) (hF : 1 ≤ zc.cycleTime.cycleIntervalTimeMS)
    {sc : SensorConfig} (hsc : c.sensors.find? n = some sc) (htk : KnownType sc.type) (hk : ReadKind sc.readPath .dbusPassive)
    (hua : sc.unavailableAsFailed = true) (hho : sc.ignoreFailIfHostOff = false)
    {pre post : List DEvent} {t : Int} {m : PropMsg} {s s' : Whole}
    (h : (Whole.init w0).run o (life ++ .reload r :: (pre ++ .signal n t m :: post).map .event) = .ok s) (hall : s.AllRun)
    (hm : alarmIn o (t, m) = some true) (hpost : ∀ x ∈ signalsFor n post, alarmIn o x ≠ some false)
    (hn : (zc.cycleTime.updateThermalsTimeMS + zc.cycleTime.cycleIntervalTimeMS - 1) / zc.cycleTime.cycleIntervalTimeMS ≤
      autoTicks i (modeAfter i false pre) post)
    (hmode : modeAfter i false (pre ++ post) = false) (ht : s.step o (.event (.tick i)) = .ok s') :
    ∃ p, PercentFor zc conf.entries n p ∧ FansAtLeast conf.entries (p / 100) s.d.w s'.d.w := by
  obtain ⟨hws, hw, hl⟩ := read_wf hread
  obtain ⟨s1, -, h2⟩ := wrun_append.1 h
  unfold Whole.run at h2
  obtain ⟨s2, h3, h4⟩ := bind_eq_ok.1 h2
  obtain ⟨d, h5, rfl⟩ := wrun_events.1 h4
  obtain ⟨w, -, h7⟩ := C123_restart h3 ⟨hall.1, hall.2.1, by rw [← empty_run h5]; exact hall.2.2⟩
  rw [attempt_read hread, launched_running] at h7
  unfold Whole.step at ht
  obtain ⟨d', h8, h9⟩ := bind_eq_ok.1 ht
  cases h9
  exact C100_alarm ho hws hw hl h7 hp hcc hs hnum hzn hF hsc htk hk hua hho h5 hm hpost hn hmode h8

/-! ## Findings -/

theorem clash_reload {o : Opts} {r : Found} {s s' : Whole} {p : String} (hp : p ∈ s.hosts) (hc : r.Clashes p)
    (h : s.reload o r = .ok s') : s'.NoneRuns ∧ s'.again = true ∧ s'.hosts = s.hosts := by
  obtain ⟨hr, c, hread, n, hn⟩ := hc
  unfold Whole.reload at h
  obtain ⟨w, -, h⟩ := bind_eq_ok.1 h
  rw [hread] at h
  dsimp only at h
  unfold Whole.rebuild at h
  rw [if_pos] at h
  · cases h; exact ⟨rfl, rfl, rfl⟩
  · rw [hr, Bool.true_and]
    exact List.any_eq_true.2 ⟨p, List.mem_map.2 ⟨_, hn, rfl⟩, by simpa using hp⟩

/-- **C123**, finding: where the bus takes no second object at a path, a daemon with a host sensor cannot be reloaded with a
configuration that still has this sensor. The objects of the old sensors go away only after the new ones are made
(main.cpp:163), so every attempt fails, the zones that ran are gone, and no attempt ever succeeds: from the first reload on
no zone runs. -/
theorem C123_host_stuck {o : Opts} {p : String} : ∀ {es : List WEvent} {s s' : Whole}, s.run o es = .ok s' → p ∈ s.hosts →
    (∀ r, WEvent.reload r ∈ es → r.Clashes p) → ((∃ r, WEvent.reload r ∈ es) ∨ (s.NoneRuns ∧ s.again = true)) →
    s'.NoneRuns ∧ s'.again = true ∧ p ∈ s'.hosts
  | [], s, s', h, hp, _, hone => by
    cases h
    rcases hone with ⟨r, hr⟩ | ⟨a, b⟩
    · cases hr
    · exact ⟨a, b, hp⟩
  | e :: es, s, s', h, hp, hc, hone => by
    unfold Whole.run at h
    obtain ⟨s1, h1, h2⟩ := bind_eq_ok.1 h
    cases e with
    | reload r =>
      obtain ⟨a, b, c⟩ := clash_reload hp (hc r List.mem_cons_self) h1
      exact C123_host_stuck h2 (by rw [c]; exact hp) (fun r hr => hc r (List.mem_cons_of_mem _ hr)) (.inr ⟨a, b⟩)
    | event e =>
      unfold Whole.step at h1
      obtain ⟨d, h3, h4⟩ := bind_eq_ok.1 h1
      cases h4
      refine C123_host_stuck h2 hp (fun r hr => hc r (List.mem_cons_of_mem _ hr)) ?_
      rcases hone with ⟨r, hr⟩ | ⟨a, b⟩
      · rcases List.mem_cons.1 hr with hr | hr
        · cases hr
        · exact .inl ⟨r, hr⟩
      · refine .inr ⟨?_, b⟩
        show d.zones.isEmpty = true
        rw [empty_step h3]
        exact a

end

namespace Ex
section
attribute [local instance] binary64

def found123 (files : StartFiles) (objects : ConfBus) (refuses : Bool) : Found := ⟨"", files, objects, asListed, bus98, 0, refuses⟩

/-- the file of C113 -/
def file123 : WEvent := .reload (found123 files113 noConfig true)

/-- the daemon starts with nothing configured, then there is a file; somebody sets manual mode; the configuration is reloaded -/
def life123 : List WEvent :=
  [.reload (found123 nofiles108 noConfig true), file123, .event (.tick 3), .event (.manual 3 true), .event (.tick 3)]

def sum123 (s : Whole) : List (Int × Bool) × Nat × Bool × List Effect :=
  (s.d.zones.entries.map (fun e => (e.1, e.2.1.d.manualMode)), s.idle.length, s.again, s.d.w.trace)

/-- before the reload the zone is in manual mode, after it all zones run, automatically; nothing was written meanwhile -/
example : (((Whole.init world113).run {} life123).toOption.map sum123) =
      some ([(3, true)], 0, false, [.sysfsWrite "/sys/class/hwmon/pwm1" 191]) ∧
    (((Whole.init world113).run {} (life123 ++ [file123])).toOption.map sum123) =
      some ([(3, false)], 0, false, [.sysfsWrite "/sys/class/hwmon/pwm1" 191]) := by decide +kernel

/-- C123_life: the last reload of this life is the one after manual mode was set -/
example : ∃ s, (Whole.init world113).run {} (life123 ++ [file123, .event (.tick 3)]) = .ok s ∧ s.AllRun ∧
    ∃ (w : World) (d0 d : Daemon), attempt {} "" files113 noConfig asListed bus98 0 { w with trace := [] } = .running d0 ∧
      d0.run {} [.tick 3] = .ok d ∧ s.d = ⟨d.w.since w.trace, d.zones⟩ := by
  obtain ⟨s, hs, hP⟩ := ok_of_any (x := (Whole.init world113).run {} (life123 ++ [file123, .event (.tick 3)]))
    (P := fun s : Whole => !s.again && s.idle.isEmpty && !s.d.zones.isEmpty) (by decide +kernel)
  simp only [Bool.and_eq_true, Bool.not_eq_true', List.isEmpty_iff] at hP
  have ha : s.AllRun := ⟨hP.1.1, hP.1.2, hP.2⟩
  refine ⟨s, hs, ha, ?_⟩
  obtain ⟨pre, r, post, s1, w, d0, d, h1, -, -, h4, h5, h6⟩ := C123_life hs ha
  have e1 : post = [.tick 3] ∧ r = found123 files113 noConfig true := by
    have h1 : (life123 ++ [file123]) ++ [WEvent.event (.tick 3)] = (pre ++ [.reload r]) ++ post.map .event := by
      simpa using h1
    rcases List.eq_nil_or_concat post with rfl | ⟨l, x, rfl⟩
    · rw [List.map_nil, List.append_nil] at h1
      have := (List.append_inj' h1 rfl).2
      cases this
    · rw [List.concat_eq_append, List.map_append, ← List.append_assoc] at h1
      obtain ⟨h2, h3⟩ := List.append_inj' h1 rfl
      rcases List.eq_nil_or_concat l with rfl | ⟨l', x', rfl⟩
      · rw [List.map_nil, List.append_nil] at h2
        have := (List.append_inj' h2 rfl).2
        cases h3
        exact ⟨rfl, by injection this with a _; injection a with a; exact a.symm⟩
      · rw [List.concat_eq_append, List.map_append, ← List.append_assoc] at h2
        have := (List.append_inj' h2 rfl).2
        cases this
  obtain ⟨rfl, rfl⟩ := e1
  exact ⟨w, d0, d, h4, h5, h6⟩

/-- C123_offline: with the option a reload commands the fan on the bus its failsafe percentage before the zones start anew -/
example : (((Whole.init world113).run { offlineFailsafePwm := true }
      [.reload (found123 nofiles108 conf115 true), .reload (found123 nofiles108 conf115 true)]).toOption.map sum123) =
    some ([(3, false)], 0, false, [.dbusSet "/xyz/openbmc_project/control/fanpwm/Pwm_1" 191 true]) := by decide +kernel

/-- the file of C113 with a sensor the host sets -/
def hostFile123 : WEvent := .reload (found123 (files108 ["/var/lib/swampd/config.json"] (some (.obj [("sensors", .arr
  [sensorFan113, sensorCpu113, .obj [("name", .str "host"), ("readPath", .str "/xyz/openbmc_project/extsensors/margin/host"),
    ("type", .str "margin")]]), ("zones", .arr [zone113])])) (by decide) (by decide)) noConfig true)

/-- C123_host_stuck: the first reload succeeds, later ones leave no zone and another attempt pending; the clock of the zone has no
effect any more -/
example : (((Whole.init world113).run {} [hostFile123, .event (.tick 3)]).toOption.map sum123) =
      some ([(3, false)], 0, false, [.sysfsWrite "/sys/class/hwmon/pwm1" 191]) ∧
    (((Whole.init world113).run {} [hostFile123, .event (.tick 3), hostFile123, .event (.tick 3), hostFile123]).toOption.map
      sum123) = some ([], 0, true, [.sysfsWrite "/sys/class/hwmon/pwm1" 191]) := by decide +kernel

/-- the file of C113 with a second zone that needs a sensor that is not there -/
def badFile123 : WEvent := .reload (found123 (files108 ["/var/lib/swampd/config.json"] (some (.obj [("sensors", .arr
  [sensorFan113, sensorCpu113]), ("zones", .arr [zone113, .obj
    [("failsafePercent", .int 75), ("id", .int 4), ("minThermalOutput", .int 20),
     ("pids", .arr [jsonLoop108 "temps4" "temp" "dimm" 0])]])])) (by decide) (by decide)) noConfig true)

/-- C123_some: the first zone runs, the second does not, and another attempt is pending -/
example : (((Whole.init world113).run {} [badFile123, .event (.tick 3)]).toOption.map sum123) =
    some ([(3, false)], 1, true, [.sysfsWrite "/sys/class/hwmon/pwm1" 191]) := by decide +kernel

end
end Ex
end Verif
