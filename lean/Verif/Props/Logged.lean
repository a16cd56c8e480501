import Verif.Lemmas.Logged
import Verif.Props.Demand

/-! # C120: the failsafe log of the running daemon -/

namespace Verif

/-- **C120** A change of the reported state is printed if the attempts of the last second reported the old state with fewer
different texts than the limit, however many attempts there were. -/
theorem C120_change {max : Nat} {init : Bool} {zone : Int} {old recent rest : List FsAttempt} {a : FsAttempt} {l : FsLogger}
    (hl : FsLogged max init zone (old ++ recent ++ a :: rest) l) (hold : ∀ b ∈ old, b.now + 1000 ≤ a.now) (hfit : a.now < 2 ^ 64)
    {s : Bool} (hsame : ∀ b ∈ recent, b.state = s) (hs : reportedState init (old ++ recent) = s) (ha : a.state ≠ s)
    (hfew : different (recent.map FsAttempt.text) < max) :
    a.printed = some ⟨zone, a.state, a.location, a.reason⟩ := by
  obtain ⟨l1, l2, hl1, hout⟩ := hl.split
  obtain ⟨os, ns, K, h1, h2, h3, h4, h5, -⟩ := steady_inv hl1 hsame
  have hstate := (seen_inv hl1).1
  rw [hs] at hstate
  have hrem : (removeOutdated a.now l1.logTimestamps).length < max := by
    rw [h1, removeOutdated_old hfit (fun p hp => by obtain ⟨b, hb, rfl⟩ := h2 p hp; exact hold b hb)]
    have a1 := removeOutdated_length a.now ns
    have a2 : K.length ≤ (recent.map FsAttempt.text).dedup.length :=
      List.Nodup.length_le_of_subset h4 (fun k hk => List.mem_dedup.2 (h5 k hk))
    unfold different at hfew
    omega
  rcases output_cases hout with ⟨-, -, hc | hc⟩ | ⟨e, -⟩
  · rw [(stamps_mem hl1).1] at hc
    omega
  · rw [if_pos (by rw [hstate]; cases a.state <;> cases s <;> simp_all)] at hc
    cases hc
  · rw [e, if_pos]
    rw [hstate]
    cases h : a.state <;> cases s <;> simp_all

/-- **C120** (finding) However long it goes on: while every burst of messages begins with as many messages about healthy
sensors as the limit allows lines, no line says that the zone is in failsafe mode, although every burst reports it. -/
theorem C120_drowned {max : Nat} {init : Bool} {zone : Int} {before h : List FsAttempt} {l : FsLogger}
    (hl : FsLogged max init zone (before ++ h) l) (h0 : before = [] ∧ init = false ∨ reportedState init before = true)
    (hb : Bursts max h) : ∀ a ∈ h, ∀ line, a.printed = some line → line.enters = false := by
  induction hb generalizing l with
  | none => simp
  | @burst h t quiet loud hb hq hmany hl' hne ih =>
    have hsplit : ∀ {x y : List FsAttempt} {l : FsLogger}, FsLogged max init zone (x ++ y) l → ∃ l1, FsLogged max init zone x l1 := by
      intro x y l hxy
      cases y with
      | nil => exact ⟨l, by simpa using hxy⟩
      | cons b y =>
        obtain ⟨l1, _, h1, _⟩ := hxy.split
        exact ⟨l1, h1⟩
    have e1 : before ++ (h ++ quiet ++ loud) = ((before ++ h) ++ quiet) ++ loud := by simp
    rw [e1] at hl
    obtain ⟨lq, hlq⟩ := hsplit hl
    obtain ⟨lh, hlh⟩ := hsplit hlq
    have ih := ih hlh
    have hrep : before ++ h = [] ∧ init = false ∨ reportedState init (before ++ h) = true := by
      cases hb with
      | none => simpa using h0
      | @burst h t quiet loud _ _ _ hl' hne =>
        refine .inr ?_
        obtain ⟨ls, x, rfl⟩ : ∃ ls x, loud = ls ++ [x] := ⟨_, _, (List.dropLast_append_getLast hne).symm⟩
        rw [← List.append_assoc, ← List.append_assoc, reportedState_snoc]
        exact (hl' x (by simp)).2
    obtain ⟨q1, q2⟩ := quietBurst_inv hrep hlq hq
    have key : ∀ (ls : List FsAttempt) {l : FsLogger}, FsLogged max init zone (((before ++ h) ++ quiet) ++ ls) l →
        (∀ a ∈ ls, a.now = t ∧ a.state = true) → (∀ a ∈ ls, a.printed = none) ∧
        (removeOutdated t l.logTimestamps = l.logTimestamps ∨ (max = 0 ∧ quiet = [])) ∧ max ≤ l.logTimestamps.length := by
      intro ls
      induction ls using List.reverseRecOn with
      | nil =>
        intro l hl _
        rw [List.append_nil] at hl
        obtain ⟨-, q2⟩ := quietBurst_inv hrep hl hq
        by_cases hqe : quiet = []
        · subst hqe
          have : max = 0 := by simpa [different] using hmany
          exact ⟨by simp, .inr ⟨this, rfl⟩, by omega⟩
        · obtain ⟨a1, -, a3⟩ := q2 hqe
          exact ⟨by simp, .inl a1, a3.elim id (fun a => Nat.le_trans hmany a.2)⟩
      | append_singleton ls x ih =>
        intro l hl hls
        rw [← List.append_assoc] at hl
        generalize e : (before ++ h ++ quiet ++ ls) ++ [x] = g at hl
        cases hl with
        | start => simp at e
        | @attempt g l0 _ line now state location reason hl hout =>
          have := List.append_inj' e rfl
          obtain ⟨rfl, hx⟩ : before ++ h ++ quiet ++ ls = g ∧ x = ⟨now, state, location, reason, line⟩ :=
            ⟨this.1, by simpa using this.2⟩
          obtain ⟨i1, i2, i3⟩ := ih hl (fun a ha => hls a (by simp [ha]))
          obtain ⟨rfl, rfl⟩ : now = t ∧ state = true := by
            have := hls x (by simp)
            rw [hx] at this
            exact this
          have hmax := (stamps_mem hl).1
          have hfull : max ≤ (removeOutdated now l0.logTimestamps).length := by
            rcases i2 with i2 | i2
            · rw [i2]; exact i3
            · omega
          rcases output_cases hout with ⟨rfl, rfl, -⟩ | ⟨-, hlen, -⟩
          · refine ⟨fun a ha => ?_, .inl (removeOutdated_idem _ _), hfull⟩
            rcases List.mem_append.1 ha with ha | ha
            · exact i1 a ha
            · rw [List.mem_singleton.1 ha, hx]
          · omega
    intro a ha line hp
    rcases List.mem_append.1 ha with ha | ha
    · rcases List.mem_append.1 ha with ha | ha
      · exact ih a ha line hp
      · exact q1 a ha line hp
    · rw [(key loud hl hl').1 a ha] at hp
      cases hp

section
variable [F : FloatModel]

/-! ## the calls do not influence the daemon -/

theorem tickMsgs_possible {o : Opts} {w w' : World} {z z' : Zone} {cnt cnt' : Nat} (ht : z.tick o w cnt = .ok (w', z', cnt')) :
    ∃ ms, z.tickMsgs w cnt = .ok ms := by
  unfold Zone.tickMsgs
  by_cases hm : z.d.manualMode = true
  · exact ⟨[], by rw [if_pos hm]⟩
  · rw [if_neg hm]
    have hm : z.d.manualMode = false := by simpa using hm
    obtain ⟨d, h1, h2⟩ := tick_auto hm ht
    obtain ⟨ms1, h3⟩ := toldAll_possible (show z.d.processSensorInputs w w.nowFans z.d.fanInputs = .ok d from h1)
    rw [h3, ok_bind]
    rcases h2 with ⟨ht, zt, h4, h5, _⟩ | ⟨ht, h5, _⟩
    · rw [if_pos ht]
      obtain ⟨d3, h7, h8⟩ := processThermals_rest h4
      obtain ⟨ms2, h9⟩ := toldAll_possible (show d.processSensorInputs w w.nowThermals d.thermalInputs = .ok d3 from h7)
      exact ⟨_, by rw [h9]; rfl⟩
    · exact ⟨_, by rw [if_neg ht]⟩

theorem startMsgs_possible {o : Opts} {w : World} {z z' : Zone} (hs : z.start o w = .ok z') : ∃ ms, z.startMsgs w = .ok ms := by
  obtain ⟨d, h1, _⟩ := processThermals_rest (z := { z with d := z.d.initializeCache }) hs
  have hi : z.d.initializeCache.thermalInputs = z.d.thermalInputs := by rw [(initializeCache_spec z.d).eq]
  have h1' : z.d.initializeCache.processSensorInputs w w.nowThermals z.d.initializeCache.thermalInputs = .ok d := h1
  rw [hi] at h1'
  obtain ⟨ms, hms⟩ := toldAll_possible h1'
  exact ⟨_, by unfold Zone.startMsgs; rw [hms]; rfl⟩

theorem msgs_possible {o : Opts} {d d' : Daemon} {e : DEvent} (h : d.step o e = .ok d') : ∃ ms, d.msgs e = .ok ms := by
  cases e with
  | tick i =>
    unfold Daemon.step at h
    unfold Daemon.msgs
    dsimp only at h ⊢
    cases hz : d.zones.find? i with
    | none => exact ⟨_, rfl⟩
    | some x =>
      obtain ⟨z, cnt⟩ := x
      rw [hz] at h
      obtain ⟨⟨w, z', cnt'⟩, h1, _⟩ := bind_eq_ok.1 h
      exact tickMsgs_possible h1
  | _ => exact ⟨_, rfl⟩

theorem logged_step {o : Opts} {l l' : LoggedDaemon} {e : Nat × DEvent} (h : l.step o e = .ok l') :
    ∃ ms, l.d.msgs e.2 = .ok ms ∧ l.d.step o e.2 = .ok l'.d ∧ l'.loggers = (l.loggers.deliver e.1 ms).2 ∧
      l'.log = l.log ++ (l.loggers.deliver e.1 ms).1 := by
  obtain ⟨ms, h1, h⟩ := bind_eq_ok.1 h
  obtain ⟨d, h2, h⟩ := bind_eq_ok.1 h
  cases h
  exact ⟨ms, h1, h2, rfl, rfl⟩

/-- **C120** The log does not influence the daemon: with loggers it does what it does without. -/
theorem C120_same {o : Opts} : ∀ {es : List (Nat × DEvent)} {l l' : LoggedDaemon}, l.run o es = .ok l' →
    l.d.run o (es.map Prod.snd) = .ok l'.d
  | [], l, l', h => by cases h; rfl
  | e :: es, l, l', h => by
    obtain ⟨l1, h1, h2⟩ := bind_eq_ok.1 h
    obtain ⟨ms, _, h3, _⟩ := logged_step h1
    rw [List.map_cons]
    unfold Daemon.run
    rw [h3, ok_bind]
    exact C120_same h2

/-- **C120** Every run of the daemon has its log. -/
theorem C120_possible {o : Opts} : ∀ {es : List (Nat × DEvent)} {l : LoggedDaemon} {d' : Daemon},
    l.d.run o (es.map Prod.snd) = .ok d' → ∃ l', l.run o es = .ok l' ∧ l'.d = d'
  | [], l, d', h => by cases h; exact ⟨l, rfl, rfl⟩
  | e :: es, l, d', h => by
    rw [List.map_cons] at h
    obtain ⟨d1, h1, h2⟩ := bind_eq_ok.1 h
    obtain ⟨ms, h3⟩ := msgs_possible h1
    have hs : l.step o e = .ok ⟨d1, (l.loggers.deliver e.1 ms).2, l.log ++ (l.loggers.deliver e.1 ms).1⟩ := by
      unfold LoggedDaemon.step
      rw [h3, ok_bind, h1, ok_bind]
    obtain ⟨l', h4, h5⟩ := C120_possible (l := ⟨d1, (l.loggers.deliver e.1 ms).2, l.log ++ (l.loggers.deliver e.1 ms).1⟩) h2
    refine ⟨l', ?_, h5⟩
    unfold LoggedDaemon.run
    rw [hs, ok_bind]
    exact h4

/-- **C120** The same for the start. -/
theorem C120_launch {o : Opts} {bus : BuildBus} {now : Int} {ms : Nat} {w : World} {sensors : OMap String SensorConfig}
    {pids : OMap Int PIDConf} {configs : OMap Int ZoneConfig} :
    (∀ l, LoggedDaemon.launch o bus now ms w sensors pids configs = .ok l → Daemon.launch o bus now w sensors pids configs = .ok l.d) ∧
    (∀ d, Daemon.launch o bus now w sensors pids configs = .ok d →
      ∃ l, LoggedDaemon.launch o bus now ms w sensors pids configs = .ok l ∧ l.d = d) := by
  refine ⟨fun l h => ?_, fun d h => ?_⟩
  · obtain ⟨d, h1, h⟩ := bind_eq_ok.1 h
    obtain ⟨zones, h2, h⟩ := bind_eq_ok.1 h
    obtain ⟨r, h3, h⟩ := bind_eq_ok.1 h
    cases h
    exact h1
  · obtain ⟨m, zones, hL⟩ := launch_spec h
    have key : ∀ (es : List (Int × Zone)) (s : FsLoggers), (∀ e ∈ es, ∃ z0, e.2.start o d.w = .ok z0) →
        ∃ r, startLogs ms d.w s es = .ok r := by
      intro es
      induction es with
      | nil => exact fun s _ => ⟨_, rfl⟩
      | cons e es ih =>
        intro s hes
        obtain ⟨z0, hz0⟩ := hes e (by simp)
        obtain ⟨msgs, hm⟩ := startMsgs_possible hz0
        obtain ⟨r, hr⟩ := ih (s.deliver ms msgs).2 (fun e' he => hes e' (by simp [he]))
        exact ⟨((s.deliver ms msgs).1 ++ r.1, r.2), by unfold startLogs; rw [hm, ok_bind, hr, ok_bind]⟩
    obtain ⟨r, hr⟩ := key zones.entries (buildFailsafeLoggers 20 (fsZones zones)) (fun e he => by
      obtain ⟨z0, h0, _⟩ := hL.started e.1 e.2 ((OMap.mem_entries_iff (buildZones_wf hL.built) e.1 e.2).1 he)
      exact ⟨z0, h0⟩)
    refine ⟨⟨d, r.2, r.1⟩, ?_, rfl⟩
    unfold LoggedDaemon.launch
    rw [h, ok_bind, hL.built, ok_bind, hr, ok_bind]

/-! ## the log as a history of the loggers -/

theorem deliver_run {max : Nat} {zones : List FsZone} {now : Nat} : ∀ {ms : List FsMsg} {evs : List FsEvent} {s : FsLoggers},
    FsRun max zones evs s → FsRun max zones (evs ++ (s.deliver now ms).1) (s.deliver now ms).2
  | [], evs, s, h => by simpa [FsLoggers.deliver] using h
  | m :: ms, evs, s, h => by
    obtain ⟨target, state, location, reason⟩ := m
    unfold FsLoggers.deliver
    dsimp only
    cases target with
    | sensor n =>
      have := deliver_run (now := now) (ms := ms) (FsRun.sensor now n state location reason h rfl)
      rwa [List.append_assoc] at this
    | zone i =>
      have := deliver_run (now := now) (ms := ms) (FsRun.zone now i state location reason h rfl)
      rwa [List.append_assoc] at this

theorem deliver_msgs {now : Nat} : ∀ {ms : List FsMsg} {s : FsLoggers},
    (s.deliver now ms).1.map (fun e => (⟨e.target, e.state, e.location, e.reason⟩ : FsMsg)) = ms ∧
    ∀ e ∈ (s.deliver now ms).1, e.now = now
  | [], s => by simp [FsLoggers.deliver]
  | m :: ms, s => by
    obtain ⟨target, state, location, reason⟩ := m
    unfold FsLoggers.deliver
    dsimp only
    cases target <;>
    · obtain ⟨h1, h2⟩ := deliver_msgs (now := now) (ms := ms)
      refine ⟨by rw [List.map_cons, h1], fun e he => ?_⟩
      rcases List.mem_cons.1 he with rfl | he
      · rfl
      · exact h2 e he

theorem launch_log {o : Opts} {bus : BuildBus} {now : Int} {ms : Nat} {w : World} {sensors : OMap String SensorConfig}
    {pids : OMap Int PIDConf} {configs : OMap Int ZoneConfig} {l : LoggedDaemon} 
    (h : LoggedDaemon.launch o bus now ms w sensors pids configs = .ok l) :
    ∃ zones, buildZones pids configs = .ok zones ∧ FsRun 20 (fsZones zones) l.log l.loggers ∧ ∀ e ∈ l.log, e.now = ms := by
  obtain ⟨d, h1, h⟩ := bind_eq_ok.1 h
  obtain ⟨zones, h2, h⟩ := bind_eq_ok.1 h
  obtain ⟨r, h3, h⟩ := bind_eq_ok.1 h
  cases h
  have key : ∀ (es : List (Int × Zone)) (s : FsLoggers) (evs : List FsEvent) (r : List FsEvent × FsLoggers),
      FsRun 20 (fsZones zones) evs s → startLogs ms d.w s es = .ok r → FsRun 20 (fsZones zones) (evs ++ r.1) r.2 ∧
      ∀ e ∈ r.1, e.now = ms := by
    intro es
    induction es with
    | nil =>
      intro s evs r hr h
      cases h
      exact ⟨by simpa using hr, by simp⟩
    | cons e es ih =>
      intro s evs r hr h
      obtain ⟨msgs, hm, h⟩ := bind_eq_ok.1 h
      obtain ⟨r', hr', h⟩ := bind_eq_ok.1 h
      cases h
      obtain ⟨a, b⟩ := ih _ _ _ (deliver_run (now := ms) (ms := msgs) hr) hr'
      refine ⟨by rw [← List.append_assoc]; exact a, fun e he => ?_⟩
      rcases List.mem_append.1 he with he | he
      · exact deliver_msgs.2 e he
      · exact b e he
  obtain ⟨a, b⟩ := key _ _ [] _ .start h3
  exact ⟨zones, h2, by simpa using a, b⟩

theorem run_log {o : Opts} {zones : List FsZone} : ∀ {es : List (Nat × DEvent)} {l l' : LoggedDaemon}, l.run o es = .ok l' →
    FsRun 20 zones l.log l.loggers → ∃ more, l'.log = l.log ++ more ∧ FsRun 20 zones l'.log l'.loggers ∧
      (∀ e ∈ more, ∃ x ∈ es, x.1 = e.now) ∧ ((es.map Prod.fst).Pairwise (· ≤ ·) → more.Pairwise (fun a b => a.now ≤ b.now))
  | [], l, l', h, hr => by
    cases h
    exact ⟨[], by simp, hr, by simp, fun _ => .nil⟩
  | e :: es, l, l', h, hr => by
    obtain ⟨l1, h1, h2⟩ := bind_eq_ok.1 h
    obtain ⟨ms, _, _, g1, g2⟩ := logged_step h1
    have hr1 : FsRun 20 zones l1.log l1.loggers := by
      rw [g1, g2]
      exact deliver_run hr
    obtain ⟨more, m1, m2, m3, m4⟩ := run_log h2 hr1
    have ht := (deliver_msgs (now := e.1) (ms := ms) (s := l.loggers)).2
    refine ⟨(l.loggers.deliver e.1 ms).1 ++ more, by rw [m1, g2, List.append_assoc], m2, fun x hx => ?_, fun hp => ?_⟩
    · rcases List.mem_append.1 hx with hx | hx
      · exact ⟨e, by simp, (ht x hx).symm⟩
      · obtain ⟨y, hy, e⟩ := m3 x hx
        exact ⟨y, by simp [hy], e⟩
    · rw [List.map_cons, List.pairwise_cons] at hp
      refine List.pairwise_append.2 ⟨?_, m4 hp.2, fun a ha b hb => ?_⟩
      · refine List.Pairwise.imp_of_mem (R := fun _ _ => True) (fun ha hb _ => ?_) (List.pairwise_of_forall (fun _ _ => trivial))
        rw [ht _ ha, ht _ hb]
      · obtain ⟨y, hy, e⟩ := m3 b hb
        rw [ht a ha, ← e]
        exact hp.1 _ (List.mem_map_of_mem hy)

/-- the log of a running daemon: a history of the loggers, in order of time -/
theorem daemon_log {o : Opts} {bus : BuildBus} {now : Int} {ms : Nat} {w : World} {sensors : OMap String SensorConfig}
    {pids : OMap Int PIDConf} {configs : OMap Int ZoneConfig} {l0 l : LoggedDaemon}
    (hl : LoggedDaemon.launch o bus now ms w sensors pids configs = .ok l0) {es : List (Nat × DEvent)}
    (hr : l0.run o es = .ok l) (hclock : (ms :: es.map Prod.fst).Pairwise (· ≤ ·)) :
    ∃ zones, buildZones pids configs = .ok zones ∧ FsRun 20 (fsZones zones) l.log l.loggers ∧
      l.log.Pairwise (fun a b => a.now ≤ b.now) ∧ ∀ e ∈ l.log, e.now ∈ ms :: es.map Prod.fst := by
  obtain ⟨zones, h1, h2, h3⟩ := launch_log hl
  obtain ⟨more, m1, m2, m3, m4⟩ := run_log hr h2
  rw [List.pairwise_cons] at hclock
  refine ⟨zones, h1, m2, ?_, fun e he => ?_⟩
  · rw [m1]
    refine List.pairwise_append.2 ⟨?_, m4 hclock.2, fun a ha b hb => ?_⟩
    · refine List.Pairwise.imp_of_mem (R := fun _ _ => True) (fun ha hb _ => ?_) (List.pairwise_of_forall (fun _ _ => trivial))
      rw [h3 _ ha, h3 _ hb]
    · obtain ⟨y, hy, e⟩ := m3 b hb
      rw [h3 a ha, ← e]
      exact hclock.1 _ (List.mem_map_of_mem hy)
  · rw [m1] at he
    rcases List.mem_append.1 he with he | he
    · rw [h3 e he]; exact List.mem_cons_self
    · obtain ⟨y, hy, e⟩ := m3 e he
      rw [← e]
      exact List.mem_cons_of_mem _ (List.mem_map_of_mem hy)

theorem fsZones_nodup {pids : OMap Int PIDConf} {configs : OMap Int ZoneConfig} {zones : OMap Int Zone}
    (h : buildZones pids configs = .ok zones) : ((fsZones zones).map FsZone.id).Nodup := by
  have := OMap.wf_nodup (buildZones_wf h)
  unfold fsZones
  rwa [List.map_map, show FsZone.id ∘ (fun e : Int × Zone => (⟨e.1, e.2.d.getFailSafeMode, e.2.d.thermalInputs⟩ : FsZone)) =
    Prod.fst from rfl]

/-- **C120** The running daemon prints no more than 20 lines about a zone in any second, as long as the clock does not go
backwards. -/
theorem C120_rate {o : Opts} {bus : BuildBus} {now : Int} {ms : Nat} {w : World} {sensors : OMap String SensorConfig}
    {pids : OMap Int PIDConf} {configs : OMap Int ZoneConfig} (hw : pids.WF) (hc : ∀ e ∈ pids.entries, OMap.WF e.2)
    {l0 l : LoggedDaemon} (hl : LoggedDaemon.launch o bus now ms w sensors pids configs = .ok l0) {es : List (Nat × DEvent)}
    (hr : l0.run o es = .ok l) (hclock : (ms :: es.map Prod.fst).Pairwise (· ≤ ·)) (hfits : ∀ t ∈ ms :: es.map Prod.fst, t < 2 ^ 64)
    {i : Int} {conf : PIDConf} (hp : pids.find? i = some conf) (t : Nat) : linesInSecond i l.log t ≤ 20 := by
  obtain ⟨zones, h1, h2, h3, h4⟩ := daemon_log hl hr hclock
  obtain ⟨zb, c, hzb, -, hN⟩ := (C64_zones hw hc h1 i).1 conf hp
  exact C68_program (fsZones_nodup h1) h2 h3 (fun e he => hfits _ (h4 e he))
    (z := ⟨i, zb.d.getFailSafeMode, zb.d.thermalInputs⟩)
    (List.mem_map.2 ⟨(i, zb), (OMap.mem_entries_iff (buildZones_wf h1) i zb).2 hzb, rfl⟩) t

/-! ## what the log shows -/

omit F in
theorem time_split (t : Nat) : ∀ (L : List FsEvent), L.Pairwise (fun a b => a.now ≤ b.now) →
    ∃ g w, L = g ++ w ∧ (∀ e ∈ g, e.now + 1000 ≤ t) ∧ ∀ e ∈ w, e.recent t = true
  | [], _ => ⟨[], [], by simp⟩
  | a :: L, h => by
    obtain ⟨h1, h2⟩ := List.pairwise_cons.1 h
    by_cases ha : a.now + 1000 ≤ t
    · obtain ⟨g, w, rfl, hg, hw⟩ := time_split t L h2
      exact ⟨a :: g, w, rfl, by simpa [ha] using hg, hw⟩
    · refine ⟨[], a :: L, rfl, by simp, fun e he => ?_⟩
      have : a.now ≤ e.now := by
        rcases List.mem_cons.1 he with rfl | he
        · exact Nat.le_refl _
        · exact h1 e he
      simp only [FsEvent.recent, decide_eq_true_eq]
      omega

omit F in
theorem first_split {P : FsEvent → Bool} : ∀ {L : List FsEvent}, (∃ e ∈ L, P e = true) →
    ∃ a m b, L = a ++ m :: b ∧ P m = true ∧ ∀ e ∈ a, P e = false
  | [], h => by simp at h
  | x :: L, h => by
    by_cases hx : P x = true
    · exact ⟨[], x, L, rfl, hx, by simp⟩
    · have hx : P x = false := by simpa using hx
      obtain ⟨a, m, b, rfl, hm, ha⟩ := first_split (P := P) (L := L) (by
        obtain ⟨e, he, hp⟩ := h
        rcases List.mem_cons.1 he with rfl | he
        · rw [hx] at hp; cases hp
        · exact ⟨e, he, hp⟩)
      exact ⟨x :: a, m, b, rfl, hm, by simpa [hx] using ha⟩

omit F in
/-- the first call of a new list that reports failsafe mode is printed -/
theorem shown_log {zones : List FsZone} (hd : (zones.map FsZone.id).Nodup) {z : FsZone} (hz : z ∈ zones)
    (hinit : z.failsafe = false) {max : Nat} {old new : List FsEvent} {s : FsLoggers} (hr : FsRun max zones (old ++ new) s)
    (hclock : old.Pairwise (fun a b => a.now ≤ b.now)) {t : Nat} (hfit : t < 2 ^ 64) (hnow : ∀ e ∈ new, e.now = t)
    (hsome : ∃ e ∈ new, z.concernedBy e = true ∧ e.state = true)
    (hlast : ∀ e, (old.filter (fun e => z.concernedBy e)).getLast? = some e → e.state = false)
    (hquiet : ∀ e ∈ old, z.concernedBy e = true → e.recent t = true → e.state = false)
    (hfew : different (((old ++ new).filter (fun e => z.concernedBy e && e.recent t && !e.state)).map FsEvent.text) < max) :
    ∃ e ∈ new, ∃ line ∈ e.printed, line.zone = z.id ∧ line.enters = true := by
  obtain ⟨a, m, b, rfl, hm, ha⟩ := first_split (P := fun e => z.concernedBy e && e.state) (L := new) (by
    obtain ⟨e, he, h1, h2⟩ := hsome
    exact ⟨e, he, by simp [h1, h2]⟩)
  simp only [Bool.and_eq_true] at hm
  obtain ⟨hm1, hm2⟩ := hm
  have hmt : m.now = t := hnow m (by simp)
  have haf : ∀ e ∈ a, z.concernedBy e = true → e.state = false := by
    intro e he hc
    have := ha e he
    simpa [hc] using this
  have har : ∀ e ∈ a, e.recent t = true := by
    intro e he
    have := hnow e (by simp [he])
    simp only [FsEvent.recent, decide_eq_true_eq]
    omega
  obtain ⟨⟨l, -, hl⟩, -⟩ := C75_routed hd hr hz
  obtain ⟨g, w, rfl, hg, hw⟩ := time_split t old hclock
  rw [hinit] at hl
  have e1 : ((g ++ w ++ (a ++ m :: b)).filter (fun e => z.concernedBy e)).map z.attempt =
      (g.filter (fun e => z.concernedBy e)).map z.attempt ++ ((w ++ a).filter (fun e => z.concernedBy e)).map z.attempt ++
        z.attempt m :: (b.filter (fun e => z.concernedBy e)).map z.attempt := by
    simp [List.filter_append, List.filter_cons, hm1]
  rw [e1] at hl
  have hp := C120_change hl (s := false) (fun x hx => by
      obtain ⟨e, he, rfl⟩ := List.mem_map.1 hx
      have := hg e (List.mem_filter.1 he).1
      show e.now + 1000 ≤ m.now
      omega) (by show m.now < 2 ^ 64; omega) (fun x hx => by
      obtain ⟨e, he, rfl⟩ := List.mem_map.1 hx
      obtain ⟨he, hc⟩ := List.mem_filter.1 he
      rcases List.mem_append.1 he with he | he
      · exact hquiet e (by simp [he]) hc (hw e he)
      · exact haf e he hc) (by
      rw [← List.map_append, ← List.filter_append, ← List.append_assoc, List.filter_append]
      unfold reportedState
      rw [List.getLast?_map, List.getLast?_append]
      cases h : (a.filter (fun e => z.concernedBy e)).getLast? with
      | some x =>
        obtain ⟨hx, hc⟩ := List.mem_filter.1 (List.mem_of_getLast? h)
        exact haf x hx hc
      | none =>
        cases h' : ((g ++ w).filter (fun e => z.concernedBy e)).getLast? with
        | none => rfl
        | some x => exact hlast x h') (by show m.state ≠ false; simp [hm2]) (by
      refine Nat.lt_of_le_of_lt ?_ hfew
      unfold different
      refine List.Nodup.length_le_of_subset (List.nodup_dedup _) (fun x hx => ?_)
      rw [List.mem_dedup] at hx ⊢
      rw [List.map_map] at hx
      obtain ⟨e, he, rfl⟩ := List.mem_map.1 hx
      obtain ⟨he, hc⟩ := List.mem_filter.1 he
      refine List.mem_map.2 ⟨e, List.mem_filter.2 ⟨?_, ?_⟩, rfl⟩
      · rcases List.mem_append.1 he with he | he <;> simp [he]
      · rcases List.mem_append.1 he with he | he
        · simp [hc, hw e he, hquiet e (by simp [he]) hc (hw e he)]
        · simp [hc, har e he, haf e he hc])
  refine ⟨m, by simp, ⟨z.id, m.state, m.location, m.reason⟩, ?_, rfl, hm2⟩
  exact (List.mem_filter.1 (List.mem_of_head? hp)).1

/-- **C120** A failure comes into the log: if a required sensor that a zone in automatic mode polls fails, and the calls about
the zone and its thermal inputs in the last second all reported that the zone is not in failsafe mode, the last one before too,
with fewer than 20 different texts, then the log says at this very tick that the zone is in failsafe mode. -/
theorem C120_shown {o : Opts} {bus : BuildBus} {now : Int} {ms : Nat} {w : World} {sensors : OMap String SensorConfig}
    {pids : OMap Int PIDConf} {configs : OMap Int ZoneConfig} (hw : pids.WF) (hc : ∀ e ∈ pids.entries, OMap.WF e.2)
    {l0 l l' : LoggedDaemon} (hl : LoggedDaemon.launch o bus now ms w sensors pids configs = .ok l0) {es : List (Nat × DEvent)}
    (hr : l0.run o es = .ok l) {t : Nat} {i : Int} (hs : l.step o (t, .tick i) = .ok l')
    (hclock : (ms :: es.map Prod.fst ++ [t]).Pairwise (· ≤ ·)) (hfit : t < 2 ^ 64)
    {z : Zone} {cnt : Nat} (hz : l.d.zones.find? i = some (z, cnt))
    {p : Poll} (hp : p ∈ tickPolls z cnt l.d.w) {n : String} (hn : n ∈ p.names) (hF : FailsAt p.w p.now n)
    (hreq : n ∉ z.d.missingAcceptable)
    (hlast : ∀ e, (l.log.filter (fun e => e.concerns i z.d.thermalInputs)).getLast? = some e → e.state = false)
    (hquiet : ∀ e ∈ l.log, e.concerns i z.d.thermalInputs = true → e.recent t = true → e.state = false)
    (hfew : different ((l'.log.filter (fun e => e.concerns i z.d.thermalInputs && e.recent t && !e.state)).map FsEvent.text) < 20) :
    ∃ new, l'.log = l.log ++ new ∧ ∃ e ∈ new, ∃ line ∈ e.printed, line.zone = i ∧ line.enters = true := by
  obtain ⟨hcl, -, -⟩ := List.pairwise_append.1 hclock
  obtain ⟨zones, h1, h2, h3, h4⟩ := daemon_log hl hr hcl
  obtain ⟨m, zones', hL⟩ := launch_spec (C120_launch.1 _ hl)
  have hzones : zones' = zones := by
    have := hL.built
    rw [h1] at this
    injection this with this
    exact this.symm
  subst hzones
  obtain ⟨zb, hzb⟩ : ∃ zb, zones'.find? i = some zb := by
    cases hzb : zones'.find? i with
    | some zb => exact ⟨zb, rfl⟩
    | none =>
      exfalso
      have hnone : ∀ (es : List DEvent) (d d' : Daemon), d.run o es = .ok d' → d.zones.find? i = none → d'.zones.find? i = none := by
        intro es
        induction es with
        | nil => intro d d' h hd; cases h; exact hd
        | cons e es ih =>
          intro d d' h hd
          obtain ⟨d1, h1, h2⟩ := bind_eq_ok.1 h
          exact ih d1 d' h2 (step_none h1 hd)
      have := hnone _ _ _ (C120_same hr) (hL.only i hzb)
      rw [hz] at this
      cases this
  obtain ⟨z0, hz0, hf0⟩ := hL.started i zb hzb
  obtain ⟨z', cnt', log', hf, hh, -, -⟩ := mode_run (C120_same hr) hf0 (C80_hist hw h1 hzb hz0)
  rw [hz] at hf
  obtain ⟨rfl, rfl⟩ : z = z' ∧ cnt = cnt' := by simpa using hf
  have hsame := hh.inv.same
  have hN : ∃ c conf, NewZone i c conf zb := by
    cases hpi : pids.find? i with
    | none =>
      have := (C64_zones hw hc h1 i).2 hpi
      rw [hzb] at this
      cases this
    | some conf =>
      obtain ⟨zb', c, hzb', -, hN⟩ := (C64_zones hw hc h1 i).1 conf hpi
      rw [hzb] at hzb'
      injection hzb' with hzb'
      subst hzb'
      exact ⟨c, conf.entries, hN⟩
  obtain ⟨c, conf, hN⟩ := hN
  obtain ⟨msgs, hm, hst, hlg, hlog⟩ := logged_step hs
  dsimp only at hm hst hlg hlog
  refine ⟨_, hlog, ?_⟩
  have htick : ∃ w' z'' cnt'', z.tick o l.d.w cnt = .ok (w', z'', cnt'') := by
    unfold Daemon.step at hst
    dsimp only at hst
    rw [hz] at hst
    obtain ⟨⟨w1, z1, c1⟩, g1, -⟩ := bind_eq_ok.1 hst
    exact ⟨_, _, _, g1⟩
  obtain ⟨w', z'', cnt'', ht⟩ := htick
  have hmt : z.tickMsgs l.d.w cnt = .ok msgs := by
    unfold Daemon.msgs at hm
    dsimp only at hm
    rw [hz] at hm
    exact hm
  have hmsg := (C96_failing hh ht hmt hp hn hF).1 (by rw [← hsame.2.2.1]; exact hreq)
  rw [hN.zoneId] at hmsg
  have hr' : FsRun 20 (fsZones zones') (l.log ++ (l.loggers.deliver t msgs).1) (l.loggers.deliver t msgs).2 := deliver_run h2
  have hcon : ∀ e : FsEvent, e.concerns i z.d.thermalInputs =
      FsZone.concernedBy ⟨i, zb.d.getFailSafeMode, zb.d.thermalInputs⟩ e := by
    intro e
    unfold FsEvent.concerns FsZone.concernedBy
    rw [hsame.2.1]
    cases e.target <;> rfl
  have hdm := (deliver_msgs (now := t) (ms := msgs) (s := l.loggers))
  simp only [hcon] at hlast hquiet hfew
  rw [hlog] at hfew
  refine shown_log (fsZones_nodup h1) (z := ⟨i, zb.d.getFailSafeMode, zb.d.thermalInputs⟩)
    (List.mem_map.2 ⟨(i, zb), (OMap.mem_entries_iff (buildZones_wf h1) i zb).2 hzb, rfl⟩) ?_ hr' h3 hfit hdm.2 ?_ hlast hquiet hfew
  · show zb.d.getFailSafeMode = false
    unfold ZoneData.getFailSafeMode
    rw [hN.failed]
    rfl
  · rw [← hdm.1] at hmsg
    obtain ⟨e, he, hee⟩ := List.mem_map.1 hmsg
    injection hee with a1 a2 a3 a4
    exact ⟨e, he, by simp [FsZone.concernedBy, a1], a2⟩

end

namespace Ex
section
attribute [local instance] binary64

/-- temperature sensors beside the processor -/
def names120 (n : Nat) : List String := (List.range n).map (fun k => "t" ++ String.singleton (Char.ofNat (97 + k)))
def sensors120 (n : Nat) : OMap String SensorConfig :=
  (names120 n).foldl (fun m s => m.insert s ⟨"temp", "/xyz/openbmc_project/sensors/temperature/" ++ s, "", 0, 0, 0, false, true,
    false⟩) sensors99
/-- one loop for all of them, the processor last -/
def temps120 (n : Nat) : ControllerInfo := { loop99 "temp" "cpu" (-2) 0 90 with
  inputs := (names120 n ++ ["cpu"]).map (fun s => { name := s }) }
def pids120 (n : Nat) : OMap Int PIDConf := ({} : OMap Int PIDConf).insert 1
  ((({} : PIDConf).insert "fans" (loop99 "fan" "fan0" 0 1 0)).insert "temps" (temps120 n))
def launch120 (n : Nat) : Res LoggedDaemon := LoggedDaemon.launch {} bus103 0 0 world99 (sensors120 n) (pids120 n) zones99

/-- two healthy seconds, then the processor reports a critical alarm -/
def healthy120 : List (Nat × DEvent) :=
  [(500, .tick 1), (1000, .tick 1), (1500, .tick 1), (2000, .tick 1), (2500, .signal "cpu" 2 (alarm99 true))]
def failing120 : List (Nat × DEvent) :=
  [(3000, .tick 1), (3500, .tick 1), (4000, .tick 1), (4500, .tick 1), (5000, .tick 1), (5500, .tick 1)]

/-- time, kind and sensor of the lines printed -/
def lines120 (log : List FsEvent) : List (Nat × Bool × String × String) :=
  log.flatMap (fun e => e.printed.map (fun p => (e.now, p.enters, p.location, p.reason)))

/-- **C120** With one more sensor: the failure comes into the log at once, and every second again. -/
example : ∃ l, (do let l ← launch120 1; l.run {} (healthy120 ++ failing120) : Res LoggedDaemon) = .ok l ∧
    decide (lines120 l.log =
      [(0, true, "fan0", "The sensor is missing."), (0, true, "ta", "The sensor is missing."),
       (0, true, "cpu", "The sensor is missing."), (0, false, "ta", "The sensor has recovered."),
       (0, true, "ta", "The sensor has recovered."), (0, false, "cpu", "The sensor has recovered."),
       (0, true, "cpu", "The sensor has recovered."), (500, false, "fan0", "The sensor has recovered."),
       (3000, true, "cpu", "The sensor has failed with a critical issue."), (3000, true, "cpu", "The sensor is missing."),
       (4000, false, "ta", "The sensor has recovered."),
       (4000, true, "cpu", "The sensor has failed with a critical issue."), (4000, true, "cpu", "The sensor is missing."),
       (5000, false, "ta", "The sensor has recovered."),
       (5000, true, "cpu", "The sensor has failed with a critical issue."), (5000, true, "cpu", "The sensor is missing.")]) = true :=
  ok_of_any (P := fun l : LoggedDaemon => decide (lines120 l.log = _)) (by decide +kernel)

/-- what `C120_shown` asks of the log at the tick at which the failure is found -/
def fits120 (l : LoggedDaemon) : Bool :=
  match l.d.zones.find? 1 with
  | none => false
  | some (z, cnt) =>
    (match (l.log.filter (fun e => e.concerns 1 z.d.thermalInputs)).getLast? with
      | some e => !e.state
      | none => false) &&
    l.log.all (fun e => !(e.concerns 1 z.d.thermalInputs && e.recent 3000) || !e.state) &&
    (match l.step {} (3000, .tick 1) with
      | .ok l' => decide (different ((l'.log.filter (fun e => e.concerns 1 z.d.thermalInputs && e.recent 3000 && !e.state)).map
          FsEvent.text) < 20)
      | .error _ => false) &&
    decide ("cpu" ∈ z.d.thermalInputs) && decide ("cpu" ∉ z.d.missingAcceptable) && !z.d.manualMode &&
    decide (z.d.cycleTime.updateThermalsTimeMS ≤ cnt) &&
    (match l.d.w.getSensor "cpu" with
      | .ok s => (match s.getFailed l.d.w with
        | .ok b => b
        | .error _ => false)
      | .error _ => false)

/-- **C120** All that is satisfied here, with one more sensor as well as with 19 more. -/
example : ∃ l, (do let l ← launch120 1; l.run {} healthy120 : Res LoggedDaemon) = .ok l ∧ fits120 l = true :=
  ok_of_any (by decide +kernel)
example : ∃ l, (do let l ← launch120 19; l.run {} healthy120 : Res LoggedDaemon) = .ok l ∧ fits120 l = true :=
  ok_of_any (by decide +kernel)

/-- **C120** (finding) With 20 more sensors the log says once that the zone is in failsafe mode, and then, while the failure
lasts, every second that it is not; that the zone left failsafe mode after the start is never said. -/
example : ∃ l, (do let l ← launch120 20; l.run {} (healthy120 ++ failing120) : Res LoggedDaemon) = .ok l ∧
    decide (lines120 l.log = (0, true, "fan0", "The sensor is missing.") ::
      (names120 19).map (fun n => (0, true, n, "The sensor is missing.")) ++
      [(3000, true, "cpu", "The sensor has failed with a critical issue."), (3000, true, "cpu", "The sensor is missing."),
       (4000, false, "ta", "The sensor has recovered."), (5000, false, "ta", "The sensor has recovered.")]) = true :=
  ok_of_any (P := fun l : LoggedDaemon => decide (lines120 l.log = _)) (by decide +kernel)

/-- The calls of one time about the zone: first 20 different ones that report no failsafe mode, then ones that report it. -/
def burst120 (l : LoggedDaemon) (t : Nat) : Bool :=
  let es := l.log.filter (fun e => e.concerns 1 (names120 20 ++ ["cpu"]) && decide (e.now = t))
  decide (20 ≤ different ((es.takeWhile (fun e => !e.state)).map FsEvent.text)) &&
    (es.dropWhile (fun e => !e.state)).all (fun e => e.state) && !(es.dropWhile (fun e => !e.state)).isEmpty

/-- **C120** The bursts of the finding are what the daemon sends while the failure lasts. -/
example : ∃ l, (do let l ← launch120 20; l.run {} (healthy120 ++ failing120) : Res LoggedDaemon) = .ok l ∧
    (burst120 l 3000 && burst120 l 4000 && burst120 l 5000) = true :=
  ok_of_any (P := fun l => burst120 l 3000 && burst120 l 4000 && burst120 l 5000) (by decide +kernel)

end
end Ex
end Verif
