import Verif.Spec.Held
import Verif.Props.Shared
import Verif.Props.NoGap

/-!
# An alarm holds a fan during the whole life of the process (C148)

The loops are ended and made anew at every reload (main.cpp:127-186), which happens when a matching object appears on the bus and
every ten seconds while an attempt fails (main.cpp:188-233).
-/

namespace Verif
open Dbl
section
variable [F : FloatModel]

theorem told_of {n p : String} {c : SensorConfig} (hlim : LimitsOk c) {w1 : World} (hf : FanAt n p (limitsOf c) w1)
    {conf : List Entry} {v : Dbl} (hv : 0 ≤ v) {w2 : World} (h : FansAtLeast conf v w1 w2) (hin : Turns conf n) :
    ToldAtLeast c p v w2 := by
  obtain ⟨l, b, h1, h2, h3⟩ := h
  have hex : ∃ x ∈ l, n ∈ x.1.inputs := by
    obtain ⟨e, he, hF, x, hx, rfl⟩ := hin
    have : e.2.inputs.map SensorInput.name ∈ l.map (fun x => x.1.inputs) := by
      rw [h1]
      exact List.mem_map.2 ⟨e, List.mem_filter.2 ⟨he, by simpa using hF⟩, rfl⟩
    obtain ⟨y, hy, hy2⟩ := List.mem_map.1 this
    exact ⟨y, hy, by rw [hy2]; exact List.mem_map.2 ⟨x, hx, rfl⟩⟩
  obtain ⟨x, hx, hx2, raw, hraw, hval⟩ := (fanAt_drives h2 hf).2.2 hex
  have htn : targetOf w1 n ≠ none := by
    obtain ⟨s, rd, wr, hs, hi, hwr⟩ := hf.fan
    unfold targetOf
    rw [hs]
    dsimp only
    rw [hi]
    dsimp only
    rw [hwr.target]
    simp
  obtain ⟨r, hr1, hr2, hr3⟩ := rawCommand_mono hlim hv (h3 x hx ⟨n, hx2, htn⟩) hraw
  exact ⟨raw, r, hval (by omega), hr1, hr3⟩

theorem mild_works {o : Opts} {p s : String} {e : DEvent} (h : Mild o p s e) : BusWorks p e := by
  cases e <;> first | exact h | trivial

theorem mild_mode {o : Opts} {p s : String} (i : Int) : ∀ {es : List DEvent}, (∀ e ∈ es, Mild o p s e) → modeAfter i false es = false
  | [], _ => rfl
  | e :: es, h => by
    have hr := mild_mode i (fun x hx => h x (List.mem_cons_of_mem _ hx) : ∀ x ∈ es, Mild o p s x)
    have he := h e List.mem_cons_self
    cases e with
    | manual j b =>
      have he : b = false := he
      subst he
      simpa [modeAfter] using hr
    | _ => exact hr

theorem mild_signals {o : Opts} {p s : String} : ∀ {es : List DEvent}, (∀ e ∈ es, Mild o p s e) →
    ∀ x ∈ signalsFor s es, alarmIn o x ≠ some false
  | [], _, x, hx => by cases hx
  | e :: es, h, x, hx => by
    have hr := mild_signals (fun x hx => h x (List.mem_cons_of_mem _ hx) : ∀ x ∈ es, Mild o p s x)
    have he := h e List.mem_cons_self
    cases e with
    | signal n t m =>
      unfold signalsFor at hx
      split_ifs at hx with hn
      · rcases List.mem_cons.1 hx with rfl | hx
        · exact he hn
        · exact hr x hx
      · exact hr x hx
    | _ => exact hr x hx

theorem works_step {o : Opts} {p : String} {d d' : Daemon} {e : DEvent} (hst : d.step o e = .ok d') (hb : BusWorks p e)
    (h : d.w.busOk p = true) : d'.w.busOk p = true := by
  cases e with
  | outside nf nt ho rf fi bo => cases hst; exact hb
  | signal k t msg =>
    have hst : d.signal o k t msg = .ok d' := hst
    unfold Daemon.signal at hst
    split at hst
    · split at hst
      · obtain ⟨x, _, hst⟩ := bind_eq_ok.1 hst
        cases hst; exact h
      · cases hst; exact h
    · cases hst; exact h
  | hostWrite k t v =>
    simp only [Daemon.step] at hst
    split at hst <;> (cases hst; exact h)
  | manual j b => cases hst; rw [onZone_w]; exact h
  | enable j l b => cases hst; rw [onZone_w]; exact h
  | tick j =>
    simp only [Daemon.step] at hst
    split at hst
    · next z cnt _ =>
      obtain ⟨⟨w', z', cnt'⟩, h1, hst⟩ := bind_eq_ok.1 hst
      cases hst
      dsimp only
      by_cases hm : z.d.manualMode = true
      · rw [tick_manual hm] at h1; cases h1; exact h
      · obtain ⟨d, _, ⟨-, zt, _, h3, -⟩ | ⟨-, h3, -⟩⟩ := tick_auto (by simpa using hm) h1 <;>
        · obtain ⟨l, _, _, h4, _⟩ := processFans_spec h3
          rw [(drives_after h4).same]; exact h
    · cases hst; exact h

theorem works_run {o : Opts} {p : String} : ∀ {es : List DEvent} {d d' : Daemon}, d.run o es = .ok d' →
    (∀ e ∈ es, BusWorks p e) → d.w.busOk p = true → d'.w.busOk p = true
  | [], _, _, h, _, hf => by cases h; exact hf
  | _ :: _, _, _, h, hb, hf => by
    obtain ⟨d1, h1, h2⟩ := bind_eq_ok.1 h
    exact works_run h2 (fun e he => hb e (List.mem_cons_of_mem _ he)) (works_step h1 (hb _ List.mem_cons_self) hf)

/-- the state since a reload -/
structure Since (o : Opts) (path : String) (fc : SensorConfig) (s : String) (v : Dbl) (r : Found) (s0 : Whole) (es : List DEvent)
    (x : Whole) : Prop where
  from_ : ∃ s00 : Whole, s00.d.w.busOk path = true ∧ s00.reload o r = .ok s0
  ties : r.Ties o path fc s v
  mild : ∀ e ∈ es, Mild o path s e
  run : s0.run o (es.map .event) = .ok x

theorem Since.works {o : Opts} {path : String} {fc : SensorConfig} {s : String} {v : Dbl} {r : Found} {s0 : Whole}
    {es : List DEvent} {x : Whole} (h : Since o path fc s v r s0 es x) : x.d.w.busOk path = true := by
  obtain ⟨⟨s00, hb, h0⟩, -, hm, hr⟩ := h
  obtain ⟨d, h5, rfl⟩ := wrun_events.1 hr
  refine works_run h5 (fun e he => mild_works (hm e he)) ?_
  obtain ⟨w0, g1, ⟨b, rfl⟩ | ⟨c', m, g2, g3, g4, -⟩⟩ := reload_cases h0
  · rw [Whole.halted]; dsimp only; rw [(stop_after g1).same]; exact hb
  · rw [(startBuilt_cases g4).1]; dsimp only; rw [(stop_after g1).same]; exact hb

theorem told_limits {c c' : SensorConfig} (h : limitsOf c = limitsOf c') {p : String} {v : Dbl} {w : World}
    (ht : ToldAtLeast c p v w) : ToldAtLeast c' p v w := by
  unfold ToldAtLeast at ht ⊢
  rw [← h]; exact ht

theorem told_trace {c : SensorConfig} {p : String} {v : Dbl} {w w' : World} (h : w'.trace = w.trace)
    (ht : ToldAtLeast c p v w) : ToldAtLeast c p v w' := by
  unfold ToldAtLeast valueAt at ht ⊢
  rw [h]; exact ht

theorem hundredth_le {a b : Dbl} (h : a ≤ b) : a / 100 ≤ b / 100 :=
  div_le_div_of_pos pos100 h (div100_ne_nan (ne_nan_of_le_left h)) (div100_ne_nan (ne_nan_of_le_right h))

/-- one tick: a zone that turns the fan tells it enough, any other leaves it -/
theorem held_tick {o : Opts} (ho : o.tuningEnabled = false) {path : String} {fc : SensorConfig} {s : String} {v : Dbl}
    (hv : 0 ≤ v) {r : Found} {s0 : Whole} {es : List DEvent} {x : Whole} (h : Since o path fc s v r s0 es x) (hall : x.AllRun)
    {i : Int} {y : Whole} (ht : x.step o (.event (.tick i)) = .ok y) :
    ∃ c n sc, r.read = .got c ∧ FanOn r.bus.dirs c.sensors n sc path ∧
      (TurnedBy c.pids n i → ToldAtLeast fc path (v / 100) y.d.w) ∧
      (¬ TurnedBy c.pids n i → valueAt path y.d.w = valueAt path x.d.w) := by
  obtain ⟨⟨s00, hb, h0⟩, hti, hm, hr⟩ := h
  obtain ⟨d, h5, rfl⟩ := wrun_events.1 hr
  have hall0 : s0.AllRun := ⟨hall.1, hall.2.1, by rw [← empty_run h5]; exact hall.2.2⟩
  have hrest := C123_restart h0 hall0
  obtain ⟨w0, g1, ⟨b, rfl⟩ | ⟨c, m, hread, g3, g4, -⟩⟩ := reload_cases h0
  · exact absurd hall0.2.2 (by rw [Whole.halted]; exact Bool.noConfusion)
  obtain ⟨hws, hw, hl⟩ := read_wf hread
  obtain ⟨w, -, h7⟩ := hrest
  rw [attempt_read hread, launched_running] at h7
  obtain ⟨⟨sc, b, own, k1, k2, k3, k4, k5, k6, k7, k8⟩, n, fsc, hfo, hlim, hz⟩ := hti c hread
  unfold Whole.step at ht
  obtain ⟨d', h8, h9⟩ := bind_eq_ok.1 ht
  cases h9
  have hb0 : w0.busOk path = true := by rw [(stop_after g1).same]; exact hb
  have hf0 : FanAt n path (limitsOf fsc) s0.d.w := by rw [(startBuilt_cases g4).1]; exact fanAt_made hws g3 hfo hb0
  have hf := fanAt_run h5 (fun e he => mild_works (hm e he)) hf0
  refine ⟨c, n, fsc, hread, hfo, ?_, fun hno => ?_⟩
  · rintro ⟨conf, hp, hT⟩
    obtain ⟨hmr, hnum, hsf⟩ := hz i conf hp hT
    obtain ⟨mm, zones, hL⟩ := launch_spec h7
    obtain ⟨zb, zc, hzb, hcc, hN⟩ := (C64_zones hw hl hL.built i).1 conf hp
    have hsf := hsf zc hcc
    have hfail : ∀ {es1 es2 : List DEvent} {d1 : Daemon}, es = es1 ++ es2 → s0.d.run o es1 = .ok d1 → ∀ t, FailsAt d1.w t s := by
      intro es1 es2 d1 he hr
      exact C145_alarm_fails hws h7 k1 k2 k3 k4 k5 k6 k7 k8 hr
        (mild_signals (fun e h => hm e (by rw [he]; exact List.mem_append_left _ h)))
    obtain ⟨p, q1, q2⟩ := C145_no_gap ho hw hl h7 hp hcc hmr hnum (ne_nan_of_le_right hsf.1) (hfail (es1 := []) rfl rfl _) h5
      (by
        intro es1 es2 d1 he hr
        have : ∃ es3, es = es1 ++ es3 := by
          rcases List.eq_nil_or_concat es2 with rfl | ⟨es3, x, rfl⟩
          · refine ⟨[], ?_⟩
            rw [List.append_nil]
            exact (List.append_inj_left' he rfl)
          · refine ⟨.tick i :: es3, ?_⟩
            rw [List.concat_eq_append, ← List.cons_append, ← List.append_assoc] at he
            exact (List.append_inj_left' he rfl)
        obtain ⟨es3, he3⟩ := this
        exact ⟨hfail he3 hr _, hfail he3 hr _⟩) (mild_mode i hm) h8
    refine told_limits hlim (told_of hfo.limits hf (percent_nonneg hv) ?_ hT)
    obtain ⟨l, b, a1, a2, a3⟩ := q2
    exact ⟨l, b, a1, a2, fun x hx hm => le_trans (hundredth_le (percent_from hsf q1)) (a3 x hx hm)⟩
  · have ha := (told_unless (T := TurnedBy c.pids n) h5 (fun e he => mild_works (hm e he)) hf0
      (fun j z cnt => away_unless hw hl h7 j z cnt)).1
    simp only [Daemon.step] at h8
    split at h8
    · next z cnt hz =>
      obtain ⟨⟨w', z', cnt'⟩, h3, h8⟩ := bind_eq_ok.1 h8
      cases h8
      exact away_tick (ha i z cnt hno hz) hf h3
    · cases h8; rfl

/-- a reload leaves the fan, or tells it enough -/
theorem held_reload {o : Opts} {path : String} {fc : SensorConfig} {s : String} {v : Dbl}
    (hv : 0 ≤ v) {r : Found} {s0 : Whole} {es : List DEvent} {x : Whole} (h : Since o path fc s v r s0 es x)
    (hto : ToldAtLeast fc path (v / 100) x.d.w) {w : World} (hst : x.stop o = .ok w) : ToldAtLeast fc path (v / 100) w := by
  cases hoff : o.offlineFailsafePwm with
  | false => rw [(C123_end (o := o) hst).2 hoff]; exact hto
  | true =>
    obtain ⟨⟨s00, hb, h0⟩, hti, hm, hr⟩ := h
    obtain ⟨d, h5, rfl⟩ := wrun_events.1 hr
    have hls := (C123_end (o := o) hst).1 hoff
    by_cases hne : (Whole.mk d s0.idle s0.hosts s0.again).all = []
    · rw [hne] at hls
      cases hls
      exact hto
    obtain ⟨w0, g1, ⟨b, rfl⟩ | ⟨c, m, hread, g3, g4, -⟩⟩ := reload_cases h0
    · exfalso
      apply hne
      have : d.zones.isEmpty = true := by rw [empty_run h5]; rfl
      have : d.zones.entries = [] := by simpa [OMap.isEmpty] using this
      unfold Whole.all
      dsimp only
      rw [this]; rfl
    obtain ⟨hws, hw, hl⟩ := read_wf hread
    obtain ⟨-, n, fsc, hfo, hlim, hz⟩ := hti c hread
    have hb0 : w0.busOk path = true := by rw [(stop_after g1).same]; exact hb
    have hf0 : FanAt n path (limitsOf fsc) s0.d.w := by rw [(startBuilt_cases g4).1]; exact fanAt_made hws g3 hfo hb0
    obtain ⟨k1, -⟩ := all_safe hw hl g4 h5 hne (n := n) (v := v) (fun i conf zc hp hcc hT => (hz i conf hp hT).2.2 zc hcc)
    exact told_limits hlim (leftSafe_told hfo.limits (percent_nonneg hv) hls
      (fanAt_run h5 (fun e he => mild_works (hm e he)) hf0) (fun z hz hzf => hundredth_le (k1 z hz hzf))
      (.inr (told_limits hlim.symm hto)))

/-- the whole life from a state in which the fan was told enough -/
theorem held {o : Opts} (ho : o.tuningEnabled = false) {path : String} {fc : SensorConfig} {s : String} {v : Dbl} (hv : 0 ≤ v) :
    ∀ {life : List WEvent} {r : Found} {s0 : Whole} {es : List DEvent} {x y : Whole}, Since o path fc s v r s0 es x →
    ToldAtLeast fc path (v / 100) x.d.w → (∀ e ∈ life, e.Ties o path fc s v) → AllOrNone o x life → x.run o life = .ok y →
    ToldAtLeast fc path (v / 100) y.d.w ∧ ∃ r' s0' es', Since o path fc s v r' s0' es' y
  | [], r, s0, es, x, y, hs, hto, _, _, hr => by cases hr; exact ⟨hto, r, s0, es, hs⟩
  | e :: life, r, s0, es, x, y, hs, hto, hti, han, hr => by
    unfold Whole.run at hr
    obtain ⟨x1, h1, h2⟩ := bind_eq_ok.1 hr
    have han1 : AllOrNone o x1 life := fun pre post z he hz => han (e :: pre) post z (by rw [he]; rfl)
      (by unfold Whole.run; rw [h1]; exact hz)
    have hti1 : ∀ e ∈ life, e.Ties o path fc s v := fun e he => hti e (List.mem_cons_of_mem _ he)
    have hte := hti e List.mem_cons_self
    cases e with
    | reload r' =>
      obtain ⟨w, g1, g2⟩ := reload_cases h1
      have hw := held_reload hv hs hto g1
      refine held ho hv (r := r') (s0 := x1) (es := []) ⟨⟨x, hs.works, h1⟩, hte, by simp, rfl⟩ ?_ hti1 han1 h2
      refine told_trace ?_ hw
      rcases g2 with ⟨b, rfl⟩ | ⟨c, m, -, -, h5, -⟩
      · rfl
      · rw [(startBuilt_cases h5).1]
    | event e =>
      have hs1 : Since o path fc s v r s0 (es ++ [e]) x1 := by
        refine ⟨hs.from_, hs.ties, fun a ha => ?_, ?_⟩
        · rcases List.mem_append.1 ha with ha | ha
          · exact hs.mild a ha
          · have ha : a = e := by simpa using ha
            subst ha; exact hte
        · rw [List.map_append]
          exact wrun_append.2 ⟨x, hs.run, by rw [List.map_cons, List.map_nil]; unfold Whole.run; rw [h1]; rfl⟩
      refine held ho hv hs1 ?_ hti1 han1 h2
      by_cases he : ∃ j, e = .tick j
      · obtain ⟨j, rfl⟩ := he
        rcases han [] _ x rfl rfl with hall | hnone
        · obtain ⟨c, n, sc, -, -, a1, a2⟩ := held_tick ho hv hs hall h1
          by_cases hT : TurnedBy c.pids n j
          · exact a1 hT
          · obtain ⟨u, q, b1, b2, b3⟩ := hto
            exact ⟨u, q, (a2 hT).trans b1, b2, b3⟩
        · unfold Whole.step at h1
          obtain ⟨d', h8, h9⟩ := bind_eq_ok.1 h1
          cases h9
          exact told_trace (quiet_run (es := [.tick j]) (by unfold Daemon.run; rw [h8]; rfl) hnone) hto
      · unfold Whole.step at h1
        obtain ⟨d', h8, h9⟩ := bind_eq_ok.1 h1
        cases h9
        exact told_trace (trace_step h8 (fun j hj => he ⟨j, hj⟩)) hto

/-- a life from the first cycle after a reload on -/
theorem held_life {o : Opts} (ho : o.tuningEnabled = false) {path : String} {fc : SensorConfig} {s : String} {v : Dbl} (hv : 0 ≤ v)
    {r : Found} {s00 s0 y : Whole} (hb : s00.d.w.busOk path = true) (h0 : s00.reload o r = .ok s0) (hall : s0.AllRun)
    {c : Config} (hread : r.read = .got c) {n : String} {nc : SensorConfig} (hn : FanOn r.bus.dirs c.sensors n nc path) {i : Int}
    (hi : TurnedBy c.pids n i) {es : List DEvent} {life : List WEvent} (hr : r.Ties o path fc s v)
    (hes : ∀ e ∈ es, Mild o path s e) (hlife : ∀ e ∈ life, e.Ties o path fc s v)
    (han : AllOrNone o s0 (es.map .event ++ .event (.tick i) :: life))
    (h : s0.run o (es.map .event ++ .event (.tick i) :: life) = .ok y) :
    ToldAtLeast fc path (v / 100) y.d.w ∧ ∃ r' s0' es', Since o path fc s v r' s0' es' y := by
  obtain ⟨x, h1, h2⟩ := wrun_append.1 h
  unfold Whole.run at h2
  obtain ⟨x1, h2, h3⟩ := bind_eq_ok.1 h2
  have hs : Since o path fc s v r s0 es x := ⟨⟨s00, hb, h0⟩, hr, hes, h1⟩
  have hx : x.AllRun := by
    obtain ⟨d, h5, rfl⟩ := wrun_events.1 h1
    exact ⟨hall.1, hall.2.1, by rw [empty_run h5]; exact hall.2.2⟩
  obtain ⟨c', n', sc', hread', hn', a1, -⟩ := held_tick ho hv hs hx h2
  rw [hread] at hread'
  cases hread'
  have hnn : n' = n := by
    by_contra hne
    exact hn.only n' sc' hne hn'.configured hn'.fan hn'.written
  subst hnn
  have hs1 : Since o path fc s v r s0 (es ++ [.tick i]) x1 := by
    refine ⟨hs.from_, hs.ties, fun a ha => ?_, ?_⟩
    · rcases List.mem_append.1 ha with ha | ha
      · exact hes a ha
      · have ha : a = .tick i := by simpa using ha
        subst ha; trivial
    · rw [List.map_append]
      exact wrun_append.2 ⟨x, h1, by rw [List.map_cons, List.map_nil]; unfold Whole.run; rw [h2]; rfl⟩
  refine held ho hv hs1 (a1 hi) hlife ?_ h3
  intro pre post z he hz
  refine han (es.map .event ++ .event (.tick i) :: pre) post z (by rw [he]; simp) (wrun_append.2 ⟨x, h1, ?_⟩)
  unfold Whole.run
  rw [h2]; exact hz

/-- **C148** An alarm holds a fan for the rest of the life of the process. After a reload that left all zones running, let a zone
that turns the fan have a cycle. If the sensor showed an alarm when it was made and never withdraws it, then from this cycle on the
fan was last told at least the number for `v` percent — whatever happens: while the zones run, while the configuration is gone or
cannot be used, between a reload and the first cycle after it, and after any number of further reloads with other
configurations, as long as those tie the fan to the sensor. -/
theorem C148_held {o : Opts} (ho : o.tuningEnabled = false) {path : String} {fc : SensorConfig} {s : String} {v : Dbl} (hv : 0 ≤ v)
    {r : Found} {s00 s0 y : Whole} (hb : s00.d.w.busOk path = true) (h0 : s00.reload o r = .ok s0) (hall : s0.AllRun)
    {c : Config} (hread : r.read = .got c) {n : String} {nc : SensorConfig} (hn : FanOn r.bus.dirs c.sensors n nc path) {i : Int}
    (hi : TurnedBy c.pids n i) {es : List DEvent} {life : List WEvent} (hr : r.Ties o path fc s v)
    (hes : ∀ e ∈ es, Mild o path s e) (hlife : ∀ e ∈ life, e.Ties o path fc s v)
    (han : AllOrNone o s0 (es.map .event ++ .event (.tick i) :: life))
    (h : s0.run o (es.map .event ++ .event (.tick i) :: life) = .ok y) : ToldAtLeast fc path (v / 100) y.d.w :=
  (held_life ho hv hb h0 hall hread hn hi hr hes hlife han h).1

/-- **C148** Also when the process ends, with the option to leave the fans at their failsafe percentages or without. -/
theorem C148_end {o : Opts} (ho : o.tuningEnabled = false) {path : String} {fc : SensorConfig} {s : String} {v : Dbl} (hv : 0 ≤ v)
    {r : Found} {s00 s0 y : Whole} (hb : s00.d.w.busOk path = true) (h0 : s00.reload o r = .ok s0) (hall : s0.AllRun)
    {c : Config} (hread : r.read = .got c) {n : String} {nc : SensorConfig} (hn : FanOn r.bus.dirs c.sensors n nc path) {i : Int}
    (hi : TurnedBy c.pids n i) {es : List DEvent} {life : List WEvent} (hr : r.Ties o path fc s v)
    (hes : ∀ e ∈ es, Mild o path s e) (hlife : ∀ e ∈ life, e.Ties o path fc s v)
    (han : AllOrNone o s0 (es.map .event ++ .event (.tick i) :: life))
    (h : s0.run o (es.map .event ++ .event (.tick i) :: life) = .ok y)
    {w : World} (hw : y.terminate o = .ok w) : ToldAtLeast fc path (v / 100) w := by
  obtain ⟨h1, r', s0', es', h2⟩ := held_life ho hv hb h0 hall hread hn hi hr hes hlife han h
  exact held_reload hv h2 h1 hw

end

namespace Ex
section
attribute [local instance] binary64

/-- reloads with the alarm and without any configuration; harmless readings come in between -/
def life148 : List WEvent := [.reload alarm145, .event (.signal "cpu" 1 (temp103 30)), .event (.tick 3), .reload mute140, .event (.tick 3),
  .reload none140, .event (.tick 3), .reload alarm145, .event fan145, .event (.tick 3)]

def all148 : List WEvent := after145.map .event ++ .event (.tick 3) :: life148

/-- The fan is at 75% (191 of 255) from the first cycle on; further writes repeat it. -/
example : (((Whole.init world99).run {} (.reload alarm145 :: (after145.map .event ++ .event (.tick 3) :: life148))).toOption.map sum123) =
    some ([(3, false)], 0, false, [.sysfsWrite "/sys/class/hwmon/pwm1" 191, .sysfsWrite "/sys/class/hwmon/pwm1" 191,
      .sysfsWrite "/sys/class/hwmon/pwm1" 191]) := by
  decide +kernel

/-- what C148_held asks of the configuration -/
def fit148 (c : Config) : Bool :=
  fit145 c && c.sensors.entries.all (fun e => decide (e.2.type = "fan" → e.1 = "fan0")) &&
    (c.sensors.find? "fan0").any (fun sc => decide (sc.type = "fan" ∧ sc.min = 0 ∧ sc.max = 255 ∧
      getWriteInterfaceType sc.writePath = .sysfs ∧ (fixupPath bus145.dirs sc.writePath).toOption = some "/sys/class/hwmon/pwm1")) &&
    c.pids.entries.all (fun e => decide (e.1 = 3) && decide (∀ x ∈ e.2.entries, x.2.failSafePercent = 0)) &&
    (c.pids.find? 3).any (fun conf => decide (∃ e ∈ conf.entries, IsFan e ∧ ∃ x ∈ e.2.inputs, x.name = "fan0"))

theorem read148 : ∃ c, alarm145.read = .got c ∧ fit148 c = true := by
  have h : (match alarm145.read with | .got c => fit148 c | _ => false) = true := by decide +kernel
  split at h
  · next c e => exact ⟨c, e, h⟩
  · cases h

theorem ties148 {c : Config} (hc : alarm145.read = .got c) (hf : fit148 c = true) :
    (∃ sc, FanOn alarm145.bus.dirs c.sensors "fan0" sc "/sys/class/hwmon/pwm1") ∧ TurnedBy c.pids "fan0" 3 ∧
      alarm145.Ties {} "/sys/class/hwmon/pwm1" fan106 "cpu" 75 := by
  obtain ⟨hws, hw, -⟩ := read_wf hc
  unfold fit148 at hf
  simp only [Bool.and_eq_true, decide_eq_true_eq, List.all_eq_true] at hf
  obtain ⟨⟨⟨⟨f0, f1⟩, f2⟩, f3⟩, f4⟩ := hf
  obtain ⟨conf, zc, sc, e1, e2, e3, e4, e5, e6, e7, -, e9, e10, e11⟩ := (fit_of f0).zone
  cases hsc : c.sensors.find? "fan0" with
  | none => rw [hsc] at f2; cases f2
  | some fsc =>
  rw [hsc] at f2
  rw [e1] at f4
  have f4 := of_decide_eq_true f4
  obtain ⟨k1, k2, k3, k4, k5⟩ := of_decide_eq_true f2
  have hfo : FanOn alarm145.bus.dirs c.sensors "fan0" fsc "/sys/class/hwmon/pwm1" := by
    refine ⟨hsc, k1, fun _ => by rw [k2, k3]; decide, ?_, fun m c' hm hc' ht _ => ?_⟩
    · refine WritePath.sysfs ((C65_write _ _).1 k4) (fixup_iff.1 ?_)
      cases hx : fixupPath bus145.dirs fsc.writePath with
      | ok q =>
        rw [hx] at k5
        change fixupPath bus145.dirs _ = _
        rw [hx, ← Option.some.inj k5]
      | error x => rw [hx] at k5; cases k5
    · exact hm (f1 (m, c') ((OMap.mem_entries_iff hws m c').2 hc') ht)
  refine ⟨⟨fsc, hfo⟩, ⟨conf, e1, f4⟩, fun c' hc' => ?_⟩
  rw [hc] at hc'
  cases hc'
  refine ⟨⟨sc, cpuObject, _, e3, e7, e9, e10, e11, rfl, owner145, showsAlarm145⟩, "fan0", fsc, hfo,
    by rw [limitsOf, limitsOf, k2, k3]; rfl, fun i conf' hp hT => ?_⟩
  have h3 := f3 (i, conf') ((OMap.mem_entries_iff hw i conf').2 hp)
  obtain rfl : i = 3 := h3.1
  rw [e1] at hp
  cases hp
  refine ⟨e4, e5, fun zc' hz' => ?_⟩
  rw [e2] at hz'
  cases hz'
  exact ⟨by rw [e6]; decide +kernel, fun e he => .inl (h3.2 e he)⟩

theorem allOrNone_of {o : Opts} : ∀ {es : List WEvent} {s : Whole},
    (∀ k ∈ List.range (es.length + 1), (s.run o (es.take k)).toOption.all
      (fun x : Whole => x.d.zones.isEmpty || !x.again && x.idle.isEmpty) = true) → AllOrNone o s es := by
  intro es s h pre post x he hx
  have hk := h pre.length (List.mem_range.2 (by rw [he, List.length_append]; omega))
  rw [he, List.take_left, hx] at hk
  simp only [Except.toOption, Option.all_some, Bool.or_eq_true, Bool.and_eq_true, Bool.not_eq_true', List.isEmpty_iff] at hk
  by_cases hz : x.d.zones.isEmpty = true
  · exact .inr hz
  · obtain ⟨h1, h2⟩ := hk.resolve_left hz
    exact .inl ⟨h1, h2, by simpa using hz⟩

/-- C148_held and C148_end for this life -/
example : ∃ y w, (Whole.init world99).run {} (.reload alarm145 :: (after145.map .event ++ .event (.tick 3) :: life148)) = .ok y ∧
    rawCommand (limitsOf fan106) (75 / 100) = some 191 ∧ ToldAtLeast fan106 "/sys/class/hwmon/pwm1" (75 / 100) y.d.w ∧
    y.terminate {} = .ok w ∧ ToldAtLeast fan106 "/sys/class/hwmon/pwm1" (75 / 100) w := by
  obtain ⟨c, hc, hf⟩ := read148
  obtain ⟨⟨sc, hfo⟩, hT, hti⟩ := ties148 hc hf
  obtain ⟨y, hy, -⟩ := ok_of_any (x := (Whole.init world99).run {} (.reload alarm145 ::
    (after145.map .event ++ .event (.tick 3) :: life148))) (P := fun _ : Whole => true) (by decide +kernel)
  obtain ⟨s0, h0, hP⟩ := ok_of_any (x := (Whole.init world99).reload {} alarm145)
    (P := fun s : Whole => (!s.again && s.idle.isEmpty && !s.d.zones.isEmpty) &&
      (List.range (all148.length + 1)).all fun k =>
        (s.run {} (all148.take k)).toOption.all
          (fun x : Whole => x.d.zones.isEmpty || !x.again && x.idle.isEmpty)) (by decide +kernel)
  rw [Bool.and_eq_true] at hP
  have hall : s0.AllRun := by
    have := hP.1
    simp only [Bool.and_eq_true, Bool.not_eq_true', List.isEmpty_iff] at this
    exact ⟨this.1.1, this.1.2, this.2⟩
  have hw : y.terminate {} = .ok y.d.w := by
    unfold Whole.terminate Whole.stop
    exact destroyZones_nothing rfl _ _
  have hy' := hy
  unfold Whole.run at hy
  rw [show (Whole.init world99).step {} (.reload alarm145) = (Whole.init world99).reload {} alarm145 from rfl, h0, ok_bind] at hy
  have hnone : ∀ r : Found, (match r.read with | .got _ => false | _ => true) = true →
      r.Ties {} "/sys/class/hwmon/pwm1" fan106 "cpu" 75 := by
    intro r hr c hc
    rw [hc] at hr
    cases hr
  have han := allOrNone_of (List.all_eq_true.1 hP.2)
  have hes : ∀ e ∈ after145, Mild {} "/sys/class/hwmon/pwm1" "cpu" e := by
    intro e he
    simp only [after145, fan145, List.mem_cons, List.not_mem_nil, or_false] at he
    rcases he with rfl | rfl
    · exact fun _ => by decide +kernel
    · exact fun h => absurd h (by decide)
  have hlife : ∀ e ∈ life148, e.Ties {} "/sys/class/hwmon/pwm1" fan106 "cpu" 75 := by
    intro e he
    simp only [life148, List.mem_cons, List.not_mem_nil, or_false] at he
    rcases he with rfl | rfl | rfl | rfl | rfl | rfl | rfl | rfl | rfl | rfl
    · exact hti
    · exact fun _ => by decide +kernel
    · trivial
    · exact hnone _ (by decide +kernel)
    · trivial
    · exact hnone _ (by decide +kernel)
    · trivial
    · exact hti
    · exact fun h => absurd h (by decide)
    · trivial
  exact ⟨y, _, hy', by decide +kernel, C148_held rfl (by decide +kernel) (by rfl) h0 hall hc hfo hT hti hes hlife han hy, hw,
    C148_end rfl (by decide +kernel) (by rfl) h0 hall hc hfo hT hti hes hlife han hy hw⟩

end
end Ex
end Verif
