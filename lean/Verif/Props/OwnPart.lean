import Verif.Lemmas.AnyOrder
import Verif.Lemmas.OwnPart

/-! # C133: a zone depends on nothing but its own part of the configuration and its own sensors -/

namespace Verif
open Dbl
section
variable [F : FloatModel]

theorem tick_inputs {o : Opts} {w w' : World} {z z' : Zone} {cnt cnt' : Nat} (ht : z.tick o w cnt = .ok (w', z', cnt')) :
    z'.d.fanInputs = z.d.fanInputs ∧ z'.d.thermalInputs = z.d.thermalInputs := by
  by_cases hm : z.d.manualMode = true
  · rw [tick_manual hm] at ht
    cases ht
    exact ⟨rfl, rfl⟩
  · obtain ⟨d, h1, h2⟩ := tick_auto (by simpa using hm) ht
    have ef := (pollAll_spec h1).frame.eq
    have e1 : d.fanInputs = z.d.fanInputs := by rw [ef]
    have e2 : d.thermalInputs = z.d.thermalInputs := by rw [ef]
    rcases h2 with ⟨_, zt, h3, h4, _⟩ | ⟨_, h3, _⟩
    · obtain ⟨d2, q1, q2⟩ := processThermals_rest h3
      have ef2 := (pollAll_spec q1).frame.eq
      have q4 := (processFans_rest h4).1
      refine ⟨?_, ?_⟩ <;> (rw [q4]; dsimp only; rw [q2]; dsimp only; rw [ef2]; dsimp only; assumption)
    · have q4 := (processFans_rest h3).1
      refine ⟨?_, ?_⟩ <;> (rw [q4]; dsimp only; assumption)

/-- zone `i` is the same in both daemons, and so are the sensors it reads and its fans, which no other zone uses -/
structure Own (i : Int) (rs ns : List String) (d d' : Daemon) : Prop where
  agree : AgreeOn rs ns d.w d'.w
  zone : ∃ z cnt, d.zones.find? i = some (z, cnt) ∧ d'.zones.find? i = some (z, cnt) ∧ (∀ n, z.fanNames n → n ∈ ns) ∧
    (∀ n ∈ z.d.fanInputs, n ∈ rs) ∧ ∀ n ∈ z.d.thermalInputs, n ∈ rs
  others : ∀ j z cnt, j ≠ i → d.zones.find? j = some (z, cnt) → ∀ n, z.fanNames n → n ∉ ns
  others' : ∀ j z cnt, j ≠ i → d'.zones.find? j = some (z, cnt) → ∀ n, z.fanNames n → n ∉ ns

theorem Own.symm {i : Int} {rs ns : List String} {d d' : Daemon} (h : Own i rs ns d d') : Own i rs ns d' d := by
  obtain ⟨z, cnt, h1, h2, h3⟩ := h.zone
  exact ⟨h.agree.symm, ⟨z, cnt, h2, h1, h3⟩, h.others', h.others⟩

/-- no zone appears while the daemon runs -/
theorem step_absent {o : Opts} {d d1 : Daemon} {e : DEvent} (hs : d.step o e = .ok d1) {j : Int} (hj : d.zones.find? j = none) :
    d1.zones.find? j = none := by
  cases eventKind e with
  | outside => cases hs; exact hj
  | sensor n he =>
    rw [step_sensor_upd he] at hs
    obtain ⟨m, _, rfl⟩ := map_ok.1 hs
    exact hj
  | zone i he =>
    rw [step_zone_upd he] at hs
    obtain ⟨m, hm, rfl⟩ := map_ok.1 hs
    by_cases e : j = i
    · subst e
      unfold OMap.upd at hm
      rw [hj] at hm
      cases hm
      exact hj
    · exact (OMap.upd_find? e hm).trans hj
  | tick i =>
    simp only [Daemon.step] at hs
    cases hi : d.zones.find? i with
    | none => rw [hi] at hs; cases hs; exact hj
    | some x =>
      rw [hi] at hs
      obtain ⟨⟨w, z, cnt⟩, _, hs⟩ := bind_eq_ok.1 hs
      cases hs
      exact (OMap.find?_insert_ne _ (fun e : j = i => by rw [e, hi] at hj; cases hj) _).trans hj

/-- zones keep their fans -/
theorem others_step {o : Opts} {i : Int} {ns : List String} {d d1 : Daemon} {e : DEvent}
    (h : ∀ j z cnt, j ≠ i → d.zones.find? j = some (z, cnt) → ∀ n, z.fanNames n → n ∉ ns) (hs : d.step o e = .ok d1) :
    ∀ j z cnt, j ≠ i → d1.zones.find? j = some (z, cnt) → ∀ n, z.fanNames n → n ∉ ns := by
  intro j z cnt hj hz
  cases h0 : d.zones.find? j with
  | none => rw [step_absent hs h0] at hz; cases hz
  | some x =>
    obtain ⟨z0, cnt0⟩ := x
    obtain ⟨z1, cnt1, h1, h2⟩ := step_zone hs h0
    rw [hz] at h1
    cases h1
    have h3 := h j z0 cnt0 hj h0
    cases h2 with
    | manual b => exact h3
    | enable l b => exact h3
    | tick ht => exact fun n hn => h3 n (fanNames_congr (tick_flags ht).2 hn)
    | other => exact h3

/-- events a zone cannot notice, in the first daemon -/
theorem own_left {o : Opts} {i : Int} {conf : List Entry} {ns : List String} (hns : ∀ n ∈ ns, n ∈ namedBy conf) {d d' d1 : Daemon}
    {e : DEvent} (h : Own i (namedBy conf) ns d d') (hn : Notices i conf e = false) (hs : d.step o e = .ok d1) :
    Own i (namedBy conf) ns d1 d' := by
  obtain ⟨z, cnt, hz, hz', hq⟩ := h.zone
  have hoth := others_step h.others hs
  cases eventKind e with
  | outside => cases hn
  | sensor n he =>
    have hnn : n ∉ namedBy conf := by
      rcases he with ⟨t, m, rfl⟩ | ⟨t, v, rfl⟩ <;> simpa [Notices] using hn
    rw [step_sensor_upd he] at hs
    replace hs := map_ok.1 hs
    obtain ⟨m, hm, rfl⟩ := hs
    have hf : ∀ k ∈ namedBy conf, m.find? k = d.w.sensors.find? k := fun k hk =>
      OMap.upd_find? (fun e : k = n => hnn (e ▸ hk)) hm
    refine ⟨⟨?_, fun k hk => ?_, fun k hk => ?_⟩, ⟨z, cnt, hz, hz', hq⟩, hoth, h.others'⟩
    · exact h.agree.same
    · rw [h.agree.front k hk, hf k hk]
    · rw [h.agree.own k hk, hf k (hns k hk)]
  | zone j he =>
    have hj : i ≠ j := by
      rcases he with ⟨b, rfl⟩ | ⟨l, b, rfl⟩ <;> (intro e; simp [Notices, e] at hn)
    rw [step_zone_upd he] at hs
    replace hs := map_ok.1 hs
    obtain ⟨m, hm, rfl⟩ := hs
    exact ⟨h.agree, ⟨z, cnt, (OMap.upd_find? hj hm).trans hz, hz', hq⟩, hoth, h.others'⟩
  | tick j =>
    have hj : j ≠ i := by simpa [Notices] using hn
    simp only [Daemon.step] at hs
    cases hd : d.zones.find? j with
    | none => rw [hd] at hs; cases hs; exact h
    | some x =>
      obtain ⟨zj, cj⟩ := x
      rw [hd] at hs
      obtain ⟨⟨w1, z1, cnt1⟩, ht, hs⟩ := bind_eq_ok.1 hs
      cases hs
      have ha := tick_after ht
      refine ⟨AgreeOn.trans (AgreeOn.symm ⟨ha.same, fun n _ => ha.front n, fun n hnn => tick_only ht ?_⟩) h.agree,
        ⟨z, cnt, (OMap.find?_insert_ne _ (Ne.symm hj) _).trans hz, hz', hq⟩, hoth, h.others'⟩
      intro c hc hnc
      exact h.others j zj cj hj hd n ⟨c, hc, hnc⟩ hnn

/-- what an event does to sensors that show the same -/
theorem onSensor_front {o : Opts} {e : DEvent} {s s' : Sensor} (hf : s'.front = s.front) {r r' : Option Sensor}
    (h : onSensor o e s = .ok r) (h' : onSensor o e s' = .ok r') : r'.map Sensor.front = r.map Sensor.front := by
  have key : ∀ {p wr wr'}, s.impl = .pluggable p wr → s'.impl = .pluggable p wr' → ∀ q,
      Sensor.front { s' with impl := .pluggable q wr' } = Sensor.front { s with impl := .pluggable q wr } := by
    intro p wr wr' _ _ q
    unfold Sensor.front at hf ⊢
    simp only [Prod.mk.injEq] at hf ⊢
    exact ⟨hf.1, hf.2.1, hf.2.2.1, trivial⟩
  cases e with
  | signal n t m =>
    unfold onSensor at h h'
    dsimp only at h h'
    rcases front_cases hf with ⟨p, wr, wr', q1, q2⟩ | ⟨v, u, q1, q2⟩
    · rw [q1] at h
      rw [q2] at h'
      cases p with
      | passive p =>
        obtain ⟨p1, k1, h⟩ := bind_eq_ok.1 h
        obtain ⟨p2, k2, h'⟩ := bind_eq_ok.1 h'
        rw [k1] at k2
        cases k2
        cases h
        cases h'
        exact congrArg some (key q1 q2 _)
      | sysfs | writeOnly | null => cases h; cases h'; rfl
    · rw [q1] at h
      rw [q2] at h'
      cases h
      cases h'
      rfl
  | hostWrite n t v =>
    cases h
    cases h'
    refine congrArg some ?_
    unfold Sensor.hostWrite
    rcases front_cases hf with ⟨r, wr, wr', q1, q2⟩ | ⟨v, u, q1, q2⟩
    · rw [q1, q2]; exact hf
    · rw [q1, q2]
      unfold Sensor.front at hf ⊢
      simp only [Prod.mk.injEq] at hf ⊢
      exact ⟨hf.1, hf.2.1, hf.2.2.1, trivial⟩
  | outside | manual | enable | tick => cases h; cases h'; rfl

omit F in
theorem upd_at {K V : Type} [DecidableEq K] [LT K] [DecidableLT K] [OMap.StrictOrd K] {m m1 : OMap K V} {k : K} {f : V → Res (Option V)}
    (h : m.upd k f = .ok m1) : (m.find? k = none ∧ m1.find? k = none) ∨
      ∃ v r, m.find? k = some v ∧ f v = .ok r ∧ m1.find? k = some (r.getD v) := by
  unfold OMap.upd at h
  cases hk : m.find? k with
  | none => rw [hk] at h; cases h; exact .inl ⟨rfl, hk⟩
  | some v =>
    rw [hk] at h
    obtain ⟨r, hr, h⟩ := bind_eq_ok.1 h
    refine .inr ⟨v, r, rfl, hr, ?_⟩
    cases r with
    | none => cases h; exact hk
    | some v' => cases h; exact OMap.find?_insert_self _ _ _

/-- events in both daemons -/
theorem own_both {o : Opts} {i : Int} {rs ns : List String} (hns : ∀ n ∈ ns, n ∈ rs) {d d' d1 d1' : Daemon} {e : DEvent}
    (h : Own i rs ns d d') (hi : ∀ n, ((∃ t m, e = .signal n t m) ∨ ∃ t v, e = .hostWrite n t v) → n ∈ rs)
    (hj : ∀ j, e = .tick j → j = i) (hs : d.step o e = .ok d1) (hs' : d'.step o e = .ok d1') :
    Own i rs ns d1 d1' ∧ (e = .tick i → ∃ t, d1.w.trace = d.w.trace ++ t ∧ d1'.w.trace = d'.w.trace ++ t) := by
  obtain ⟨z, cnt, hz, hz', hq⟩ := h.zone
  have hoth := others_step h.others hs
  have hoth' := others_step h.others' hs'
  cases eventKind e with
  | outside =>
    cases hs
    cases hs'
    exact ⟨⟨⟨rfl, h.agree.front, h.agree.own⟩, ⟨z, cnt, hz, hz', hq⟩, hoth, hoth'⟩, by simp⟩
  | sensor n he =>
    have hne : e ≠ .tick i := by rcases he with ⟨t, m, rfl⟩ | ⟨t, v, rfl⟩ <;> simp
    rw [step_sensor_upd he] at hs hs'
    replace hs := map_ok.1 hs
    obtain ⟨m, hm, rfl⟩ := hs
    replace hs' := map_ok.1 hs'
    obtain ⟨m', hm', rfl⟩ := hs'
    refine ⟨⟨⟨?_, fun k hk => ?_, fun k hk => ?_⟩, ⟨z, cnt, hz, hz', hq⟩, hoth, hoth'⟩, fun h => absurd h hne⟩
    · show ({ d'.w with sensors := m' } : World) = _
      conv_lhs => rw [h.agree.same]
    · by_cases hkn : k = n
      · subst hkn
        rcases h.agree.cases hk with ⟨q1, q2⟩ | ⟨s, s', q1, q2, hf⟩
        · rcases upd_at hm with ⟨-, a⟩ | ⟨v, r, a1, -, -⟩
          · rcases upd_at hm' with ⟨-, b⟩ | ⟨v, r, b1, -, -⟩
            · show (m'.find? k).map _ = (m.find? k).map _
              rw [a, b]
            · rw [q2] at b1; cases b1
          · rw [q1] at a1; cases a1
        · rcases upd_at hm with ⟨a, -⟩ | ⟨v, r, a1, a2, a3⟩
          · rw [q1] at a; cases a
          rw [q1] at a1
          cases a1
          rcases upd_at hm' with ⟨b, -⟩ | ⟨v', r', b1, b2, b3⟩
          · rw [q2] at b; cases b
          rw [q2] at b1
          cases b1
          show (m'.find? k).map _ = (m.find? k).map _
          rw [a3, b3]
          have := onSensor_front hf a2 b2
          cases r with
          | none =>
            cases r' with
            | none => exact congrArg some hf
            | some x => cases this
          | some y =>
            cases r' with
            | none => cases this
            | some x => exact this
      · show (m'.find? k).map _ = (m.find? k).map _
        rw [OMap.upd_find? hkn hm, OMap.upd_find? hkn hm']
        exact h.agree.front k hk
    · show m'.find? k = m.find? k
      by_cases hkn : k = n
      · subst hkn
        have q := h.agree.own k hk
        rcases upd_at hm with ⟨a, a'⟩ | ⟨v, r, a1, a2, a3⟩
        · rcases upd_at hm' with ⟨-, b⟩ | ⟨v, r, b1, -, -⟩
          · rw [a', b]
          · rw [q, a] at b1; cases b1
        · rcases upd_at hm' with ⟨b, -⟩ | ⟨v', r', b1, b2, b3⟩
          · rw [q, a1] at b; cases b
          · rw [q, a1] at b1
            cases b1
            rw [a2] at b2
            cases b2
            rw [a3, b3]
      · rw [OMap.upd_find? hkn hm, OMap.upd_find? hkn hm']
        exact h.agree.own k hk
  | zone j he =>
    have hne : e ≠ .tick i := by rcases he with ⟨b, rfl⟩ | ⟨l, b, rfl⟩ <;> simp
    have hin : ∀ z : ZoneData, (onZoneData e z).fanInputs = z.fanInputs ∧ (onZoneData e z).thermalInputs = z.thermalInputs := by
      intro z
      rcases he with ⟨b, rfl⟩ | ⟨l, b, rfl⟩
      · exact ⟨rfl, rfl⟩
      · have := (setEnabled_rest z l b)
        constructor
        · show (z.setEnabled l b).fanInputs = _
          rw [this]
        · show (z.setEnabled l b).thermalInputs = _
          rw [this]
    rw [step_zone_upd he] at hs hs'
    replace hs := map_ok.1 hs
    obtain ⟨m, hm, rfl⟩ := hs
    replace hs' := map_ok.1 hs'
    obtain ⟨m', hm', rfl⟩ := hs'
    refine ⟨⟨h.agree, ?_, hoth, hoth'⟩, fun h => absurd h hne⟩
    by_cases e : i = j
    · subst e
      rcases upd_at hm with ⟨a, -⟩ | ⟨v, r, a1, a2, a3⟩
      · rw [hz] at a; cases a
      rcases upd_at hm' with ⟨b, -⟩ | ⟨v', r', b1, b2, b3⟩
      · rw [hz'] at b; cases b
      rw [hz] at a1
      rw [hz'] at b1
      cases a1
      cases b1
      cases a2
      cases b2
      refine ⟨_, _, a3, b3, hq.1, ?_, ?_⟩
      · rw [(hin _).1]; exact hq.2.1
      · rw [(hin _).2]; exact hq.2.2
    · exact ⟨z, cnt, (OMap.upd_find? e hm).trans hz, (OMap.upd_find? e hm').trans hz', hq⟩
  | tick j =>
    have := hj j rfl
    subst this
    simp only [Daemon.step] at hs hs'
    rw [hz] at hs
    rw [hz'] at hs'
    obtain ⟨⟨w1, z1, cnt1⟩, ht, hs⟩ := bind_eq_ok.1 hs
    cases hs
    obtain ⟨w1', t, a1, a2, a3, a4⟩ := h.agree.tick (fun c hc n hnc => hq.1 n ⟨c, hc, hnc⟩) hq.2.1 hq.2.2 ht
    dsimp only at hs'
    rw [a1, ok_bind] at hs'
    cases hs'
    obtain ⟨e1, e2⟩ := tick_inputs ht
    refine ⟨⟨a2, ⟨z1, cnt1, OMap.find?_insert_self _ _ _, OMap.find?_insert_self _ _ _,
      fun n hnn => hq.1 n (fanNames_congr (tick_flags ht).2 hnn), by rw [e1]; exact hq.2.1, by rw [e2]; exact hq.2.2⟩, hoth, hoth'⟩,
      fun _ => ⟨t, a3, a4⟩⟩

/-- a run a zone cannot notice -/
theorem own_unnoticed {o : Opts} {i : Int} {conf : List Entry} {ns : List String} (hns : ∀ n ∈ ns, n ∈ namedBy conf) :
    ∀ {es : List DEvent} {d d' d1 : Daemon}, Own i (namedBy conf) ns d d' → (∀ e ∈ es, Notices i conf e = false) →
      d.run o es = .ok d1 → Own i (namedBy conf) ns d1 d'
  | [], _, _, _, h, _, hr => by cases hr; exact h
  | e :: es, d, d', d1, h, hn, hr => by
    obtain ⟨d2, hs, hr⟩ := bind_eq_ok.1 hr
    exact own_unnoticed hns (own_left hns h (hn e List.mem_cons_self) hs) (fun e he => hn e (List.mem_cons_of_mem _ he)) hr

theorem writesOf_unnoticed {o : Opts} {i : Int} {conf : List Entry} : ∀ {es es' : List DEvent} {d d1 : Daemon},
    (∀ e ∈ es, Notices i conf e = false) → d.run o es = .ok d1 → writesOf o i d (es ++ es') = writesOf o i d1 es'
  | [], _, _, _, _, hr => by cases hr; rfl
  | e :: es, es', d, d1, hn, hr => by
    obtain ⟨d2, hs, hr⟩ := bind_eq_ok.1 hr
    rw [← writesOf_unnoticed (es' := es') (fun e he => hn e (List.mem_cons_of_mem _ he)) hr, List.cons_append]
    conv_lhs => unfold writesOf
    rw [hs]
    have hne := hn e List.mem_cons_self
    cases e with
    | tick j =>
      have : j ≠ i := by simpa [Notices] using hne
      dsimp only
      rw [if_neg this]
    | outside | signal | hostWrite | manual | enable => rfl

/-- the same noticed events -/
theorem own_run {o : Opts} {i : Int} {conf : List Entry} {ns : List String} (hns : ∀ n ∈ ns, n ∈ namedBy conf) :
    ∀ {es es' : List DEvent} {d d' d1 d1' : Daemon}, Own i (namedBy conf) ns d d' →
      es.filter (Notices i conf) = es'.filter (Notices i conf) → d.run o es = .ok d1 → d'.run o es' = .ok d1' →
      Own i (namedBy conf) ns d1 d1' ∧ writesOf o i d es = writesOf o i d' es'
  | [], es', d, d', d1, d1', h, hf, hr, hr' => by
    have hn : ∀ e ∈ es', Notices i conf e = false := by
      intro e he
      have := List.filter_eq_nil_iff.1 hf.symm e he
      simpa using this
    cases hr
    have hw := writesOf_unnoticed (es' := []) hn hr'
    rw [List.append_nil] at hw
    exact ⟨(own_unnoticed hns h.symm hn hr').symm, hw.symm⟩
  | e :: es, es', d, d', d1, d1', h, hf, hr, hr' => by
    obtain ⟨d2, hs, hr⟩ := bind_eq_ok.1 hr
    by_cases hn : Notices i conf e = true
    · rw [List.filter_cons, if_pos hn] at hf
      obtain ⟨pre, post, rfl, hpre, -, hpost⟩ := List.filter_eq_cons_iff.1 hf.symm
      have hpre' : ∀ x ∈ pre, Notices i conf x = false := fun x hx => by simpa using hpre x hx
      obtain ⟨a, ha, hr'⟩ := run_append.1 hr'
      obtain ⟨b, hb, hr'⟩ := bind_eq_ok.1 hr'
      have h0 := (own_unnoticed hns h.symm hpre' ha).symm
      obtain ⟨h1, ht⟩ := own_both hns h0 (by
        rintro n (⟨t, m, rfl⟩ | ⟨t, v, rfl⟩) <;> simpa [Notices] using hn) (by
        rintro j rfl
        simpa [Notices] using hn) hs hb
      obtain ⟨h2, h3⟩ := own_run hns h1 hpost.symm hr hr'
      refine ⟨h2, ?_⟩
      rw [writesOf_unnoticed hpre' ha]
      unfold writesOf
      rw [hs, hb]
      cases e with
      | tick j =>
        have : j = i := by simpa [Notices] using hn
        subst this
        obtain ⟨t, q1, q2⟩ := ht rfl
        dsimp only
        rw [if_pos rfl, if_pos rfl, q1, q2, h3, List.drop_left, List.drop_left]
      | outside | signal | hostWrite | manual | enable => exact h3
    · have hn' : Notices i conf e = false := by simpa using hn
      rw [List.filter_cons, if_neg hn] at hf
      obtain ⟨h2, h3⟩ := own_run hns (own_left hns h hn' hs) hf hr hr'
      refine ⟨h2, ?_⟩
      rw [← h3]
      conv_lhs => unfold writesOf
      rw [hs]
      cases e with
      | tick j =>
        have : j ≠ i := by simpa [Notices] using hn'
        dsimp only
        rw [if_neg this]
      | outside | signal | hostWrite | manual | enable => rfl

/-- a sensor is built from its own configuration -/
theorem built_alike {o : Opts} {bus : BuildBus} {now : Int} {c c' : OMap String SensorConfig} (hw : c.WF) (hw' : c'.WF) {m m' : Manager}
    (h : buildSensors o bus now c = .ok m) (h' : buildSensors o bus now c' = .ok m') {n : String} (he : c'.find? n = c.find? n) :
    m'.sensors.find? n = m.sensors.find? n := by
  obtain ⟨a, b⟩ := sensorsLoop_find? (OMap.wf_nodup hw) h n
  obtain ⟨a', b'⟩ := sensorsLoop_find? (OMap.wf_nodup hw') h' n
  cases hc : c.find? n with
  | none =>
    rw [hc] at he
    rw [b ((OMap.lookupL_none_iff _ _).1 hc), b' ((OMap.lookupL_none_iff _ _).1 he)]
  | some x =>
    rw [hc] at he
    obtain ⟨y, h1, h2⟩ := a x ((OMap.mem_entries_iff hw _ _).2 hc)
    obtain ⟨y', h1', h2'⟩ := a' x ((OMap.mem_entries_iff hw' _ _).2 he)
    rw [h1] at h1'
    cases h1'
    rw [h2, h2']

/-- the fans of a launched zone -/
theorem launched_fans {o : Opts} {bus : BuildBus} {now : Int} {w : World} {sensors : OMap String SensorConfig}
    {pids : OMap Int PIDConf} {configs : OMap Int ZoneConfig} (hw : pids.WF) (hc : ∀ e ∈ pids.entries, OMap.WF e.2)
    {m : Manager} {zones : OMap Int Zone} {d : Daemon} (hL : Launched o bus now w sensors pids configs m zones d) {j : Int} {z : Zone}
    {cnt : Nat} (hz : d.zones.find? j = some (z, cnt)) : ∃ conf, pids.find? j = some conf ∧
      ∀ n, z.fanNames n → ∃ e ∈ conf.entries, IsFan e ∧ ∃ x ∈ e.2.inputs, x.name = n := by
  cases hpj : pids.find? j with
  | none =>
    have := hL.only j ((C64_zones hw hc hL.built j).2 hpj)
    rw [hz] at this
    cases this
  | some conf =>
    obtain ⟨zb, cfg, q1, _, q3⟩ := (C64_zones hw hc hL.built j).1 conf hpj
    obtain ⟨zs, q2, q4⟩ := hL.started j zb q1
    rw [hz] at q4
    cases q4
    refine ⟨conf, rfl, fun n ⟨c, hcc, hn⟩ => ?_⟩
    rw [(start_flags q2).2, q3.fans] at hcc
    obtain ⟨e, he, hce⟩ := List.mem_map.1 hcc
    obtain ⟨he1, he2⟩ := List.mem_filter.1 he
    unfold fanOf at hce
    split_ifs at hce
    cases hce
    obtain ⟨x, hx, hxn⟩ := List.mem_map.1 hn
    exact ⟨e, he1, by simpa using he2, x, hx, hxn⟩

/-- **C133** What a zone does depends on nothing but its own part of the configuration and what it can notice. Two daemons are
started on the same machine. They have the same zone `i`, and the sensors and fans its loops name are configured alike; no other zone
uses its fans. Everything else may be different: other sensors, other zones, their number and their settings. Then both daemons
leave the zone in the same state, and its cycles write the same values to the same fans in the same order, after any two sequences
of events in which those it can notice are the same. -/
theorem C133_own_part {o : Opts} {bus : BuildBus} {now : Int} {w : World} {sensors sensors' : OMap String SensorConfig}
    {pids pids' : OMap Int PIDConf} {configs configs' : OMap Int ZoneConfig} (hsw : sensors.WF) (hsw' : sensors'.WF) (hw : pids.WF)
    (hw' : pids'.WF) (hc : ∀ e ∈ pids.entries, OMap.WF e.2) (hc' : ∀ e ∈ pids'.entries, OMap.WF e.2) {d d' : Daemon}
    (hl : Daemon.launch o bus now w sensors pids configs = .ok d)
    (hl' : Daemon.launch o bus now w sensors' pids' configs' = .ok d') {i : Int} {conf : PIDConf} (hp : pids.find? i = some conf)
    (hp' : pids'.find? i = some conf) (hcc : configs'.find? i = configs.find? i)
    (hsame : ∀ n ∈ namedBy conf.entries, sensors'.find? n = sensors.find? n)
    (hsep : ∀ j conf', j ≠ i → pids.find? j = some conf' → NoSharedFan conf.entries conf'.entries)
    (hsep' : ∀ j conf', j ≠ i → pids'.find? j = some conf' → NoSharedFan conf.entries conf'.entries) {es es' : List DEvent}
    {d1 d1' : Daemon} (hn : es.filter (Notices i conf.entries) = es'.filter (Notices i conf.entries)) (hr : d.run o es = .ok d1)
    (hr' : d'.run o es' = .ok d1') :
    d1'.zones.find? i = d1.zones.find? i ∧ writesOf o i d' es' = writesOf o i d es := by
  obtain ⟨m, zones, hL⟩ := launch_spec hl
  obtain ⟨m', zones', hL'⟩ := launch_spec hl'
  obtain ⟨z, hz, hb⟩ := (buildZoneList_find? (OMap.wf_nodup hw) hL.built i).1 conf ((OMap.mem_entries_iff hw i conf).2 hp)
  obtain ⟨z', hz', hb'⟩ := (buildZoneList_find? (OMap.wf_nodup hw') hL'.built i).1 conf ((OMap.mem_entries_iff hw' i conf).2 hp')
  have hzz : z' = z := by
    unfold buildZone at hb hb'
    rw [hcc, hb] at hb'
    cases hb'
    rfl
  subst hzz
  obtain ⟨z0, hz0, hf0⟩ := hL.started i z' hz
  obtain ⟨z0', hz0', hf0'⟩ := hL'.started i z' hz'
  have hmem : ∀ {n : String} {e : Entry} {x : SensorInput}, e ∈ conf.entries → x ∈ e.2.inputs → x.name = n → n ∈ namedBy conf.entries :=
    fun he hx hxn => List.mem_flatMap.2 ⟨_, he, List.mem_map.2 ⟨_, hx, hxn⟩⟩
  have hagree : AgreeOn (namedBy conf.entries) ((conf.entries.filter IsFan).flatMap (fun e => e.2.inputs.map SensorInput.name)) d.w d'.w := by
    have hfind : ∀ n ∈ namedBy conf.entries, d'.w.sensors.find? n = d.w.sensors.find? n := by
      intro n hn
      rw [hL.world, hL'.world]
      exact built_alike hsw hsw' hL.made hL'.made (hsame n hn)
    refine ⟨?_, fun n hn => by rw [hfind n hn], fun n hn => hfind n ?_⟩
    · rw [hL.world, hL'.world]
    · obtain ⟨e, g1, g2⟩ := List.mem_flatMap.1 hn
      obtain ⟨x, g4, g5⟩ := List.mem_map.1 g2
      exact hmem (List.mem_filter.1 g1).1 g4 g5
  obtain ⟨zb, cfg, q1, _, q3⟩ := (C64_zones hw hc hL.built i).1 conf hp
  rw [hz] at q1
  cases q1
  have hfi : ∀ n ∈ z'.d.fanInputs, n ∈ namedBy conf.entries := by
    intro n hn
    rw [q3.fanInputs] at hn
    obtain ⟨e, g1, g2⟩ := List.mem_flatMap.1 hn
    obtain ⟨x, g4, g5⟩ := List.mem_map.1 g2
    exact hmem (List.mem_filter.1 g1).1 g4 g5
  have hti : ∀ n ∈ z'.d.thermalInputs, n ∈ namedBy conf.entries := by
    intro n hn
    obtain ⟨e, he, _, x, hx, hxn⟩ := (q3.thermalInputs_mem n).1 hn
    exact hmem he hx hxn
  have ei := (initializeCache_spec z'.d).eq
  have e1 : z'.d.initializeCache.fanInputs = z'.d.fanInputs := by rw [ei]
  have e2 : z'.d.initializeCache.thermalInputs = z'.d.thermalInputs := by rw [ei]
  have hstart : z'.start o d'.w = z'.start o d.w :=
    hagree.thermals o (z := { z' with d := z'.d.initializeCache }) (by rw [e2]; exact hti)
  have hzs : z0' = z0 := by
    rw [hstart, hz0] at hz0'
    cases hz0'
    rfl
  subst hzs
  have hin : z0'.d.fanInputs = z'.d.fanInputs ∧ z0'.d.thermalInputs = z'.d.thermalInputs := by
    obtain ⟨d2, p1, p2⟩ := processThermals_rest hz0
    have ef2 := (pollAll_spec p1).frame.eq
    constructor
    · rw [p2]; dsimp only; rw [ef2]; exact e1
    · rw [p2]; dsimp only; rw [ef2]; exact e2
  have hO : Own i (namedBy conf.entries) ((conf.entries.filter IsFan).flatMap (fun e => e.2.inputs.map SensorInput.name)) d d' := by
    refine ⟨hagree, ⟨z0', 0, hf0, hf0', fun n hn => ?_, by rw [hin.1]; exact hfi, by rw [hin.2]; exact hti⟩,
      fun j zj cj hj hzj n hn hmm => ?_, fun j zj cj hj hzj n hn hmm => ?_⟩
    · obtain ⟨c0, k1, k2⟩ := launched_fans hw hc hL hf0
      rw [hp] at k1
      cases k1
      obtain ⟨e, h1, h2, x, h3, rfl⟩ := k2 n hn
      exact List.mem_flatMap.2 ⟨e, List.mem_filter.2 ⟨h1, by simpa using h2⟩, List.mem_map.2 ⟨x, h3, rfl⟩⟩
    · obtain ⟨cj, k1, k2⟩ := launched_fans hw hc hL hzj
      obtain ⟨e', h1, h2, x', h3, rfl⟩ := k2 n hn
      obtain ⟨e, g1, g2⟩ := List.mem_flatMap.1 hmm
      obtain ⟨g1, g3⟩ := List.mem_filter.1 g1
      obtain ⟨x, g4, g5⟩ := List.mem_map.1 g2
      exact hsep j cj hj k1 e g1 (by simpa using g3) x g4 e' h1 h2 x' h3 g5
    · obtain ⟨cj, k1, k2⟩ := launched_fans hw' hc' hL' hzj
      obtain ⟨e', h1, h2, x', h3, rfl⟩ := k2 n hn
      obtain ⟨e, g1, g2⟩ := List.mem_flatMap.1 hmm
      obtain ⟨g1, g3⟩ := List.mem_filter.1 g1
      obtain ⟨x, g4, g5⟩ := List.mem_map.1 g2
      exact hsep' j cj hj k1 e g1 (by simpa using g3) x g4 e' h1 h2 x' h3 g5
  obtain ⟨h1, h2⟩ := own_run (fun n hn => by
    obtain ⟨e, g1, g2⟩ := List.mem_flatMap.1 hn
    obtain ⟨x, g4, g5⟩ := List.mem_map.1 g2
    exact hmem (List.mem_filter.1 g1).1 g4 g5) hO hn hr hr'
  obtain ⟨zz, cc, c1, c2, _⟩ := h1.zone
  exact ⟨c2.trans c1.symm, h2.symm⟩

end

namespace Ex
section
attribute [local instance] binary64

/-- only what zone 1 of C101 needs, and a sensor nobody reads -/
def sensors133 : OMap String SensorConfig :=
  [("fan0", ⟨"fan", "/xyz/openbmc_project/sensors/fan_tach/fan0", "/xyz/openbmc_project/control/fanpwm/pwm0", 0, 255, 0,
      false, true, false⟩),
    ("inlet", ⟨"temp", "/xyz/openbmc_project/sensors/temperature/inlet", "", 0, 0, 0, false, true, false⟩),
    ("cpu", ⟨"temp", "/xyz/openbmc_project/sensors/temperature/cpu", "", 0, 0, 0, false, true, false⟩)].foldl
    (fun m e => m.insert e.1 e.2) {}
def events133 : List DEvent :=
  [.tick 1, .signal "inlet" 4 (alarm99 true), .tick 1, .signal "cpu" 5 (alarm99 true), .manual 7 true, .tick 1, .tick 1]

def launch133 : Res Daemon :=
  Daemon.launch {} bus98 0 world99 sensors133 (({} : OMap Int PIDConf).insert 1 (loops101 "fan0")) (({} : OMap Int ZoneConfig).insert 1 zone99)

theorem sensors101_wf : sensors101.WF := OMap.wf_insert (OMap.wf_insert (OMap.wf_insert OMap.wf_empty _ _) _ _) _ _
theorem sensors133_wf : sensors133.WF := OMap.wf_insert (OMap.wf_insert (OMap.wf_insert OMap.wf_empty _ _) _ _) _ _

/-- C133: the zone of C101 in a daemon of its own. The alarm speeds up its fan from 51 to 229 in both, though one has another zone and
another fan, and in the other one a sensor nobody reads raises an alarm. -/
example : ∃ d d', launch101 (pids101 "fan1") = .ok d ∧ launch133 = .ok d' ∧
    writesOf {} 1 d events101 = [.dbusSet "/xyz/openbmc_project/control/fanpwm/pwm0" 51 true,
      .dbusSet "/xyz/openbmc_project/control/fanpwm/pwm0" 229 true] ∧ writesOf {} 1 d' events133 = writesOf {} 1 d events101 := by
  obtain ⟨l, h, hl⟩ := ok_of_any (x := writes101 (pids101 "fan1") events101) (P := fun l : List Effect => decide
    (l = [.dbusSet "/xyz/openbmc_project/control/fanpwm/pwm0" 51 true, .dbusSet "/xyz/openbmc_project/control/fanpwm/pwm0" 229 true]))
    (by decide +kernel)
  obtain ⟨d, h1, h⟩ := bind_eq_ok.1 h
  obtain ⟨d1, hr, h⟩ := bind_eq_ok.1 h
  cases h
  obtain ⟨d1', hr', _⟩ := ok_of_any (x := do
    let d ← launch133
    d.run {} events133) (P := fun _ : Daemon => true) (by decide +kernel)
  obtain ⟨d', h1', hr'⟩ := bind_eq_ok.1 hr'
  refine ⟨d, d', h1, h1', of_decide_eq_true hl, ?_⟩
  have hne : ∀ t, (namedBy (loops101 "fan0").entries).contains t = decide (t = "fan0" ∨ t = "cpu") := by
    intro t
    rw [show namedBy (loops101 "fan0").entries = ["fan0", "cpu"] by decide +kernel]
    simp [List.contains_eq_mem]
  refine (C133_own_part (es := events101) (es' := events133) sensors101_wf sensors133_wf (pids101_wf _)
    (OMap.wf_insert OMap.wf_empty _ _) ?_ ?_ h1 h1' (i := 1) (conf := loops101 "fan0")
    (by unfold pids101; rw [OMap.find?_insert, if_neg (by decide), OMap.find?_insert_self]) (OMap.find?_insert_self _ _ _)
    (by unfold zones101; rw [OMap.find?_insert_self, OMap.find?_insert, if_neg (by decide), OMap.find?_insert_self]) ?_ ?_ ?_ ?_ hr hr').2
  · intro e he
    have := (OMap.mem_entries_iff (pids101_wf "fan1") e.1 e.2).1 he
    unfold pids101 at this
    rw [OMap.find?_insert, OMap.find?_insert] at this
    split_ifs at this
    · rw [← Option.some.inj this]; exact loops101_wf _
    · rw [← Option.some.inj this]; exact loops101_wf _
    · rw [OMap.find?_empty] at this
      cases this
  · intro e he
    have : e = (1, loops101 "fan0") := List.mem_singleton.1 he
    rw [this]
    exact loops101_wf _
  · decide +kernel
  · intro j conf' hj hf
    unfold pids101 at hf
    rw [OMap.find?_insert, OMap.find?_insert, if_neg hj] at hf
    split_ifs at hf
    · cases hf
      unfold NoSharedFan
      decide +kernel
    · cases hf
  · intro j conf' hj hf
    rw [OMap.find?_insert, if_neg hj, OMap.find?_empty] at hf
    cases hf
  · simp only [events101, events133, List.filter_cons, List.filter_nil, Notices, hne]
    simp

end
end Ex
end Verif
