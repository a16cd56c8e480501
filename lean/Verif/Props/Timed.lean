import Verif.Spec.Timed
import Verif.Props.Register

/-! # How fast the daemon answers: property C111 -/

namespace Verif
open Dbl
section
variable [F : FloatModel]

/-! ## The daemon behind the timers -/

theorem handler_parts {o : Opts} {w w' : World} {now : Int} {l l' : Loop} (h : l.handler o w now false false = .ok (w', l')) :
    l.zone.tick o w l.cycleCnt = .ok (w', l'.zone, l'.cycleCnt) ∧
      l'.expiry = l.expiry + ms l'.zone.d.cycleTime.cycleIntervalTimeMS ∧ l'.waiting = true := by
  unfold Loop.handler at h
  simp only [Bool.false_eq_true, if_false] at h
  obtain ⟨⟨w1, z1, c1⟩, h1, h⟩ := bind_eq_ok.1 h
  obtain ⟨l1, h2, h⟩ := bind_eq_ok.1 h
  cases h
  unfold pidControlLoop at h2
  simp only [Bool.false_eq_true, if_false] at h2
  obtain ⟨z2, h3, h2⟩ := bind_eq_ok.1 h2
  cases h3
  cases h2
  exact ⟨h1, rfl, rfl⟩

theorem timed_step {o : Opts} {td td' : Timed} {e : TEvent} (h : td.step o e = .ok td') :
    td.d.step o e.2 = .ok td'.d ∧ ((∀ i, e.2 ≠ .tick i) → td'.timers = td.timers) ∧
      ∀ i, e.2 = .tick i → ∀ z cnt, td.d.zones.find? i = some (z, cnt) → ∃ z' cnt', td'.d.zones.find? i = some (z', cnt') ∧
        td'.timers = td.timers.insert i
          (((td.timers.find? i).getD (0, false)).1 + ms z'.d.cycleTime.cycleIntervalTimeMS, true) := by
  obtain ⟨t, e⟩ := e
  cases e with
  | tick i =>
    unfold Timed.step at h
    dsimp only at h
    split at h
    · next z cnt hz =>
      obtain ⟨⟨w', l'⟩, h1, h⟩ := bind_eq_ok.1 h
      cases h
      obtain ⟨h2, h3, h4⟩ := handler_parts h1
      refine ⟨?_, fun hn => absurd rfl (hn i), fun j hj z1 cnt1 hz1 => ?_⟩
      · simp only [Daemon.step, hz]
        rw [show z.tick o td.d.w cnt = _ from h2]
        rfl
      · cases hj
        exact ⟨_, _, OMap.find?_insert_self _ _ _, by rw [h3, h4]⟩
    · next hz =>
      cases h
      refine ⟨by simp only [Daemon.step, hz], fun hn => absurd rfl (hn i), fun j hj z1 cnt1 hz1 => ?_⟩
      cases hj
      rw [hz] at hz1
      cases hz1
  | outside | signal | hostWrite | manual | enable =>
    obtain ⟨d, h1, h⟩ := bind_eq_ok.1 h
    cases h
    exact ⟨h1, fun _ => rfl, fun i hi => by cases hi⟩

theorem timed_run {o : Opts} : ∀ {tes : List TEvent} {td td' : Timed}, td.run o tes = .ok td' →
    td.d.run o (eventsOf tes) = .ok td'.d
  | [], td, td', h => by cases h; rfl
  | e :: es, td, td', h => by
    obtain ⟨td1, h1, h2⟩ := bind_eq_ok.1 h
    show (do let d ← td.d.step o e.2; Daemon.run o d (eventsOf es)) = _
    rw [(timed_step h1).1]
    exact timed_run h2

theorem timed_append {o : Opts} : ∀ {es es' : List TEvent} {d d' : Timed},
    d.run o (es ++ es') = .ok d' ↔ ∃ d1, d.run o es = .ok d1 ∧ d1.run o es' = .ok d'
  | [], es', d, d' => by simp [Timed.run]
  | e :: es, es', d, d' => by
    simp only [List.cons_append, Timed.run, bind_eq_ok, timed_append]
    constructor
    · rintro ⟨d1, h1, d2, h2, h3⟩; exact ⟨d2, ⟨d1, h1, h2⟩, h3⟩
    · rintro ⟨d2, ⟨d1, h1, h2⟩, h3⟩; exact ⟨d1, h1, d2, h2, h3⟩

theorem pidControlLoop_first {o : Opts} {w : World} {t : Int} {z : Zone} {l : Loop}
    (h : pidControlLoop o w t false true ⟨z, 0, 0, false⟩ = .ok l) :
    z.start o w = .ok l.zone ∧ l.cycleCnt = 0 ∧ l.waiting = true ∧ l.expiry = t + ms z.d.cycleTime.cycleIntervalTimeMS := by
  unfold pidControlLoop at h
  simp only [Bool.false_eq_true, if_false, if_true] at h
  obtain ⟨z2, h3, h⟩ := bind_eq_ok.1 h
  cases h
  exact ⟨h3, rfl, rfl, by rw [start_cycleTime h3]; rfl⟩

theorem startTimers_spec {o : Opts} {w : World} {started : Int → Int} : ∀ {l : List (Int × Zone)} {td td' : Timed},
    (l.map Prod.fst).Nodup → startTimers o w started td l = .ok td' →
    startZones o w td.d.zones l = .ok td'.d.zones ∧ td'.d.w = td.d.w ∧
      (∀ i z, (i, z) ∈ l → td'.timers.find? i = some (started i + ms z.d.cycleTime.cycleIntervalTimeMS, true)) ∧
      ∀ i, i ∉ l.map Prod.fst → td'.timers.find? i = td.timers.find? i
  | [], td, td', _, h => by cases h; exact ⟨rfl, rfl, by simp, fun _ _ => rfl⟩
  | (j, z) :: l, td, td', hn, h => by
    obtain ⟨lp, h1, h2⟩ := bind_eq_ok.1 h
    obtain ⟨a1, a2, a3, a4⟩ := pidControlLoop_first h1
    rw [List.map_cons, List.nodup_cons] at hn
    obtain ⟨b1, b2, b3, b4⟩ := startTimers_spec hn.2 h2
    refine ⟨?_, b2, fun i z' hi => ?_, fun i hi => ?_⟩
    · unfold startZones
      rw [a1, ok_bind]
      rw [a2] at b1
      exact b1
    · rcases List.mem_cons.1 hi with hi | hi
      · cases hi
        rw [b4 _ hn.1]
        show (td.timers.insert _ _).find? _ = _
        rw [OMap.find?_insert_self, a3, a4]
      · exact b3 i z' hi
    · rw [List.map_cons, List.mem_cons, not_or] at hi
      rw [b4 i hi.2]
      exact OMap.find?_insert_ne _ hi.1 _

/-- starting the timed daemon starts the daemon, and sets the timers -/
theorem timed_launch {o : Opts} {bus : BuildBus} {now : Int} {started : Int → Int} {w : World}
    {sensors : OMap String SensorConfig} {pids : OMap Int PIDConf} {configs : OMap Int ZoneConfig} (hw : pids.WF)
    (hc : ∀ e ∈ pids.entries, OMap.WF e.2) {td : Timed} (h : Timed.launch o bus now started w sensors pids configs = .ok td) :
    Daemon.launch o bus now w sensors pids configs = .ok td.d ∧ ∀ i conf c, pids.find? i = some conf →
      configs.find? i = some c → td.timers.find? i = some (started i + ms c.cycleTime.cycleIntervalTimeMS, true) := by
  unfold Timed.launch at h
  obtain ⟨m, h1, h⟩ := bind_eq_ok.1 h
  obtain ⟨zones, h2, h⟩ := bind_eq_ok.1 h
  split_ifs at h with hne
  have hwz := buildZones_wf h2
  obtain ⟨b1, b2, b3, -⟩ := startTimers_spec (OMap.wf_nodup hwz) h
  refine ⟨?_, fun i conf c hp hcc => ?_⟩
  · unfold Daemon.launch
    rw [h1, ok_bind, h2, ok_bind, if_neg hne, b1, ok_bind]
    obtain ⟨⟨w1, zs⟩, tm⟩ := td
    have : w1 = _ := b2
    rw [this]
  · obtain ⟨z, c', hz, hc', hN⟩ := (C64_zones hw hc h2 i).1 conf hp
    rw [hcc] at hc'
    cases hc'
    have := b3 i z ((OMap.mem_entries_iff hwz _ _).2 hz)
    rw [this, hN.cycleTime]

/-! ## Ticks and time -/

omit F in
theorem ticksOf_append [FloatModel] (i : Int) : ∀ es es' : List TEvent, ticksOf i (es ++ es') = ticksOf i es + ticksOf i es'
  | [], es' => by simp [ticksOf]
  | (t, e) :: es, es' => by
    cases e with
    | tick j => simp only [List.cons_append, ticksOf, ticksOf_append i es es']; omega
    | outside | signal | hostWrite | manual | enable => exact ticksOf_append i es es'

/-- the timer of a zone after `k` of its handlers, and its settings -/
theorem timer_run {o : Opts} {i : Int} {c : CycleTime} : ∀ {tes : List TEvent} {td td' : Timed} {z : Zone} {cnt : Nat} {x : Int},
    td.run o tes = .ok td' → td.d.zones.find? i = some (z, cnt) → z.d.cycleTime = c → td.timers.find? i = some (x, true) →
    td'.timers.find? i = some (x + ticksOf i tes * ms c.cycleIntervalTimeMS, true)
  | [], td, td', z, cnt, x, h, hz, hc, hx => by cases h; simpa [ticksOf] using hx
  | (t, e) :: es, td, td', z, cnt, x, h, hz, hc, hx => by
    obtain ⟨td1, h1, h2⟩ := bind_eq_ok.1 h
    obtain ⟨s1, s2, s3⟩ := timed_step h1
    obtain ⟨z1, cnt1, hz1, hst⟩ := step_zone s1 hz
    have hc1 : z1.d.cycleTime = c := by
      cases hst with
      | manual b => exact hc
      | enable l b => exact (setEnabled_cycleTime _ l b).trans hc
      | tick ht => exact (cycleTime_tick ht).trans hc
      | other _ _ _ => exact hc
    by_cases he : ∃ j, e = .tick j
    · obtain ⟨j, rfl⟩ := he
      by_cases hj : j = i
      · subst hj
        obtain ⟨z', cnt', a1, a2⟩ := s3 j rfl z cnt hz
        rw [hz1] at a1
        cases a1
        have := timer_run h2 hz1 hc1 (x := x + ms c.cycleIntervalTimeMS) (by
          rw [a2, OMap.find?_insert_self, hx, hc1]; rfl)
        rw [this]
        simp only [ticksOf, if_true]
        congr 2
        push_cast
        ring
      · have ht : td1.timers.find? i = some (x, true) := by
          cases hzj : td.d.zones.find? j with
          | none =>
            have : td1 = td := by
              unfold Timed.step at h1
              dsimp only at h1
              rw [hzj] at h1
              cases h1; rfl
            rw [this]; exact hx
          | some p =>
            obtain ⟨z', cnt', a1, a2⟩ := s3 j rfl p.1 p.2 hzj
            rw [a2, OMap.find?_insert_ne _ (fun e => hj e.symm)]
            exact hx
        have := timer_run h2 hz1 hc1 ht
        simpa [ticksOf, hj] using this
    · have ht : td1.timers.find? i = some (x, true) := by
        rw [s2 (fun j hj => he ⟨j, hj⟩)]; exact hx
      have := timer_run h2 hz1 hc1 ht
      cases e with
      | tick j => exact absurd ⟨j, rfl⟩ he
      | outside | signal | hostWrite | manual | enable => exact this

/-- the last tick in a list -/
theorem last_tick {i : Int} : ∀ {tes : List TEvent}, ticksOf i tes ≠ 0 →
    ∃ es1 t es2, tes = es1 ++ (t, .tick i) :: es2 ∧ ticksOf i es2 = 0 ∧ ticksOf i tes = ticksOf i es1 + 1
  | [], h => absurd rfl h
  | (t, e) :: es, h => by
    by_cases hz : ticksOf i es = 0
    · cases e with
      | tick j =>
        by_cases hj : j = i
        · subst hj
          exact ⟨[], t, es, rfl, hz, by simp [ticksOf, hz]⟩
        · exact absurd (by simp [ticksOf, hj, hz]) h
      | outside | signal | hostWrite | manual | enable => exact absurd hz h
    · obtain ⟨es1, t', es2, h1, h2, h3⟩ := last_tick hz
      refine ⟨(t, e) :: es1, t', es2, by rw [h1]; rfl, h2, ?_⟩
      cases e with
      | tick j => simp only [ticksOf, h3]; omega
      | outside | signal | hostWrite | manual | enable => exact h3

/-- a launched zone with its cycle times -/
theorem launched_zone {o : Opts} {bus : BuildBus} {now : Int} {w : World} {sensors : OMap String SensorConfig}
    {pids : OMap Int PIDConf} {configs : OMap Int ZoneConfig} (hw : pids.WF) (hc : ∀ e ∈ pids.entries, OMap.WF e.2)
    {d : Daemon} (hl : Daemon.launch o bus now w sensors pids configs = .ok d) {i : Int} {conf : PIDConf} {c : ZoneConfig}
    (hp : pids.find? i = some conf) (hcc : configs.find? i = some c) :
    ∃ z, d.zones.find? i = some (z, 0) ∧ z.d.cycleTime = c.cycleTime := by
  obtain ⟨m, zones, hL⟩ := launch_spec hl
  obtain ⟨z, c', hz, hc', hN⟩ := (C64_zones hw hc hL.built i).1 conf hp
  rw [hcc] at hc'
  cases hc'
  obtain ⟨z0, h1, h2⟩ := hL.started i z hz
  exact ⟨z0, h2, (start_cycleTime h1).trans hN.cycleTime⟩

/-- up to time `t` the timer did not run ahead -/
theorem ticks_before {o : Opts} {bus : BuildBus} {now : Int} {started : Int → Int} {w : World}
    {sensors : OMap String SensorConfig} {pids : OMap Int PIDConf} {configs : OMap Int ZoneConfig} (hw : pids.WF)
    (hc : ∀ e ∈ pids.entries, OMap.WF e.2) {td : Timed} (hl : Timed.launch o bus now started w sensors pids configs = .ok td)
    {i : Int} {conf : PIDConf} {c : ZoneConfig} (hp : pids.find? i = some conf) (hcc : configs.find? i = some c)
    {late t0 : Int} (h0 : started i ≤ t0) {es1 es2 : List TEvent} {t : Int} {td1 : Timed}
    (hs : Served o late t0 td (es1 ++ es2)) (h1 : t0 ≤ t) (ht : ∀ x ∈ es1, x.1 ≤ t) (hr : td.run o es1 = .ok td1) :
    started i + ticksOf i es1 * ms c.cycleTime.cycleIntervalTimeMS ≤ t := by
  obtain ⟨l1, l2⟩ := timed_launch hw hc hl
  obtain ⟨z, hz, hzc⟩ := launched_zone hw hc l1 hp hcc
  have hx := l2 i conf c hp hcc
  by_cases hk : ticksOf i es1 = 0
  · rw [hk]
    simp only [Nat.cast_zero, zero_mul, add_zero]
    exact le_trans h0 h1
  · obtain ⟨a, t', b, e1, e2, e3⟩ := last_tick hk
    rw [e1] at hr
    obtain ⟨td2, r1, r2⟩ := timed_append.1 hr
    have h1 := hs.expired a (b ++ es2) t' i td2 _ (by rw [e1]; simp) r1 (timer_run r1 hz hzc hx)
    have h2 : t' ≤ t := ht (t', .tick i) (by rw [e1]; simp)
    rw [e3]
    push_cast
    simp only [add_mul, one_mul] at h1 ⊢
    linarith

/-- **C111** The timer of a zone neither runs ahead nor falls behind: when anything happens at time `t`, its handler was
called `k` times with `k` fan intervals since the start passed, and no more than `k + 1` and the lateness of the event loop. -/
theorem C111_rate {o : Opts} {bus : BuildBus} {now : Int} {started : Int → Int} {w : World}
    {sensors : OMap String SensorConfig} {pids : OMap Int PIDConf} {configs : OMap Int ZoneConfig} (hw : pids.WF)
    (hc : ∀ e ∈ pids.entries, OMap.WF e.2) {td : Timed} (hl : Timed.launch o bus now started w sensors pids configs = .ok td)
    {i : Int} {conf : PIDConf} {c : ZoneConfig} (hp : pids.find? i = some conf) (hcc : configs.find? i = some c)
    {late t0 : Int} (h0 : started i ≤ t0) {es1 es2 : List TEvent} {t : Int} {e : DEvent} {td1 : Timed}
    (hs : Served o late t0 td (es1 ++ (t, e) :: es2)) (hr : td.run o es1 = .ok td1) :
    started i + ticksOf i es1 * ms c.cycleTime.cycleIntervalTimeMS ≤ t ∧
      t ≤ started i + (ticksOf i es1 + 1) * ms c.cycleTime.cycleIntervalTimeMS + late := by
  constructor
  · refine ticks_before hw hc hl hp hcc h0 hs (hs.after (t, e) (by simp)) (fun x hx => ?_) hr
    have := hs.ordered
    rw [List.pairwise_append] at this
    exact this.2.2 x hx (t, e) List.mem_cons_self
  · obtain ⟨l1, l2⟩ := timed_launch hw hc hl
    obtain ⟨z, hz, hzc⟩ := launched_zone hw hc l1 hp hcc
    have := hs.prompt es1 es2 t e td1 i _ rfl hr (timer_run hr hz hzc (l2 i conf c hp hcc))
    dsimp only at this
    simp only [add_mul, one_mul]
    linarith

/-- **C111** Between two events of which the second is more than a fan interval and the lateness after the first, the handler
of the zone is called. -/
theorem C111_ticks {o : Opts} {bus : BuildBus} {now : Int} {started : Int → Int} {w : World}
    {sensors : OMap String SensorConfig} {pids : OMap Int PIDConf} {configs : OMap Int ZoneConfig} (hw : pids.WF)
    (hc : ∀ e ∈ pids.entries, OMap.WF e.2) {td : Timed} (hl : Timed.launch o bus now started w sensors pids configs = .ok td)
    {i : Int} {conf : PIDConf} {c : ZoneConfig} (hp : pids.find? i = some conf) (hcc : configs.find? i = some c)
    {late t0 : Int} (h0 : started i ≤ t0) {pre mid post : List TEvent} {t t' : Int} {e e' : DEvent} {td1 : Timed}
    (hs : Served o late t0 td (pre ++ (t, e) :: mid ++ (t', e') :: post)) (hr : td.run o (pre ++ (t, e) :: mid) = .ok td1)
    {n : Nat} (ht : t + n * ms c.cycleTime.cycleIntervalTimeMS + late < t') : n ≤ ticksOf i ((t, e) :: mid) := by
  obtain ⟨td0, r1, r2⟩ := timed_append.1 hr
  have h1 := (C111_rate hw hc hl hp hcc h0 (es1 := pre) (es2 := mid ++ (t', e') :: post) (by simpa using hs) r1).1
  have h2 := (C111_rate hw hc hl hp hcc h0 hs hr).2
  rw [ticksOf_append] at h2
  by_contra hn
  have h3 : ticksOf i ((t, e) :: mid) + 1 ≤ n := by omega
  have h4 : ((ticksOf i ((t, e) :: mid) : Int) + 1) * ms c.cycleTime.cycleIntervalTimeMS ≤
      n * ms c.cycleTime.cycleIntervalTimeMS :=
    mul_le_mul_of_nonneg_right (by exact_mod_cast h3) (by unfold ms; positivity)
  push_cast at h2
  simp only [add_mul, one_mul] at h2 h4
  linarith

/-! ## What the fans are told stays -/

/-- zone `z` does not have the fan `n` -/
def Away (n : String) (z : Zone) : Prop := ∀ ns, some ns ∈ z.fans.map (Option.map FanPid.inputs) → n ∉ ns

theorem away_step {o : Opts} {n : String} {i : Int} {w : World} {z z' : Zone} {cnt cnt' : Nat} {e : DEvent} (h : Away n z)
    (hst : ZoneStep o i w z cnt e z' cnt') : Away n z' := by
  cases hst with
  | manual b => exact h
  | enable l b => exact h
  | tick ht => intro ns hns; rw [(tick_flags ht).2] at hns; exact h ns hns
  | other _ _ _ => exact h

theorem away_tick {o : Opts} {n p : String} {lim : Option (Int × Int)} {w w' : World} {z z' : Zone} {cnt cnt' : Nat}
    (ha : Away n z) (hf : FanAt n p lim w) (h : z.tick o w cnt = .ok (w', z', cnt')) : valueAt p w' = valueAt p w := by
  have key : ∀ {z1 : Zone} {z2 : Zone}, z1.fans = z.fans → z1.processFans o w = .ok (w', z2) → valueAt p w' = valueAt p w := by
    intro z1 z2 he h1
    obtain ⟨l, a1, _, a3, _⟩ := processFans_spec h1
    refine (fanAt_drives a3 hf).2.1 (fun x hx => ha x.1.inputs ?_)
    obtain ⟨y, hy, rfl⟩ := List.mem_map.1 hx
    rw [← he, a1, List.map_map]
    exact List.mem_map.2 ⟨y, hy, rfl⟩
  by_cases hm : z.d.manualMode = true
  · rw [tick_manual hm] at h; cases h; rfl
  · obtain ⟨d, _, ⟨-, zt, h2, h3, -⟩ | ⟨-, h3, -⟩⟩ := tick_auto (by simpa using hm) h
    · exact key (thermalTick_flags h2).2.2 h3
    · exact key (z1 := { z with d := d }) rfl h3

theorem trace_step {o : Opts} {d d' : Daemon} {e : DEvent} (h : d.step o e = .ok d') (he : ∀ i, e ≠ .tick i) :
    d'.w.trace = d.w.trace := by
  cases e with
  | outside nf nt ho rf fi bo => cases h; rfl
  | signal n t m =>
    have h : d.signal o n t m = .ok d' := h
    unfold Daemon.signal at h
    split at h
    · split at h
      · obtain ⟨p, _, h⟩ := bind_eq_ok.1 h
        cases h; rfl
      · cases h; rfl
    · cases h; rfl
  | hostWrite n t v =>
    simp only [Daemon.step] at h
    split at h <;> (cases h; rfl)
  | manual j b => cases h; rw [onZone_w]
  | enable j l b => cases h; rw [onZone_w]
  | tick j => exact absurd rfl (he j)

/-- only ticks of the one zone that has the fan change what it was told -/
theorem told_run {o : Opts} {n p : String} {lim : Option (Int × Int)} {i : Int} : ∀ {es : List DEvent} {d d' : Daemon},
    d.run o es = .ok d' → (∀ e ∈ es, BusWorks p e) → FanAt n p lim d.w →
    (∀ j z cnt, j ≠ i → d.zones.find? j = some (z, cnt) → Away n z) →
    (∀ j z cnt, j ≠ i → d'.zones.find? j = some (z, cnt) → Away n z) ∧
      ((∀ e ∈ es, e ≠ .tick i) → valueAt p d'.w = valueAt p d.w)
  | [], d, d', h, _, _, ha => by cases h; exact ⟨ha, fun _ => rfl⟩
  | e :: es, d, d', h, hb, hf, ha => by
    obtain ⟨d1, h1, h2⟩ := bind_eq_ok.1 h
    have ha1 : ∀ j z cnt, j ≠ i → d1.zones.find? j = some (z, cnt) → Away n z := by
      intro j z cnt hj hz
      cases hz0 : d.zones.find? j with
      | none => rw [step_none h1 hz0] at hz; cases hz
      | some x =>
        obtain ⟨z', cnt', a1, a2⟩ := step_zone h1 (z := x.1) (cnt := x.2) hz0
        rw [hz] at a1
        cases a1
        exact away_step (ha j _ _ hj hz0) a2
    obtain ⟨r1, r2⟩ := told_run h2 (fun e he => hb e (List.mem_cons_of_mem _ he))
      (fanAt_step h1 (hb e List.mem_cons_self) hf) ha1
    refine ⟨r1, fun hn => (r2 (fun e he => hn e (List.mem_cons_of_mem _ he))).trans ?_⟩
    by_cases he : ∃ j, e = .tick j
    · obtain ⟨j, rfl⟩ := he
      have hj : j ≠ i := by rintro rfl; exact hn _ List.mem_cons_self rfl
      simp only [Daemon.step] at h1
      split at h1
      · next z cnt hz =>
        obtain ⟨⟨w', z', cnt'⟩, h3, h1⟩ := bind_eq_ok.1 h1
        cases h1
        exact away_tick (ha j z cnt hj hz) hf h3
      · cases h1; rfl
    · unfold valueAt
      rw [trace_step h1 (fun j hj => he ⟨j, hj⟩)]

theorem away_launched {o : Opts} {bus : BuildBus} {now : Int} {w : World} {sensors : OMap String SensorConfig}
    {pids : OMap Int PIDConf} {configs : OMap Int ZoneConfig} (hw : pids.WF) (hc : ∀ e ∈ pids.entries, OMap.WF e.2)
    {d : Daemon} (hl : Daemon.launch o bus now w sensors pids configs = .ok d) {i : Int} {n : String} (hz : OnlyZone pids i n)
    (j : Int) (z : Zone) (cnt : Nat) (hj : j ≠ i) (hd : d.zones.find? j = some (z, cnt)) : Away n z := by
  obtain ⟨m, zones, hL⟩ := launch_spec hl
  cases hzb : zones.find? j with
  | none => rw [hL.only j hzb] at hd; cases hd
  | some zb =>
    obtain ⟨z0, h1, h2⟩ := hL.started j zb hzb
    rw [hd] at h2
    cases h2
    have hzs := C64_zones hw hc hL.built j
    cases hp : pids.find? j with
    | none => rw [hzs.2 hp] at hzb; cases hzb
    | some conf =>
      obtain ⟨z', c, hz', _, hN⟩ := hzs.1 conf hp
      rw [hzb] at hz'
      cases hz'
      intro ns hns
      rw [(start_flags h1).2, hN.fans, List.map_map] at hns
      obtain ⟨e, he, hx⟩ := List.mem_map.1 hns
      rw [List.mem_filter] at he
      simp only [Function.comp, fanOf] at hx
      split_ifs at hx
      · cases hx
      have hns := Option.some.inj hx
      intro hin
      rw [← hns] at hin
      obtain ⟨x, hx, hxn⟩ := List.mem_map.1 hin
      exact hz j conf hj hp e he.1 (by simpa using he.2) x hx hxn

omit F in
theorem ticksOf_zero [FloatModel] {i : Int} : ∀ {es : List TEvent}, ticksOf i es = 0 → ∀ e ∈ eventsOf es, e ≠ .tick i
  | [], _, e, he => by cases he
  | (t, e0) :: es, h, e, he => by
    rcases List.mem_cons.1 he with rfl | he
    · rintro rfl
      simp [ticksOf] at h
    · refine ticksOf_zero ?_ e he
      cases e0 with
      | tick j => simp only [ticksOf] at h; omega
      | outside | signal | hostWrite | manual | enable => exact h

omit F in
/-- in automatic mode all ticks count -/
theorem autoTicks_all [FloatModel] {i : Int} : ∀ {pre : List DEvent} {post : List TEvent}, Automatic i pre (eventsOf post) →
    autoTicks i (modeAfter i false pre) (eventsOf post) = ticksOf i post
  | pre, [], _ => rfl
  | pre, (t, e) :: es, h => by
    have hm : modeAfter i false pre = false := by have := h [] _ rfl; simpa using this
    have h' : Automatic i (pre ++ [e]) (eventsOf es) := by
      intro es1 es2 he
      have := h (e :: es1) es2 (by show e :: eventsOf es = _; rw [he]; rfl)
      simpa using this
    have ih := autoTicks_all h'
    rw [modeAfter_append] at ih
    show autoTicks i _ (e :: eventsOf es) = _
    cases e with
    | tick j =>
      simp only [autoTicks, ticksOf, modeAfter] at ih ⊢
      rw [ih, hm]
      simp
    | outside | signal | hostWrite | manual | enable => exact ih

/-- ceil(T/F) + 1 fan intervals fit into T + 2 F -/
theorem intervals_le {f t : Nat} (hf : 1 ≤ f) : ((((t + f - 1) / f + 1 : Nat) : Int)) * ms f < ms (t + 2 * f) := by
  have h : (t + f - 1) / f * f ≤ t + f - 1 := Nat.div_mul_le_self _ _
  have h2 : ((t + f - 1) / f + 1) * f < t + 2 * f := by rw [add_mul, one_mul]; omega
  unfold ms
  have : ((((t + f - 1) / f + 1 : Nat) : Int)) * (f : Int) < (t + 2 * f : Nat) := by exact_mod_cast h2
  linarith

/-- In a history that goes on for more than `K + 1` fan intervals and the lateness after time `ta`, there is a last tick of the
zone, and at least `K` ticks lie between `ta` and this. -/
theorem last_after {o : Opts} {bus : BuildBus} {now : Int} {started : Int → Int} {w : World}
    {sensors : OMap String SensorConfig} {pids : OMap Int PIDConf} {configs : OMap Int ZoneConfig} (hw : pids.WF)
    (hc : ∀ e ∈ pids.entries, OMap.WF e.2) {td : Timed} (hl : Timed.launch o bus now started w sensors pids configs = .ok td)
    {i : Int} {conf : PIDConf} {c : ZoneConfig} (hp : pids.find? i = some conf) (hcc : configs.find? i = some c)
    {late t0 : Int} (h0 : started i ≤ t0) {pre post : List TEvent} {ta t : Int}
    {e : DEvent} (hs : Served o late t0 td (pre ++ post ++ [(t, e)])) (h1 : t0 ≤ ta) (hta : ∀ x ∈ pre, x.1 ≤ ta) {td1 td2 : Timed}
    (hr1 : td.run o pre = .ok td1) (hr2 : td1.run o post = .ok td2) {N : Nat}
    (ht : ta + ((N + 1 : Nat) : Int) * ms c.cycleTime.cycleIntervalTimeMS + late < t) :
    ∃ mid t' rest td3 td4, post = mid ++ (t', .tick i) :: rest ∧ td1.run o mid = .ok td3 ∧ td3.step o (t', .tick i) = .ok td4 ∧
      td4.run o rest = .ok td2 ∧ (∀ e ∈ eventsOf rest, e ≠ .tick i) ∧ N ≤ ticksOf i mid := by
  have a1 := ticks_before hw hc hl hp hcc h0 (by simpa using hs) h1 hta hr1
  have a2 := (C111_rate hw hc hl hp hcc h0 hs (timed_append.2 ⟨_, hr1, hr2⟩)).2
  rw [ticksOf_append] at a2
  have hk : N + 1 ≤ ticksOf i post := by
    by_contra hn
    have h3 : ticksOf i post + 1 ≤ N + 1 := by omega
    have h4 : ((ticksOf i post : Int) + 1) * ms c.cycleTime.cycleIntervalTimeMS ≤
        ((N + 1 : Nat) : Int) * ms c.cycleTime.cycleIntervalTimeMS :=
      mul_le_mul_of_nonneg_right (by exact_mod_cast h3) (by unfold ms; positivity)
    push_cast at a2 h4 ht
    simp only [add_mul, one_mul] at a2 h4 ht
    linarith
  obtain ⟨mid, t', rest, e1, e2, e3⟩ := last_tick (i := i) (tes := post) (by omega)
  rw [e1] at hr2
  obtain ⟨td3, r1, r2⟩ := timed_append.1 hr2
  obtain ⟨td4, r3, r4⟩ := bind_eq_ok.1 r2
  exact ⟨mid, t', rest, td3, td4, e1, r1, r3, r4, ticksOf_zero e2, by omega⟩

/-- In a history that goes on for more than T + 2 F and the lateness after time `ta`, there is a last tick of the zone, and
at least ceil(T/F) ticks lie between `ta` and this. -/
theorem last_of_history {o : Opts} {bus : BuildBus} {now : Int} {started : Int → Int} {w : World}
    {sensors : OMap String SensorConfig} {pids : OMap Int PIDConf} {configs : OMap Int ZoneConfig} (hw : pids.WF)
    (hc : ∀ e ∈ pids.entries, OMap.WF e.2) {td : Timed} (hl : Timed.launch o bus now started w sensors pids configs = .ok td)
    {i : Int} {conf : PIDConf} {c : ZoneConfig} (hp : pids.find? i = some conf) (hcc : configs.find? i = some c)
    (hF : 1 ≤ c.cycleTime.cycleIntervalTimeMS) {late t0 : Int} (h0 : started i ≤ t0) {pre post : List TEvent} {ta t : Int}
    {e : DEvent} (hs : Served o late t0 td (pre ++ post ++ [(t, e)])) (h1 : t0 ≤ ta) (hta : ∀ x ∈ pre, x.1 ≤ ta) {td1 td2 : Timed}
    (hr1 : td.run o pre = .ok td1) (hr2 : td1.run o post = .ok td2)
    (ht : ta + ms (c.cycleTime.updateThermalsTimeMS + 2 * c.cycleTime.cycleIntervalTimeMS) + late ≤ t) :
    ∃ mid t' rest td3 td4, post = mid ++ (t', .tick i) :: rest ∧ td1.run o mid = .ok td3 ∧ td3.step o (t', .tick i) = .ok td4 ∧
      td4.run o rest = .ok td2 ∧ (∀ e ∈ eventsOf rest, e ≠ .tick i) ∧
      (c.cycleTime.updateThermalsTimeMS + c.cycleTime.cycleIntervalTimeMS - 1) / c.cycleTime.cycleIntervalTimeMS ≤
        ticksOf i mid := by
  have hi := intervals_le (t := c.cycleTime.updateThermalsTimeMS) hF
  exact last_after hw hc hl hp hcc h0 hs h1 hta hr1 hr2 (by linarith)

/-- a fan of the one zone is told what its last tick commanded -/
theorem told_now {o : Opts} {bus : BuildBus} {now : Int} {w : World} (htr : w.trace = []) {sensors : OMap String SensorConfig}
    (hws : sensors.WF) {pids : OMap Int PIDConf} {configs : OMap Int ZoneConfig} (hw : pids.WF)
    (hc : ∀ e ∈ pids.entries, OMap.WF e.2) {d0 : Daemon} (hl : Daemon.launch o bus now w sensors pids configs = .ok d0) {i : Int}
    {es rest : List DEvent} {d1 d2 d3 : Daemon} (h1 : d0.run o es = .ok d1) (h2 : d1.step o (.tick i) = .ok d2)
    (h3 : d2.run o rest = .ok d3) (hno : ∀ e ∈ rest, e ≠ .tick i) {n path : String} {fc : SensorConfig}
    (hfo : FanOn bus.dirs sensors n fc path) (hz : OnlyZone pids i n) (hb : w.busOk path = true)
    (hbs : ∀ e ∈ es ++ .tick i :: rest, BusWorks path e) {conf : List Entry} {v : Dbl} (hv : 0 ≤ v)
    (hfa : FansAtLeast conf v d1.w d2.w) (hin : ∃ e ∈ conf, IsFan e ∧ ∃ x ∈ e.2.inputs, x.name = n) :
    ToldAtLeast fc path v d3.w := by
  obtain ⟨u, r, a1, a2, a3⟩ := C106_told hws htr hl h1 hfo hb (fun e he => hbs e (List.mem_append_left _ he)) hv hfa hin
  have hf0 := fanAt_launched hws hl hfo.configured hfo.fan hfo.written hfo.only hb htr
  have h12 : d0.run o (es ++ [.tick i]) = .ok d2 := run_append.2 ⟨d1, h1, by unfold Daemon.run; rw [h2, ok_bind]; rfl⟩
  have hbs1 : ∀ e ∈ es ++ [DEvent.tick i], BusWorks path e := fun e he => hbs e (by
    rw [List.mem_append] at he ⊢
    rcases he with he | he
    · exact .inl he
    · exact .inr (List.mem_cons.2 (.inl (by simpa using he))))
  have hf2 := fanAt_run h12 hbs1 hf0
  have ha2 := (told_run (i := i) h12 hbs1 hf0 (fun j z cnt => away_launched hw hc hl hz j z cnt)).1
  have := (told_run h3 (fun e he => hbs e (List.mem_append_right _ (List.mem_cons_of_mem _ he))) hf2 ha2).2 hno
  exact ⟨u, r, by rw [this]; exact a1, a2, a3⟩

omit F in
theorem eventsOf_append [FloatModel] (es es' : List TEvent) : eventsOf (es ++ es') = eventsOf es ++ eventsOf es' :=
  List.map_append

omit F in
theorem automatic_prefix [FloatModel] {i : Int} {pre a b : List DEvent} (h : Automatic i pre (a ++ b)) : Automatic i pre a :=
  fun es1 es2 he => h es1 (es2 ++ b) (by rw [he, List.append_assoc])

/-- **C111** The time from a critical alarm to fast fans. A D-Bus sensor that counts as failed reports an alarm at time `ta`
and does not withdraw it, and the zone stays in automatic mode. When more than the thermal interval, two fan intervals and the
lateness of the event loop have passed, every fan of the zone has been told at least the percentage configured for the sensor,
and this is so at every later moment. -/
theorem C111_alarm {o : Opts} (ho : o.tuningEnabled = false) {bus : BuildBus} {now : Int} {started : Int → Int} {w : World}
    (htr : w.trace = []) {sensors : OMap String SensorConfig} (hws : sensors.WF) {pids : OMap Int PIDConf}
    {configs : OMap Int ZoneConfig} (hw : pids.WF) (hc : ∀ e ∈ pids.entries, OMap.WF e.2) {td : Timed}
    (hl : Timed.launch o bus now started w sensors pids configs = .ok td)
    {i : Int} {conf : PIDConf} {c : ZoneConfig} (hp : pids.find? i = some conf) (hcc : configs.find? i = some c)
    {n : String} (hs : MustRead conf.entries n) (hnum : ∀ e ∈ conf.entries, 0 ≤ e.2.failSafePercent)
    (hzn : 0 ≤ c.failsafePercent) (hF : 1 ≤ c.cycleTime.cycleIntervalTimeMS)
    {sc : SensorConfig} (hsc : sensors.find? n = some sc) (htk : KnownType sc.type) (hk : ReadKind sc.readPath .dbusPassive)
    (hua : sc.unavailableAsFailed = true) (hho : sc.ignoreFailIfHostOff = false) {late t0 : Int} (h0 : started i ≤ t0)
    {pre post : List TEvent} {ta t : Int} {m : PropMsg} {e : DEvent} {td1 : Timed}
    (hsv : Served o late t0 td (pre ++ (ta, .signal n ta m) :: post ++ [(t, e)]))
    (hr : td.run o (pre ++ (ta, .signal n ta m) :: post) = .ok td1) (hm : alarmIn o (ta, m) = some true)
    (hpost : ∀ x ∈ signalsFor n (eventsOf post), alarmIn o x ≠ some false) (hauto : Automatic i (eventsOf pre) (eventsOf post))
    (ht : ta + ms (c.cycleTime.updateThermalsTimeMS + 2 * c.cycleTime.cycleIntervalTimeMS) + late ≤ t) :
    ∃ percent, PercentFor c conf.entries n percent ∧
      ∀ e ∈ conf.entries, IsFan e → ∀ x ∈ e.2.inputs, ∀ fc path, FanOn bus.dirs sensors x.name fc path →
        OnlyZone pids i x.name → w.busOk path = true →
        (∀ e ∈ eventsOf (pre ++ (ta, .signal n ta m) :: post), BusWorks path e) →
        ToldAtLeast fc path (percent / 100) td1.d.w := by
  obtain ⟨l1, -⟩ := timed_launch hw hc hl
  have e0 : pre ++ (ta, DEvent.signal n ta m) :: post = (pre ++ [(ta, .signal n ta m)]) ++ post := by simp
  rw [e0] at hr
  obtain ⟨tda, hra, hrb⟩ := timed_append.1 hr
  have hord := hsv.ordered
  have hta : ∀ x ∈ pre ++ [(ta, DEvent.signal n ta m)], x.1 ≤ ta := by
    intro x hx
    rw [List.mem_append] at hx
    rcases hx with hx | hx
    · rw [List.append_assoc, List.pairwise_append] at hord
      exact hord.2.2 x hx (ta, .signal n ta m) (by simp)
    · rw [List.mem_singleton.1 hx]
  obtain ⟨mid, t', rest, td3, td4, b1, b2, b3, b4, b5, b6⟩ :=
    last_of_history hw hc hl hp hcc hF h0 (by simpa using hsv) (hsv.after (ta, .signal n ta m) (by simp)) hta hra hrb ht
  have hmid : eventsOf post = eventsOf mid ++ .tick i :: eventsOf rest := by rw [b1]; exact eventsOf_append _ _
  rw [hmid] at hpost hauto
  have hau := automatic_prefix hauto
  have hrun : td.d.run o (eventsOf pre ++ .signal n ta m :: eventsOf mid) = .ok td3.d := by
    have := timed_run (timed_append.2 ⟨_, hra, b2⟩)
    simpa [eventsOf] using this
  have hst := (timed_step b3).1
  obtain ⟨p, p1, p2⟩ := C100_alarm ho hws hw hc l1 hp hcc hs (fun e he => ne_nan_of_le_right (hnum e he))
    (ne_nan_of_le_right hzn) hF hsc htk hk hua hho hrun hm
    (fun x hx => hpost x (by rw [signalsFor_append]; exact List.mem_append_left _ hx))
    (by rw [autoTicks_all hau]; exact b6) (hau _ [] (by simp)) hst
  refine ⟨p, p1, fun e he hFe x hx fc path hfo hz hb hbs => ?_⟩
  refine told_now htr hws hw hc l1 hrun hst (timed_run b4) b5 hfo hz hb ?_
    (percent_nonneg (percentFor_nonneg hnum hzn p1)) p2 ⟨e, he, hFe, x, hx, rfl⟩
  intro e he
  refine hbs e ?_
  rw [b1]
  simpa [eventsOf] using he

theorem readings_before {st : Setup} {t0 : Int} (hc : st.created ≤ t0) {h : Signals}
    (hb : ∀ x ∈ h, x.1 ≤ t0 ∨ readingIn x = none) : (st.reading h).1 ≤ t0 := by
  unfold Setup.reading lastOf
  have : ∀ (h : Signals) (a : Int × Dbl), a.1 ≤ t0 → (∀ x ∈ h, x.1 ≤ t0 ∨ readingIn x = none) →
      (h.foldl (fun acc s => (readingIn s).getD acc) a).1 ≤ t0 := by
    intro h
    induction h with
    | nil => exact fun a ha _ => ha
    | cons x h ih =>
      intro a ha hx
      refine ih _ ?_ (fun y hy => hx y (List.mem_cons_of_mem _ hy))
      have h0 := hx x List.mem_cons_self
      show ((readingIn x).getD a).1 ≤ t0
      cases hv : readingIn x with
      | none => exact ha
      | some v =>
        have : v.1 = x.1 := by
          unfold readingIn at hv
          split at hv <;> split_ifs at hv <;> (cases hv; rfl)
        rw [hv] at h0
        show v.1 ≤ t0
        simp at h0
        omega
  exact this h _ hc hb

/-- **C111** The time from the last word of a sensor to fast fans. A D-Bus sensor with a timeout sends no reading after time
`tl`, and the zone is in automatic mode from the timeout on. When the thermal interval, two fan intervals and the lateness of
the event loop have passed since, every fan of the zone has been told at least the percentage configured for the sensor. -/
theorem C111_silent {o : Opts} (ho : o.tuningEnabled = false) {bus : BuildBus} {now : Int} {started : Int → Int} {w : World}
    (htr : w.trace = []) {sensors : OMap String SensorConfig} (hws : sensors.WF) {pids : OMap Int PIDConf}
    {configs : OMap Int ZoneConfig} (hw : pids.WF) (hc : ∀ e ∈ pids.entries, OMap.WF e.2) {td : Timed}
    (hl : Timed.launch o bus now started w sensors pids configs = .ok td)
    {i : Int} {conf : PIDConf} {c : ZoneConfig} (hp : pids.find? i = some conf) (hcc : configs.find? i = some c)
    {n : String} (hs : MustRead conf.entries n) (hnum : ∀ e ∈ conf.entries, 0 ≤ e.2.failSafePercent)
    (hzn : 0 ≤ c.failsafePercent) (hF : 1 ≤ c.cycleTime.cycleIntervalTimeMS)
    {sc : SensorConfig} (hsc : sensors.find? n = some sc) (htk : KnownType sc.type) (hk : ReadKind sc.readPath .dbusPassive)
    (hto : 0 < sc.timeout) {late t0 tl : Int} (h0 : started i ≤ t0) (hnow : now ≤ tl) (htl : t0 ≤ tl + sc.timeout * 1000000000)
    {pre post : List TEvent} {t : Int} {e : DEvent} {td1 : Timed} (hsv : Served o late t0 td (pre ++ post ++ [(t, e)]))
    (hr : td.run o (pre ++ post) = .ok td1)
    (hpre : ∀ x ∈ pre, x.1 ≤ tl + sc.timeout * 1000000000) (hpost : ∀ x ∈ post, tl + sc.timeout * 1000000000 ≤ x.1)
    (hlast : ∀ x ∈ signalsFor n (eventsOf pre), tl < x.1 → readingIn x = none)
    (hsil : ∀ x ∈ signalsFor n (eventsOf post), readingIn x = none) (hauto : Automatic i (eventsOf pre) (eventsOf post))
    (ht : tl + sc.timeout * 1000000000 + ms (c.cycleTime.updateThermalsTimeMS + 2 * c.cycleTime.cycleIntervalTimeMS) + late ≤ t) :
    ∃ percent, PercentFor c conf.entries n percent ∧
      ∀ e ∈ conf.entries, IsFan e → ∀ x ∈ e.2.inputs, ∀ fc path, FanOn bus.dirs sensors x.name fc path →
        OnlyZone pids i x.name → w.busOk path = true → (∀ e ∈ eventsOf (pre ++ post), BusWorks path e) →
        ToldAtLeast fc path (percent / 100) td1.d.w := by
  obtain ⟨l1, -⟩ := timed_launch hw hc hl
  obtain ⟨tda, hra, hrb⟩ := timed_append.1 hr
  obtain ⟨mid, t', rest, td3, td4, b1, b2, b3, b4, b5, b6⟩ :=
    last_of_history hw hc hl hp hcc hF h0 hsv htl hpre hra hrb ht
  have hmid : eventsOf post = eventsOf mid ++ .tick i :: eventsOf rest := by rw [b1]; exact eventsOf_append _ _
  rw [hmid] at hauto
  have hau := automatic_prefix hauto
  have hst := (timed_step b3).1
  have hfail : FailsThroughout o i n tda.d (eventsOf mid ++ [.tick i]) := by
    intro es1 es2 d2 he hr2
    obtain ⟨m1, m2, q1, q2, q3⟩ := List.map_eq_append_iff.1 (show eventsOf (mid ++ [(t', .tick i)]) = es1 ++ .tick i :: es2 by
      rw [eventsOf_append]; exact he)
    obtain ⟨⟨t2, e2⟩, m3, rfl, q4, q5⟩ := List.map_eq_cons_iff.1 q3
    cases q4
    have hrm : tda.run o (mid ++ [(t', .tick i)]) = .ok td4 := timed_append.2 ⟨td3, b2, by
      unfold Timed.run; rw [b3, ok_bind]; rfl⟩
    rw [q1] at hrm
    obtain ⟨tdm, r1, r2⟩ := timed_append.1 hrm
    have hd : tdm.d = d2 := by
      have := timed_run r1
      rw [show eventsOf m1 = es1 from q2, hr2] at this
      cases this; rfl
    have hpos : post = m1 ++ (t2, .tick i) :: (m3 ++ rest) := by
      rw [b1, show mid ++ (t', DEvent.tick i) :: rest = (mid ++ [(t', .tick i)]) ++ rest by simp, q1]; simp
    have hclk := hsv.clock (pre ++ m1) (m3 ++ rest ++ [(t, e)]) t2 i tdm (by rw [hpos]; simp) (timed_append.2 ⟨_, hra, r1⟩)
    have htq := hpost (t2, .tick i) (by rw [hpos]; simp)
    rw [hd] at hclk
    dsimp only at htq
    obtain ⟨s, p, wr, st, h1, h2, h3, h4, h5, h6, h7, h8⟩ := launched_heard hws l1 hsc htk hk
    have hrun := run_append.2 ⟨_, timed_run hra, hr2⟩
    obtain ⟨s', p', wr', a1, a2, a3, a4, a5⟩ := heard_run hrun h1 h2 h3
    have hup : p'.read.updated ≤ tl := by
      have := (C48_reading a3).1
      rw [this, List.nil_append]
      refine readings_before (h7 ▸ hnow) ?_
      intro x hx
      rw [signalsFor_append, List.mem_append] at hx
      by_cases hx1 : x.1 ≤ tl
      · exact .inl hx1
      · right
        rcases hx with hx | hx
        · exact hlast x hx (by omega)
        · refine hsil x ?_
          rw [hpos, eventsOf_append, signalsFor_append]
          rw [← show eventsOf m1 = es1 from q2] at hx
          exact List.mem_append_left _ hx
    have hrd : ∀ nw, s'.read d2.w nw = .ok p'.read := by
      intro nw
      unfold Sensor.read
      rw [a2]
    have hstale : ∀ nw, tl + sc.timeout * 1000000000 ≤ nw → Stale s'.timeout (nw - p'.read.updated) := by
      intro nw hnw
      rw [a4, h4]
      exact .inl ⟨hto, by omega⟩
    exact ⟨⟨s', a1, .inr ⟨_, hrd _, hstale _ (le_trans htq hclk.1)⟩⟩, ⟨s', a1, .inr ⟨_, hrd _, hstale _ (le_trans htq hclk.2)⟩⟩⟩
  obtain ⟨p, p1, p2⟩ := C100_failsafe ho hw hc l1 hp hcc hs (fun e he => ne_nan_of_le_right (hnum e he))
    (ne_nan_of_le_right hzn) hF (timed_run hra) (timed_run b2) hfail
    (by rw [autoTicks_all hau]; exact b6) (hau _ [] (by simp)) hst
  refine ⟨p, p1, fun e he hFe x hx fc path hfo hz hb hbs => ?_⟩
  refine told_now htr hws hw hc l1 (run_append.2 ⟨_, timed_run hra, timed_run b2⟩) hst (timed_run b4) b5 hfo hz hb ?_
    (percent_nonneg (percentFor_nonneg hnum hzn p1)) p2 ⟨e, he, hFe, x, hx, rfl⟩
  intro e he
  refine hbs e ?_
  rw [b1]
  simpa [eventsOf] using he

/-- **C111** The time from a hot sensor to fast fans, for a table. As long as a sensor of a stepwise loop reads beyond a point
of its table from time `ta` on, the zone is in automatic mode and the loop is switched on, every fan of the zone has been told
at least the output of that point once the thermal interval, two fan intervals and the lateness have passed. The other
provisos are those of C103. -/
theorem C111_hot {o : Opts} (ho : o.tuningEnabled = false) (hst : o.strictFailsafePwm = false) {bus : BuildBus} {now : Int}
    {started : Int → Int} {w : World} (htr : w.trace = []) {sensors : OMap String SensorConfig} (hws : sensors.WF)
    {pids : OMap Int PIDConf} {configs : OMap Int ZoneConfig} (hw : pids.WF) (hc : ∀ e ∈ pids.entries, OMap.WF e.2) {td : Timed}
    (hl : Timed.launch o bus now started w sensors pids configs = .ok td)
    {i : Int} {conf : PIDConf} {c : ZoneConfig} (hp : pids.find? i = some conf) (hcc : configs.find? i = some c)
    (hacc : c.accumulateSetPoint = false) {e : Entry} (he : e ∈ conf.entries) (hes : e.2.type = "stepwise")
    (hceil : ∀ e ∈ conf.entries, e.2.type = "stepwise" → e.2.stepwiseInfo.isCeiling = false)
    {n k : Nat} (htab : RisingTable e.2.stepwiseInfo n) (hk : k < 20) (hkn : k < n) (hpos : 0 ≤ e.2.stepwiseInfo.output ⟨k, hk⟩)
    (hfan : ∀ f ∈ conf.entries, IsFan f → HandsOn f.2.pidInfo ∧ e.2.stepwiseInfo.output ⟨k, hk⟩ ≤ f.2.pidInfo.outLim.max)
    (hF : 1 ≤ c.cycleTime.cycleIntervalTimeMS) {late t0 ta : Int} (h0 : started i ≤ t0) (h1 : t0 ≤ ta)
    {pre post : List TEvent} {t : Int} {e' : DEvent} {tda td1 : Timed} (hsv : Served o late t0 td (pre ++ post ++ [(t, e')]))
    (hra : td.run o pre = .ok tda) (hrb : tda.run o post = .ok td1) (hpre : ∀ x ∈ pre, x.1 ≤ ta)
    (hhot : ReadsThroughout o i (e.2.inputs.map SensorInput.name)
      (Passed e.2.stepwiseInfo.positiveHysteresis (e.2.stepwiseInfo.reading ⟨k, hk⟩)) tda.d (eventsOf post))
    (hon : ∀ es1 es2, eventsOf post = es1 ++ es2 → switchAfter i e.1 true (eventsOf pre ++ es1) = true)
    (hauto : Automatic i (eventsOf pre) (eventsOf post))
    (ht : ta + ms (c.cycleTime.updateThermalsTimeMS + 2 * c.cycleTime.cycleIntervalTimeMS) + late ≤ t) :
    ∀ f ∈ conf.entries, IsFan f → ∀ x ∈ f.2.inputs, ∀ fc path, FanOn bus.dirs sensors x.name fc path →
      OnlyZone pids i x.name → w.busOk path = true → (∀ e ∈ eventsOf (pre ++ post), BusWorks path e) →
      ToldAtLeast fc path (e.2.stepwiseInfo.output ⟨k, hk⟩ / 100) td1.d.w := by
  obtain ⟨l1, -⟩ := timed_launch hw hc hl
  obtain ⟨mid, t', rest, td3, td4, b1, b2, b3, b4, b5, b6⟩ :=
    last_of_history hw hc hl hp hcc hF h0 hsv h1 hpre hra hrb ht
  have hmid : eventsOf post = eventsOf mid ++ .tick i :: eventsOf rest := by rw [b1]; exact eventsOf_append _ _
  rw [hmid] at hauto hhot hon
  have hau := automatic_prefix hauto
  have hstp := (timed_step b3).1
  have key := C103_hot_sensor ho hst hw hc l1 hp hcc hacc he hes hceil htab hk hkn hfan hF (timed_run hra) (timed_run b2)
    (fun es1 es2 d1 hsp hr => hhot es1 (es2 ++ eventsOf rest) d1 (by
      rw [show eventsOf mid ++ DEvent.tick i :: eventsOf rest = (eventsOf mid ++ [.tick i]) ++ eventsOf rest by simp, hsp]
      simp) hr)
    (fun es1 es2 hsp => hon es1 (es2 ++ .tick i :: eventsOf rest) (by rw [hsp]; simp))
    (by rw [autoTicks_all hau]; exact b6) (hau _ [] (by simp)) hstp
  intro f hf hFf x hx fc path hfo hz hb hbs
  refine told_now htr hws hw hc l1 (run_append.2 ⟨_, timed_run hra, timed_run b2⟩) hstp (timed_run b4) b5 hfo hz hb ?_
    (percent_nonneg hpos) key ⟨f, hf, hFf, x, hx, rfl⟩
  intro e he
  refine hbs e ?_
  rw [b1]
  simpa [eventsOf] using he

/-- **C111** The same for a proportional loop over temperatures or powers. The other provisos are those of C104. -/
theorem C111_hot_loop {o : Opts} (ho : o.tuningEnabled = false) (hst : o.strictFailsafePwm = false) {bus : BuildBus} {now : Int}
    {started : Int → Int} {w : World} (htr : w.trace = []) {sensors : OMap String SensorConfig} (hws : sensors.WF)
    {pids : OMap Int PIDConf} {configs : OMap Int ZoneConfig} (hw : pids.WF) (hc : ∀ e ∈ pids.entries, OMap.WF e.2) {td : Timed}
    (hl : Timed.launch o bus now started w sensors pids configs = .ok td)
    {i : Int} {conf : PIDConf} {c : ZoneConfig} (hp : pids.find? i = some conf) (hcc : configs.find? i = some c)
    (hacc : c.accumulateSetPoint = false) {e : Entry} (he : e ∈ conf.entries) (hes : e.2.type = "temp" ∨ e.2.type = "power")
    (hceil : ∀ e ∈ conf.entries, e.2.type = "stepwise" → e.2.stepwiseInfo.isCeiling = false)
    (hprop : Proportional e.2.pidInfo) (hsp : Moderate e.2.setpoint) {x : Dbl} (hx : Moderate x) (hpos : 0 ≤ proportionalAt e.2.pidInfo e.2.setpoint x)
    (hfan : ∀ f ∈ conf.entries, IsFan f →
      HandsOn f.2.pidInfo ∧ proportionalAt e.2.pidInfo e.2.setpoint x ≤ f.2.pidInfo.outLim.max)
    (hF : 1 ≤ c.cycleTime.cycleIntervalTimeMS) {late t0 ta : Int} (h0 : started i ≤ t0) (h1 : t0 ≤ ta)
    {pre post : List TEvent} {t : Int} {e' : DEvent} {tda td1 : Timed} (hsv : Served o late t0 td (pre ++ post ++ [(t, e')]))
    (hra : td.run o pre = .ok tda) (hrb : tda.run o post = .ok td1) (hpre : ∀ x ∈ pre, x.1 ≤ ta)
    (hmod : ModerateThroughout o (e.2.inputs.map SensorInput.name) td.d (eventsOf pre ++ eventsOf post))
    (hhot : ReadsThroughout o i (e.2.inputs.map SensorInput.name) (fun v => v.isFinite = true ∧ x ≤ v) tda.d (eventsOf post))
    (hon : ∀ es1 es2, eventsOf post = es1 ++ es2 → switchAfter i e.1 true (eventsOf pre ++ es1) = true)
    (hauto : Automatic i (eventsOf pre) (eventsOf post))
    (ht : ta + ms (c.cycleTime.updateThermalsTimeMS + 2 * c.cycleTime.cycleIntervalTimeMS) + late ≤ t) :
    ∀ f ∈ conf.entries, IsFan f → ∀ y ∈ f.2.inputs, ∀ fc path, FanOn bus.dirs sensors y.name fc path →
      OnlyZone pids i y.name → w.busOk path = true → (∀ e ∈ eventsOf (pre ++ post), BusWorks path e) →
      ToldAtLeast fc path (proportionalAt e.2.pidInfo e.2.setpoint x / 100) td1.d.w := by
  obtain ⟨l1, -⟩ := timed_launch hw hc hl
  obtain ⟨mid, t', rest, td3, td4, b1, b2, b3, b4, b5, b6⟩ :=
    last_of_history hw hc hl hp hcc hF h0 hsv h1 hpre hra hrb ht
  have hmid : eventsOf post = eventsOf mid ++ .tick i :: eventsOf rest := by rw [b1]; exact eventsOf_append _ _
  rw [hmid] at hauto hhot hon hmod
  have hau := automatic_prefix hauto
  have hstp := (timed_step b3).1
  have key := C104_hot_sensor ho hst hw hc l1 hp hcc hacc he hes hceil hprop hsp hx hfan hF (timed_run hra) (timed_run b2)
    (fun es1 es2 d1 hsp hr => hmod es1 (es2 ++ .tick i :: eventsOf rest) d1 (by
      rw [← List.append_assoc, hsp, List.append_assoc]) hr)
    (fun es1 es2 d1 hsp hr => hhot es1 (es2 ++ eventsOf rest) d1 (by
      rw [show eventsOf mid ++ DEvent.tick i :: eventsOf rest = (eventsOf mid ++ [.tick i]) ++ eventsOf rest by simp, hsp]
      simp) hr)
    (fun es1 es2 hsp => hon es1 (es2 ++ .tick i :: eventsOf rest) (by rw [hsp]; simp))
    (by rw [autoTicks_all hau]; exact b6) (hau _ [] (by simp)) hstp
  intro f hf hFf y hy fc path hfo hz hb hbs
  refine told_now htr hws hw hc l1 (run_append.2 ⟨_, timed_run hra, timed_run b2⟩) hstp (timed_run b4) b5 hfo hz hb ?_
    (percent_nonneg hpos) key ⟨f, hf, hFf, y, hy, rfl⟩
  intro e he
  refine hbs e ?_
  rw [b1]
  simpa [eventsOf] using he

/-! ## Checking that a history is served -/

def servedCheck (o : Opts) (late : Int) : Timed → List TEvent → Bool
  | _, [] => true
  | td, (t, e) :: es =>
    td.timers.entries.all (fun x => decide (t ≤ x.2.1 + late)) &&
    (match e with
      | .tick i => ((td.timers.find? i).all (fun x => decide (x.1 ≤ t))) && decide (t ≤ td.d.w.nowFans) &&
        decide (t ≤ td.d.w.nowThermals)
      | _ => true) &&
    (match td.step o (t, e) with
      | .ok td' => servedCheck o late td' es
      | .error _ => true)

omit F in
theorem lookupL_mem {K V : Type} [LinearOrder K] {k : K} {v : V} : ∀ {l : List (K × V)}, OMap.lookupL k l = some v → (k, v) ∈ l
  | [], h => by cases h
  | (j, u) :: l, h => by
    unfold OMap.lookupL at h
    split_ifs at h with hj
    · cases h; subst hj; exact List.mem_cons_self
    · exact List.mem_cons_of_mem _ (lookupL_mem h)

theorem served_of_check {o : Opts} {late t0 : Int} : ∀ {tes : List TEvent} {td : Timed}, servedCheck o late td tes = true →
    tes.Pairwise (fun a b => a.1 ≤ b.1) → (∀ x ∈ tes, t0 ≤ x.1) → Served o late t0 td tes
  | [], td, _, h1, h2 => by
    refine ⟨h1, h2, fun es1 es2 t i td1 x h => ?_, fun es1 es2 t i td1 h => ?_, fun es1 es2 t e td1 i x h => ?_⟩ <;>
      (cases es1 <;> cases h)
  | (t, e) :: es, td, hc, h1, h2 => by
    simp only [servedCheck, Bool.and_eq_true, List.all_eq_true, decide_eq_true_eq] at hc
    obtain ⟨⟨c1, c2⟩, c3⟩ := hc
    have hrest : ∀ td', td.step o (t, e) = .ok td' → Served o late t0 td' es := by
      intro td' h
      rw [h] at c3
      exact served_of_check c3 (List.pairwise_cons.1 h1).2 (fun x hx => h2 x (List.mem_cons_of_mem _ hx))
    have split : ∀ {es1 : List TEvent} {y : TEvent} {es2 : List TEvent} {td1 : Timed}, (t, e) :: es = es1 ++ y :: es2 →
        td.run o es1 = .ok td1 → (es1 = [] ∧ (t, e) = y ∧ td1 = td) ∨
        ∃ es1' td', td.step o (t, e) = .ok td' ∧ es = es1' ++ y :: es2 ∧ td'.run o es1' = .ok td1 := by
      intro es1 y es2 td1 h hr
      cases es1 with
      | nil =>
        simp only [List.nil_append, List.cons.injEq] at h
        cases hr
        exact .inl ⟨rfl, h.1, rfl⟩
      | cons a es1 =>
        simp only [List.cons_append, List.cons.injEq] at h
        obtain ⟨td', r1, r2⟩ := bind_eq_ok.1 hr
        rw [← h.1] at r1
        exact .inr ⟨es1, td', r1, h.2, r2⟩
    refine ⟨h1, h2, fun es1 es2 t' i td1 x h hr hx => ?_, fun es1 es2 t' i td1 h hr => ?_, fun es1 es2 t' e' td1 i x h hr hx => ?_⟩
    · rcases split h hr with ⟨_, he, rfl⟩ | ⟨es1', td', r1, r2, r3⟩
      · cases he
        simp only [hx, Option.all_some, Bool.and_eq_true, decide_eq_true_eq] at c2
        exact c2.1.1
      · exact (hrest td' r1).expired es1' es2 t' i td1 x r2 r3 hx
    · rcases split h hr with ⟨_, he, rfl⟩ | ⟨es1', td', r1, r2, r3⟩
      · cases he
        simp only [Bool.and_eq_true, decide_eq_true_eq] at c2
        exact ⟨c2.1.2, c2.2⟩
      · exact (hrest td' r1).clock es1' es2 t' i td1 r2 r3
    · rcases split h hr with ⟨_, he, rfl⟩ | ⟨es1', td', r1, r2, r3⟩
      · cases he
        exact c1 (i, x) (lookupL_mem hx)
      · exact (hrest td' r1).prompt es1' es2 t' e' td1 i x r2 r3 hx

end

namespace Ex
section
attribute [local instance] binary64

/-- the daemon of C106 from time 0 on; the clock is read late -/
def launch111 : Res Timed := Timed.launch {} bus98 0 (fun _ => 0)
  { world99 with nowFans := 4000000000, nowThermals := 4000000000 } sensors106 pids99 zones99

def at111 (t : Nat) (e : DEvent) : TEvent := (ms t, e)

/-- the timer runs every 500 ms, sometimes up to 20 ms late, and at 700 ms the sensor reports an alarm -/
def before111 : List TEvent := [at111 500 (.tick 1)]
def since111 : List TEvent :=
  [at111 1005 (.tick 1), at111 1500 (.tick 1), at111 2020 (.tick 1), at111 2500 (.tick 1)]
def alarm111 : TEvent := at111 700 (.signal "cpu" (ms 700) (alarm99 true))
def events111 : List TEvent := before111 ++ alarm111 :: since111
def run111 : Res Timed := do
  let td ← launch111
  td.run {} events111

theorem automatic111 : Automatic 1 (eventsOf before111) (eventsOf since111) := by
  intro es1 es2 he
  have : ∀ e ∈ eventsOf before111 ++ es1, ∀ j b, e ≠ .manual j b := by
    intro e hin
    have hin : e ∈ eventsOf before111 ++ eventsOf since111 := by
      rw [he]
      rw [List.mem_append] at hin ⊢
      rcases hin with hin | hin
      · exact .inl hin
      · exact .inr (List.mem_append_left _ hin)
    simp only [eventsOf, before111, since111, at111, List.map_cons, List.map_nil, List.mem_cons,
      List.mem_append, List.not_mem_nil, or_false] at hin
    rcases hin with rfl | rfl | rfl | rfl | rfl <;> simp
  generalize eventsOf before111 ++ es1 = l at this
  induction l with
  | nil => rfl
  | cons e l ih =>
    have h0 := this e List.mem_cons_self
    have hih := ih (fun e he => this e (List.mem_cons_of_mem _ he))
    cases e with
    | manual j b => exact absurd rfl (h0 j b)
    | outside | signal | hostWrite | enable | tick => exact hih

/-- C111: with this lateness the history is served, and every hypothesis of the theorem holds at 2730 ms -/
example : ∃ td td1 p, launch111 = .ok td ∧ td.run {} events111 = .ok td1 ∧
    Served {} 20000000 0 td (events111 ++ [at111 2730 (.manual 1 true)]) ∧ PercentFor zone99 loops99.entries "cpu" p ∧
    ToldAtLeast fan106 "/xyz/openbmc_project/control/fanpwm/pwm1" (p / 100) td1.d.w := by
  obtain ⟨td1, h, _⟩ := ok_of_any (x := run111) (P := fun _ : Timed => true) (by decide +kernel)
  obtain ⟨td, hl, h⟩ := bind_eq_ok.1 h
  obtain ⟨td', hl', hck⟩ := ok_of_any (x := launch111)
    (P := fun td : Timed => servedCheck {} 20000000 td (events111 ++ [at111 2730 (.manual 1 true)])) (by decide +kernel)
  rw [hl] at hl'
  cases hl'
  have hsv : Served {} 20000000 0 td (events111 ++ [at111 2730 (.manual 1 true)]) :=
    served_of_check hck (by decide +kernel) (by decide +kernel)
  obtain ⟨p, h1, h2⟩ := C111_alarm (o := {}) rfl rfl sensors106_wf pids99_wf
    (fun e he => by rw [(pids99_find ((OMap.mem_entries_iff pids99_wf e.1 e.2).1 he)).2]; exact loops99_wf) hl
    (i := 1) (conf := loops99) (c := zone99) (by unfold pids99; rw [OMap.find?_insert_self])
    (by unfold zones99; rw [OMap.find?_insert_self]) (n := "cpu")
    ⟨by decide +kernel, by decide +kernel⟩ (by decide +kernel) (by decide +kernel) (by decide)
    (sc := ⟨"temp", "/xyz/openbmc_project/sensors/temperature/cpu", "", 0, 0, 5, false, true, false⟩)
    (by decide +kernel) (by decide) ((C65_read _ _).1 (by decide +kernel)) rfl rfl (late := 20000000) (t0 := 0) le_rfl
    (pre := before111) (post := since111) (ta := ms 700) (t := ms 2730) (e := .manual 1 true) hsv h
    (by decide +kernel) (by intro x hx; cases hx) automatic111 (by decide)
  · refine ⟨td, td1, p, hl, h, hsv, h1, h2 ("fans", loop99 "fan" "fan0" 0 1 0) ?_ ?_ { name := "fan0" } ?_ _ _ fanOn106 ?_ rfl ?_⟩
    · unfold loops99
      exact (OMap.mem_entries_iff (OMap.wf_insert (OMap.wf_insert OMap.wf_empty _ _) _ _) _ _).2 (by
        rw [OMap.find?_insert_ne _ (by decide), OMap.find?_insert_self])
    · decide +kernel
    · exact List.mem_cons_self
    · intro j conf hj hp
      exact absurd (pids99_find hp).1 hj
    · intro e he
      simp only [eventsOf, before111, since111, at111, List.map_cons, List.map_nil, List.mem_cons,
        List.mem_append, List.map_append, List.not_mem_nil, or_false] at he
      rcases he with rfl | rfl | rfl | rfl | rfl | rfl <;> trivial

/-- C111: at that time the fan has been told 229 of 255, which is 90 percent -/
example : ∃ td, run111 = .ok td ∧ decide (valueAt "/xyz/openbmc_project/control/fanpwm/pwm1" td.d.w = some 229) = true :=
  ok_of_any (P := fun td : Timed => decide (valueAt "/xyz/openbmc_project/control/fanpwm/pwm1" td.d.w = some 229))
    (by decide +kernel)

/-- C111: when the fifth handler begins, at 2500 ms, four have been called -/
example (td : Timed) (hl : launch111 = .ok td) (hck : servedCheck {} 20000000 td events111 = true) :
    (0 : Int) + 4 * ms 500 ≤ ms 2500 ∧ ms 2500 ≤ 0 + (4 + 1) * ms 500 + 20000000 := by
  obtain ⟨td1, h, -⟩ := ok_of_any (x := (do let td ← launch111; td.run {} (before111 ++ alarm111 :: since111.take 3)))
    (P := fun _ : Timed => true) (by decide +kernel)
  rw [hl, ok_bind] at h
  exact C111_rate pids99_wf
    (fun e he => by rw [(pids99_find ((OMap.mem_entries_iff pids99_wf e.1 e.2).1 he)).2]; exact loops99_wf) hl
    (i := 1) (conf := loops99) (c := zone99) (by unfold pids99; rw [OMap.find?_insert_self])
    (by unfold zones99; rw [OMap.find?_insert_self]) (t0 := 0) le_rfl
    (es1 := before111 ++ alarm111 :: since111.take 3) (es2 := []) (t := ms 2500) (e := .tick 1)
    (served_of_check hck (by decide +kernel) (by decide +kernel)) h

/-- C111: the sensor never says anything; its timeout is 5 s, and at 7 s the fan has been told 90 percent. The history is
served -/
def silent111 : List TEvent := (List.range 14).map (fun k => at111 (500 * (k + 1) + k) (.tick 1))
def launchSilent111 : Res Timed := Timed.launch {} bus98 0 (fun _ => 0)
  { world99 with nowFans := 8000000000, nowThermals := 8000000000 } sensors106 pids99 zones99
example : ∃ td, (do let td ← launchSilent111; td.run {} silent111) = .ok td ∧
    decide (valueAt "/xyz/openbmc_project/control/fanpwm/pwm1" td.d.w = some 229) = true :=
  ok_of_any (P := fun td : Timed => decide (valueAt "/xyz/openbmc_project/control/fanpwm/pwm1" td.d.w = some 229))
    (by decide +kernel)
example : ∃ td, launchSilent111 = .ok td ∧
    servedCheck {} 20000000 td (silent111 ++ [at111 7020 (.manual 1 true)]) = true :=
  ok_of_any (P := fun td : Timed => servedCheck {} 20000000 td (silent111 ++ [at111 7020 (.manual 1 true)])) (by decide +kernel)

/-- C111: at 700 ms the processor reports 72 degrees, and at 2720 ms the fan has been told full speed. The history is
served -/
def launchHot111 : Res Timed := Timed.launch {} bus103 0 (fun _ => 0)
  { world99 with nowFans := 4000000000, nowThermals := 4000000000 } sensors106 pids103 zones99
def hot111 : List TEvent := before111 ++ at111 700 (.signal "cpu" (ms 700) (temp103 72)) :: since111
example : ∃ td, (do let td ← launchHot111; td.run {} hot111) = .ok td ∧
    decide (valueAt "/xyz/openbmc_project/control/fanpwm/pwm1" td.d.w = some 255) = true :=
  ok_of_any (P := fun td : Timed => decide (valueAt "/xyz/openbmc_project/control/fanpwm/pwm1" td.d.w = some 255))
    (by decide +kernel)
example : ∃ td, launchHot111 = .ok td ∧
    servedCheck {} 20000000 td (hot111 ++ [at111 2720 (.manual 1 true)]) = true :=
  ok_of_any (P := fun td : Timed => servedCheck {} 20000000 td (hot111 ++ [at111 2720 (.manual 1 true)])) (by decide +kernel)

/-- C111: the same for the proportional loop: at 700 ms the processor reports 110 degrees, 30 above the set point, and at
2720 ms the fan has been told 60 percent, which is 153 of 255 -/
def launchLoop111 : Res Timed := Timed.launch {} bus103 0 (fun _ => 0)
  { world99 with nowFans := 4000000000, nowThermals := 4000000000 } sensors106 pids99 zones99
def hotLoop111 : List TEvent := before111 ++ at111 700 (.signal "cpu" (ms 700) (temp103 110)) :: since111
example : ∃ td, (do let td ← launchLoop111; td.run {} hotLoop111) = .ok td ∧
    decide (valueAt "/xyz/openbmc_project/control/fanpwm/pwm1" td.d.w = some 153) = true :=
  ok_of_any (P := fun td : Timed => decide (valueAt "/xyz/openbmc_project/control/fanpwm/pwm1" td.d.w = some 153))
    (by decide +kernel)
example : ∃ td, launchLoop111 = .ok td ∧
    servedCheck {} 20000000 td (hotLoop111 ++ [at111 2720 (.manual 1 true)]) = true :=
  ok_of_any (P := fun td : Timed => servedCheck {} 20000000 td (hotLoop111 ++ [at111 2720 (.manual 1 true)])) (by decide +kernel)

end
end Ex
end Verif
