import Verif.Spec.WarmFan
import Verif.Props.WarmStart
import Verif.Props.Held

/-!
# Heat holds a fan across a reload (C150)

The loops and sensors are made anew at a reload (main.cpp:127-186); the fan keeps what it was told until the first cycle.
-/

namespace Verif
open Dbl
section
variable [F : FloatModel]

/-- **C150** What the fan itself was told. In any life of the process, let a reload leave all zones running, and let it be hot in every
zone that turns a fan which has its path for itself, from the reload on. Then, after the first cycle of one of these zones, the fan
has at every moment been told at least the number for `v` percent, whichever of the zones ran last. -/
theorem C150_reload {o : Opts} (ho : o.tuningEnabled = false) (hst : o.strictFailsafePwm = false) {s1 s0 s : Whole}
    {r : Found} (hre : s1.step o (.reload r) = .ok s0) (hall : s0.AllRun) {c : Config} (hread : r.read = .got c)
    {n path : String} {fc : SensorConfig} (hfo : FanOn r.bus.dirs c.sensors n fc path) (hb : s1.d.w.busOk path = true)
    {es : List DEvent} (hr : s0.run o (es.map .event) = .ok s) (hbs : ∀ e ∈ es, BusWorks path e) {v : Dbl} (hv : 0 ≤ v)
    (hz : ∀ i conf, c.pids.find? i = some conf → Turns conf.entries n →
      ∃ e k, WarmZone c.zones v i conf e k ∧ StaysHot o i e k s0.d es)
    (htick : ∃ i, TurnedBy c.pids n i ∧ .tick i ∈ es) : ToldAtLeast fc path (v / 100) s.d.w := by
  obtain ⟨hws, hw, hl⟩ := read_wf hread
  have hre : s1.reload o r = .ok s0 := hre
  obtain ⟨w, -, h7⟩ := C123_restart hre hall
  rw [attempt_read hread, launched_running] at h7
  obtain ⟨w0, g1, ⟨b, rfl⟩ | ⟨c', m, hread', g3, g4, -⟩⟩ := reload_cases hre
  · exact absurd hall.2.2 (by rw [Whole.halted]; exact Bool.noConfusion)
  rw [hread] at hread'
  cases hread'
  have hb0 : w0.busOk path = true := by rw [(stop_after g1).same]; exact hb
  have hf0 : FanAt n path (limitsOf fc) s0.d.w := by rw [(startBuilt_cases g4).1]; exact fanAt_made hws g3 hfo hb0
  obtain ⟨d, h5, rfl⟩ := wrun_events.1 hr
  obtain ⟨mid, i, tail, rfl, hi, hno⟩ := last_shared htick
  obtain ⟨conf, hp, hT⟩ := hi
  obtain ⟨e, k, hW, hH⟩ := hz i conf hp hT
  obtain ⟨da, r1, r2⟩ := run_append.1 h5
  obtain ⟨db, r3, r4⟩ := bind_eq_ok.1 r2
  obtain ⟨zc, hcc, hacc, hF⟩ := hW.zone
  obtain ⟨m', htab, hkm⟩ := hW.table
  have hm1 : ∀ e ∈ mid, BusWorks path e := fun e he => hbs e (List.mem_append_left _ he)
  have h12 : s0.d.run o (mid ++ [.tick i]) = .ok db := run_append.2 ⟨da, r1, by unfold Daemon.run; rw [r3, ok_bind]; rfl⟩
  have hm2 : ∀ e ∈ mid ++ [.tick i], BusWorks path e := fun e he => hbs e (by
    simp only [List.mem_append, List.mem_cons, List.not_mem_nil, or_false] at he ⊢; tauto)
  have hf1 := fanAt_run r1 hm1 hf0
  have hf2 := fanAt_run h12 hm2 hf0
  have ha2 := (told_unless (T := TurnedBy c.pids n) h12 hm2 hf0 (fun j z cnt => away_unless hw hl h7 j z cnt)).1
  have hk := (told_unless r4 (fun e he => hbs e (by simp [he])) hf2 ha2).2 hno
  have g := warm_table ho hst hw hl h7 hp hcc hacc hW.loop.1 hW.loop.2 hW.ceilings htab k.2 hkm hW.fans hF r1 hH.now
    (fun es1 es2 d hes hr => hH.later es1 (es2 ++ tail) d
      (by rw [show mid ++ DEvent.tick i :: tail = (mid ++ [.tick i]) ++ tail by simp, hes]; simp) hr)
    (fun es1 es2 h => hH.on es1 (es2 ++ .tick i :: tail) (by rw [h]; simp))
    (hH.automatic mid _ rfl) r3
  have g' : FansAtLeast conf.entries (v / 100) da.w db.w := by
    obtain ⟨l, b, a1, a2, a3⟩ := g
    exact ⟨l, b, a1, a2, fun x hx hm => le_trans (hundredth_le hW.enough) (a3 x hx hm)⟩
  obtain ⟨u, q, b1, b2, b3⟩ := told_of hfo.limits hf1 (percent_nonneg hv) g' hT
  exact ⟨u, q, by dsimp only; rw [hk]; exact b1, b2, b3⟩

/-- **C150** Across the reload: if the fan had been told enough before, and the fans are not set to the failsafe percentages when
loops end, there is no moment after the reload at which it has been told less. -/
theorem C150_across {o : Opts} (ho : o.tuningEnabled = false) (hst : o.strictFailsafePwm = false)
    (hoff : o.offlineFailsafePwm = false) {s1 s0 s : Whole}
    {r : Found} (hre : s1.step o (.reload r) = .ok s0) (hall : s0.AllRun) {c : Config} (hread : r.read = .got c)
    {n path : String} {fc : SensorConfig} (hfo : FanOn r.bus.dirs c.sensors n fc path) (hb : s1.d.w.busOk path = true)
    {es : List DEvent} (hr : s0.run o (es.map .event) = .ok s) (hbs : ∀ e ∈ es, BusWorks path e) {v : Dbl} (hv : 0 ≤ v)
    (hz : ∀ i conf, c.pids.find? i = some conf → Turns conf.entries n →
      ∃ e k, WarmZone c.zones v i conf e k ∧ StaysHot o i e k s0.d es)
    (hbefore : ToldAtLeast fc path (v / 100) s1.d.w) : ToldAtLeast fc path (v / 100) s.d.w := by
  by_cases htick : ∃ i, TurnedBy c.pids n i ∧ .tick i ∈ es
  · exact C150_reload ho hst hre hall hread hfo hb hr hbs hv hz htick
  obtain ⟨hws, hw, hl⟩ := read_wf hread
  have hre : s1.reload o r = .ok s0 := hre
  obtain ⟨w, -, h7⟩ := C123_restart hre hall
  rw [attempt_read hread, launched_running] at h7
  obtain ⟨w0, g1, ⟨b, rfl⟩ | ⟨c', m, hread', g3, g4, -⟩⟩ := reload_cases hre
  · exact absurd hall.2.2 (by rw [Whole.halted]; exact Bool.noConfusion)
  rw [hread] at hread'
  cases hread'
  have hb0 : w0.busOk path = true := by rw [(stop_after g1).same]; exact hb
  have hf0 : FanAt n path (limitsOf fc) s0.d.w := by rw [(startBuilt_cases g4).1]; exact fanAt_made hws g3 hfo hb0
  obtain ⟨d, h5, rfl⟩ := wrun_events.1 hr
  have hk := (told_unless (T := TurnedBy c.pids n) h5 hbs hf0 (fun j z cnt => away_unless hw hl h7 j z cnt)).2
    (fun j hj hT => htick ⟨j, hT, hj⟩)
  have h0 : ToldAtLeast fc path (v / 100) s0.d.w := by
    refine told_trace ?_ hbefore
    rw [(startBuilt_cases g4).1]
    dsimp only
    rw [(C123_end (o := o) g1).2 hoff]
  obtain ⟨u, q, b1, b2, b3⟩ := h0
  exact ⟨u, q, by dsimp only; rw [hk]; exact b1, b2, b3⟩

end

namespace Ex
section
attribute [local instance] binary64

/-- what C150 asks of the configuration besides `fit149` -/
def fit150 (c : Config) : Bool :=
  fit149 c && c.sensors.entries.all (fun e => decide (e.2.type = "fan" → e.1 = "fan0")) &&
    (c.sensors.find? "fan0").any (fun sc => decide (sc.type = "fan" ∧ sc.min = 0 ∧ sc.max = 255 ∧
      getWriteInterfaceType sc.writePath = .sysfs ∧ (fixupPath bus149.dirs sc.writePath).toOption = some "/sys/class/hwmon/pwm1")) &&
    c.pids.entries.all (fun e => decide (e.1 = 3)) &&
    (c.pids.find? 3).any (fun conf => decide (∃ e ∈ conf.entries, IsFan e ∧ ∃ x ∈ e.2.inputs, x.name = "fan0"))

theorem read150 : ∃ c, warm149.read = .got c ∧ fit150 c = true := by
  have h : (match warm149.read with | .got c => fit150 c | _ => false) = true := by decide +kernel
  split at h
  · next c e => exact ⟨c, e, h⟩
  · cases h

/-- events after the reload: a message about the fan, two cycles -/
def after150 : List DEvent := [fan145, .tick 3, .tick 3]

theorem switch_still {i : Int} {l : String} : ∀ {es : List DEvent}, (∀ e ∈ es, ∀ j l b, e ≠ .enable j l b) →
    switchAfter i l true es = true
  | [], _ => rfl
  | e :: es, h => by
    have hr := switch_still (i := i) (l := l) (fun x hx => h x (List.mem_cons_of_mem _ hx) : ∀ x ∈ es, _)
    have he := h e List.mem_cons_self
    cases e with
    | enable j l b => exact absurd rfl (he j l b)
    | _ => exact hr

theorem mode_still {i : Int} : ∀ {es : List DEvent}, (∀ e ∈ es, ∀ j b, e ≠ .manual j b) → modeAfter i false es = false
  | [], _ => rfl
  | e :: es, h => by
    have hr := mode_still (i := i) (fun x hx => h x (List.mem_cons_of_mem _ hx) : ∀ x ∈ es, _)
    have he := h e List.mem_cons_self
    cases e with
    | manual j b => exact absurd rfl (he j b)
    | _ => exact hr

/-- what the configuration gives, once it is hot -/
theorem warm150 : ∃ c fsc, warm149.read = .got c ∧ FanOn warm149.bus.dirs c.sensors "fan0" fsc "/sys/class/hwmon/pwm1" ∧
    limitsOf fsc = limitsOf fan106 ∧ TurnedBy c.pids "fan0" 3 ∧ ∀ (d : Daemon) (es : List DEvent),
      (nowB "cpu" (fun v => decide (Passed 0 60 v)) d.w && hotB 3 "cpu" (fun v => decide (Passed 0 60 v)) d es) = true →
      (∀ e ∈ es, (∀ j l b, e ≠ .enable j l b) ∧ ∀ j b, e ≠ .manual j b) →
      ∀ i conf, c.pids.find? i = some conf → Turns conf.entries "fan0" →
        ∃ e k, WarmZone c.zones 80 i conf e k ∧ StaysHot {} i e k d es := by
  obtain ⟨c, hc, hf⟩ := read150
  obtain ⟨hws, hw, -⟩ := read_wf hc
  unfold fit150 at hf
  simp only [Bool.and_eq_true, List.all_eq_true] at hf
  obtain ⟨⟨⟨⟨f0, f1⟩, f2⟩, f3⟩, f4⟩ := hf
  unfold fit149 at f0
  split at f0
  · next conf zc e1 e2 =>
    simp only [Bool.and_eq_true, decide_eq_true_eq, Bool.not_eq_true'] at f0
    obtain ⟨⟨⟨⟨k1, k2⟩, k3⟩, k4⟩, e, he, he0, he1, he2, r2, r1, r0, o1, o0, hh⟩ := f0
    cases hsc : c.sensors.find? "fan0" with
    | none => rw [hsc] at f2; cases f2
    | some fsc =>
    rw [hsc] at f2
    rw [e1] at f4
    have f4 := of_decide_eq_true f4
    obtain ⟨j1, j2, j3, j4, j5⟩ := of_decide_eq_true f2
    have hfo : FanOn warm149.bus.dirs c.sensors "fan0" fsc "/sys/class/hwmon/pwm1" := by
      refine ⟨hsc, j1, fun _ => by rw [j2, j3]; decide, ?_, fun m c' hm hc' ht _ => ?_⟩
      · refine WritePath.sysfs ((C65_write _ _).1 j4) (fixup_iff.1 ?_)
        cases hx : fixupPath bus149.dirs fsc.writePath with
        | ok q =>
          rw [hx] at j5
          change fixupPath bus149.dirs _ = _
          rw [hx, ← Option.some.inj j5]
        | error x => rw [hx] at j5; cases j5
      · exact hm (of_decide_eq_true (f1 (m, c') ((OMap.mem_entries_iff hws m c').2 hc')) ht)
    refine ⟨c, fsc, hc, hfo, by rw [limitsOf, limitsOf, j2, j3]; rfl, ⟨conf, e1, f4⟩, ?_⟩
    intro d es hhot hes i conf' hp hT
    simp only [Bool.and_eq_true] at hhot
    have hi : i = 3 := of_decide_eq_true (f3 (i, conf') ((OMap.mem_entries_iff hw i conf').2 hp))
    subst hi
    rw [e1] at hp
    cases hp
    refine ⟨e, 1, ⟨⟨zc, e2, .inl k1, k2⟩, ⟨he, he1⟩, k3, ⟨2, rising149 r2 r1 r0 o1 o0, by decide⟩, ?_, by rw [o1]; decide +kernel⟩, ?_⟩
    · intro f hf hff
      obtain ⟨a1, a2, a3, a4, a5⟩ := k4 f hf hff
      exact ⟨⟨a1, a2, a3, a4⟩, by rw [o1]; exact a5⟩
    · exact ⟨now_of (n := "cpu") (by rw [he2]; simp) (fun v hv => by rw [hh, r1]; exact of_decide_eq_true hv) hhot.1,
        hot_of (n := "cpu") (by rw [he2]; simp) (fun v hv => by rw [hh, r1]; exact of_decide_eq_true hv) hhot.2,
        fun es1 es2 h => switch_still (fun x hx => (hes x (by rw [h]; exact List.mem_append_left _ hx)).1),
        fun es1 es2 h => mode_still (fun x hx => (hes x (by rw [h]; exact List.mem_append_left _ hx)).2)⟩
  · cases f0

theorem quiet150 : ∀ e ∈ after150, ((∀ j l b, e ≠ .enable j l b) ∧ ∀ j b, e ≠ .manual j b) ∧ BusWorks "/sys/class/hwmon/pwm1" e := by
  intro e he
  simp only [after150, fan145, List.mem_cons, List.not_mem_nil, or_false] at he
  rcases he with rfl | rfl | rfl <;> exact ⟨⟨by simp, by simp⟩, trivial⟩

/-- C150_reload for the life of C149, and C150_across for another reload after it, before the next cycle -/
example : ∃ s1 s0 s t0 t, (Whole.init world99).run {} life149 = .ok s1 ∧ s1.step {} (.reload warm149) = .ok s0 ∧
    s0.run {} (after150.map .event) = .ok s ∧ ToldAtLeast fan106 "/sys/class/hwmon/pwm1" (80 / 100) s.d.w ∧
    s.step {} (.reload warm149) = .ok t0 ∧ t0.run {} ([fan145].map .event) = .ok t ∧
    ToldAtLeast fan106 "/sys/class/hwmon/pwm1" (80 / 100) t.d.w := by
  obtain ⟨t, ht, hP⟩ := ok_of_any
    (x := (Whole.init world99).run {} (((life149 ++ [.reload warm149]) ++ after150.map .event ++ [.reload warm149]) ++
      [fan145].map .event)) (P := fun _ : Whole => true) (by decide +kernel)
  obtain ⟨t0, ht0, ht⟩ := wrun_append.1 ht
  obtain ⟨s, hs, hst⟩ := wrun_append.1 ht0
  obtain ⟨s0, hs0, hr⟩ := wrun_append.1 hs
  obtain ⟨s1, hs1, hre⟩ := wrun_append.1 hs0
  have bus : ∀ {es : List WEvent} {x : Whole}, (Whole.init world99).run {} es = .ok x →
      (((Whole.init world99).run {} es).toOption.any (fun s : Whole => s.d.w.busOk "/sys/class/hwmon/pwm1")) = true →
      x.d.w.busOk "/sys/class/hwmon/pwm1" = true := by
    intro es x h1 h2
    rw [h1] at h2; exact h2
  have chk : ∀ {es : List WEvent} {x : Whole} {es' : List DEvent}, (Whole.init world99).run {} es = .ok x →
      (((Whole.init world99).run {} es).toOption.any (fun s : Whole => !s.again && s.idle.isEmpty && !s.d.zones.isEmpty &&
        (nowB "cpu" (fun v => decide (Passed 0 60 v)) s.d.w && hotB 3 "cpu" (fun v => decide (Passed 0 60 v)) s.d es'))) = true →
      x.AllRun ∧ (nowB "cpu" (fun v => decide (Passed 0 60 v)) x.d.w &&
        hotB 3 "cpu" (fun v => decide (Passed 0 60 v)) x.d es') = true := by
    intro es x es' h1 h2
    rw [h1] at h2
    have h2 : (_ && _) = true := h2
    rw [Bool.and_eq_true] at h2
    refine ⟨?_, h2.2⟩
    have h3 := h2.1
    simp only [Bool.and_eq_true, Bool.not_eq_true', List.isEmpty_iff] at h3
    exact ⟨h3.1.1, h3.1.2, h3.2⟩
  have one : ∀ {x y : Whole} {r : Found}, x.run {} [.reload r] = .ok y → x.step {} (.reload r) = .ok y := by
    intro x y r h
    unfold Whole.run at h
    obtain ⟨z, h1, h2⟩ := bind_eq_ok.1 h
    cases h2; exact h1
  obtain ⟨c, fsc, hc, hfo, hlim, hT, hz⟩ := warm150
  obtain ⟨a1, a2⟩ := chk (es' := after150) hs0 (by decide +kernel)
  obtain ⟨b1, b2⟩ := chk (es' := [fan145]) ht0 (by decide +kernel)
  have g1 := C150_reload (o := {}) rfl rfl (one hre) a1 hc hfo (bus hs1 (by decide +kernel)) hr (fun e he => (quiet150 e he).2)
    (v := 80) (by decide +kernel) (hz s0.d after150 a2 (fun e he => (quiet150 e he).1)) ⟨3, hT, by simp [after150]⟩
  have q : ∀ e ∈ [fan145], e ∈ after150 := by
    intro e he
    simp only [List.mem_cons, List.not_mem_nil, or_false] at he
    subst he
    exact List.mem_cons_self
  have g2 := C150_across (o := {}) rfl rfl rfl (one hst) b1 hc hfo (bus hs (by decide +kernel)) ht
    (fun e he => (quiet150 e (q e he)).2) (by decide +kernel) (hz t0.d [fan145] b2 (fun e he => (quiet150 e (q e he)).1)) g1
  exact ⟨s1, s0, s, t0, t, hs1, one hre, hr, told_limits hlim g1, one hst, ht, told_limits hlim g2⟩

end
end Ex
end Verif
