import Verif.Spec.Register
import Verif.Lemmas.Daemon
import Verif.Props.Writers

/-! # Helper lemmas about what the fans are told -/

namespace Verif
open Dbl
variable [F : FloatModel]

omit F in
theorem valueFrom_append (p : String) : ∀ (es es' : List Effect) (v : Option Int),
    valueFrom p v (es ++ es') = valueFrom p (valueFrom p v es) es'
  | [], _, _ => rfl
  | .dbusSet _ _ _ :: es, es', _ => valueFrom_append p es es' _
  | .sysfsWrite _ _ :: es, es', _ => valueFrom_append p es es' _

omit F in
theorem valueFrom_other {p : String} : ∀ {es : List Effect} {v : Option Int}, (∀ e ∈ es, e.path ≠ p) → valueFrom p v es = v
  | [], _, _ => rfl
  | .dbusSet q x ok :: es, v, h => by
    have : q ≠ p := h _ List.mem_cons_self
    rw [valueFrom, if_neg (fun a => this a.1)]
    exact valueFrom_other (fun e he => h e (List.mem_cons_of_mem _ he))
  | .sysfsWrite q x :: es, v, h => by
    have : q ≠ p := h _ List.mem_cons_self
    rw [valueFrom, if_neg this]
    exact valueFrom_other (fun e he => h e (List.mem_cons_of_mem _ he))

/-! ## Paths stay -/

theorem setSensor_target {d : Daemon} {n : String} {s s' : Sensor} (hs : d.w.sensors.find? n = some s)
    (h : (match s'.impl with | .pluggable _ wr => wr.target | .host _ _ => none) =
      (match s.impl with | .pluggable _ wr => wr.target | .host _ _ => none)) (m : String) :
    targetOf (d.setSensor n s').w m = targetOf d.w m := by
  unfold targetOf Daemon.setSensor
  dsimp only
  rw [OMap.find?_insert]
  by_cases e : m = n
  · subst e
    rw [if_pos rfl, hs]
    exact h
  · rw [if_neg e]

/-- no event changes the path a sensor is written through -/
theorem step_target {o : Opts} {d d' : Daemon} {e : DEvent} (h : d.step o e = .ok d') (m : String) :
    targetOf d'.w m = targetOf d.w m := by
  cases e with
  | outside nf nt ho rf fi bo => cases h; rfl
  | signal k t msg =>
    have h : d.signal o k t msg = .ok d' := h
    unfold Daemon.signal at h
    split at h
    · next s hs =>
      split at h
      · next p wr hi =>
        obtain ⟨p', hp, h⟩ := bind_eq_ok.1 h
        cases h
        exact setSensor_target hs (by rw [hi]) m
      · cases h; rfl
    · cases h; rfl
  | hostWrite k t v =>
    simp only [Daemon.step] at h
    split at h
    · next s hs =>
      cases h
      refine setSensor_target hs ?_ m
      cases hi : s.impl <;> simp [Sensor.hostWrite, hi]
    · cases h; rfl
  | manual j b => cases h; rw [onZone_w]
  | enable j l b => cases h; rw [onZone_w]
  | tick j =>
    simp only [Daemon.step] at h
    split at h
    · obtain ⟨⟨w', z', cnt'⟩, h1, h⟩ := bind_eq_ok.1 h
      cases h
      exact (tick_after h1).target m
    · cases h; rfl

theorem run_target {o : Opts} : ∀ {es : List DEvent} {d d' : Daemon}, d.run o es = .ok d' → ∀ m,
    targetOf d'.w m = targetOf d.w m
  | [], _, _, h, _ => by cases h; rfl
  | _ :: _, _, _, h, m => by
    obtain ⟨d1, h1, h2⟩ := bind_eq_ok.1 h
    exact (run_target h2 m).trans (step_target h1 m)

theorem writesTo_target {dirs : Dirs} {c : SensorConfig} {wr : Writer} (h : WritesTo dirs c wr) (p : String) :
    wr.target = some p → WritePath dirs c p := by
  cases h with
  | sysfsPercent h1 h2 h3 => rintro ⟨⟩; exact .sysfs h1 h2
  | sysfsRaw h1 h2 h3 => rintro ⟨⟩; exact .sysfs h1 h2
  | dbusPercent h1 h2 => rintro ⟨⟩; exact .dbus h1
  | dbusRaw h1 h2 => rintro ⟨⟩; exact .dbus h1
  | nothing h1 => rintro ⟨⟩

/-- in a launched daemon, who is written through a path was configured so -/
theorem launched_target {o : Opts} {bus : BuildBus} {now : Int} {w : World} {sensors : OMap String SensorConfig}
    {pids : OMap Int PIDConf} {configs : OMap Int ZoneConfig} {m : Manager} {zones : OMap Int Zone} {d : Daemon}
    (hw : sensors.WF) (h : Launched o bus now w sensors pids configs m zones d) {n p : String} (ht : targetOf d.w n = some p) :
    ∃ c, sensors.find? n = some c ∧ c.type = "fan" ∧ WritePath bus.dirs c p := by
  unfold targetOf at ht
  rw [h.world] at ht
  dsimp only at ht
  cases hs : m.sensors.find? n with
  | none => rw [hs] at ht; cases ht
  | some s =>
    rw [hs] at ht
    obtain ⟨c, hc, hm⟩ := (C98_as_configured hw h.made n).1 s hs
    cases hm with
    | fan h1 h2 h3 => exact ⟨c, hc, h1, writesTo_target h3 p ht⟩
    | external h1 => cases ht
    | thermal h1 h2 h3 => cases ht

/-! ## The fan's writer and what it has written -/

/-- `wr` writes to `p` with limits `lim`, and if it goes through D-Bus, the value it remembers is what is at `p` -/
inductive WriterAt (p : String) (lim : Option (Int × Int)) (reg : Option Int) : Writer → Prop
  | dbus {old} : old = -1 ∨ reg = some old → WriterAt p lim reg (dbusWith p lim old)
  | sysfsPercent {a b} : lim = some (a, b) → WriterAt p lim reg (.sysfsPercent p a b)
  | sysfsRaw : lim = none → WriterAt p lim reg (.sysfsRaw p)

theorem WriterAt.target {p : String} {lim : Option (Int × Int)} {reg : Option Int} {wr : Writer} (h : WriterAt p lim reg wr) :
    wr.target = some p := by
  cases h with
  | dbus _ => cases lim <;> rfl
  | sysfsPercent _ => rfl
  | sysfsRaw _ => rfl

theorem castOr_ok {α : Type} {s : String} {x : Option α} {a : α} (h : castOr s x = .ok a) : x = some a := by
  cases x with
  | none => cases h
  | some b => cases h; rfl

theorem writerAt_write {p : String} {lim : Option (Int × Int)} {reg : Option Int} {wr : Writer} (h : WriterAt p lim reg wr)
    {busOk : String → Bool} (hb : busOk p = true) {v : Dbl} {force : Bool} {r : WriteResult}
    (hr : wr.write busOk v force = .ok r) :
    ∃ raw, rawCommand lim v = some raw ∧ WriterAt p lim (valueFrom p reg r.effect.toList) r.writer ∧
      (raw ≠ -1 → valueFrom p reg r.effect.toList = some raw) := by
  cases h with
  | @dbus old ho =>
    obtain ⟨raw, h1, h2, (⟨rfl, h3, h4⟩ | ⟨h3, h4, h5⟩)⟩ := dbusWith_write hr
    · rw [h2, h4]
      refine ⟨old, h1, .dbus ho, fun hn => ?_⟩
      rcases ho with ho | ho
      · exact absurd ho hn
      · exact ho
    · have : valueFrom p reg r.effect.toList = some raw := by
        rw [h5]; simp [valueFrom, hb]
      rw [this, h2]
      exact ⟨raw, h1, .dbus (.inr rfl), fun _ => rfl⟩
  | @sysfsPercent a b hl =>
    subst hl
    obtain ⟨raw, h1, h2⟩ := bind_eq_ok.1 hr
    cases h2
    exact ⟨raw, castOr_ok h1, .sysfsPercent rfl, fun _ => by simp [valueFrom]⟩
  | sysfsRaw hl =>
    subst hl
    obtain ⟨raw, h1, h2⟩ := bind_eq_ok.1 hr
    cases h2
    exact ⟨raw, castOr_ok h1, .sysfsRaw rfl, fun _ => by simp [valueFrom]⟩

/-- fan `n` alone writes to `p`, with limits `lim` -/
structure FanAt (n p : String) (lim : Option (Int × Int)) (w : World) : Prop where
  fan : ∃ s rd wr, w.sensors.find? n = some s ∧ s.impl = .pluggable rd wr ∧ WriterAt p lim (valueAt p w) wr
  alone : ∀ m, m ≠ n → targetOf w m ≠ some p
  works : w.busOk p = true

theorem fanAt_write {n p : String} {lim : Option (Int × Int)} {w w' : World} (h : FanAt n p lim w) {m sn : String} {v : Dbl}
    {force : Bool} {x : Option Int} (hw : w.writeSensor m v force = .ok (w', sn, x)) :
    FanAt n p lim w' ∧ (m ≠ n → valueAt p w' = valueAt p w) ∧
      (m = n → ∃ raw, rawCommand lim v = some raw ∧ (raw ≠ -1 → valueAt p w' = some raw)) := by
  obtain ⟨ht, effs, he, hsub, _⟩ := writeSensor_target hw
  obtain ⟨s, rd, wr, hs, hi, hwr⟩ := h.fan
  obtain ⟨s', rd', wr', res, hs', hi', hres, _, _, hw'⟩ := writeSensor_spec hw
  have hal : ∀ k, k ≠ n → targetOf w' k ≠ some p := fun k hk => by rw [ht]; exact h.alone k hk
  have hbo : w'.busOk p = true := by rw [hw']; exact h.works
  have hva : valueAt p w' = valueFrom p (valueAt p w) res.effect.toList := by
    rw [hw']; exact valueFrom_append _ _ _ _
  have hse : w'.sensors = w.sensors.insert m ⟨s'.name, s'.timeout, s'.ignoreFailIfHostOff, .pluggable rd' res.writer⟩ := by
    rw [hw']
  have htr : w'.trace = w.trace ++ res.effect.toList := by rw [hw']
  by_cases e : m = n
  · subst e
    rw [hs] at hs'; cases hs'
    rw [hi] at hi'; cases hi'
    obtain ⟨raw, h1, h2, h3⟩ := writerAt_write hwr h.works hres
    rw [← hva] at h2 h3
    exact ⟨⟨⟨_, _, _, by rw [hse]; exact OMap.find?_insert_self _ _ _, rfl, h2⟩, hal, hbo⟩, fun hn => absurd rfl hn,
      fun _ => ⟨raw, h1, h3⟩⟩
  · have hv : valueAt p w' = valueAt p w := by
      rw [hva]
      refine valueFrom_other (fun ef hef hp => h.alone m e ?_)
      have hin : ef.path ∈ (targetOf w m).toList := by
        have : effs = res.effect.toList := List.append_cancel_left (he.symm.trans htr)
        rw [this] at hsub
        exact hsub.subset (List.mem_map.2 ⟨ef, hef, rfl⟩)
      rw [hp] at hin
      simpa using hin
    refine ⟨⟨⟨s, rd, wr, ?_, hi, ?_⟩, hal, hbo⟩, fun _ => hv, fun hn => absurd hn e⟩
    · rw [hse]; exact (OMap.find?_insert_ne _ (fun a => e a.symm) _).trans hs
    · rw [hv]; exact hwr

theorem fanAt_commanded {n p : String} {lim : Option (Int × Int)} {v : Dbl} {force : Bool} {w w' : World} {ns : List String}
    (hc : Commanded v force w ns w') (h : FanAt n p lim w) :
    FanAt n p lim w' ∧ (n ∉ ns → valueAt p w' = valueAt p w) ∧
      (n ∈ ns → ∃ raw, rawCommand lim v = some raw ∧ (raw ≠ -1 → valueAt p w' = some raw)) := by
  induction hc with
  | nil w => exact ⟨h, fun _ => rfl, by simp⟩
  | @cons w w1 w2 m rest sn x h1 _ ih =>
    obtain ⟨a1, a2, a3⟩ := fanAt_write h h1
    obtain ⟨b1, b2, b3⟩ := ih a1
    refine ⟨b1, fun hn => ?_, fun hn => ?_⟩
    · rw [List.mem_cons, not_or] at hn
      rw [b2 hn.2, a2 (fun e => hn.1 e.symm)]
    · by_cases hr : n ∈ rest
      · exact b3 hr
      · obtain ⟨raw, c1, c2⟩ := a3 ((List.mem_cons.1 hn).resolve_right hr).symm
        exact ⟨raw, c1, fun hne => (b2 hr).trans (c2 hne)⟩

theorem fanAt_drives {n p : String} {lim : Option (Int × Int)} {force : Bool} {w w' : World} {l : List (FanPid × Dbl)}
    (hd : Drives force w l w') (h : FanAt n p lim w) :
    FanAt n p lim w' ∧ ((∀ x ∈ l, n ∉ x.1.inputs) → valueAt p w' = valueAt p w) ∧
      ((∃ x ∈ l, n ∈ x.1.inputs) → ∃ x ∈ l, n ∈ x.1.inputs ∧
        ∃ raw, rawCommand lim x.2 = some raw ∧ (raw ≠ -1 → valueAt p w' = some raw)) := by
  induction hd with
  | nil w => exact ⟨h, fun _ => rfl, by simp⟩
  | @cons w w1 w2 c v rest h1 _ ih =>
    obtain ⟨a1, a2, a3⟩ := fanAt_commanded h1 h
    obtain ⟨b1, b2, b3⟩ := ih a1
    refine ⟨b1, fun hn => ?_, fun hn => ?_⟩
    · rw [b2 (fun x hx => hn x (List.mem_cons_of_mem _ hx)), a2 (hn _ List.mem_cons_self)]
    · by_cases hr : ∃ x ∈ rest, n ∈ x.1.inputs
      · obtain ⟨x, hx, hx2, hx3⟩ := b3 hr
        exact ⟨x, List.mem_cons_of_mem _ hx, hx2, hx3⟩
      · obtain ⟨x, hx, hx2⟩ := hn
        rcases List.mem_cons.1 hx with rfl | hx
        · obtain ⟨raw, c1, c2⟩ := a3 hx2
          exact ⟨_, List.mem_cons_self, hx2, raw, c1,
            fun hne => (b2 (fun y hy hny => hr ⟨y, hy, hny⟩)).trans (c2 hne)⟩
        · exact absurd ⟨x, hx, hx2⟩ hr

theorem fanAt_tick {n p : String} {lim : Option (Int × Int)} {o : Opts} {w w' : World} {z z' : Zone} {cnt cnt' : Nat}
    (ht : z.tick o w cnt = .ok (w', z', cnt')) (h : FanAt n p lim w) : FanAt n p lim w' := by
  by_cases hm : z.d.manualMode = true
  · rw [tick_manual hm] at ht; cases ht; exact h
  · obtain ⟨d, _, ⟨-, zt, _, h3, -⟩ | ⟨-, h3, -⟩⟩ := tick_auto (by simpa using hm) ht <;>
    · obtain ⟨l, _, _, h4, _⟩ := processFans_spec h3
      exact (fanAt_drives h4 h).1

theorem fanAt_set {n p : String} {lim : Option (Int × Int)} {d : Daemon} (h : FanAt n p lim d.w) {k : String} {s s' : Sensor}
    (hs : d.w.sensors.find? k = some s)
    (hi : s'.impl = s.impl ∨ (∃ a b wr, s.impl = .pluggable a wr ∧ s'.impl = .pluggable b wr) ∨
      ∃ a b a' b', s.impl = .host a b ∧ s'.impl = .host a' b') : FanAt n p lim (d.setSensor k s').w := by
  have ht : ∀ m, targetOf (d.setSensor k s').w m = targetOf d.w m := by
    refine setSensor_target hs ?_
    rcases hi with hi | ⟨a, b, wr, h1, h2⟩ | ⟨a, b, a', b', h1, h2⟩
    · rw [hi]
    · rw [h1, h2]
    · rw [h1, h2]
  refine ⟨?_, fun m hm => by rw [ht]; exact h.alone m hm, h.works⟩
  obtain ⟨s0, rd, wr, hs0, hi0, hwr⟩ := h.fan
  by_cases e : n = k
  · subst e
    rw [hs] at hs0
    cases hs0
    have hf : (d.setSensor n s').w.sensors.find? n = some s' := OMap.find?_insert_self _ _ _
    rcases hi with hi | ⟨a, b, wr', h1, h2⟩ | ⟨a, b, a', b', h1, h2⟩
    · exact ⟨_, _, _, hf, hi.trans hi0, hwr⟩
    · rw [hi0] at h1; cases h1
      exact ⟨_, _, _, hf, h2, hwr⟩
    · rw [hi0] at h1; cases h1
  · exact ⟨s0, rd, wr, (OMap.find?_insert_ne _ e _).trans hs0, hi0, hwr⟩

theorem fanAt_step {n p : String} {lim : Option (Int × Int)} {o : Opts} {d d' : Daemon} {e : DEvent}
    (hst : d.step o e = .ok d') (hb : BusWorks p e) (h : FanAt n p lim d.w) : FanAt n p lim d'.w := by
  cases e with
  | outside nf nt ho rf fi bo => cases hst; exact ⟨h.fan, h.alone, hb⟩
  | signal k t msg =>
    have hst : d.signal o k t msg = .ok d' := hst
    unfold Daemon.signal at hst
    split at hst
    · next s hs =>
      split at hst
      · next q wr hi =>
        obtain ⟨p', hp, hst⟩ := bind_eq_ok.1 hst
        cases hst
        exact fanAt_set h hs (.inr (.inl ⟨_, _, _, hi, rfl⟩))
      · cases hst; exact h
    · cases hst; exact h
  | hostWrite k t v =>
    simp only [Daemon.step] at hst
    split at hst
    · next s hs =>
      cases hst
      refine fanAt_set h hs ?_
      unfold Sensor.hostWrite
      split
      · next hi => exact .inr (.inr ⟨_, _, _, _, hi, rfl⟩)
      · exact .inl rfl
    · cases hst; exact h
  | manual j b => cases hst; rw [onZone_w]; exact h
  | enable j l b => cases hst; rw [onZone_w]; exact h
  | tick j =>
    simp only [Daemon.step] at hst
    split at hst
    · obtain ⟨⟨w', z', cnt'⟩, h1, hst⟩ := bind_eq_ok.1 hst
      cases hst
      exact fanAt_tick h1 h
    · cases hst; exact h

theorem fanAt_run {n p : String} {lim : Option (Int × Int)} {o : Opts} : ∀ {es : List DEvent} {d d' : Daemon},
    d.run o es = .ok d' → (∀ e ∈ es, BusWorks p e) → FanAt n p lim d.w → FanAt n p lim d'.w
  | [], _, _, h, _, hf => by cases h; exact hf
  | _ :: _, _, _, h, hb, hf => by
    obtain ⟨d1, h1, h2⟩ := bind_eq_ok.1 h
    exact fanAt_run h2 (fun e he => hb e (List.mem_cons_of_mem _ he)) (fanAt_step h1 (hb _ List.mem_cons_self) hf)

theorem fanAt_launched {o : Opts} {bus : BuildBus} {now : Int} {w : World} {sensors : OMap String SensorConfig}
    {pids : OMap Int PIDConf} {configs : OMap Int ZoneConfig} {d : Daemon} (hw : sensors.WF)
    (hl : Daemon.launch o bus now w sensors pids configs = .ok d) {n p : String} {c : SensorConfig}
    (hc : sensors.find? n = some c) (ht : c.type = "fan") (hp : WritePath bus.dirs c p) (ho : OnlyFan bus.dirs sensors n p)
    (hb : w.busOk p = true) (htr : w.trace = []) : FanAt n p (limitsOf c) d.w := by
  obtain ⟨m, zones, h⟩ := launch_spec hl
  obtain ⟨s, hs, hm⟩ := (C98_as_configured hw h.made n).2 c hc (by rw [ht]; simp)
  refine ⟨?_, fun k hk hkt => ?_, by rw [h.world]; exact hb⟩
  · have hv : valueAt p d.w = none := by rw [h.world, valueAt, htr]; rfl
    rw [hv]
    have hs' : d.w.sensors.find? n = some s := by rw [h.world]; exact hs
    cases hm with
    | fan _ hr hwr =>
      refine ⟨_, _, _, hs', rfl, ?_⟩
      cases hwr with
      | sysfsPercent h1 h2 h3 =>
        cases hp with
        | dbus h4 => have := (C65_write _ _).2 h1; rw [(C65_write _ _).2 h4] at this; cases this
        | sysfs _ h5 =>
          have := fixup_iff.2 h2
          rw [fixup_iff.2 h5] at this
          cases this
          exact .sysfsPercent (by rw [limitsOf, if_pos h3])
      | sysfsRaw h1 h2 h3 =>
        cases hp with
        | dbus h4 => have := (C65_write _ _).2 h1; rw [(C65_write _ _).2 h4] at this; cases this
        | sysfs _ h5 =>
          have := fixup_iff.2 h2
          rw [fixup_iff.2 h5] at this
          cases this
          exact .sysfsRaw (by rw [limitsOf, if_neg (by omega)])
      | dbusPercent h1 h2 =>
        cases hp with
        | dbus h4 =>
          have : WriterAt c.writePath (limitsOf c) none (dbusWith c.writePath (limitsOf c) (-1)) := .dbus (.inl rfl)
          rw [limitsOf, if_pos h2] at this ⊢
          exact this
        | sysfs h4 _ => have := (C65_write _ _).2 h1; rw [(C65_write _ _).2 h4] at this; cases this
      | dbusRaw h1 h2 =>
        cases hp with
        | dbus h4 =>
          have : WriterAt c.writePath (limitsOf c) none (dbusWith c.writePath (limitsOf c) (-1)) := .dbus (.inl rfl)
          rw [limitsOf, if_neg (by omega)] at this ⊢
          exact this
        | sysfs h4 _ => have := (C65_write _ _).2 h1; rw [(C65_write _ _).2 h4] at this; cases this
      | nothing h1 =>
        cases hp with
        | dbus h4 => rcases h1 with h1 | h1 <;> (have := (C65_write _ _).2 h1; rw [(C65_write _ _).2 h4] at this; cases this)
        | sysfs h4 _ => rcases h1 with h1 | h1 <;> (have := (C65_write _ _).2 h1; rw [(C65_write _ _).2 h4] at this; cases this)
    | external he =>
      have := he.1
      rw [ht] at this
      simp at this
    | thermal h1 _ _ =>
      rw [ht] at h1
      simp at h1
  · obtain ⟨c', h1, h2, h3⟩ := launched_target hw h hkt
    exact ho k c' hk h1 h2 h3

/-! ## Larger commands, larger numbers -/

omit F in
theorem toI64_nonneg_mono {q q' : Rat} {r : Int} (h0 : 0 ≤ q) (hq : q ≤ q') (hr : truncQ q' ≤ r) :
    0 ≤ truncQ q ∧ truncQ q ≤ r := by
  rw [truncQ, if_pos h0]
  rw [truncQ, if_pos (le_trans h0 hq)] at hr
  exact ⟨Int.floor_nonneg.2 h0, le_trans (Int.floor_le_floor hq) hr⟩

theorem toI64_mono {x y : Dbl} {r : Int} (h0 : 0 ≤ x) (h : x ≤ y) (hy : y.toI64 = some r) :
    ∃ s, x.toI64 = some s ∧ 0 ≤ s ∧ s ≤ r := by
  obtain ⟨q, hq, rfl, rfl, hlo, hhi⟩ := castInt_some hy
  cases x with
  | nan => simp at h
  | pinf => simp at h
  | ninf => simp [zero_eq] at h0
  | fin q0 hq0 =>
    rw [zero_eq, fin_le_fin] at h0
    rw [fin_le_fin] at h
    obtain ⟨a, b⟩ := toI64_nonneg_mono h0 h (le_refl _)
    exact ⟨truncQ q0, by rw [toI64, castInt, if_pos ⟨by omega, by omega⟩], a, b⟩

end Verif
