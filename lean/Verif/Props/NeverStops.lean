import Verif.Lemmas.NeverStops
import Verif.Props.Ranges

/-! # C130: the daemon never brings itself down -/

namespace Verif
open Dbl

section
variable [F : FloatModel]

/-! ## The state after launch -/

theorem capped_launched {o : Opts} (ho : o.tuningEnabled = false) {w : World} {i : Int} {conf : PIDConf} {c : ZoneConfig} {zb z0 : Zone}
    (hN : NewZone i c conf.entries zb) (hz0 : zb.start o w = .ok z0) (hacc : c.accumulateSetPoint = false)
    (hceil : ∀ e ∈ conf.entries, e.2.type = "stepwise" → e.2.stepwiseInfo.isCeiling = false) {y : Dbl} (h0 : 0 ≤ y)
    (hmin : c.minThermalOutput ≤ y) (hcap : ∀ e ∈ conf.entries, IsHeat e → Capped e y) :
    (∃ ct ti fk, QuietZone (CappedLoop y) (conf.entries.filter IsHeat) ct ti c.minThermalOutput fk false z0) ∧
      0 ≤ z0.d.maximumSetPoint ∧ z0.d.maximumSetPoint ≤ y := by
  have eq := (initializeCache_spec zb.d).eq
  have e1 : zb.d.initializeCache.accumulateSetPoint = zb.d.accumulateSetPoint := by rw [eq]
  have e2 : zb.d.initializeCache.cycleTime = zb.d.cycleTime := by rw [eq]
  have e3 : zb.d.initializeCache.thermalInputs = zb.d.thermalInputs := by rw [eq]
  have e4 : zb.d.initializeCache.minThermalOutputSetPt = zb.d.minThermalOutputSetPt := by rw [eq]
  have hloops : List.Forall₂ (CappedLoop y) (conf.entries.filter IsHeat) zb.thermals := by
    have key : ∀ {es : List Entry} {cs : List ThermalCtl}, (∀ e ∈ es, e ∈ conf.entries.filter IsHeat) →
        List.Forall₂ HeatLoop es cs → List.Forall₂ (CappedLoop y) es cs := by
      intro es cs hes h
      induction h with
      | nil => exact .nil
      | cons hx _ ih =>
        obtain ⟨a, b⟩ := List.mem_filter.1 (hes _ List.mem_cons_self)
        exact .cons (.start h0 (hcap _ a (by simpa using b)) (hceil _ a) hx) (ih (fun e he => hes e (List.mem_cons_of_mem _ he)))
    exact key (fun _ h => h) hN.thermals
  obtain ⟨a, b⟩ := capped_thermals (z := { zb with d := zb.d.initializeCache }) (min := c.minThermalOutput) ho h0 hmin
    ⟨e1.trans (hN.accumulateSetPoint.trans hacc), e2.trans hN.cycleTime, e3, e4.trans hN.minThermalOutput, hloops, rfl⟩ hz0
  exact ⟨⟨_, _, _, a⟩, b⟩

theorem goodFans_launched {o : Opts} {w : World} {i : Int} {conf : PIDConf} {c : ZoneConfig} {zb z0 : Zone}
    (hN : NewZone i c conf.entries zb) (hz0 : zb.start o w = .ok z0)
    (hf : ∀ f ∈ conf.entries, IsFan f → ModerateFan f.2.pidInfo) :
    FanLoops (conf.entries.filter IsFan) zb.d.fanInputs (fun _ => True) (fun _ c => GoodFan c) z0 := by
  have eq := (initializeCache_spec zb.d).eq
  have e3 : zb.d.initializeCache.fanInputs = zb.d.fanInputs := by rw [eq]
  have hz0 : Zone.processThermals o w { zb with d := zb.d.initializeCache } = .ok z0 := hz0
  obtain ⟨d2, h6, h7⟩ := processThermals_rest hz0
  have e1 : z0.d.fanInputs = d2.fanInputs := by rw [h7]
  have e2 : d2.fanInputs = zb.d.initializeCache.fanInputs := by rw [(pollAll_spec h6).frame.eq]
  refine ⟨e1.trans (e2.trans e3), ?_⟩
  rw [(thermalTick_flags hz0).2.2, show ({ zb with d := zb.d.initializeCache } : Zone).fans = zb.fans from rfl, hN.fans]
  have key : ∀ {fs : List Entry}, (∀ e ∈ fs, e ∈ conf.entries.filter IsFan) →
      List.Forall₂ (fun e oc => ∀ c, oc = some c → c.inputs = e.2.inputs.map SensorInput.name ∧
        c.ctl.info.toPidConf = e.2.pidInfo ∧ (True → GoodFan c.ctl)) fs (fs.map fanOf) := by
    intro fs hfs
    induction fs with
    | nil => exact .nil
    | cons e fs ih =>
      refine .cons ?_ (ih (fun e he => hfs e (List.mem_cons_of_mem _ he)))
      intro c hc
      obtain ⟨a, b⟩ := List.mem_filter.1 (hfs e List.mem_cons_self)
      unfold fanOf at hc
      split_ifs at hc
      cases hc
      have zero := percentage_size (F := F) zero_percentage
      exact ⟨rfl, rfl, fun _ => ⟨hf e a (by simpa using b), zero_percentage, zero.mono (by norm_num), zero.mono (by norm_num), by simp [isFinite]⟩⟩
  exact key (fun _ h => h)

theorem writersFine_launched {o : Opts} {bus : BuildBus} {now : Int} {w : World} {sensors : OMap String SensorConfig}
    {pids : OMap Int PIDConf} {configs : OMap Int ZoneConfig} {m : Manager} {zones : OMap Int Zone} {d : Daemon} (hw : sensors.WF)
    (h : Launched o bus now w sensors pids configs m zones d)
    (hlim : ∀ n c, sensors.find? n = some c → c.type = "fan" → LimitsOk c) : WritersFine d.w := by
  intro n s rd wr hs hi
  rw [h.world] at hs
  have hs : m.sensors.find? n = some s := hs
  obtain ⟨c, hc, hm⟩ := (C98_as_configured hw h.made n).1 s hs
  cases hm with
  | fan ht _ hwr =>
    cases hi
    have hl := hlim n c hc ht
    cases hwr with
    | sysfsPercent _ _ h3 => exact hl h3
    | dbusPercent _ h3 => exact hl h3
    | sysfsRaw | dbusRaw | nothing => trivial
  | external _ => cases hi
  | thermal _ _ _ => cases hi; trivial

/-- **C130** The daemon never brings itself down. Let the sensors suit the zones, let the limits of the fans be in order, let the
set points of every zone be bounded by the tables and limits of its loops, and let the fan loops have settings of moderate size
(whatever parts of the controller they use). Then every sequence of events runs to its end, however long it is and in whatever
order things happen: sensors fail and recover or report any number or none, the host is switched on and off, zones go to manual
mode and back, loops are switched on and off, writes to fans fail. All that is asked of the world is that the files sensors are
read from can be read, that alarms and availability are reported as true or false, and that no fan claims to turn faster than
about a million. -/
theorem C130_never_stops {o : Opts} (ho : o.tuningEnabled = false) {bus : BuildBus} {now : Int} {w : World}
    {sensors : OMap String SensorConfig} {pids : OMap Int PIDConf} {configs : OMap Int ZoneConfig} (hf : Suits sensors pids configs)
    (hlim : ∀ n c, sensors.find? n = some c → c.type = "fan" → LimitsOk c)
    (hb : ∀ i conf c, pids.find? i = some conf → configs.find? i = some c → BoundedZone c conf.entries)
    (hfi : FilesOk o bus.dirs sensors w.files) {d : Daemon} (hl : Daemon.launch o bus now w sensors pids configs = .ok d)
    {es : List DEvent} (hes : ∀ e ∈ es, EventOk o bus.dirs sensors e ∧ WellTyped e)
    (hv : ∀ i conf, pids.find? i = some conf → ∀ f ∈ conf.entries, IsFan f → Speeds o i f.2 Moderate d es) :
    ∃ d1, d.run o es = .ok d1 := by
  induction es using List.reverseRecOn with
  | nil => exact ⟨d, rfl⟩
  | append_singleton es e ih =>
    obtain ⟨d1, hr⟩ := ih (fun e' he => hes e' (List.mem_append_left _ he)) (fun i conf hp f hfm hff => (hv i conf hp f hfm hff).left)
    obtain ⟨he, hty⟩ := hes e (List.mem_append_right _ List.mem_cons_self)
    have hes' : ∀ e' ∈ es, EventOk o bus.dirs sensors e' := fun e' h => (hes e' (List.mem_append_left _ h)).1
    rcases C99_keeps_running hf hfi hl hes' hr he with ⟨d2, h2⟩ | ⟨i, x, rfl, hx, h2⟩ | ⟨n, t, m, rfl, hm, _⟩
    · refine ⟨d2, run_append.2 ⟨d1, hr, ?_⟩⟩
      unfold Daemon.run
      rw [h2, ok_bind]
      rfl
    · exfalso
      obtain ⟨m, zones, hL⟩ := launch_spec hl
      have hi := dinv_run hf hL.built (launched_inv hf hfi hL) hes' hr
      have hwc : ∀ e ∈ pids.entries, OMap.WF e.2 := fun e he => hf.loopsWf e.1 e.2 ((OMap.mem_entries_iff hf.pidsWf _ _).1 he)
      simp only [Daemon.step] at h2
      cases hz : d1.zones.find? i with
      | none => rw [hz] at h2; cases h2
      | some q =>
        obtain ⟨z, cnt⟩ := q
        rw [hz] at h2
        dsimp only at h2
        obtain ⟨zb, log, hzb, hh, hok⟩ := hi.zones i z cnt hz
        obtain ⟨conf, c, hp, hcc, hN, _⟩ := suits_newZone hf hL.built hzb
        obtain ⟨z0, hz0, hf0⟩ := hL.started i zb hzb
        have hB := hb i conf c hp hcc
        obtain ⟨y, y0, ym, ymin, ycap⟩ := hB.bound
        obtain ⟨⟨ct, ti, fk, hq⟩, hset⟩ := capped_launched ho hN hz0 hB.single hB.ceilings y0 ymin ycap
        obtain ⟨z1, cnt1, g1, g2, g3⟩ := capped_run ho y0 ymin hr hf0 hq hset
        rw [hz] at g1
        cases g1
        have hfi' : ∀ e ∈ conf.entries.filter IsFan, ∀ j ∈ e.2.inputs, j.name ∈ zb.d.fanInputs := fun e he j hj => by
          rw [hN.fanInputs]
          exact List.mem_flatMap.2 ⟨e, he, List.mem_map.2 ⟨j, hj, rfl⟩⟩
        have hfs : ∀ e ∈ conf.entries.filter IsFan, e ∈ conf.entries ∧ IsFan e := fun e he => by
          obtain ⟨a, b⟩ := List.mem_filter.1 he
          exact ⟨a, by simpa using b⟩
        obtain ⟨z2, cnt2, k1, k2, _⟩ := fanLoops_run (I := fun _ _ c => GoodFan c) (n := 0)
          (B := fun _ s v => Moderate s ∧ Moderate v) hfi'
          (fun n e he hs ctl s v hcf hI hb => (pidStep_good hI hb.2.sizeUpTo hb.1.sizeUpTo).2) hr hf0
          (goodFans_launched hN hz0 hB.fans)
          (fun es1 es2 da db hes1 h1 ha h3 s hs e he _ v hv' => by
            have hr2 : d.run o (es1 ++ [.tick i]) = .ok db := by
              refine run_append.2 ⟨da, h1, ?_⟩
              unfold Daemon.run
              rw [h3, ok_bind]
              rfl
            exact ⟨bounded_size ym (C119_set_points ho hf.pidsWf hwc hl hp hcc hB.single hB.ceilings y0 ymin ycap hr2 hs),
              (hv i conf hp e (hfs e he).1 (hfs e he).2).left es1 es2 da hes1 h1 ha v hv'⟩)
        rw [hz] at k1
        cases k1
        have hsafe : SafePercents zb.d := by
          refine ⟨fun s => ?_, by rw [hN.failsafePercent]; exact hB.failsafe.2⟩
          exact (percentOf_of hN (percentsFor_ne_nan (fun e he => ne_nan_of_le_left (hB.failsafe.1 e he).2) s)).holds
            hB.failsafe.1 hB.failsafe.2
        rcases bind_eq_err.1 h2 with h2 | ⟨_, _, h2⟩
        · exact tick_noCast ho y0 ym ymin hfi' hok (dinv_world hf hL.built hi hz)
            (writersFine_run hr (writersFine_launched hf.sensorsWf hL hlim)) g2 g3 k2 hh.inv hsafe
            (fun hm e he v hv' => hv i conf hp e (hfs e he).1 (hfs e he).2 es [] d1 rfl hr ⟨z, cnt, hz, hm⟩ v hv') h2 hx
        · cases h2
    · exact absurd hm hty

/-- **C130** Such a daemon launches, if every sensor can be made, and then runs for ever. -/
theorem C130_launches {o : Opts} (ho : o.tuningEnabled = false) {bus : BuildBus} {now : Int} {w : World}
    {sensors : OMap String SensorConfig} {pids : OMap Int PIDConf} {configs : OMap Int ZoneConfig} (hf : Suits sensors pids configs)
    (hm : ∀ n c, sensors.find? n = some c → CanMake o bus now n c)
    (hlim : ∀ n c, sensors.find? n = some c → c.type = "fan" → LimitsOk c)
    (hb : ∀ i conf c, pids.find? i = some conf → configs.find? i = some c → BoundedZone c conf.entries)
    (hfi : FilesOk o bus.dirs sensors w.files) :
    ∃ d, Daemon.launch o bus now w sensors pids configs = .ok d ∧ ∀ es, (∀ e ∈ es, EventOk o bus.dirs sensors e ∧ WellTyped e) →
      (∀ i conf, pids.find? i = some conf → ∀ f ∈ conf.entries, IsFan f → Speeds o i f.2 Moderate d es) →
      ∃ d1, d.run o es = .ok d1 := by
  obtain ⟨d, hl⟩ := C99_launches hf hm hfi
  exact ⟨d, hl, fun es hes hv => C130_never_stops ho hf hlim hb hfi hl hes hv⟩

end

namespace Ex
section
attribute [local instance] binary64

theorem pids119_find {i : Int} {conf : PIDConf} (h : pids119.find? i = some conf) : i = 1 ∧ conf = loops119 := by
  unfold pids119 at h
  by_cases hi : i = 1
  · subst hi
    rw [OMap.find?_insert_self] at h
    cases h; exact ⟨rfl, rfl⟩
  · rw [OMap.find?_insert_ne _ hi, OMap.find?_empty] at h
    cases h

theorem suits130 : Suits sensors99 pids119 zones99 where
  sensorsWf := sensors99_wf
  pidsWf := pids119_wf
  loopsWf i conf h := by rw [(pids119_find h).2]; exact loops119_wf
  zone := ⟨1, loops119, by unfold pids119; rw [OMap.find?_insert_self]⟩
  details i conf h := by rw [(pids119_find h).1]; exact ⟨zone99, by unfold zones99; rw [OMap.find?_insert_self]⟩
  loops i conf h := by
    rw [(pids119_find h).2]
    refine ⟨⟨by decide +kernel, ?_⟩, by decide +kernel⟩
    intro e he ht
    have : e.2.type ≠ "margin" := by revert e; decide +kernel
    exact absurd ht this
  inputs i conf h e he _ x hx := by
    rw [(pids119_find h).2] at he
    have key : ∀ e ∈ loops119.entries, ∀ x ∈ e.2.inputs, (sensors99.find? x.name).any (fun c =>
        decide (KnownType c.type) && decide (getReadInterfaceType c.readPath = .dbusPassive)) = true := by decide +kernel
    have := key e he x hx
    cases hc : sensors99.find? x.name with
    | none => rw [hc] at this; cases this
    | some c =>
      rw [hc] at this
      simp only [Option.any_some, Bool.and_eq_true, decide_eq_true_eq] at this
      have hk := (C65_read _ _).1 this.2
      exact ⟨c, rfl, ⟨this.1, .inl hk⟩, fun _ he => by cases readKind_unique hk (.external he.2)⟩

theorem limits130 (n : String) (c : SensorConfig) (hc : sensors99.find? n = some c) (_ : c.type = "fan") : LimitsOk c := by
  have key : ∀ e ∈ sensors99.entries, 0 ≤ e.2.min ∧ e.2.min ≤ e.2.max ∧ e.2.max ≤ 2 ^ 53 := by decide +kernel
  exact fun _ => key _ ((OMap.mem_entries_iff sensors99_wf n c).2 hc)

theorem bounded130 : BoundedZone zone99 loops119.entries where
  single := rfl
  ceilings := by decide +kernel
  bound := by
    refine ⟨3000, by decide +kernel, by decide +kernel, by decide +kernel, fun e he hh => ?_⟩
    rcases loops119_mem he with rfl | rfl
    · exact absurd hh (by decide +kernel)
    · exact .table rfl (by decide +kernel)
  fans f hf hff := by
    rcases loops119_mem hf with rfl | rfl
    · exact ⟨⟨by unfold SaneSlew; decide +kernel, by decide +kernel, by decide +kernel, by decide +kernel⟩, by decide +kernel,
        by decide +kernel, by decide +kernel, by decide +kernel, ⟨1, FloatModel.rep_one, one_eq, by norm_num, by norm_num⟩⟩
    · exact absurd hff (by decide +kernel)
  failsafe := by unfold Percentage; decide +kernel

theorem canMake130 (n : String) (c : SensorConfig) (hc : sensors99.find? n = some c) : CanMake {} bus103 0 n c := by
  have key : ∀ e ∈ sensors99.entries, (DbusSensor {} bus103 0 e.1 e.2).isSome = true := by decide +kernel
  have key2 : ∀ e ∈ sensors99.entries, getReadInterfaceType e.2.readPath ≠ .sysfs ∧
      findSub "**".toList e.2.writePath.toList = none := by decide +kernel
  have hm := (OMap.mem_entries_iff sensors99_wf n c).2 hc
  exact ⟨fun _ => Option.isSome_iff_exists.1 (key _ hm), fun hk => absurd ((C65_read _ _).2 hk) (key2 _ hm).1, fun _ _ => rfl,
    fun _ _ => ⟨_, .plain (fun h => by rw [← findSub_isSome, (key2 _ hm).2] at h; cases h)⟩⟩

/-- C130: the daemon of C119, whose fan loop has an integral part, runs whatever happens -/
theorem runs130 : ∃ d, Daemon.launch {} bus103 0 world99 sensors99 pids119 zones99 = .ok d ∧
    ∀ es, (∀ e ∈ es, EventOk {} bus103.dirs sensors99 e ∧ WellTyped e) → Speeds {} 1 fans119 Moderate d es →
      ∃ d1, d.run {} es = .ok d1 := by
  obtain ⟨d, hl, h⟩ := C130_launches (o := {}) (w := world99) rfl suits130 canMake130 limits130
    (fun i conf c hp hc => by
      obtain ⟨rfl, rfl⟩ := pids119_find hp
      unfold zones99 at hc
      rw [OMap.find?_insert_self] at hc
      cases hc
      exact bounded130) (filesOk99 bus103.dirs)
  refine ⟨d, hl, fun es hes hv => h es hes (fun i conf hp f hf hff => ?_)⟩
  obtain ⟨rfl, rfl⟩ := pids119_find hp
  rcases loops119_mem hf with rfl | rfl
  · exact hv
  · exact absurd hff (by decide +kernel)

/-- the processor reports 2^1023 degrees, its alarm goes on and off, the zone is in manual mode for a while -/
def story130 : List DEvent :=
  [.tick 1, .signal "fan0" 1 (temp103 900), .signal "cpu" 1 (temp103 (2 ^ 1023)), .tick 1, .tick 1,
    .signal "cpu" 2 (alarm99 true), .tick 1, .manual 1 true, .tick 1, .manual 1 false, .tick 1, .signal "cpu" 3 (alarm99 false),
    .tick 1, .signal "nosuch" 4 (temp103 5), .tick 2, .tick 1]

/-- … all hypotheses hold for this story -/
example : ∃ d d1, Daemon.launch {} bus103 0 world99 sensors99 pids119 zones99 = .ok d ∧ d.run {} story130 = .ok d1 := by
  obtain ⟨d', hl', hb⟩ := ok_of_any (x := Daemon.launch {} bus103 0 world99 sensors99 pids119 zones99)
    (P := fun d : Daemon => speedB 1 "fan0" (fun v => decide (Moderate v)) d story130) (by decide +kernel)
  obtain ⟨d, hl, h⟩ := runs130
  rw [hl'] at hl
  cases hl
  obtain ⟨d1, h1⟩ := h story130 (by
    have ta : ∀ t, ¬ WrongType (temp103 t) := by
      rintro t ⟨n, v, h1, _⟩
      simp [temp103, switches, ifSensorValue] at h1
    have al : ∀ b, ¬ WrongType (alarm99 b) := by
      rintro b ⟨n, v, _, h2, h3⟩
      simp only [alarm99] at h2
      rw [OMap.find?_insert, OMap.find?_empty] at h2
      split_ifs at h2
      cases h2
      exact h3 b rfl
    intro e he
    simp only [story130, List.mem_cons, List.not_mem_nil, or_false] at he
    rcases he with rfl | rfl | rfl | rfl | rfl | rfl | rfl | rfl | rfl | rfl | rfl | rfl | rfl | rfl | rfl | rfl <;>
      first | exact ⟨trivial, trivial⟩ | exact ⟨trivial, ta _⟩ | exact ⟨trivial, al _⟩)
    (speed_of (u := { name := "fan0" }) rfl (fun v hv => of_decide_eq_true hv) (by decide +kernel) hb)
  exact ⟨d', d1, hl', h1⟩

/-- the fan loop of C119 with eight samples each second -/
def fans130 : ControllerInfo := { fans119 with pidInfo := { fans119.pidInfo with ts := 1 / 8 } }
def pids130 : OMap Int PIDConf :=
  ({} : OMap Int PIDConf).insert 1 ((({} : PIDConf).insert "fans" fans130).insert "steps" steps119)
def run130 (es : List DEvent) : Res Daemon := do
  let d ← Daemon.launch {} bus103 0 world99 sensors99 pids130 zones99
  d.run {} es

/-- The bound on the speed of fans is needed: a single absurd, but finite speed makes the change of the error infinite. Times a
derivative coefficient of 0 that is not a number, and casting it to an integer is undefined. -/
theorem C130_huge : (∃ d, run130 [.signal "fan0" 1 (temp103 900), .tick 1, .tick 1] = .ok d) ∧
    run130 [.signal "fan0" 1 (temp103 900), .tick 1, .signal "fan0" 2 (temp103 (2 ^ 1023)), .tick 1] =
      .error (.ub "cast to int64_t") := by
  have key : ((run130 [.signal "fan0" 1 (temp103 900), .tick 1, .tick 1]).toOption.isSome &&
      match run130 [.signal "fan0" 1 (temp103 900), .tick 1, .signal "fan0" 2 (temp103 (2 ^ 1023)), .tick 1] with
      | .error (.ub s) => decide (s = "cast to int64_t")
      | _ => false) = true := by decide +kernel
  rw [Bool.and_eq_true] at key
  obtain ⟨k1, k2⟩ := key
  constructor
  · generalize run130 _ = x at k1
    cases x with
    | error => cases k1
    | ok d => exact ⟨d, rfl⟩
  · split at k2
    · rename_i h
      rw [h, of_decide_eq_true k2]
    · cases k2

end
end Ex
end Verif
