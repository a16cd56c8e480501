import Verif.Spec.BusTables
import Verif.Props.AlarmFile
import Verif.Props.BusWritten

/-!
# From the configuration over D-Bus to fans that an alarm or heat holds across a reload (C153)

C151 and C152 for the configuration that is read from the bus when there is no file (main.cpp:153-161).
-/

namespace Verif
open Dbl
section
variable [F : FloatModel]

/-- what a reload reads when there is no file -/
theorem read_bus {r : Found} (hs : Source r.conf r.files none) {c : DbusCfg} (hc : busInit r.objects r.order = .ok (true, c)) :
    r.read = .got ⟨c.sensors, c.pids, c.zones⟩ := by
  unfold Found.read
  rcases source_path r.conf r.files with ⟨h1, h2⟩ | ⟨h1, h2⟩
  · exact absurd (source_unique hs h2) (by simp)
  · dsimp only
    rw [if_neg (by rw [h1]; exact Bool.noConfusion), hc]

/-- **C153** An alarm, from the configuration on the bus to the fan, across a reload: let the configuration that a reload reads from
the bus have a zone that cannot do without a sensor, whose object shows a critical alarm when it is looked at. As long as the alarm
is not withdrawn and the zone stays in automatic mode, every fan of the zone was, from the first cycle of the zone after the reload
on, last told at least the number for the percentages demanded there. -/
theorem C153_alarm {o : Opts} (ho : o.tuningEnabled = false) {s1 s0 s : Whole} {r : Found}
    (hre : s1.step o (.reload r) = .ok s0) (hall : s0.AllRun) (hsrc : Source r.conf r.files none) {objs : List BusObject}
    {reply : SubTree} {sel : List String} (hB : OnTheBus objs r.objects reply sel) {c : DbusCfg}
    (hc : busInit r.objects r.order = .ok (true, c)) :
      ∀ zone zp i, ZoneCalled (Active sel (confsOf objs)) zone zp → c.numbers.find? zone = some i →
      Tidy (Active sel (confsOf objs)) zone → NoNegative (Active sel (confsOf objs)) zone →
      ∀ n, NeededFor (Active sel (confsOf objs)) (r.objects.view r.order reply) zone n →
      SensorFor (r.objects.view r.order reply) sel (confsOf objs) n →
      ∀ b own, r.bus.passive n = SensorBus.answers o b → FirstOwner b own → AlarmIs o (b.object own) true →
      ∀ es, s0.run o (es.map .event) = .ok s → (∀ x ∈ signalsFor n es, alarmIn o x ≠ some false) →
      (∀ es1 es2, es = es1 ++ es2 → modeAfter i false es1 = false) → .tick i ∈ es →
      ∀ p, DemandedFor (Active sel (confsOf objs)) (r.objects.view r.order reply) zone n p →
      ∀ fan path, FanFor (r.objects.view r.order reply) sel (confsOf objs) zone fan path → s1.d.w.busOk path = true →
      (∀ e ∈ es, BusWorks path e) → WrittenAtLeast 0 255 path (p / 100) s.d.w := by
  obtain ⟨l, hp, hwl, hdl, hi⟩ := read_from_bus hB hc
  have hread := (C108_bus_suits hB.subTree hB.mapper hB.managers hB.arranged hB.configured hB.sorted hB.missing hB.profiles hB.suits
    hc).2
  rw [← active_eq hp]
  intro zone zp i hz hzi hT hnn n hneed hsens b own hpas hown hal es hr hsig hauto hti p hdem fan path hff hbus hbw
  have hsens := hsens.perm hp
  have hff := hff.perm hp
  obtain ⟨-, htyped⟩ := dbusInit_typed (b := r.objects.view r.order reply) hB.missing hi
  obtain ⟨z, pc, g1, g2, g3, hall', hpres, hss, e, he, hF, x, hx, rfl, hoz, fs, hfo, hlim⟩ :=
    zone_bus hwl hdl hi hz hzi hT hff r.bus.dirs
  have hmust := mustRead_bus hall' hpres hneed
  obtain ⟨s', hs⟩ : ∃ s, c.sensors.find? n = some s := by
    obtain ⟨e', he', -, x', hx', rfl⟩ := hmust.1
    exact hss e' he' x' hx'
  obtain ⟨hua, hho⟩ := sensor_bus hwl hi hsens hs
  have hz0 : 0 ≤ z.failsafePercent := by
    rcases g2.failsafePercent with hz' | ⟨-, hz'⟩
    · exact hnn.zone _ _ hz hz'
    · rw [hz']; exact Dbl.le_refl (by rw [zero_eq]; simp)
  obtain ⟨q, q1, q2⟩ := alarm_reload ho hre hall (read_bus hsrc hc) g1 g3 hmust
    (fun e he => Dbl.ne_nan_of_le_right (percents_bus hall' hnn e he)) (Dbl.ne_nan_of_le_right hz0) hs (htyped _ _ hs)
    (hread _ _ hs) hua hho hpas hown hal hr hsig hauto hti hfo hoz ⟨e, he, hF, x, hx, rfl⟩ hbus hbw
  obtain ⟨hp1, hp2⟩ := demanded_bus (b := r.objects.view r.order reply) hB.missing hall' hpres g2
    (fun zp' hz' => zoneCalled_unique hdl hz' hz) hdem q1 hz0
  exact written_of_told hfo hlim hp1 hp2 (q2 (le_trans hp1 hp2))

/-- the table of a stepwise configuration with increasing lists -/
theorem rising_bus {info : StepwiseInfo} {rs os : List Dbl} (h1 : 1 ≤ rs.length) (a4 : rs.length ≤ 20) (a5 : rs.length = os.length)
    (a6 : TableOf info.reading rs) (a7 : TableOf info.output os) (hrp : rs.Pairwise (· < ·)) (hop : os.Pairwise (· ≤ ·)) {k : Nat}
    (hko : k < os.length) (hpos : 0 ≤ os[k]) : RisingTable info rs.length := by
  have er : ∀ j (h20 : j < 20) (hj : j < rs.length), info.reading ⟨j, h20⟩ = rs[j] := fun j h20 hj => a6.1 ⟨j, h20⟩ hj
  have eo : ∀ j (h20 : j < 20) (hj : j < os.length), info.output ⟨j, h20⟩ = os[j] := fun j h20 hj => a7.1 ⟨j, h20⟩ hj
  rw [List.pairwise_iff_getElem] at hrp hop
  refine ⟨⟨h1, a4, fun j h20 hj hjn => ?_, fun h20 => a6.2 ⟨rs.length, h20⟩ rfl⟩, fun i j hi hj hij hjn => ?_,
    fun i j hi hj hij hjn => ?_⟩
  · rw [er j h20 hjn]
    exact Dbl.ne_nan_of_lt_right (hrp 0 j (by omega) hjn (by omega))
  · rw [er i hi (by omega), er j hj hjn]
    exact hrp i j _ hjn hij
  · rw [eo i hi (by omega), eo j hj (by omega)]
    rcases Nat.lt_or_ge i j with hlt | hge
    · exact hop i j _ (by omega) hlt
    · obtain rfl : i = j := by omega
      refine Dbl.le_refl ?_
      rcases Nat.lt_trichotomy i k with hk | rfl | hk
      · exact Dbl.ne_nan_of_le_left (hop i k (by omega) hko hk)
      · exact Dbl.ne_nan_of_le_right hpos
      · exact Dbl.ne_nan_of_le_right (hop k i hko (by omega) hk)

/-- **C153** Heat, from the table on the bus to the fan, across a reload: let the configuration that a reload reads from the bus have
a stepwise loop, and let some sensor of the loop be beyond point `k` of the table when the zones have been started and whenever the
timer of the zone expires. From the first cycle of the zone after the reload on, every fan of the zone was last told at least the
number for the output of the point. If the zone adds up set points, all its thermal loops must have rising tables without outputs
below zero. -/
theorem C153_hot {o : Opts} (ho : o.tuningEnabled = false) (hst : o.strictFailsafePwm = false) {s1 s0 s : Whole} {r : Found}
    (hre : s1.step o (.reload r) = .ok s0) (hall : s0.AllRun) (hsrc : Source r.conf r.files none) {objs : List BusObject}
    {reply : SubTree} {sel : List String} (hB : OnTheBus objs r.objects reply sel) {c : DbusCfg}
    (hc : busInit r.objects r.order = .ok (true, c)) :
      ∀ zone zp i, ZoneCalled (Active sel (confsOf objs)) zone zp → c.numbers.find? zone = some i →
      Tidy (Active sel (confsOf objs)) zone →
      ¬ Attr zp "AccumulateSetPoint" FlagValue true ∨ BusTables (Active sel (confsOf objs)) zone →
      (∀ base, ForZone (Active sel (confsOf objs)) "xyz.openbmc_project.Configuration.Stepwise" zone base →
        ¬ Attr base "Class" TextValue "Ceiling") →
      ∀ base name label names lenient rs os hyst,
      ForZone (Active sel (confsOf objs)) "xyz.openbmc_project.Configuration.Stepwise" zone base →
      Attr base "Name" TextValue name → Underscored name label →
      InputNames (r.objects.view r.order reply) base "xyz.openbmc_project.Configuration.Stepwise" names lenient → names ≠ [] →
      Attr base "Reading" NumbersValue rs → Attr base "Output" NumbersValue os → rs.Pairwise (· < ·) → os.Pairwise (· ≤ ·) →
      AttrOr base "PositiveHysteresis" NumberValue 0 hyst →
      ∀ (k : Nat) rk ok, rs[k]? = some rk → os[k]? = some ok → 0 ≤ ok →
      (∀ fb, ForZone (Active sel (confsOf objs)) "xyz.openbmc_project.Configuration.Pid" zone fb →
        Attr fb "Class" TextValue "fan" → ∀ cf, PidSettings fb cf → HandsOn cf.pidInfo ∧ ok ≤ cf.pidInfo.outLim.max) →
      ∀ es, s0.run o (es.map .event) = .ok s → ReadsNow names (Passed hyst rk) s0.d.w →
      ReadsThroughout o i names (Passed hyst rk) s0.d es →
      (∀ es1 es2, es = es1 ++ es2 → switchAfter i label true es1 = true) →
      (∀ es1 es2, es = es1 ++ es2 → modeAfter i false es1 = false) → .tick i ∈ es →
      ∀ fan path, FanFor (r.objects.view r.order reply) sel (confsOf objs) zone fan path → s1.d.w.busOk path = true →
      (∀ e ∈ es, BusWorks path e) → WrittenAtLeast 0 255 path (ok / 100) s.d.w := by
  obtain ⟨l, hp, hwl, hdl, hi⟩ := read_from_bus hB hc
  rw [← active_eq hp]
  intro zone zp i hz hzi hT hacc hceil base name label names lenient rs os hyst hfor hname hlabel hin hne hrs hos
    hrp hop hhy k rk ok hrk hok hpos hfan es hr hnow hhot hon hauto hti fan path hff hbus hbw
  have hff := hff.perm hp
  obtain ⟨z, pc, g1, g2, g3, hall', hpres, -, fe, hfe, hF, x, hx, rfl, hoz, fs, hfo, hlim⟩ :=
    zone_bus hwl hdl hi hz hzi hT hff r.bus.dirs
  obtain ⟨e, he, hE⟩ := hpres _ _ _ _ hfor hin hne
  obtain ⟨hsl, -⟩ : StepLoop (r.objects.view r.order reply) base e.1 e.2 ∧ e.2.failSafePercent = 0 := by
    rcases hE.kind with ⟨hk, -⟩ | ⟨-, hk⟩
    · exact absurd hk (by decide)
    · exact hk
  have hname' : e.1 = label := by
    obtain ⟨name', q1, q2⟩ := hsl.name
    rw [attr_unique text_unique q1 hname] at q2
    rw [q2]
    exact ((C83_search_name _ _).1 hlabel).symm
  have hnames' : e.2.inputs.map SensorInput.name = names := by
    obtain ⟨names', lenient', q1, q2, -⟩ := hE.inputs
    rw [q2, (inputNames_unique hin q1).1]
  have hhy' : e.2.stepwiseInfo.positiveHysteresis = hyst := attrOr_unique number_unique hsl.positiveHysteresis hhy
  obtain ⟨rs', os', a1, a2, -, a4, a5, a6, a7⟩ := hsl.tables
  rw [attr_unique numbers_unique a1 hrs] at a4 a5 a6
  rw [attr_unique numbers_unique a2 hos] at a5 a7
  obtain ⟨hkl, rfl⟩ := List.getElem?_eq_some_iff.1 hrk
  obtain ⟨hko, rfl⟩ := List.getElem?_eq_some_iff.1 hok
  have hk20 : k < 20 := lt_of_lt_of_le hkl a4
  have er : ∀ j (h20 : j < 20) (hj : j < rs.length), e.2.stepwiseInfo.reading ⟨j, h20⟩ = rs[j] := fun j h20 hj => a6.1 ⟨j, h20⟩ hj
  have eo : ∀ j (h20 : j < 20) (hj : j < os.length), e.2.stepwiseInfo.output ⟨j, h20⟩ = os[j] := fun j h20 hj => a7.1 ⟨j, h20⟩ hj
  have htab : RisingTable e.2.stepwiseInfo rs.length := rising_bus (by omega) a4 a5 a6 a7 hrp hop hko hpos
  have hW : WarmZone c.zones os[k] i pc e ⟨k, hk20⟩ := by
    refine ⟨⟨z, g1, ?_, cycleAttr_pos g2.cycle (by norm_num)⟩, ⟨he, hsl.type⟩, ?_, ⟨_, htab, hkl⟩, ?_,
      by rw [eo k hk20 hko]; exact Dbl.le_refl (Dbl.ne_nan_of_le_right hpos)⟩
    · rcases hacc with hacc | hacc
      · left
        rcases g2.accumulateSetPoint with hu | ⟨-, hu⟩
        · cases hb : z.accumulateSetPoint with
          | false => rfl
          | true => rw [hb] at hu; exact absurd hu hacc
        · exact hu
      · right
        intro e' he' hh
        obtain ⟨k', base', hE'⟩ := hall' e' he'
        rcases hE'.kind with ⟨rfl, hs⟩ | ⟨rfl, hs, -⟩
        · exact absurd hs.type (hacc.pids base' hE'.zone _ hh)
        · obtain ⟨rs', os', b1, b2, b3, b4, b5, b6, b7⟩ := hs.tables
          obtain ⟨t1, t2, t3⟩ := hacc.tables base' hE'.zone rs' os' b1 b2
          have h0 : (0 : Dbl) ≤ os'[0] := t3 _ (List.getElem_mem (by omega))
          exact ⟨hs.type, ⟨_, rising_bus b3 b4 b5 b6 b7 t1 t2 (by omega) h0⟩, by
            rw [show e'.2.stepwiseInfo.output 0 = os'[0] from b7.1 0 (by change 0 < _; omega)]; exact h0⟩
    · intro e' he' hes
      obtain ⟨k', base', hE'⟩ := hall' e' he'
      rcases hE'.kind with ⟨rfl, hs⟩ | ⟨rfl, hs, -⟩
      · obtain ⟨names', lenient', q1, q2, -⟩ := hE'.inputs
        cases q1 with
        | step q => exact absurd q (by decide)
        | pid _ q1 =>
          have := pid_class (b := r.objects.view r.order reply) hB.missing q1 (by rw [← q2]; simpa using hE'.nonempty) hs.type
          rw [hes] at this
          exact absurd this (by decide)
      · obtain ⟨cls, c1, c2⟩ := hs.isCeiling
        rw [c2, decide_eq_false_iff_not]
        rintro rfl
        exact hceil base' hE'.zone c1
    · intro e' he' hFe
      obtain ⟨k', base', hE'⟩ := hall' e' he'
      rw [eo k hk20 hko]
      rcases hE'.kind with ⟨rfl, hs⟩ | ⟨-, hs, -⟩
      · exact hfan base' hE'.zone (by rw [← show e'.2.type = "fan" from hFe]; exact hs.type) e'.2 hs
      · exact absurd (hs.type.symm.trans hFe) (by decide)
  refine written_of_told hfo hlim hpos (Dbl.le_refl (Dbl.ne_nan_of_le_right hpos))
    (C150_reload ho hst hre hall (read_bus hsrc hc) hfo hbus hr hbw hpos (fun j conf' hp' hT' => ?_)
      ⟨i, ⟨pc, g3, fe, hfe, hF, x, hx, rfl⟩, hti⟩)
  by_cases hji : j = i
  · subst hji
    rw [g3] at hp'
    cases hp'
    refine ⟨e, ⟨k, hk20⟩, hW, ?_, ?_, ?_, hauto⟩
    · rw [hnames', hhy', er k hk20 hkl]; exact hnow
    · rw [hnames', hhy', er k hk20 hkl]; exact hhot
    · rw [hname']; exact hon
  · obtain ⟨e, he, hF', y, hy, hyn⟩ := hT'
    exact absurd hyn (hoz j conf' hji hp' e he hF' y hy)

end

namespace Ex
section
attribute [local instance] binary64

/-- what a reload finds: no file, the objects of C115, and a first core that shows an alarm or a second core at 45 degrees -/
def found153 (bus : BuildBus) : Found := ⟨"", nofiles108, conf115, asListed, bus, 0, true⟩
def busAlarm153 : BuildBus := { bus98 with passive := fun n => if n = "Core_1" then cpuObject.answers {} else bus98.passive n }
def busHot153 : BuildBus :=
  { bus98 with passive := fun n => if n = "Core_2" then ⟨true, some (⟨0, 45, 0, 100, true, false⟩, false)⟩ else bus98.passive n }

/-- the daemon is started and runs; then the configuration is read again -/
def life153 : List WEvent := [.reload (found153 bus98), .event (.tick 3)]
def after153 : List DEvent := [.tick 3, .signal "Core_1" 1 (temp103 30), .tick 3]

theorem quiet153 : ∀ e ∈ after153, ((∀ j l b, e ≠ .enable j l b) ∧ ∀ j b, e ≠ .manual j b) ∧
    BusWorks "/xyz/openbmc_project/control/fanpwm/Pwm_1" e := by
  intro e he
  simp only [after153, List.mem_cons, List.not_mem_nil, or_false] at he
  rcases he with rfl | rfl | rfl <;> exact ⟨by simp, trivial⟩

/-- what is read -/
theorem read153 : ∃ c, busInit conf115 asListed = .ok (true, c) ∧ c.numbers.find? "Left" = some 3 ∧
    AttrOr zone115 "FailSafePercent" PercentValue 0 75 := by
  obtain ⟨⟨c, td⟩, h, -⟩ := ok_of_any (x := start115) (P := fun _ : DbusCfg × Timed => true) (by decide +kernel)
  obtain ⟨hc, -, hn, -, -, -, hfs⟩ := started115 h
  exact ⟨c, hc, hn, hfs⟩

/-- C153: all hypotheses hold when the first core shows an alarm at the reload: afterwards the fan is told 75 percent of 255 -/
example : ∃ s1 s0 s, (Whole.init world113).run {} life153 = .ok s1 ∧ s1.step {} (.reload (found153 busAlarm153)) = .ok s0 ∧
    s0.run {} (after153.map .event) = .ok s ∧
    WrittenAtLeast 0 255 "/xyz/openbmc_project/control/fanpwm/Pwm_1" (75 / 100) s.d.w := by
  obtain ⟨s, hs, -⟩ := ok_of_any (x := (Whole.init world113).run {} ((life153 ++ [.reload (found153 busAlarm153)]) ++
    after153.map .event)) (P := fun _ : Whole => true) (by decide +kernel)
  obtain ⟨s0, hs0, hr⟩ := wrun_append.1 hs
  obtain ⟨s1, hs1, hre⟩ := wrun_append.1 hs0
  unfold Whole.run at hre
  obtain ⟨s0', h3, h4⟩ := bind_eq_ok.1 hre
  cases h4
  have hP : (((Whole.init world113).run {} (life153 ++ [.reload (found153 busAlarm153)])).toOption.any (fun s : Whole => !s.again &&
      s.idle.isEmpty && !s.d.zones.isEmpty)) = true := by decide +kernel
  rw [hs0] at hP
  have hP : (_ && _) = true := hP
  simp only [Bool.and_eq_true, Bool.not_eq_true', List.isEmpty_iff] at hP
  have hbus : (((Whole.init world113).run {} life153).toOption.any (fun s : Whole =>
      s.d.w.busOk "/xyz/openbmc_project/control/fanpwm/Pwm_1")) = true := by decide +kernel
  rw [hs1] at hbus
  obtain ⟨c, hc, hn, hfs⟩ := read153
  refine ⟨s1, s0, s, hs1, h3, hr, ?_⟩
  refine C153_alarm (o := {}) rfl h3 ⟨hP.1.1, hP.1.2, hP.2⟩ nofiles108_source onTheBus115 hc "Left" zone115 3 zoneCalled115 hn
    tidy115 noNegative115 "Core_1" needed115 sensorFor115 cpuObject _ rfl owner145 showsAlarm145 after153 hr (by decide +kernel)
    (fun es1 es2 h => mode_still (fun x hx => (quiet153 x (by rw [h]; exact List.mem_append_left _ hx)).1.2)) (by simp [after153])
    75 (.zone (fun base names lenient hb _ _ => ?_) zoneCalled115 hfs) _ _ fanFor115 hbus (fun e he => (quiet153 e he).2)
  rcases loops115 hb with ⟨-, rfl⟩ | ⟨-, rfl⟩ | ⟨-, rfl⟩ <;> rfl

/-- C153: and when the second core has 45 degrees at the reload: the table has 60 percent for this -/
example : ∃ s1 s0 s, (Whole.init world113).run {} life153 = .ok s1 ∧ s1.step {} (.reload (found153 busHot153)) = .ok s0 ∧
    s0.run {} (after153.map .event) = .ok s ∧
    WrittenAtLeast 0 255 "/xyz/openbmc_project/control/fanpwm/Pwm_1" (60 / 100) s.d.w := by
  obtain ⟨s, hs, -⟩ := ok_of_any (x := (Whole.init world113).run {} ((life153 ++ [.reload (found153 busHot153)]) ++
    after153.map .event)) (P := fun _ : Whole => true) (by decide +kernel)
  obtain ⟨s0, hs0, hr⟩ := wrun_append.1 hs
  obtain ⟨s1, hs1, hre⟩ := wrun_append.1 hs0
  unfold Whole.run at hre
  obtain ⟨s0', h3, h4⟩ := bind_eq_ok.1 hre
  cases h4
  have hP : (((Whole.init world113).run {} (life153 ++ [.reload (found153 busHot153)])).toOption.any (fun s : Whole => !s.again &&
      s.idle.isEmpty && !s.d.zones.isEmpty && nowB "Core_2" (fun v => decide (Passed 0 40 v)) s.d.w &&
      hotB 3 "Core_2" (fun v => decide (Passed 0 40 v)) s.d after153)) = true := by decide +kernel
  rw [hs0] at hP
  have hP : (_ && _) = true := hP
  simp only [Bool.and_eq_true, Bool.not_eq_true', List.isEmpty_iff] at hP
  obtain ⟨⟨⟨⟨p1, p2⟩, p3⟩, p4⟩, p5⟩ := hP
  have hbus : (((Whole.init world113).run {} life153).toOption.any (fun s : Whole =>
      s.d.w.busOk "/xyz/openbmc_project/control/fanpwm/Pwm_1")) = true := by decide +kernel
  rw [hs1] at hbus
  obtain ⟨c, hc, hn, -⟩ := read153
  refine ⟨s1, s0, s, hs1, h3, hr, ?_⟩
  refine C153_hot (o := {}) rfl rfl h3 ⟨p1, p2, p3⟩ nofiles108_source onTheBus115 hc "Left" zone115 3 zoneCalled115 hn tidy115
    ?_ ?_ step115 "Step loop" "Step_loop" ["Core_2"] [] [20, 40] [30, 60] 0 (left115 active_step115 rfl)
    ⟨_, rfl, rfl⟩ ((C83_search_name _ _).2 (by decide +kernel)) inputs_step115 (by simp) ⟨_, rfl, rfl⟩ ⟨_, rfl, rfl⟩
    (by decide +kernel) (by decide +kernel) (.inr ⟨rfl, rfl⟩) 1 40 60 rfl rfl (by decide +kernel) ?_ after153 hr
    (now_of (n := "Core_2") (by simp) (fun v hv => of_decide_eq_true hv) p4)
    (hot_of (n := "Core_2") (by simp) (fun v hv => of_decide_eq_true hv) p5)
    (fun es1 es2 h => switch_still (fun x hx => (quiet153 x (by rw [h]; exact List.mem_append_left _ hx)).1.1))
    (fun es1 es2 h => mode_still (fun x hx => (quiet153 x (by rw [h]; exact List.mem_append_left _ hx)).1.2)) (by simp [after153])
    _ _ fanFor115 hbus (fun e he => (quiet153 e he).2)
  · left
    rintro ⟨v, hv, -⟩
    cases hv
  · intro base hb hcl
    rw [step_only115 hb.1] at hcl
    exact absurd (attr_unique text_unique hcl (y := "Floor") ⟨_, rfl, rfl⟩) (by decide)
  · intro fb hfb hcl cf hcf
    rcases pid115 hfb.1 with rfl | rfl
    · exact handsOn115 hcf
    · exact absurd (attr_unique text_unique hcl (y := "temp") ⟨_, rfl, rfl⟩) (by decide)

/-- the other alternative of C153_hot, for a zone with the fan and the table above -/
example : BusTables (fun i base => (i = pidInterface ∧ base = fan115) ∨ (i = stepwiseInterface ∧ base = step115)) "Left" := by
  constructor
  · rintro base ⟨⟨-, rfl⟩ | ⟨h, -⟩, -⟩ cls hcls hc
    · rw [attr_unique text_unique hc (y := "fan") ⟨_, rfl, rfl⟩] at hcls
      exact absurd hcls (by decide)
    · exact absurd h (by decide)
  · rintro base ⟨⟨h, -⟩ | ⟨-, rfl⟩, -⟩ rs os hr ho
    · exact absurd h (by decide)
    · rw [attr_unique numbers_unique hr (y := [20, 40]) ⟨_, rfl, rfl⟩, attr_unique numbers_unique ho (y := [30, 60]) ⟨_, rfl, rfl⟩]
      decide +kernel

end
end Ex
end Verif
