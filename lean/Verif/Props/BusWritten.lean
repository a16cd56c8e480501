import Verif.Lemmas.BusWritten
import Verif.Props.Written

/-! # From the configuration over D-Bus to the fans: property C115 -/

namespace Verif
open Dbl
section
variable [F : FloatModel]

/-- **C115** A daemon that runs with the configuration from the bus has the timers that belong to it. -/
theorem C115_timers {o : Opts} {conf : String} {f : StartFiles} (hsrc : Source conf f none) {objs : List BusObject} {b : ConfBus}
    {reply : SubTree} {sel : List String} (hB : OnTheBus objs b reply sel) {h : HashOrder} {bus : BuildBus} {now : Int} {w : World}
    {d : Daemon} (hd : attempt o conf f b h bus now w = .running d) {c : DbusCfg} (hc : busInit b h = .ok (true, c))
    (started : Int → Int) : ∃! td, WithBusTimers (Active sel (confsOf objs)) c.numbers started d td := by
  obtain ⟨-, -, -, -, -, -, ⟨td, htd⟩, hiff⟩ := runs_from_bus hsrc hB hd hc started
  refine ⟨td, htd, fun td' h => ?_⟩
  have := (hiff td').2 h
  rw [(hiff td).2 htd] at this
  exact (Except.ok.inj this).symm

/-- a zone with a fan -/
theorem zone_bus {b : BusView} {sel : List String} {objs : List ConfObj}
    (hw : ∀ o ∈ objs, OMap.WF o) (hd : DistinctZones sel objs) {r : Bool} {c : DbusCfg} (h : dbusInit b sel objs = .ok (r, c))
    {zone : String} {zp : ConfProps} {i : Int} (hz : ZoneCalled (Active sel objs) zone zp) (hi : c.numbers.find? zone = some i)
    (hT : Tidy (Active sel objs) zone) {m path : String} (hf : FanFor b sel objs zone m path) (dirs : Dirs) :
    ∃ z conf, c.zones.find? i = some z ∧ ZoneSettings zp z ∧ c.pids.find? i = some conf ∧
      (∀ e ∈ conf.entries, ∃ k base, EntryOf (Active sel objs) b zone e k base) ∧
      (∀ k base names lenient, ForZone (Active sel objs) k zone base → InputNames b base k names lenient → names ≠ [] →
        ∃ e ∈ conf.entries, EntryOf (Active sel objs) b zone e k base) ∧
      (∀ e ∈ conf.entries, ∀ x ∈ e.2.inputs, ∃ s, c.sensors.find? x.name = some s) ∧
      ∃ e ∈ conf.entries, IsFan e ∧ ∃ x ∈ e.2.inputs, x.name = m ∧ OnlyZone c.pids i m ∧ ∃ s, FanOn dirs c.sensors m s path ∧
        limitsOf s = some (0, 255) := by
  obtain ⟨z, g1, g2⟩ := zone_config hw hd h hz hi
  obtain ⟨i', conf, g3, g4, e, he, hF, ⟨x, hx, hxm⟩, s, hs⟩ := fan_entry hw h hT hf
  rw [hi] at g3
  cases g3
  obtain ⟨q1, q2⟩ := fanOn_bus hw h hf hs dirs
  refine ⟨z, conf, g1, g2, g4, fun e he => entries_of hw h hT hi g4 he, fun k base names lenient k1 k2 k3 => ?_, fun e he x hx => ?_,
    e, he, hF, x, hx, hxm, onlyZone_bus hw h hf hi, s, q1, q2⟩
  · obtain ⟨i', conf', a1, a2, a3⟩ := entry_present hw h hT k1 k2 k3
    rw [hi] at a1
    cases a1
    rw [g4] at a2
    cases a2
    exact a3
  · obtain ⟨_, -, -, hwf, hall⟩ := (dbusInit_ok hw h).1.loops i conf g4
    exact Option.ne_none_iff_exists'.1 ((hall e.1 e.2 ((OMap.mem_entries_iff hwf _ _).1 he)).sensors x hx)

/-- **C115** A critical alarm, from the configuration on the bus to the fan: if the daemon runs with the configuration from the
bus, a sensor that a zone configured there cannot do without reports a critical alarm, and the zone stays in automatic mode,
then every fan of the zone has, once the time configured for the thermal loops, twice the time configured for the fans and the
lateness of the event loop have passed, been told at least the percentages demanded there, as long as the alarm is not
withdrawn. -/
theorem C115_alarm {o : Opts} (ho : o.tuningEnabled = false) {conf : String} {f : StartFiles} (hsrc : Source conf f none)
    {objs : List BusObject} {b : ConfBus} {reply : SubTree} {sel : List String} (hB : OnTheBus objs b reply sel) {h : HashOrder}
    {bus : BuildBus} {now : Int} {w : World} (htr : w.trace = []) {d : Daemon}
    (hd : attempt o conf f b h bus now w = .running d) {c : DbusCfg} (hc : busInit b h = .ok (true, c))
    {started : Int → Int} {td : Timed} (htd : WithBusTimers (Active sel (confsOf objs)) c.numbers started d td) :
      ∀ zone zp i, ZoneCalled (Active sel (confsOf objs)) zone zp → c.numbers.find? zone = some i →
      Tidy (Active sel (confsOf objs)) zone → NoNegative (Active sel (confsOf objs)) zone →
      ∀ nf nt, CycleAttr zp "CycleIntervalTimeMS" 100 nf → CycleAttr zp "UpdateThermalsTimeMS" 1000 nt →
      ∀ n, NeededFor (Active sel (confsOf objs)) (b.view h reply) zone n → SensorFor (b.view h reply) sel (confsOf objs) n →
      ∀ late t0, started i ≤ t0 → ∀ pre post ta m t ev td1,
      Served o late t0 td (pre ++ (ta, .signal n ta m) :: post ++ [(t, ev)]) →
      td.run o (pre ++ (ta, .signal n ta m) :: post) = .ok td1 → alarmIn o (ta, m) = some true →
      (∀ x ∈ signalsFor n (eventsOf post), alarmIn o x ≠ some false) → Automatic i (eventsOf pre) (eventsOf post) →
      ta + ms (nt + 2 * nf) + late ≤ t →
      ∀ p, DemandedFor (Active sel (confsOf objs)) (b.view h reply) zone n p →
      ∀ fan path, FanFor (b.view h reply) sel (confsOf objs) zone fan path → w.busOk path = true →
      (∀ e ∈ eventsOf (pre ++ (ta, .signal n ta m) :: post), BusWorks path e) →
      WrittenAtLeast 0 255 path (p / 100) td1.d.w := by
  obtain ⟨l, hp, hwl, hdl, hi, hlw, -, hiff⟩ := runs_from_bus hsrc hB hd hc started
  have hl := (hiff td).2 htd
  have hread := (C108_bus_suits hB.subTree hB.mapper hB.managers hB.arranged hB.configured hB.sorted hB.missing hB.profiles hB.suits
    hc).2
  rw [← active_eq hp]
  intro zone zp i hz hzi hT hnn nf nt hnf hnt n hneed hsens late t0 h0 pre post ta m t ev td1 hsv hr hal hpost hauto ht
    p hdem fan path hff hbus hbw
  have hsens := hsens.perm hp
  have hff := hff.perm hp
  obtain ⟨hswf, htyped⟩ := dbusInit_typed (b := b.view h reply) hB.missing hi
  obtain ⟨z, pc, g1, g2, g3, hall, hpres, hss, e, he, hF, x, hx, rfl, hoz, fs, hfo, hlim⟩ :=
    zone_bus hwl hdl hi hz hzi hT hff bus.dirs
  have hmust := mustRead_bus hall hpres hneed
  obtain ⟨s, hs⟩ : ∃ s, c.sensors.find? n = some s := by
    obtain ⟨e', he', -, x', hx', rfl⟩ := hmust.1
    exact hss e' he' x' hx'
  obtain ⟨hua, hho⟩ := sensor_bus hwl hi hsens hs
  have hz0 : 0 ≤ z.failsafePercent := by
    rcases g2.failsafePercent with hz' | ⟨-, hz'⟩
    · exact hnn.zone _ _ hz hz'
    · rw [hz']; exact Dbl.le_refl (by rw [zero_eq]; simp)
  obtain ⟨q, hq, key⟩ := C111_alarm ho htr hswf (dbusInit_ok hwl hi).1.wf hlw hl g3 g1 hmust (percents_bus hall hnn) hz0
    (cycleAttr_pos g2.cycle (by norm_num)) hs (htyped _ _ hs) (hread _ _ hs) hua hho h0 hsv hr hal hpost hauto
    (by rw [cycleAttr_unique g2.cycle hnf, cycleAttr_unique g2.thermals hnt]; exact ht)
  obtain ⟨hp1, hp2⟩ := demanded_bus (b := b.view h reply) hB.missing hall hpres g2
    (fun zp' hz' => zoneCalled_unique hdl hz' hz) hdem hq hz0
  exact written_of_told hfo hlim hp1 hp2 (key e he hF x hx fs path hfo hoz hbus hbw)

/-- **C115** A hot sensor, from the table on the bus to the fan: while a sensor of a stepwise loop reads beyond point `k` of
its table, every fan of the zone has been told at least the output of this point, once the same time has passed, if the fan
loops of the zone hand their set points on. -/
theorem C115_hot {o : Opts} (ho : o.tuningEnabled = false) (hst : o.strictFailsafePwm = false) {conf : String} {f : StartFiles}
    (hsrc : Source conf f none) {objs : List BusObject} {b : ConfBus} {reply : SubTree} {sel : List String}
    (hB : OnTheBus objs b reply sel) {h : HashOrder} {bus : BuildBus} {now : Int} {w : World} (htr : w.trace = []) {d : Daemon}
    (hd : attempt o conf f b h bus now w = .running d) {c : DbusCfg} (hc : busInit b h = .ok (true, c))
    {started : Int → Int} {td : Timed} (htd : WithBusTimers (Active sel (confsOf objs)) c.numbers started d td) :
      ∀ zone zp i, ZoneCalled (Active sel (confsOf objs)) zone zp → c.numbers.find? zone = some i →
      Tidy (Active sel (confsOf objs)) zone → ¬ Attr zp "AccumulateSetPoint" FlagValue true →
      ∀ nf nt, CycleAttr zp "CycleIntervalTimeMS" 100 nf → CycleAttr zp "UpdateThermalsTimeMS" 1000 nt →
      (∀ base, ForZone (Active sel (confsOf objs)) "xyz.openbmc_project.Configuration.Stepwise" zone base →
        ¬ Attr base "Class" TextValue "Ceiling") →
      ∀ base name label names lenient rs os hyst,
      ForZone (Active sel (confsOf objs)) "xyz.openbmc_project.Configuration.Stepwise" zone base →
      Attr base "Name" TextValue name → Underscored name label →
      InputNames (b.view h reply) base "xyz.openbmc_project.Configuration.Stepwise" names lenient → names ≠ [] →
      Attr base "Reading" NumbersValue rs → Attr base "Output" NumbersValue os → rs.Pairwise (· < ·) → os.Pairwise (· ≤ ·) →
      AttrOr base "PositiveHysteresis" NumberValue 0 hyst →
      ∀ (k : Nat) rk ok, rs[k]? = some rk → os[k]? = some ok → 0 ≤ ok →
      (∀ fb, ForZone (Active sel (confsOf objs)) "xyz.openbmc_project.Configuration.Pid" zone fb →
        Attr fb "Class" TextValue "fan" → ∀ cf, PidSettings fb cf → HandsOn cf.pidInfo ∧ ok ≤ cf.pidInfo.outLim.max) →
      ∀ late t0 ta, started i ≤ t0 → t0 ≤ ta → ∀ pre post t ev tda td1, Served o late t0 td (pre ++ post ++ [(t, ev)]) →
      td.run o pre = .ok tda → tda.run o post = .ok td1 → (∀ x ∈ pre, x.1 ≤ ta) →
      ReadsThroughout o i names (Passed hyst rk) tda.d (eventsOf post) →
      (∀ es1 es2, eventsOf post = es1 ++ es2 → switchAfter i label true (eventsOf pre ++ es1) = true) →
      Automatic i (eventsOf pre) (eventsOf post) → ta + ms (nt + 2 * nf) + late ≤ t →
      ∀ fan path, FanFor (b.view h reply) sel (confsOf objs) zone fan path → w.busOk path = true →
      (∀ e ∈ eventsOf (pre ++ post), BusWorks path e) → WrittenAtLeast 0 255 path (ok / 100) td1.d.w := by
  obtain ⟨l, hp, hwl, hdl, hi, hlw, -, hiff⟩ := runs_from_bus hsrc hB hd hc started
  have hl := (hiff td).2 htd
  rw [← active_eq hp]
  intro zone zp i hz hzi hT hacc nf nt hnf hnt hceil base name label names lenient rs os hyst hfor hname hlabel hin hne hrs hos
    hrp hop hhy k rk ok hrk hok hpos hfan late t0 ta h0 h1 pre post t ev tda td1 hsv hra hrb hpre hhot hon hauto ht
    fan path hff hbus hbw
  have hff := hff.perm hp
  obtain ⟨hswf, -⟩ := dbusInit_typed (b := b.view h reply) hB.missing hi
  obtain ⟨z, pc, g1, g2, g3, hall, hpres, -, fe, hfe, hF, x, hx, rfl, hoz, fs, hfo, hlim⟩ :=
    zone_bus hwl hdl hi hz hzi hT hff bus.dirs
  obtain ⟨e, he, hE⟩ := hpres _ _ _ _ hfor hin hne
  obtain ⟨hsl, -⟩ : StepLoop (b.view h reply) base e.1 e.2 ∧ e.2.failSafePercent = 0 := by
    rcases hE.kind with ⟨hk, -⟩ | ⟨-, hk⟩
    · exact absurd hk (by decide)
    · exact hk
  have hname' : e.1 = label := by
    obtain ⟨name', q1, q2⟩ := hsl.name
    rw [attr_unique text_unique q1 hname] at q2
    rw [q2]
    exact ((C83_search_name _ _).1 hlabel).symm
  have hnames' : e.2.inputs.map SensorInput.name = names := by
    obtain ⟨names', lenient', q1, q2, -⟩ := hE.inputs
    rw [q2, (inputNames_unique hin q1).1]
  have hhy' : e.2.stepwiseInfo.positiveHysteresis = hyst := attrOr_unique number_unique hsl.positiveHysteresis hhy
  obtain ⟨rs', os', a1, a2, -, a4, a5, a6, a7⟩ := hsl.tables
  rw [attr_unique numbers_unique a1 hrs] at a4 a5 a6
  rw [attr_unique numbers_unique a2 hos] at a5 a7
  obtain ⟨hkl, rfl⟩ := List.getElem?_eq_some_iff.1 hrk
  obtain ⟨hko, rfl⟩ := List.getElem?_eq_some_iff.1 hok
  have hk20 : k < 20 := lt_of_lt_of_le hkl a4
  have er : ∀ j (h20 : j < 20) (hj : j < rs.length), e.2.stepwiseInfo.reading ⟨j, h20⟩ = rs[j] := fun j h20 hj => a6.1 ⟨j, h20⟩ hj
  have eo : ∀ j (h20 : j < 20) (hj : j < os.length), e.2.stepwiseInfo.output ⟨j, h20⟩ = os[j] := fun j h20 hj => a7.1 ⟨j, h20⟩ hj
  have htab : RisingTable e.2.stepwiseInfo rs.length := by
    rw [List.pairwise_iff_getElem] at hrp hop
    refine ⟨⟨by omega, a4, fun j h20 hj hjn => ?_, fun h20 => a6.2 ⟨rs.length, h20⟩ rfl⟩, fun i j hi hj hij hjn => ?_,
      fun i j hi hj hij hjn => ?_⟩
    · rw [er j h20 hjn]
      exact Dbl.ne_nan_of_lt_right (hrp 0 j (by omega) hjn (by omega))
    · rw [er i hi (by omega), er j hj hjn]
      exact hrp i j _ hjn hij
    · rw [eo i hi (by omega), eo j hj (by omega)]
      rcases Nat.lt_or_ge i j with hlt | hge
      · exact hop i j _ (by omega) hlt
      · obtain rfl : i = j := by omega
        refine Dbl.le_refl ?_
        rcases Nat.lt_trichotomy i k with hk | rfl | hk
        · exact Dbl.ne_nan_of_le_left (hop i k (by omega) hko hk)
        · exact Dbl.ne_nan_of_le_right hpos
        · exact Dbl.ne_nan_of_le_right (hop k i hko (by omega) hk)
  have key := C111_hot ho hst htr hswf (dbusInit_ok hwl hi).1.wf hlw hl g3 g1
    (by
      rcases g2.accumulateSetPoint with hu | ⟨-, hu⟩
      · cases hb : z.accumulateSetPoint with
        | false => rfl
        | true => rw [hb] at hu; exact absurd hu hacc
      · exact hu) he hsl.type
    (by
      intro e' he' hes
      obtain ⟨k', base', hE'⟩ := hall e' he'
      rcases hE'.kind with ⟨rfl, hs⟩ | ⟨rfl, hs, -⟩
      · obtain ⟨names', lenient', q1, q2, -⟩ := hE'.inputs
        cases q1 with
        | step q => exact absurd q (by decide)
        | pid _ q1 =>
          have := pid_class (b := b.view h reply) hB.missing q1 (by rw [← q2]; simpa using hE'.nonempty) hs.type
          rw [hes] at this
          exact absurd this (by decide)
      · obtain ⟨cls, c1, c2⟩ := hs.isCeiling
        rw [c2, decide_eq_false_iff_not]
        rintro rfl
        exact hceil base' hE'.zone c1)
    htab hk20 hkl (by rw [eo k hk20 hko]; exact hpos)
    (by
      intro e' he' hFe
      obtain ⟨k', base', hE'⟩ := hall e' he'
      rw [eo k hk20 hko]
      rcases hE'.kind with ⟨rfl, hs⟩ | ⟨-, hs, -⟩
      · exact hfan base' hE'.zone (by rw [← show e'.2.type = "fan" from hFe]; exact hs.type) e'.2 hs
      · exact absurd (hs.type.symm.trans hFe) (by decide))
    (cycleAttr_pos g2.cycle (by norm_num)) h0 h1 hsv hra hrb hpre
    (by rw [hnames', hhy', er k hk20 hkl]; exact hhot) (by rw [hname']; exact hon) hauto
    (by rw [cycleAttr_unique g2.cycle hnf, cycleAttr_unique g2.thermals hnt]; exact ht)
  have := key fe hfe hF x hx fs path hfo hoz hbus hbw
  rw [eo k hk20 hko] at this
  exact written_of_told hfo hlim hpos (Dbl.le_refl (Dbl.ne_nan_of_le_right hpos)) this

end

namespace Ex
section
attribute [local instance] binary64

def zone115 : ConfProps := zoneConf "Left" [("ZoneIndex", .dbl 3), ("CycleIntervalTimeMS", .dbl 500)]
def fan115 : ConfProps := busFan [("FFGainCoefficient", .dbl 1)]
def step115 : ConfProps := stepConf ["Core 2"] []
def heat115 : ConfProps := heatConf ["Core 1"] []

/-- a zone with a failsafe percentage of 75, whose fans are set every 500 ms, with a fan, a table and a temperature loop -/
def objs115 : List BusObject :=
  [plain107 "em" "/inventory" ["org.freedesktop.DBus.ObjectManager"],
   ⟨"em", "/inventory/board/Zone", ⟨[(zoneInterface, zone115)]⟩⟩,
   ⟨"em", "/inventory/board/Fan", ⟨[(pidInterface, fan115)]⟩⟩,
   ⟨"em", "/inventory/board/Step", ⟨[(stepwiseInterface, step115)]⟩⟩,
   ⟨"em", "/inventory/board/Heat", ⟨[(pidInterface, heat115)]⟩⟩,
   plain107 "hwmon" "/xyz/openbmc_project/sensors/temperature/Core_1" [valueInterface],
   plain107 "hwmon" "/xyz/openbmc_project/sensors/temperature/Core_2" [valueInterface],
   plain107 "hwmon" "/xyz/openbmc_project/sensors/fan_tach/Fan_1" [valueInterface],
   plain107 "hwmon" "/xyz/openbmc_project/control/fanpwm/Pwm_1" [pwmInterface]]

def conf115 : ConfBus := busOf107 objs115 [] (fun _ _ => none)
def view115 : BusView := conf115.view asListed (mapperOf objs115)

theorem confs115 : confsOf objs115 = [⟨[(zoneInterface, zone115)]⟩, ⟨[(pidInterface, fan115)]⟩, ⟨[(stepwiseInterface, step115)]⟩,
    ⟨[(pidInterface, heat115)]⟩] := by
  rfl

theorem find_one115 {k i : String} {v p : ConfProps} (h : (⟨[(k, v)]⟩ : ConfObj).find? i = some p) : i = k ∧ p = v := by
  unfold OMap.find? at h
  simp only [OMap.lookupL] at h
  split_ifs at h with hk
  · exact ⟨hk, (Option.some.inj h).symm⟩

theorem active115 {i : String} {base : ConfProps} (h : Active [] (confsOf objs115) i base) :
    (i = zoneInterface ∧ base = zone115) ∨ (i = pidInterface ∧ (base = fan115 ∨ base = heat115)) ∨
      (i = stepwiseInterface ∧ base = step115) := by
  obtain ⟨o, ho, h, -⟩ := h
  rw [confs115] at ho
  simp only [List.mem_cons, List.not_mem_nil, or_false] at ho
  rcases ho with rfl | rfl | rfl | rfl <;> obtain ⟨rfl, rfl⟩ := find_one115 h <;> simp

theorem active_zone115 : Active [] (confsOf objs115) zoneInterface zone115 :=
  ⟨⟨[(zoneInterface, zone115)]⟩, by rw [confs115]; simp, rfl, .inl rfl⟩
theorem active_fan115 : Active [] (confsOf objs115) pidInterface fan115 :=
  ⟨⟨[(pidInterface, fan115)]⟩, by rw [confs115]; simp, rfl, .inl rfl⟩
theorem active_heat115 : Active [] (confsOf objs115) pidInterface heat115 :=
  ⟨⟨[(pidInterface, heat115)]⟩, by rw [confs115]; simp, rfl, .inl rfl⟩
theorem active_step115 : Active [] (confsOf objs115) stepwiseInterface step115 :=
  ⟨⟨[(stepwiseInterface, step115)]⟩, by rw [confs115]; simp, rfl, .inl rfl⟩

theorem pid115 {base : ConfProps} (h : Active [] (confsOf objs115) "xyz.openbmc_project.Configuration.Pid" base) :
    base = fan115 ∨ base = heat115 := by
  rcases active115 h with ⟨h, -⟩ | ⟨-, h⟩ | ⟨h, -⟩
  · exact absurd h (by decide)
  · exact h
  · exact absurd h (by decide)

theorem step_only115 {base : ConfProps} (h : Active [] (confsOf objs115) "xyz.openbmc_project.Configuration.Stepwise" base) :
    base = step115 := by
  rcases active115 h with ⟨h, -⟩ | ⟨h, -⟩ | ⟨-, h⟩
  · exact absurd h (by decide)
  · exact absurd h (by decide)
  · exact h

theorem zone_only115 {base : ConfProps} (h : Active [] (confsOf objs115) "xyz.openbmc_project.Configuration.Pid.Zone" base) :
    base = zone115 := by
  rcases active115 h with ⟨-, h⟩ | ⟨h, -⟩ | ⟨h, -⟩
  · exact h
  · exact absurd h (by decide)
  · exact absurd h (by decide)

theorem arranged115 : Arranged objs115 := by
  refine ⟨?_, ?_, ?_, ?_, ?_⟩
  · refine List.Nodup.of_map BusObject.path ?_
    decide +kernel
  · decide +kernel
  · decide +kernel
  · decide +kernel
  · have : ∀ o ∈ objs115, ∀ o' ∈ objs115, o.path = o'.path → o = o' := by
      have hn : (objs115.map BusObject.path).Nodup := by decide +kernel
      intro o ho o' ho' e
      exact List.inj_on_of_nodup_map hn ho ho' e
    exact fun o ho o' ho' _ _ e => this o ho o' ho' e

theorem busSuits115 : BusSuits objs115 [] := by
  have key : ∀ o ∈ objs115, ∀ p, o.interfaces.find? "xyz.openbmc_project.Configuration.Pid" = some p ∨
      o.interfaces.find? "xyz.openbmc_project.Configuration.Stepwise" = some p → onlyLeft p = true := by
    have h : ∀ o ∈ objs115, (o.interfaces.find? "xyz.openbmc_project.Configuration.Pid").all onlyLeft = true ∧
        (o.interfaces.find? "xyz.openbmc_project.Configuration.Stepwise").all onlyLeft = true := by decide +kernel
    rintro o ho p (hp | hp)
    · have := (h o ho).1; rw [hp] at this; exact this
    · have := (h o ho).2; rw [hp] at this; exact this
  refine ⟨?_, fun o ho p hp _ zones zone hz hm => ?_, fun o ho p hp _ l hl => ?_, ?_⟩
  · have : (objs115.map BusObject.interfaces).Pairwise (fun o o' => (o.find? zoneInterface).isNone = true ∨
        (o'.find? zoneInterface).isNone = true) := by decide +kernel
    refine this.imp ?_
    rintro o o' h z z' n h1 _ h2 _ _
    rcases h with h | h
    · rw [h1] at h; cases h
    · rw [h2] at h; cases h
  · have hk := key o ho p hp
    obtain ⟨v, hv, rfl⟩ := hz
    simp only [onlyLeft, hv, Bool.and_eq_true, decide_eq_true_eq] at hk
    rw [hk.1, List.mem_singleton] at hm
    subst hm
    exact ⟨_, List.mem_cons_of_mem _ List.mem_cons_self, _, rfl, .inl rfl, _, rfl, rfl⟩
  · have hk := key o ho p hp
    obtain ⟨v, hv, rfl⟩ := hl
    simp [onlyLeft, hv] at hk
  · have h : ∀ o ∈ objs115, ((o.interfaces.find? "xyz.openbmc_project.Sensor.Value").isNone = true ∧
        (o.interfaces.find? "xyz.openbmc_project.Control.FanPwm").isNone = true) ∨
        getReadInterfaceType o.path = .dbusPassive := by decide +kernel
    rintro o ho i ⟨h1, h2⟩
    rcases h o ho with ⟨a, b⟩ | h
    · rcases h2 with ⟨rfl, -⟩ | rfl
      · exact absurd (Option.isNone_iff_eq_none.1 a) h1
      · exact absurd (Option.isNone_iff_eq_none.1 b) h1
    · exact (C65_read _ _).1 h

theorem onTheBus115 : OnTheBus objs115 conf115 (mapperOf objs115) [] :=
  ⟨rfl, mapper_knows _, managers_answer _, arranged115, by decide +kernel, by
    intro o ho
    have : o.interfaces.entries.length ≤ 1 := by revert o; decide +kernel
    unfold OMap.WF
    match h : o.interfaces.entries with
    | [] => simp
    | [e] => simp
    | _ :: _ :: _ => rw [h] at this; simp at this, rfl, rfl, busSuits115⟩

/-- the pairs of fans and controls -/
theorem pair115 {base : ConfProps} {fan pwm : String} (hA : Active [] (confsOf objs115) "xyz.openbmc_project.Configuration.Pid" base)
    (h : FanPair view115 base fan pwm) : base = fan115 ∧ fan = "/xyz/openbmc_project/sensors/fan_tach/Fan_1" ∧
      pwm = "/xyz/openbmc_project/control/fanpwm/Pwm_1" := by
  obtain ⟨h1, h2, h3, h4, h5⟩ := h
  rcases pid115 hA with rfl | rfl
  · rw [attr_unique names_unique h2 (y := ["Fan 1"]) ⟨_, rfl, rfl⟩, attr_unique names_unique h3 (y := ["Pwm 1"]) ⟨_, rfl, rfl⟩,
      ← pairFans_iff, show pairFans (["Fan 1"].flatMap (Matching view115)) (["Pwm 1"].flatMap (Matching view115)) =
        .ok [(("/xyz/openbmc_project/sensors/fan_tach/Fan_1", valueInterface),
          ("/xyz/openbmc_project/control/fanpwm/Pwm_1", pwmInterface))] from by rfl] at h4
    cases h4
    simp only [List.mem_singleton, Prod.mk.injEq] at h5
    exact ⟨rfl, h5.1.1, h5.2.1⟩
  · exact absurd (attr_unique text_unique h1 (y := "temp") ⟨_, rfl, rfl⟩) (by decide)

theorem pair_there115 : FanPair view115 fan115 "/xyz/openbmc_project/sensors/fan_tach/Fan_1"
    "/xyz/openbmc_project/control/fanpwm/Pwm_1" :=
  .mk (inputs := ["Fan 1"]) (outputs := ["Pwm 1"]) (i := valueInterface) (j := pwmInterface)
    (pairs := [(("/xyz/openbmc_project/sensors/fan_tach/Fan_1", valueInterface),
      ("/xyz/openbmc_project/control/fanpwm/Pwm_1", pwmInterface))]) ⟨_, rfl, rfl⟩ ⟨_, rfl, rfl⟩ ⟨_, rfl, rfl⟩
    (pairFans_iff.1 (by rfl)) (by simp)

/-- C114_controls: the fan is called after both -/
theorem named115 {n : String} : FanNamed "/xyz/openbmc_project/sensors/fan_tach/Fan_1"
    "/xyz/openbmc_project/control/fanpwm/Pwm_1" n ↔ n = "Fan_1Pwm_1" := by
  rw [fanNamed_iff, show sensorNameFromPath "/xyz/openbmc_project/sensors/fan_tach/Fan_1" ++
    sensorNameFromPath "/xyz/openbmc_project/control/fanpwm/Pwm_1" = "Fan_1Pwm_1" from by decide +kernel]

theorem inputs_fan115 : InputNames view115 fan115 pidInterface ["Fan_1Pwm_1"] [] := by
  have := InputNames.pid (b := view115) (base := fan115) (i := pidInterface) (acceptable := []) rfl
    (.fan (inputs := ["Fan 1"]) (outputs := ["Pwm 1"]) (pairs := [(("/xyz/openbmc_project/sensors/fan_tach/Fan_1", valueInterface),
      ("/xyz/openbmc_project/control/fanpwm/Pwm_1", pwmInterface))]) ⟨_, rfl, rfl⟩ ⟨_, rfl, rfl⟩ ⟨_, rfl, rfl⟩
      (pairFans_iff.1 (by rfl))) (.inr ⟨rfl, rfl⟩)
  exact this

theorem names_heat115 : PidNames view115 heat115 ["Core_1"] := by
  have := PidNames.heat (b := view115) (base := heat115) (cls := "temp") (inputs := ["Core 1"]) (acceptable := []) ⟨_, rfl, rfl⟩
    (by decide) ⟨_, rfl, rfl⟩ (.inr ⟨rfl, rfl⟩)
  rwa [show missingNames view115 [] ["Core 1"] ++ foundNames view115 ["Core 1"] = ["Core_1"] from by decide +kernel] at this

theorem inputs_heat115 : InputNames view115 heat115 pidInterface ["Core_1"] [] :=
  .pid (b := view115) (base := heat115) (i := pidInterface) (acceptable := []) rfl names_heat115 (.inr ⟨rfl, rfl⟩)

theorem inputs_step115 : InputNames view115 step115 stepwiseInterface ["Core_2"] [] := by
  have := InputNames.step (b := view115) (base := step115) (i := stepwiseInterface) (inputs := ["Core 2"]) (acceptable := []) rfl
    ⟨_, rfl, rfl⟩ (.inr ⟨rfl, rfl⟩)
  rwa [show stepNames view115 [] ["Core 2"] = ["Core_2"] from by decide +kernel,
    show stepLenient view115 [] = [] from by decide +kernel] at this

theorem left115 {base : ConfProps} {i : String} (hA : Active [] (confsOf objs115) i base)
    (h : base.find? "Zones" = some (.strs ["Left"])) : ForZone (Active [] (confsOf objs115)) i "Left" base :=
  ⟨hA, _, ⟨_, h, rfl⟩, by simp⟩

/-- the loops of the zone -/
theorem loops115 {i zone : String} {base : ConfProps} (h : ForZone (Active [] (confsOf objs115)) i zone base) :
    (i = pidInterface ∧ base = fan115) ∨ (i = pidInterface ∧ base = heat115) ∨ (i = stepwiseInterface ∧ base = step115) := by
  obtain ⟨hA, zones, ⟨v, hv, -⟩, -⟩ := h
  rcases active115 hA with ⟨rfl, rfl⟩ | ⟨rfl, rfl | rfl⟩ | ⟨rfl, rfl⟩
  · cases hv
  · exact .inl ⟨rfl, rfl⟩
  · exact .inr (.inl ⟨rfl, rfl⟩)
  · exact .inr (.inr ⟨rfl, rfl⟩)

theorem zone_left115 {i zone : String} {base : ConfProps} (h : ForZone (Active [] (confsOf objs115)) i zone base) :
    zone = "Left" := by
  have := loops115 h
  obtain ⟨-, zones, hz, hm⟩ := h
  have hl : Attr base "Zones" NamesValue ["Left"] := by
    rcases this with ⟨-, rfl⟩ | ⟨-, rfl⟩ | ⟨-, rfl⟩ <;> exact ⟨_, rfl, rfl⟩
  rw [attr_unique names_unique hz hl] at hm
  simpa using hm

theorem tidy115 : Tidy (Active [] (confsOf objs115)) "Left" := by
  refine ⟨fun base hb => ?_, fun i hi i' hi' base base' n n' t hb hb' hn hn' hu hu' => ?_⟩
  · rcases loops115 hb with ⟨-, rfl⟩ | ⟨-, rfl⟩ | ⟨-, rfl⟩ <;> rfl
  · have key : ∀ {i base n}, ForZone (Active [] (confsOf objs115)) i "Left" base → Attr base "Name" TextValue n →
        Underscored n t → (t = "Fan_loop" ∧ i = pidInterface ∧ base = fan115) ∨ (t = "CPU_loop" ∧ i = pidInterface ∧ base = heat115) ∨
          (t = "Step_loop" ∧ i = stepwiseInterface ∧ base = step115) := by
      intro i base n hb hn hu
      rw [(C83_search_name _ _).1 hu]
      rcases loops115 hb with ⟨rfl, rfl⟩ | ⟨rfl, rfl⟩ | ⟨rfl, rfl⟩
      · rw [attr_unique text_unique hn (y := "Fan loop") ⟨_, rfl, rfl⟩]
        exact .inl ⟨by decide +kernel, rfl, rfl⟩
      · rw [attr_unique text_unique hn (y := "CPU loop") ⟨_, rfl, rfl⟩]
        exact .inr (.inl ⟨by decide +kernel, rfl, rfl⟩)
      · rw [attr_unique text_unique hn (y := "Step loop") ⟨_, rfl, rfl⟩]
        exact .inr (.inr ⟨by decide +kernel, rfl, rfl⟩)
    rcases key hb hn hu with ⟨rfl, rfl, rfl⟩ | ⟨rfl, rfl, rfl⟩ | ⟨rfl, rfl, rfl⟩ <;>
      rcases key hb' hn' hu' with ⟨e, rfl, rfl⟩ | ⟨e, rfl, rfl⟩ | ⟨e, rfl, rfl⟩ <;>
      first
      | exact ⟨rfl, rfl⟩
      | exact absurd e (by decide)

theorem zoneCalled115 : ZoneCalled (Active [] (confsOf objs115)) "Left" zone115 := ⟨active_zone115, _, rfl, rfl⟩

theorem noNegative115 : NoNegative (Active [] (confsOf objs115)) "Left" := by
  refine ⟨fun base p hb hp => ?_, fun zp p hz hp => ?_⟩
  · obtain ⟨v, hv, -⟩ := hp
    rcases loops115 hb with ⟨-, rfl⟩ | ⟨-, rfl⟩ | ⟨-, rfl⟩ <;> cases hv
  · obtain rfl := zone_only115 hz.1
    obtain ⟨v, hv, hp⟩ := hp
    cases hv
    obtain ⟨x, hx, hx'⟩ := ok_of_any (x := (ConfVariant.dbl 75).getPercent) (P := fun d : Dbl => decide (0 ≤ d)) (by decide +kernel)
    rw [(getPercent_iff _ _).2 hp] at hx
    cases hx
    exact of_decide_eq_true hx'

theorem needed115 : NeededFor (Active [] (confsOf objs115)) view115 "Left" "Core_1" := by
  refine ⟨⟨pidInterface, heat115, _, _, left115 active_heat115 rfl, inputs_heat115, .inr ⟨"temp", by decide, _, rfl, rfl⟩,
    by simp⟩, fun i base names lenient hb hn _ => ?_⟩
  rcases loops115 hb with ⟨rfl, rfl⟩ | ⟨rfl, rfl⟩ | ⟨rfl, rfl⟩
  · rw [(inputNames_unique hn inputs_fan115).2]; simp
  · rw [(inputNames_unique hn inputs_heat115).2]; simp
  · rw [(inputNames_unique hn inputs_step115).2]; simp

theorem sensorFor115 : SensorFor view115 [] (confsOf objs115) "Core_1" := by
  refine ⟨fun base type hu => ?_, fun base fan pwm hA hp hn => ?_⟩
  · cases hu with
    | pid h1 h2 h3 =>
      rcases pid115 h1 with rfl | rfl
      · exact ⟨.inr ⟨rfl, rfl⟩, .inr ⟨rfl, rfl⟩⟩
      · exact ⟨.inr ⟨rfl, rfl⟩, .inr ⟨rfl, rfl⟩⟩
    | step h1 =>
      rw [step_only115 h1]
      exact ⟨.inr ⟨rfl, rfl⟩, .inr ⟨rfl, rfl⟩⟩
  · obtain ⟨rfl, rfl, rfl⟩ := pair115 hA hp
    exact absurd (named115.1 hn) (by decide)

theorem fanFor115 : FanFor view115 [] (confsOf objs115) "Left" "Fan_1Pwm_1" "/xyz/openbmc_project/control/fanpwm/Pwm_1" := by
  refine ⟨⟨fan115, _, left115 active_fan115 rfl, pair_there115, named115.2 rfl⟩, fun base fan pwm hA hp _ => (pair115 hA hp).2.2,
    fun base fan m' hA hp hn => ?_, fun zone' base fan pwm hz _ _ => zone_left115 hz, fun base fan pwm hA hp => ?_,
    fun base hA _ => ?_, fun base type hu => ?_⟩
  · obtain ⟨rfl, rfl, -⟩ := pair115 hA hp
    exact named115.1 hn
  · obtain ⟨rfl, rfl, rfl⟩ := pair115 hA hp
    exact (C65_write _ _).1 (by decide +kernel)
  · rcases pid115 hA with rfl | rfl <;> rfl
  · cases hu with
    | pid h1 h2 h3 h4 h5 =>
      rcases pid115 h1 with rfl | rfl
      · exact h3 (attr_unique text_unique h2 ⟨_, rfl, rfl⟩)
      · rw [pidNames_unique h4 names_heat115] at h5
        exact absurd h5 (by decide)
    | step h1 h2 h3 h4 h5 =>
      rw [step_only115 h1] at h3 h4
      rw [attr_unique names_unique h3 (y := ["Core 2"]) ⟨_, rfl, rfl⟩, attrOr_unique names_unique h4 (y := []) (.inr ⟨rfl, rfl⟩),
        show stepNames view115 [] ["Core 2"] = ["Core_2"] from by decide +kernel] at h5
      exact absurd h5 (by decide)

def start115 : Res (DbusCfg × Timed) := do
  let c ← busInit conf115 asListed
  let td ← Timed.launch {} bus98 0 (fun _ => 0) world113 c.2.sensors c.2.pids c.2.zones
  .ok (c.2, td)

def alarm115 : TEvent := at111 700 (.signal "Core_1" (ms 700) (alarm99 true))
def events115 : List TEvent := before113 ++ alarm115 :: since113

/-- what is started -/
theorem started115 {c : DbusCfg} {td : Timed} (h : start115 = .ok (c, td)) : busInit conf115 asListed = .ok (true, c) ∧
    attempt {} "" nofiles108 conf115 asListed bus98 0 world113 = .running td.d ∧ c.numbers.find? "Left" = some 3 ∧
    WithBusTimers (Active [] (confsOf objs115)) c.numbers (fun _ => 0) td.d td ∧
    CycleAttr zone115 "CycleIntervalTimeMS" 100 500 ∧ CycleAttr zone115 "UpdateThermalsTimeMS" 1000 1000 ∧
    AttrOr zone115 "FailSafePercent" PercentValue 0 75 := by
  obtain ⟨⟨r, c'⟩, hc, h⟩ := bind_eq_ok.1 h
  obtain ⟨td', hl, h⟩ := bind_eq_ok.1 h
  obtain ⟨rfl, rfl⟩ := Prod.mk.inj (Except.ok.inj h)
  dsimp only at hl ⊢
  rename' c' => c, td' => td
  obtain ⟨⟨r', c''⟩, hc', hP⟩ := ok_of_any (x := busInit conf115 asListed)
    (P := fun r : Bool × DbusCfg => r.1 && decide (r.2.numbers.find? "Left" = some 3) && (r.2.zones.find? 3).any (fun z : ZoneConfig =>
      decide (z.cycleTime.cycleIntervalTimeMS = 500 ∧ z.cycleTime.updateThermalsTimeMS = 1000 ∧ z.failsafePercent = 75)))
    (by decide +kernel)
  rw [hc] at hc'
  cases hc'
  simp only [Bool.and_eq_true, decide_eq_true_eq, Option.any_eq_true] at hP
  obtain ⟨⟨rfl, hn⟩, z, hz, z1, z2, z3⟩ := hP
  obtain ⟨hs, -⟩ := C108_bus_suits onTheBus115.subTree onTheBus115.mapper onTheBus115.managers onTheBus115.arranged
    onTheBus115.configured onTheBus115.sorted onTheBus115.missing onTheBus115.profiles onTheBus115.suits hc
  have hd : attempt {} "" nofiles108 conf115 asListed bus98 0 world113 = .running td.d :=
    ((C108_bus nofiles108_source conf115 asListed bus98 0 world113).1 td.d).2 ⟨c, hc, (timed_launch hs.pidsWf
      (fun e he => hs.loopsWf e.1 e.2 ((OMap.mem_entries_iff hs.pidsWf _ _).1 he)) hl).1⟩
  obtain ⟨l, hp, hw, hdz, hi, -, -, hiff⟩ := runs_from_bus nofiles108_source onTheBus115 hd hc (fun _ => 0)
  obtain ⟨z', hz', hset⟩ := zone_config hw hdz hi (by rw [active_eq hp]; exact zoneCalled115) hn
  rw [hz] at hz'
  cases hz'
  exact ⟨hc, hd, hn, (hiff td).1 hl, z1 ▸ hset.cycle, z2 ▸ hset.thermals, z3 ▸ hset.failsafePercent⟩

/-- C115: all hypotheses hold for this bus and a history in which the first core reports an alarm after 700 ms: after 2730 ms
the fan has been told 75 percent of 255 -/
example : ∃ c td td1, busInit conf115 asListed = .ok (true, c) ∧
    attempt {} "" nofiles108 conf115 asListed bus98 0 world113 = .running td.d ∧
    WithBusTimers (Active [] (confsOf objs115)) c.numbers (fun _ => 0) td.d td ∧ td.run {} events115 = .ok td1 ∧
    Served {} 20000000 0 td (events115 ++ [at111 2730 (.manual 3 true)]) ∧
    WrittenAtLeast 0 255 "/xyz/openbmc_project/control/fanpwm/Pwm_1" (75 / 100) td1.d.w := by
  obtain ⟨td1, h, -⟩ := ok_of_any (x := (do let x ← start115; x.2.run {} events115)) (P := fun _ : Timed => true)
    (by decide +kernel)
  obtain ⟨⟨c, td⟩, hl, h⟩ := bind_eq_ok.1 h
  obtain ⟨x, hl', hck⟩ := ok_of_any (x := start115)
    (P := fun x : DbusCfg × Timed => servedCheck {} 20000000 x.2 (events115 ++ [at111 2730 (.manual 3 true)])) (by decide +kernel)
  rw [hl] at hl'
  cases hl'
  have hsv : Served {} 20000000 0 td (events115 ++ [at111 2730 (.manual 3 true)]) :=
    served_of_check hck (by decide +kernel) (by decide +kernel)
  obtain ⟨hc, hd, hn, htd, hnf, hnt, hfs⟩ := started115 hl
  refine ⟨c, td, td1, hc, hd, htd, h, hsv, ?_⟩
  refine C115_alarm (o := {}) rfl nofiles108_source onTheBus115 rfl hd hc htd "Left" zone115 3 zoneCalled115 hn tidy115
    noNegative115 500 1000 hnf hnt "Core_1" needed115 sensorFor115 20000000 0 le_rfl before113 since113 (ms 700) _ (ms 2730)
    (.manual 3 true) td1 hsv h (by decide +kernel) (by intro x hx; cases hx) automatic113 (by decide) 75
    (.zone (fun base names lenient hb _ _ => ?_) zoneCalled115 hfs) _ _ fanFor115 rfl ?_
  · rcases loops115 hb with ⟨-, rfl⟩ | ⟨-, rfl⟩ | ⟨-, rfl⟩ <;> rfl
  · intro e he
    simp only [eventsOf, before113, since113, at111, List.map_cons, List.map_nil, List.mem_cons,
      List.mem_append, List.map_append, List.not_mem_nil, or_false] at he
    rcases he with rfl | rfl | rfl | rfl | rfl | rfl <;> trivial

/-- C115: it is 191 -/
example : ∃ td, (do let x ← start115; x.2.run {} events115) = .ok td ∧
    decide (valueAt "/xyz/openbmc_project/control/fanpwm/Pwm_1" td.d.w = some 191) = true :=
  ok_of_any (P := fun td : Timed => decide (valueAt "/xyz/openbmc_project/control/fanpwm/Pwm_1" td.d.w = some 191))
    (by decide +kernel)

def hot115 : List TEvent := before113 ++ [at111 700 (.signal "Core_2" (ms 700) (temp103 45))]

theorem handsOn115 {cf : ControllerInfo} (h : PidSettings fan115 cf) : HandsOn cf.pidInfo ∧ (60 : Dbl) ≤ cf.pidInfo.outLim.max := by
  have val : ∀ {k : String} {x y : Dbl}, Attr fan115 k NumberValue x → fan115.find? k = some (.dbl y) → x = y := by
    intro k x y h1 h2
    exact attr_unique number_unique h1 ⟨_, h2, .inr (.inl rfl)⟩
  have val' : ∀ {k : String} {x y : Dbl}, AttrOr fan115 k NumberValue y x → fan115.find? k = none → x = y := by
    rintro k x y (⟨v, hv, -⟩ | ⟨-, h1⟩) h2
    · rw [h2] at hv; cases hv
    · exact h1
  refine ⟨⟨?_, ⟨val h.proportionalCoeff rfl, val h.integralCoeff rfl, val' h.derivativeCoeff rfl⟩,
    ⟨val h.feedFwdOffset rfl, val h.feedFwdGain rfl⟩, val h.slewNeg rfl, val h.slewPos rfl⟩, ?_⟩
  · rcases h.checkHysterWithSetpt with ⟨v, hv, -⟩ | ⟨-, h1⟩
    · cases hv
    · exact h1
  · rw [val h.outMax (y := 100) rfl]
    decide +kernel

/-- C115: and for a history in which the second core reports 45 degrees after 700 ms: the table has 60 percent for this -/
example : ∃ c td tda td1, busInit conf115 asListed = .ok (true, c) ∧
    attempt {} "" nofiles108 conf115 asListed bus98 0 world113 = .running td.d ∧
    WithBusTimers (Active [] (confsOf objs115)) c.numbers (fun _ => 0) td.d td ∧ td.run {} hot115 = .ok tda ∧
    tda.run {} since113 = .ok td1 ∧ Served {} 20000000 0 td (hot115 ++ since113 ++ [at111 2730 (.manual 3 true)]) ∧
    WrittenAtLeast 0 255 "/xyz/openbmc_project/control/fanpwm/Pwm_1" (60 / 100) td1.d.w := by
  obtain ⟨td1, h, -⟩ := ok_of_any (x := (do let x ← start115; x.2.run {} (hot115 ++ since113))) (P := fun _ : Timed => true)
    (by decide +kernel)
  obtain ⟨⟨c, td⟩, hl, h⟩ := bind_eq_ok.1 h
  obtain ⟨tda, hra, hrb⟩ := timed_append.1 h
  obtain ⟨x, hl', hck⟩ := ok_of_any (x := start115)
    (P := fun x : DbusCfg × Timed => servedCheck {} 20000000 x.2 (hot115 ++ since113 ++ [at111 2730 (.manual 3 true)]))
    (by decide +kernel)
  rw [hl] at hl'
  cases hl'
  obtain ⟨tda', hra', hb⟩ := ok_of_any (x := (do let x ← start115; x.2.run {} hot115))
    (P := fun td : Timed => hotB 3 "Core_2" (fun v => decide (Passed 0 40 v)) td.d (eventsOf since113)) (by decide +kernel)
  rw [hl, ok_bind] at hra'
  dsimp only at hra'
  rw [hra] at hra'
  cases hra'
  have hsv : Served {} 20000000 0 td (hot115 ++ since113 ++ [at111 2730 (.manual 3 true)]) :=
    served_of_check hck (by decide +kernel) (by decide +kernel)
  obtain ⟨hc, hd, hn, htd, hnf, hnt, -⟩ := started115 hl
  refine ⟨c, td, tda, td1, hc, hd, htd, hra, hrb, hsv, ?_⟩
  have hau : Automatic 3 (eventsOf hot115) (eventsOf since113) := fun es1 es2 he => automatic113 es1 es2 he
  refine C115_hot (o := {}) rfl rfl nofiles108_source onTheBus115 rfl hd hc htd "Left" zone115 3 zoneCalled115 hn tidy115
    ?_ 500 1000 hnf hnt ?_ step115 "Step loop" "Step_loop" ["Core_2"] [] [20, 40] [30, 60] 0 (left115 active_step115 rfl)
    ⟨_, rfl, rfl⟩ ((C83_search_name _ _).2 (by decide +kernel)) inputs_step115 (by simp) ⟨_, rfl, rfl⟩ ⟨_, rfl, rfl⟩
    (by decide +kernel) (by decide +kernel) (.inr ⟨rfl, rfl⟩) 1 40 60 rfl rfl (by decide +kernel) ?_ 20000000 0 (ms 700) le_rfl
    (by decide) hot115 since113 (ms 2730) (.manual 3 true) tda td1 hsv hra hrb (by decide +kernel)
    (hot_of (n := "Core_2") (by simp) (fun v hv => of_decide_eq_true hv) hb) ?_ hau (by decide) _ _ fanFor115 rfl ?_
  · rintro ⟨v, hv, -⟩
    cases hv
  · intro base hb hcl
    rw [step_only115 hb.1] at hcl
    exact absurd (attr_unique text_unique hcl (y := "Floor") ⟨_, rfl, rfl⟩) (by decide)
  · intro fb hfb hcl cf hcf
    rcases pid115 hfb.1 with rfl | rfl
    · exact handsOn115 hcf
    · exact absurd (attr_unique text_unique hcl (y := "temp") ⟨_, rfl, rfl⟩) (by decide)
  · intro es1 es2 he
    have : ∀ e ∈ eventsOf hot115 ++ es1, ∀ j l b, e ≠ .enable j l b := by
      intro e hin
      have hin : e ∈ eventsOf hot115 ++ eventsOf since113 := by
        rw [he]
        rw [List.mem_append] at hin ⊢
        rcases hin with hin | hin
        · exact .inl hin
        · exact .inr (List.mem_append_left _ hin)
      simp only [eventsOf, hot115, before113, since113, at111, List.map_cons, List.map_nil, List.mem_cons,
        List.mem_append, List.map_append, List.not_mem_nil, or_false] at hin
      rcases hin with (rfl | rfl) | rfl | rfl | rfl | rfl <;> simp
    generalize eventsOf hot115 ++ es1 = l at this
    induction l with
    | nil => rfl
    | cons e l ih =>
      have h0 := this e List.mem_cons_self
      have hih := ih (fun e he => this e (List.mem_cons_of_mem _ he))
      cases e with
      | enable j l b => exact absurd rfl (h0 j l b)
      | outside | signal | hostWrite | manual | tick => exact hih
  · intro e he
    simp only [eventsOf, hot115, before113, since113, at111, List.map_cons, List.map_nil, List.mem_cons,
      List.mem_append, List.map_append, List.not_mem_nil, or_false] at he
    rcases he with (rfl | rfl) | rfl | rfl | rfl | rfl <;> trivial

end
end Ex
end Verif
