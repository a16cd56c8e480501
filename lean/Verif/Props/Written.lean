import Verif.Lemmas.Written
import Verif.Props.Quiet

/-! # From the configuration file to the fans: property C113 -/

namespace Verif
open Dbl
section
variable [F : FloatModel]

theorem written_of_told {s : SensorConfig} {dirs : Dirs} {sensors : OMap String SensorConfig} {m path : String} {lo hi : Int}
    (hf : FanOn dirs sensors m s path) (hl : limitsOf s = some (lo, hi)) {p q : Dbl} (h0 : 0 ≤ p) (hpq : p ≤ q) {w : World}
    (h : ToldAtLeast s path (q / 100) w) : WrittenAtLeast lo hi path (p / 100) w := by
  obtain ⟨u, r, h1, h2, h3⟩ := h
  obtain ⟨r', g1, -, g3⟩ := rawCommand_mono hf.limits (percent_nonneg h0)
    (div_le_div_of_pos pos100 hpq (div100_ne_nan (Dbl.ne_nan_of_le_left hpq)) (div100_ne_nan (Dbl.ne_nan_of_le_right hpq))) h2
  rw [hl] at g1
  exact ⟨u, r', h1, g1, le_trans g3 h3⟩

/-- **C113** A daemon that runs from a file has the timers that belong to it. -/
theorem C113_timers {o : Opts} {conf file : String} {f : StartFiles} (hsrc : Source conf f (some file)) {data : Json}
    (hj : f.json file = some data) {b : ConfBus} {h : HashOrder} {bus : BuildBus} {now : Int} {w : World} {d : Daemon}
    (hd : attempt o conf f b h bus now w = .running d) (started : Int → Int) : ∃! td, WithTimers data started d td := by
  obtain ⟨c, hm, ⟨-, td, htd⟩, hiff⟩ := runs_from_file hsrc hj hd started
  refine ⟨td, htd, fun td' h => ?_⟩
  have := (hiff td').2 h
  rw [(hiff td).2 htd] at this
  exact (Except.ok.inj this).symm

/-- **C113** A critical alarm, from the configuration file to the fan: if the daemon runs from a file, a sensor that a zone in
the file cannot do without reports a critical alarm, and the zone stays in automatic mode, then every fan of the zone in the
file has, once the time it says for the thermal loops, twice the time it says for the fans and the lateness of the event loop
have passed, been told at least the percentages demanded in the file, as long as the alarm is not withdrawn. -/
theorem C113_alarm {o : Opts} (ho : o.tuningEnabled = false) {conf file : String} {f : StartFiles}
    (hsrc : Source conf f (some file)) {data : Json} (hj : f.json file = some data) {b : ConfBus} {h : HashOrder} {bus : BuildBus}
    {now : Int} {w : World} (htr : w.trace = []) {d : Daemon} (hd : attempt o conf f b h bus now w = .running d)
    {started : Int → Int} {td : Timed} (htd : WithTimers data started d td) :
      ∀ i zone, Chosen data "zones" Numbering i zone → PercentsOk zone →
      (∀ p, Setting zone "failsafePercent" IsNumber p → 0 ≤ p) →
      ∀ nf nt, CycleEntry zone "cycleIntervalTimeMS" 100 nf → CycleEntry zone "updateThermalsTimeMS" 1000 nt →
      ∀ n e, NeededIn zone n → BusSensor data n e → ¬ Setting e "unavailableAsFailed" IsFlag false →
      ¬ Setting e "ignoreFailIfHostOff" IsFlag true →
      ∀ late t0, started i ≤ t0 → ∀ pre post ta m t ev td1,
      Served o late t0 td (pre ++ (ta, .signal n ta m) :: post ++ [(t, ev)]) →
      td.run o (pre ++ (ta, .signal n ta m) :: post) = .ok td1 → alarmIn o (ta, m) = some true →
      (∀ x ∈ signalsFor n (eventsOf post), alarmIn o x ≠ some false) → Automatic i (eventsOf pre) (eventsOf post) →
      ta + ms (nt + 2 * nf) + late ≤ t →
      ∀ p, Demanded zone n p → ∀ l fan path lo hi, LoopIn zone "fan" l → Lists l "inputs" fan →
      FileFan bus.dirs data fan path lo hi → OnlyIn data i fan → w.busOk path = true →
      (∀ e ∈ eventsOf (pre ++ (ta, .signal n ta m) :: post), BusWorks path e) →
      WrittenAtLeast lo hi path (p / 100) td1.d.w := by
  obtain ⟨c, hm, -, hiff⟩ := runs_from_file hsrc hj hd started
  have hl := (hiff td).2 htd
  intro i zone hz hpo hp0 nf nt hnf hnt n e hneed hsens hua hho late t0 h0 pre post ta m t ev td1 hsv hr hal hpost hauto ht
    p hdem l fan path lo hi hlf hlfan hff honly hbus hbw
  obtain ⟨z, conf, g1, g2, g3, g4⟩ := hm.zone i zone hz
  obtain ⟨s, hs, hse⟩ := hm.sensor n e hsens.entry
  obtain ⟨ty, hty, hkn⟩ := hsens.type
  obtain ⟨rp, hrp, hrk⟩ := hsens.path
  have hz0 : 0 ≤ z.failsafePercent := hp0 _ g3.failsafePercent
  have hF : 1 ≤ z.cycleTime.cycleIntervalTimeMS := g3.cycle.pos (by norm_num)
  obtain ⟨q, hq, key⟩ := C111_alarm ho htr hm.sensorsWf hm.pidsWf hm.loopsWf hl g2 g1 (mustRead_of g4 hneed)
    (percents_ok g4 hpo) hz0 hF hs (by rw [settingText_unique hse.type hty]; exact hkn)
    (by rw [settingText_unique hse.readPath hrp]; exact hrk)
    (by
      rcases hse.unavailableAsFailed with hu | ⟨-, hu⟩
      · cases hb : s.unavailableAsFailed with
        | true => rfl
        | false => rw [hb] at hu; exact absurd hu hua
      · exact hu)
    (by
      rcases hse.ignoreFailIfHostOff with hu | ⟨-, hu⟩
      · cases hb : s.ignoreFailIfHostOff with
        | false => rfl
        | true => rw [hb] at hu; exact absurd hu hho
      · exact hu) h0 hsv hr hal hpost hauto
    (by rw [cycle_unique g3.cycle hnf, cycle_unique g3.thermals hnt]; exact ht)
  obtain ⟨hp1, hp2⟩ := demanded_le g4 g3 hdem hq hz0
  obtain ⟨fs, hfo, hlim⟩ := fanOn_of hm hff
  obtain ⟨⟨name, hlc⟩, hlt⟩ := hlf
  obtain ⟨ci, hci, hle⟩ := g4.entry name l hlc
  obtain ⟨x, hx, rfl⟩ := (lists_inputs hle.inputs).1 hlfan
  exact written_of_told hfo hlim hp1 hp2 (key _ hci (settingText_unique hle.type hlt) x hx fs path hfo (onlyZone_of hm honly) hbus hbw)

/-- **C113** The same for a sensor that says nothing for as long as the timeout in the file. -/
theorem C113_silent {o : Opts} (ho : o.tuningEnabled = false) {conf file : String} {f : StartFiles}
    (hsrc : Source conf f (some file)) {data : Json} (hj : f.json file = some data) {b : ConfBus} {h : HashOrder} {bus : BuildBus}
    {now : Int} {w : World} (htr : w.trace = []) {d : Daemon} (hd : attempt o conf f b h bus now w = .running d)
    {started : Int → Int} {td : Timed} (htd : WithTimers data started d td) :
      ∀ i zone, Chosen data "zones" Numbering i zone → PercentsOk zone →
      (∀ p, Setting zone "failsafePercent" IsNumber p → 0 ≤ p) →
      ∀ nf nt, CycleEntry zone "cycleIntervalTimeMS" 100 nf → CycleEntry zone "updateThermalsTimeMS" 1000 nt →
      ∀ n e, NeededIn zone n → BusSensor data n e → ¬ Setting e "type" IsText "fan" →
      ∀ timeout, SettingOr e "timeout" IsInt64 2 timeout → 0 < timeout →
      ∀ late t0 tl, started i ≤ t0 → now ≤ tl → t0 ≤ tl + timeout * 1000000000 → ∀ pre post t ev td1,
      Served o late t0 td (pre ++ post ++ [(t, ev)]) → td.run o (pre ++ post) = .ok td1 →
      (∀ x ∈ pre, x.1 ≤ tl + timeout * 1000000000) → (∀ x ∈ post, tl + timeout * 1000000000 ≤ x.1) →
      (∀ x ∈ signalsFor n (eventsOf pre), tl < x.1 → readingIn x = none) →
      (∀ x ∈ signalsFor n (eventsOf post), readingIn x = none) → Automatic i (eventsOf pre) (eventsOf post) →
      tl + timeout * 1000000000 + ms (nt + 2 * nf) + late ≤ t →
      ∀ p, Demanded zone n p → ∀ l fan path lo hi, LoopIn zone "fan" l → Lists l "inputs" fan →
      FileFan bus.dirs data fan path lo hi → OnlyIn data i fan → w.busOk path = true →
      (∀ e ∈ eventsOf (pre ++ post), BusWorks path e) → WrittenAtLeast lo hi path (p / 100) td1.d.w := by
  obtain ⟨c, hm, -, hiff⟩ := runs_from_file hsrc hj hd started
  have hl := (hiff td).2 htd
  intro i zone hz hpo hp0 nf nt hnf hnt n e hneed hsens hnfan timeout hto hto0 late t0 tl h0 hnow htl pre post t ev td1 hsv hr
    hpre hpost hlast hsil hauto ht p hdem l fan path lo hi hlf hlfan hff honly hbus hbw
  obtain ⟨z, conf, g1, g2, g3, g4⟩ := hm.zone i zone hz
  obtain ⟨s, hs, hse⟩ := hm.sensor n e hsens.entry
  obtain ⟨ty, hty, hkn⟩ := hsens.type
  obtain ⟨rp, hrp, hrk⟩ := hsens.path
  have hz0 : 0 ≤ z.failsafePercent := hp0 _ g3.failsafePercent
  have hF : 1 ≤ z.cycleTime.cycleIntervalTimeMS := g3.cycle.pos (by norm_num)
  have hts : s.timeout = timeout := by
    have h1 := optI64.2 hse.timeout
    rw [if_neg (fun hf => hnfan (by rw [← hf]; exact hse.type)), optI64.2 hto] at h1
    exact (Except.ok.inj h1).symm
  rw [← hts] at hto0 htl hpre hpost ht
  obtain ⟨q, hq, key⟩ := C111_silent ho htr hm.sensorsWf hm.pidsWf hm.loopsWf hl g2 g1 (mustRead_of g4 hneed)
    (percents_ok g4 hpo) hz0 hF hs (by rw [settingText_unique hse.type hty]; exact hkn)
    (by rw [settingText_unique hse.readPath hrp]; exact hrk) hto0 h0 hnow htl hsv hr hpre hpost hlast hsil hauto
    (by rw [cycle_unique g3.cycle hnf, cycle_unique g3.thermals hnt]; exact ht)
  obtain ⟨hp1, hp2⟩ := demanded_le g4 g3 hdem hq hz0
  obtain ⟨fs, hfo, hlim⟩ := fanOn_of hm hff
  obtain ⟨⟨name, hlc⟩, hlt⟩ := hlf
  obtain ⟨ci, hci, hle⟩ := g4.entry name l hlc
  obtain ⟨x, hx, rfl⟩ := (lists_inputs hle.inputs).1 hlfan
  exact written_of_told hfo hlim hp1 hp2 (key _ hci (settingText_unique hle.type hlt) x hx fs path hfo (onlyZone_of hm honly) hbus hbw)

/-- **C113** A hot sensor, from the table in the configuration file to the fan: while a sensor of a stepwise loop reads beyond
point `k` of its table, every fan of the zone that hands its set point on has been told at least the output of this point, once
the same time has passed. -/
theorem C113_hot {o : Opts} (ho : o.tuningEnabled = false) (hst : o.strictFailsafePwm = false) {conf file : String} {f : StartFiles}
    (hsrc : Source conf f (some file)) {data : Json} (hj : f.json file = some data) {b : ConfBus} {h : HashOrder} {bus : BuildBus}
    {now : Int} {w : World} (htr : w.trace = []) {d : Daemon} (hd : attempt o conf f b h bus now w = .running d)
    {started : Int → Int} {td : Timed} (htd : WithTimers data started d td) :
      ∀ i zone, Chosen data "zones" Numbering i zone → ¬ Setting zone "accumulateSetPoint" IsFlag true →
      ∀ nf nt, CycleEntry zone "cycleIntervalTimeMS" 100 nf → CycleEntry zone "updateThermalsTimeMS" 1000 nt →
      (∀ l p, LoopIn zone "stepwise" l → Member l "pid" p → Setting p "isCeiling" IsFlag false) →
      ∀ name l p info names, Chosen zone "pids" Named name l → Setting l "type" IsText "stepwise" →
      Setting l "inputs" (IsList IsText) names → Member l "pid" p → StepEntry p info →
      ∀ n k (hk : k < 20), RisingTable info n → k < n → 0 ≤ info.output ⟨k, hk⟩ →
      (∀ lf pf cf, LoopIn zone "fan" lf → Member lf "pid" pf → PidEntry pf cf →
        HandsOn cf ∧ info.output ⟨k, hk⟩ ≤ cf.outLim.max) →
      ∀ late t0 ta, started i ≤ t0 → t0 ≤ ta → ∀ pre post t ev tda td1, Served o late t0 td (pre ++ post ++ [(t, ev)]) →
      td.run o pre = .ok tda → tda.run o post = .ok td1 → (∀ x ∈ pre, x.1 ≤ ta) →
      ReadsThroughout o i names (Passed info.positiveHysteresis (info.reading ⟨k, hk⟩)) tda.d (eventsOf post) →
      (∀ es1 es2, eventsOf post = es1 ++ es2 → switchAfter i name true (eventsOf pre ++ es1) = true) →
      Automatic i (eventsOf pre) (eventsOf post) → ta + ms (nt + 2 * nf) + late ≤ t →
      ∀ lf fan path lo hi, LoopIn zone "fan" lf → Lists lf "inputs" fan →
      FileFan bus.dirs data fan path lo hi → OnlyIn data i fan → w.busOk path = true →
      (∀ e ∈ eventsOf (pre ++ post), BusWorks path e) → WrittenAtLeast lo hi path (info.output ⟨k, hk⟩ / 100) td1.d.w := by
  obtain ⟨c, hm, -, hiff⟩ := runs_from_file hsrc hj hd started
  have hl := (hiff td).2 htd
  intro i zone hz hacc nf nt hnf hnt hceil name l p info names hlc hlt hnames hp hinfo n k hk htab hkn hpos hfan late t0 ta h0 h1
    pre post t ev tda td1 hsv hra hrb hpre hhot hon hauto ht lf fan path lo hi hlf hlfan hff honly hbus hbw
  obtain ⟨z, conf, g1, g2, g3, g4⟩ := hm.zone i zone hz
  have hF : 1 ≤ z.cycleTime.cycleIntervalTimeMS := g3.cycle.pos (by norm_num)
  obtain ⟨ci, hci, hle⟩ := g4.entry name l hlc
  have hcs : ci.type = "stepwise" := settingText_unique hle.type hlt
  have hinfo' : ci.stepwiseInfo = info := by
    obtain ⟨p', hp', hx⟩ := hle.pid
    rw [if_pos hcs, member_unique hp' hp] at hx
    obtain ⟨o1, a1, a2⟩ := stepwiseFromJson_iff.2 hx.1
    obtain ⟨o2, b1, b2⟩ := stepwiseFromJson_iff.2 hinfo
    rw [a1] at b1
    cases b1
    rw [a2] at b2
    exact Except.ok.inj b2
  have hnames' : ci.inputs.map SensorInput.name = names := by
    obtain ⟨names', _, _, a1, -, -, a4, -⟩ := hle.inputs
    rw [a4]
    exact setting_unique (reads_vec reads_str) a1 hnames
  subst hinfo'
  subst hnames'
  have key := C111_hot ho hst htr hm.sensorsWf hm.pidsWf hm.loopsWf hl g2 g1
    (by
      rcases g3.accumulateSetPoint with hu | ⟨-, hu⟩
      · cases hb : z.accumulateSetPoint with
        | false => rfl
        | true => rw [hb] at hu; exact absurd hu hacc
      · exact hu) hci hcs
    (by
      intro e he hes
      obtain ⟨l', hl', hle'⟩ := g4.listed e he
      obtain ⟨p', hp', hx⟩ := hle'.pid
      rw [if_pos hes] at hx
      exact setting_unique reads_bool hx.1.isCeiling (hceil l' p' ⟨⟨_, hl'⟩, by rw [← hes]; exact hle'.type⟩ hp'))
    htab hk hkn hpos
    (by
      intro e he hes
      obtain ⟨l', hl', hle'⟩ := g4.listed e he
      obtain ⟨p', hp', hx⟩ := hle'.pid
      rw [if_neg (by rw [show e.2.type = "fan" from hes]; decide)] at hx
      exact hfan l' p' _ ⟨⟨_, hl'⟩, by rw [← show e.2.type = "fan" from hes]; exact hle'.type⟩ hp' hx.1)
    hF h0 h1 hsv hra hrb hpre hhot hon hauto
    (by rw [cycle_unique g3.cycle hnf, cycle_unique g3.thermals hnt]; exact ht)
  obtain ⟨fs, hfo, hlim⟩ := fanOn_of hm hff
  obtain ⟨⟨fname, hlfc⟩, hlft⟩ := hlf
  obtain ⟨cf, hcf, hfle⟩ := g4.entry fname lf hlfc
  obtain ⟨x, hx, rfl⟩ := (lists_inputs hfle.inputs).1 hlfan
  exact written_of_told hfo hlim hpos (Dbl.le_refl (Dbl.ne_nan_of_le_right hpos))
    (key _ hcf (settingText_unique hfle.type hlft) x hx fs path hfo (onlyZone_of hm honly) hbus hbw)

end

namespace Ex
section
attribute [local instance] binary64

def sensorFan113 : Json := .obj [("max", .int 255), ("min", .int 0), ("name", .str "fan0"),
  ("readPath", .str "/xyz/openbmc_project/sensors/fan_tach/fan0"), ("type", .str "fan"),
  ("writePath", .str "/sys/class/hwmon/pwm1")]
def sensorCpu113 : Json := .obj
  [("name", .str "cpu"), ("readPath", .str "/xyz/openbmc_project/sensors/temperature/cpu"), ("type", .str "temp")]
def zone113 : Json := .obj
  [("cycleIntervalTimeMS", .int 500), ("failsafePercent", .int 75), ("id", .int 3), ("minThermalOutput", .int 20),
   ("pids", .arr [jsonLoop108 "fans" "fan" "fan0" 1, jsonLoop108 "temps" "temp" "cpu" 0])]

/-- a file with a fan, a processor and a zone with a failsafe percentage of 75, whose fans are set every 500 ms -/
def json113 : Json := .obj [("sensors", .arr [sensorFan113, sensorCpu113]), ("zones", .arr [zone113])]
def files113 : StartFiles := files108 ["/var/lib/swampd/config.json"] (some json113) (by decide) (by decide)
def world113 : World := { world99 with nowFans := 4000000000, nowThermals := 4000000000 }
def start113 : Res Timed := do
  let c ← configFromFile files113 "/var/lib/swampd/config.json"
  Timed.launch {} bus98 0 (fun _ => 0) world113 c.sensors c.pids c.zones

def before113 : List TEvent := [at111 500 (.tick 3)]
def since113 : List TEvent := [at111 1005 (.tick 3), at111 1500 (.tick 3), at111 2020 (.tick 3), at111 2500 (.tick 3)]
def events113 : List TEvent := before113 ++ alarm111 :: since113

theorem source113 : Source "" files113 (some "/var/lib/swampd/config.json") :=
  .found (before := ["/root"]) (dir := "/var/lib/swampd") (after := ["/usr/share/swampd"]) rfl rfl (by decide +kernel)
    (by decide +kernel)

theorem member113 {l : List (String × Json)} {k : String} {v : Json} (h : (Json.obj l).find? k = some v) : Member (.obj l) k v :=
  member_iff.2 h

theorem sensors113 : Member json113 "sensors" (.arr [sensorFan113, sensorCpu113]) := member113 rfl
theorem zones113 : Member json113 "zones" (.arr [zone113]) := member113 rfl
theorem loops113 : Member zone113 "pids" (.arr [jsonLoop108 "fans" "fan" "fan0" 1, jsonLoop108 "temps" "temp" "cpu" 0]) :=
  member113 rfl

theorem lacks113 {l : List (String × Json)} {k : String} (h : (Json.obj l).find? k = none) : Lacks (.obj l) k := lacks_iff.2 h

theorem named113 {l : List (String × Json)} {n m : String} (h : (Json.obj l).find? "name" = some (.str n)) :
    Named (.obj l) m ↔ m = n := by
  constructor
  · exact fun h' => settingText_unique h' ⟨_, member113 h, rfl⟩
  · rintro rfl
    exact ⟨_, member113 h, rfl⟩

/-- the loops of the zone in the file -/
theorem loopIn113 {type : String} {l : Json} (h : LoopIn zone113 type l) :
    (l = jsonLoop108 "fans" "fan" "fan0" 1 ∧ type = "fan") ∨ (l = jsonLoop108 "temps" "temp" "cpu" 0 ∧ type = "temp") := by
  obtain ⟨⟨name, hc⟩, ht⟩ := h
  obtain ⟨pre, post, he, -, -⟩ := (chosen_iff loops113 (.arr _)).1 hc
  have hm : l ∈ [jsonLoop108 "fans" "fan" "fan0" 1, jsonLoop108 "temps" "temp" "cpu" 0] := by rw [he]; simp
  simp only [List.mem_cons, List.not_mem_nil, or_false] at hm
  rcases hm with rfl | rfl
  · exact .inl ⟨rfl, settingText_unique ht ⟨_, member113 rfl, rfl⟩⟩
  · exact .inr ⟨rfl, settingText_unique ht ⟨_, member113 rfl, rfl⟩⟩

theorem lists113 {name type input : String} {gain : Int} {n : String} :
    Lists (jsonLoop108 name type input gain) "inputs" n ↔ n = input := by
  have h0 : Setting (jsonLoop108 name type input gain) "inputs" (IsList IsText) [input] :=
    ⟨_, member113 rfl, _, rfl, .cons rfl .nil⟩
  constructor
  · rintro ⟨names, h1, h2⟩
    rw [setting_unique (reads_vec reads_str) h1 h0] at h2
    simpa using h2
  · rintro rfl
    exact ⟨_, h0, by simp⟩

theorem lacksPercent113 {name type input : String} {gain : Int} : Lacks (jsonLoop108 name type input gain) "FailSafePercent" :=
  lacks113 rfl

theorem needed113 : NeededIn zone113 "cpu" := by
  refine ⟨⟨"temp", by decide, jsonLoop108 "temps" "temp" "cpu" 0, ⟨⟨"temps", ?_⟩, ⟨_, member113 rfl, rfl⟩⟩, lists113.2 rfl⟩, ?_⟩
  · exact (chosen_iff loops113 (.arr _)).2 ⟨[jsonLoop108 "fans" "fan" "fan0" 1], [], rfl, ⟨_, member113 rfl, rfl⟩, by simp⟩
  · rintro type l hl - ⟨names, ⟨v, hv, -⟩, -⟩
    rcases loopIn113 hl with ⟨rfl, -⟩ | ⟨rfl, -⟩ <;> exact absurd hv (lacks113 rfl v)

theorem fanLoop113 : LoopIn zone113 "fan" (jsonLoop108 "fans" "fan" "fan0" 1) := by
  refine ⟨⟨"fans", (chosen_iff loops113 (.arr _)).2 ⟨[], [jsonLoop108 "temps" "temp" "cpu" 0], rfl, ⟨_, member113 rfl, rfl⟩, ?_⟩⟩,
    ⟨_, member113 rfl, rfl⟩⟩
  intro e he
  simp only [List.mem_cons, List.not_mem_nil, or_false] at he
  subst he
  intro h
  exact absurd ((named113 rfl).1 h) (by decide)

theorem fan113 : FileFan bus98.dirs json113 "fan0" "/sys/class/hwmon/pwm1" 0 255 := by
  refine ⟨⟨sensorFan113, ?_, ⟨_, member113 rfl, rfl⟩, ⟨_, ⟨_, member113 rfl, rfl⟩, .inr ⟨?_, .plain (by decide)⟩⟩,
    member113 rfl, member113 rfl⟩, by decide, ?_⟩
  · refine (chosen_iff sensors113 (.arr _)).2 ⟨[], [sensorCpu113], rfl, ⟨_, member113 rfl, rfl⟩, ?_⟩
    intro e he
    simp only [List.mem_cons, List.not_mem_nil, or_false] at he
    subst he
    intro h
    exact absurd ((named113 rfl).1 h) (by decide)
  · exact .sysfs (by decide)
  · intro m' e' hne hc p hp
    obtain ⟨pre, post, he, hn, -⟩ := (chosen_iff sensors113 (.arr _)).1 hc
    have hm : e' ∈ [sensorFan113, sensorCpu113] := by rw [he]; simp
    simp only [List.mem_cons, List.not_mem_nil, or_false] at hm
    rcases hm with rfl | rfl
    · exact absurd ((named113 rfl).1 hn) hne
    · obtain ⟨v, hv, -⟩ := hp
      exact absurd hv (lacks113 rfl v)

theorem zoneChosen113 : Chosen json113 "zones" Numbering 3 zone113 :=
  (chosen_iff zones113 (.arr _)).2 ⟨[], [], rfl, ⟨_, member113 rfl, by norm_num, by norm_num, .inl ⟨3, rfl, by norm_num⟩⟩, by simp⟩

theorem onlyIn113 : OnlyIn json113 3 "fan0" := by
  intro j zone hj hz
  obtain ⟨pre, post, he, hn, -⟩ := (chosen_iff zones113 (.arr _)).1 hz
  have hm : zone ∈ [zone113] := by rw [he]; simp
  simp only [List.mem_cons, List.not_mem_nil, or_false] at hm
  subst hm
  exact absurd (setting_unique reads_i64 hn ⟨_, member113 rfl, by norm_num, by norm_num, .inl ⟨3, rfl, by norm_num⟩⟩) hj

theorem sensorCpu113_bus : BusSensor json113 "cpu" sensorCpu113 :=
  ⟨(chosen_iff sensors113 (.arr _)).2 ⟨[sensorFan113], [], rfl, ⟨_, member113 rfl, rfl⟩, by simp⟩,
    ⟨_, ⟨_, member113 rfl, rfl⟩, by decide⟩, ⟨_, ⟨_, member113 rfl, rfl⟩, (C65_read _ _).1 (by decide +kernel)⟩⟩

theorem automatic113 : Automatic 3 (eventsOf before113) (eventsOf since113) := by
  intro es1 es2 he
  have : ∀ e ∈ eventsOf before113 ++ es1, ∀ j b, e ≠ .manual j b := by
    intro e hin
    have hin : e ∈ eventsOf before113 ++ eventsOf since113 := by
      rw [he]
      rw [List.mem_append] at hin ⊢
      rcases hin with hin | hin
      · exact .inl hin
      · exact .inr (List.mem_append_left _ hin)
    simp only [eventsOf, before113, since113, at111, List.map_cons, List.map_nil, List.mem_cons,
      List.mem_append, List.not_mem_nil, or_false] at hin
    rcases hin with rfl | rfl | rfl | rfl | rfl <;> simp
  generalize eventsOf before113 ++ es1 = l at this
  induction l with
  | nil => rfl
  | cons e l ih =>
    have h0 := this e List.mem_cons_self
    have hih := ih (fun e he => this e (List.mem_cons_of_mem _ he))
    cases e with
    | manual j b => exact absurd rfl (h0 j b)
    | outside | signal | hostWrite | enable | tick => exact hih

/-- C113: all hypotheses hold for this file and a history in which the processor reports an alarm after 700 ms: after 2730 ms
the fan has been told 75 percent of 255 -/
example : ∃ d td td1, attempt {} "" files113 noConfig asListed bus98 0 world113 = .running d ∧
    WithTimers json113 (fun _ => 0) d td ∧ td.run {} events113 = .ok td1 ∧
    Served {} 20000000 0 td (events113 ++ [at111 2730 (.manual 3 true)]) ∧
    WrittenAtLeast 0 255 "/sys/class/hwmon/pwm1" (75 / 100) td1.d.w := by
  obtain ⟨td1, h, -⟩ := ok_of_any (x := (do let td ← start113; td.run {} events113)) (P := fun _ : Timed => true)
    (by decide +kernel)
  obtain ⟨td, hl, h⟩ := bind_eq_ok.1 h
  obtain ⟨td', hl', hck⟩ := ok_of_any (x := start113)
    (P := fun td : Timed => servedCheck {} 20000000 td (events113 ++ [at111 2730 (.manual 3 true)])) (by decide +kernel)
  rw [hl] at hl'
  cases hl'
  have hsv : Served {} 20000000 0 td (events113 ++ [at111 2730 (.manual 3 true)]) :=
    served_of_check hck (by decide +kernel) (by decide +kernel)
  obtain ⟨c, hc, hlt⟩ := bind_eq_ok.1 hl
  have hm := fileMatch hc (data := json113) rfl
  have hd : attempt {} "" files113 noConfig asListed bus98 0 world113 = .running td.d := by
    rw [attempt_file source113, hc]
    exact launched_running.2 (timed_launch hm.pidsWf hm.loopsWf hlt).1
  obtain ⟨c', -, ⟨hc', -⟩, hiff⟩ := runs_from_file source113 (data := json113) rfl hd (fun _ => 0)
  have htd : WithTimers json113 (fun _ => 0) td.d td := by
    rw [hc] at hc'
    cases hc'
    exact (hiff td).1 hlt
  refine ⟨td.d, td, td1, hd, htd, h, hsv, ?_⟩
  refine C113_alarm (o := {}) rfl source113 (data := json113) rfl rfl hd htd 3 zone113 zoneChosen113 ?_ ?_ 500 1000 ?_ ?_ "cpu"
    sensorCpu113 needed113 sensorCpu113_bus ?_ ?_ 20000000 0 le_rfl before113 since113 (ms 700) _ (ms 2730) (.manual 3 true) td1
    hsv h (by decide +kernel) (by intro x hx; cases hx) automatic113 (by decide) 75 (.zone ?_ ?_) _ "fan0" _ 0 255 fanLoop113
    (lists113.2 rfl) fan113 onlyIn113 rfl ?_
  · rintro type l hl' v ⟨x, hx, -⟩
    rcases loopIn113 hl' with ⟨rfl, -⟩ | ⟨rfl, -⟩ <;> exact absurd hx (lacksPercent113 x)
  · intro p hp
    rw [setting_unique reads_dbl hp ⟨_, member113 rfl, .inl ⟨75, rfl, rfl⟩⟩]
    decide +kernel
  · exact ⟨500, .inl ⟨_, member113 rfl, by norm_num, by norm_num, .inl ⟨500, rfl, by norm_num⟩⟩, by rfl⟩
  · exact ⟨0, .inr ⟨lacks113 rfl, rfl⟩, by norm_num⟩
  · rintro ⟨v, hv, -⟩
    exact absurd hv (lacks113 rfl v)
  · rintro ⟨v, hv, -⟩
    exact absurd hv (lacks113 rfl v)
  · intro type l hl' _
    rcases loopIn113 hl' with ⟨rfl, -⟩ | ⟨rfl, -⟩ <;> exact lacksPercent113
  · exact ⟨_, member113 rfl, .inl ⟨75, rfl, by decide +kernel⟩⟩
  · intro e he
    simp only [eventsOf, before113, since113, at111, List.map_cons, List.map_nil, List.mem_cons,
      List.mem_append, List.map_append, List.not_mem_nil, or_false] at he
    rcases he with rfl | rfl | rfl | rfl | rfl | rfl <;> trivial

/-- C113: it is 191 -/
example : ∃ td, (do let td ← start113; td.run {} events113) = .ok td ∧
    decide (valueAt "/sys/class/hwmon/pwm1" td.d.w = some 191) = true :=
  ok_of_any (P := fun td : Timed => decide (valueAt "/sys/class/hwmon/pwm1" td.d.w = some 191)) (by decide +kernel)

end
end Ex
end Verif
