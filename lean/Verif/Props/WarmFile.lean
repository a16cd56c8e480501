import Verif.Spec.WarmFile
import Verif.Props.WarmFan
import Verif.Props.Written

/-!
# From the configuration file to a fan that stays fast across a reload (C151)

C150 in terms of the JSON file that is read at the reload (main.cpp:131-147).
-/

namespace Verif
open Dbl
section
variable [F : FloatModel]

/-- what a reload reads when there is a file -/
theorem read_file {r : Found} {path : String} (hs : Source r.conf r.files (some path)) :
    r.read = match configFromFile r.files path with
      | .ok c => .got c
      | .error (.exc why) => .ended why
      | .error (.ub why) => .undefined why := by
  unfold Found.read
  rcases source_path r.conf r.files with ⟨h1, h2⟩ | ⟨h1, h2⟩
  · have := source_unique hs h2
    injection this with this
    subst this
    dsimp only
    rw [if_pos h1]
    rcases configFromFile r.files _ with (_ | _) | _ <;> rfl
  · exact absurd (source_unique hs h2) (by simp)

/-- **C151** Heat, from the table in the file to the fan, across a reload: let the file that a reload reads have a zone with a stepwise
loop, and let some sensor of the loop be beyond point `k` of the table when the zones have been started and whenever the timer of the
zone expires. From the first cycle of the zone after the reload on, every fan that only this zone has was last told at least the
number for the output of the point, between the limits in the file. If the zone adds up set points, all its tables must rise and have no
outputs below zero. -/
theorem C151_file {o : Opts} (ho : o.tuningEnabled = false) (hst : o.strictFailsafePwm = false) {s1 s0 s : Whole} {r : Found}
    (hre : s1.step o (.reload r) = .ok s0) (hall : s0.AllRun) {file : String} (hsrc : Source r.conf r.files (some file)) {data : Json}
    (hj : r.files.json file = some data) :
      ∀ i zone, Chosen data "zones" Numbering i zone →
      ¬ Setting zone "accumulateSetPoint" IsFlag true ∨ FileTables zone →
      (∀ l p, LoopIn zone "stepwise" l → Member l "pid" p → Setting p "isCeiling" IsFlag false) →
      ∀ name l p info names, Chosen zone "pids" Named name l → Setting l "type" IsText "stepwise" →
      Setting l "inputs" (IsList IsText) names → Member l "pid" p → StepEntry p info →
      ∀ n (k : Fin 20), RisingTable info n → k < n → 0 ≤ info.output k →
      (∀ lf pf cf, LoopIn zone "fan" lf → Member lf "pid" pf → PidEntry pf cf → HandsOn cf ∧ info.output k ≤ cf.outLim.max) →
      ∀ es, s0.run o (es.map .event) = .ok s →
      ReadsNow names (Passed info.positiveHysteresis (info.reading k)) s0.d.w →
      ReadsThroughout o i names (Passed info.positiveHysteresis (info.reading k)) s0.d es →
      (∀ es1 es2, es = es1 ++ es2 → switchAfter i name true es1 = true) →
      (∀ es1 es2, es = es1 ++ es2 → modeAfter i false es1 = false) → .tick i ∈ es →
      ∀ lf fan path lo hi, LoopIn zone "fan" lf → Lists lf "inputs" fan → FileFan r.bus.dirs data fan path lo hi →
      OnlyIn data i fan → s1.d.w.busOk path = true → (∀ e ∈ es, BusWorks path e) →
      WrittenAtLeast lo hi path (info.output k / 100) s.d.w := by
  intro i zone hz hacc hceil name l p info names hlc hlt hnames hp hinfo n k htab hkn hpos hfan es hr hnow hhot hon hauto hti
    lf fan path lo hi hlf hlfan hff honly hbus hbw
  obtain ⟨c, hread, hm⟩ : ∃ c, r.read = .got c ∧ FileMatch data c := by
    cases hc : configFromFile r.files file with
    | ok c => exact ⟨c, by rw [read_file hsrc, hc], fileMatch hc hj⟩
    | error e =>
      exfalso
      obtain ⟨w0, -, ⟨b, rfl⟩ | ⟨c', m, g, -⟩⟩ := reload_cases (show s1.reload o r = .ok s0 from hre)
      · exact absurd hall.2.2 (by rw [Whole.halted]; exact Bool.noConfusion)
      · rw [read_file hsrc, hc] at g
        cases e <;> cases g
  obtain ⟨z, conf, g1, g2, g3, g4⟩ := hm.zone i zone hz
  have hF : 1 ≤ z.cycleTime.cycleIntervalTimeMS := g3.cycle.pos (by norm_num)
  obtain ⟨ci, hci, hle⟩ := g4.entry name l hlc
  have hcs : ci.type = "stepwise" := settingText_unique hle.type hlt
  have hinfo' : ci.stepwiseInfo = info := by
    obtain ⟨p', hp', hx⟩ := hle.pid
    rw [if_pos hcs, member_unique hp' hp] at hx
    obtain ⟨o1, a1, a2⟩ := stepwiseFromJson_iff.2 hx.1
    obtain ⟨o2, b1, b2⟩ := stepwiseFromJson_iff.2 hinfo
    rw [a1] at b1
    cases b1
    rw [a2] at b2
    exact Except.ok.inj b2
  have hnames' : ci.inputs.map SensorInput.name = names := by
    obtain ⟨names', _, _, a1, -, -, a4, -⟩ := hle.inputs
    rw [a4]
    exact setting_unique (reads_vec reads_str) a1 hnames
  subst hinfo'
  subst hnames'
  have hW : WarmZone c.zones (ci.stepwiseInfo.output k) i conf (name, ci) k := by
    refine ⟨⟨z, g1, ?_, hF⟩, ⟨hci, hcs⟩, ?_, ⟨n, htab, hkn⟩, ?_, Dbl.le_refl (Dbl.ne_nan_of_le_right hpos)⟩
    · rcases hacc with hacc | hacc
      · left
        rcases g3.accumulateSetPoint with hu | ⟨-, hu⟩
        · cases hb : z.accumulateSetPoint with
          | false => rfl
          | true => rw [hb] at hu; exact absurd hu hacc
        · exact hu
      · right
        intro e he hh
        obtain ⟨l', hl', hle'⟩ := g4.listed e he
        obtain ⟨ht, hx⟩ := hacc e.2.type hh l' ⟨⟨_, hl'⟩, hle'.type⟩
        obtain ⟨p', hp', hy⟩ := hle'.pid
        rw [if_pos ht] at hy
        exact ⟨ht, hx p' _ hp' hy.1⟩
    · intro e he hes
      obtain ⟨l', hl', hle'⟩ := g4.listed e he
      obtain ⟨p', hp', hx⟩ := hle'.pid
      rw [if_pos hes] at hx
      exact setting_unique reads_bool hx.1.isCeiling (hceil l' p' ⟨⟨_, hl'⟩, by rw [← hes]; exact hle'.type⟩ hp')
    · intro e he hes
      obtain ⟨l', hl', hle'⟩ := g4.listed e he
      obtain ⟨p', hp', hx⟩ := hle'.pid
      rw [if_neg (by rw [show e.2.type = "fan" from hes]; decide)] at hx
      exact hfan l' p' _ ⟨⟨_, hl'⟩, by rw [← show e.2.type = "fan" from hes]; exact hle'.type⟩ hp' hx.1
  obtain ⟨fs, hfo, hlim⟩ := fanOn_of hm hff
  obtain ⟨⟨fname, hlfc⟩, hlft⟩ := hlf
  obtain ⟨cf, hcf, hfle⟩ := g4.entry fname lf hlfc
  obtain ⟨x, hx, rfl⟩ := (lists_inputs hfle.inputs).1 hlfan
  refine written_of_told hfo hlim hpos (Dbl.le_refl (Dbl.ne_nan_of_le_right hpos))
    (C150_reload ho hst hre hall hread hfo hbus hr hbw hpos (fun j conf' hp' hT => ?_)
      ⟨i, ⟨conf, g2, (fname, cf), hcf, settingText_unique hfle.type hlft, x, hx, rfl⟩, hti⟩)
  by_cases hji : j = i
  · subst hji
    rw [g2] at hp'
    cases hp'
    exact ⟨(name, ci), k, hW, hnow, hhot, hon, hauto⟩
  · obtain ⟨e, he, hF', y, hy, hyn⟩ := hT
    exact absurd hyn (onlyZone_of hm honly j conf' hji hp' e he hF' y hy)

end

namespace Ex
section
attribute [local instance] binary64

def fanLoop151 : Json := jsonLoop108 "fans" "fan" "fan0" 1
def pid151 : Json := .obj [("isCeiling", .bool false), ("output", .obj [("0", .int 30), ("1", .int 80)]),
  ("reading", .obj [("0", .int 30), ("1", .int 60)]), ("samplePeriod", .int 1)]
def stepLoop151 : Json := .obj [("inputs", .arr [.str "cpu"]), ("name", .str "step"), ("pid", pid151), ("setpoint", .int 0),
  ("type", .str "stepwise")]
def json151 : Json := .obj [("sensors", .arr [sensorFan113, sensorCpu113]), ("zones", .arr [zone149])]

theorem source151 : Source "" files149 (some "/var/lib/swampd/config.json") :=
  .found (before := ["/root"]) (dir := "/var/lib/swampd") (after := ["/usr/share/swampd"]) rfl rfl (by decide +kernel)
    (by decide +kernel)

theorem zones151 : Member json151 "zones" (.arr [zone149]) := member113 rfl
theorem sensors151 : Member json151 "sensors" (.arr [sensorFan113, sensorCpu113]) := member113 rfl
theorem loops151 : Member zone149 "pids" (.arr [fanLoop151, stepLoop151]) := member113 rfl

theorem zoneChosen151 : Chosen json151 "zones" Numbering 3 zone149 :=
  (chosen_iff zones151 (.arr _)).2 ⟨[], [], rfl, ⟨_, member113 rfl, by norm_num, by norm_num, .inl ⟨3, rfl, by norm_num⟩⟩, by simp⟩

theorem loopIn151 {type : String} {l : Json} (h : LoopIn zone149 type l) :
    (l = fanLoop151 ∧ type = "fan") ∨ (l = stepLoop151 ∧ type = "stepwise") := by
  obtain ⟨⟨name, hc⟩, ht⟩ := h
  obtain ⟨pre, post, he, -, -⟩ := (chosen_iff loops151 (.arr _)).1 hc
  have hm : l ∈ [fanLoop151, stepLoop151] := by rw [he]; simp
  simp only [List.mem_cons, List.not_mem_nil, or_false] at hm
  rcases hm with rfl | rfl
  · exact .inl ⟨rfl, settingText_unique ht ⟨_, member113 rfl, rfl⟩⟩
  · exact .inr ⟨rfl, settingText_unique ht ⟨_, member113 rfl, rfl⟩⟩

theorem stepChosen151 : Chosen zone149 "pids" Named "step" stepLoop151 :=
  (chosen_iff loops151 (.arr _)).2 ⟨[fanLoop151], [], rfl, ⟨_, member113 rfl, rfl⟩, by simp⟩

theorem fanLoopIn151 : LoopIn zone149 "fan" fanLoop151 := by
  refine ⟨⟨"fans", (chosen_iff loops151 (.arr _)).2 ⟨[], [stepLoop151], rfl, ⟨_, member113 rfl, rfl⟩, ?_⟩⟩, ⟨_, member113 rfl, rfl⟩⟩
  intro e he
  simp only [List.mem_cons, List.not_mem_nil, or_false] at he
  subst he
  intro h
  exact absurd ((named113 rfl).1 h) (by decide)

theorem step151 : ∃ info, StepEntry pid151 info ∧ RisingTable info 2 ∧ info.reading 1 = 60 ∧ info.output 1 = 80 ∧
    info.positiveHysteresis = 0 := by
  obtain ⟨info, h, hP⟩ := ok_of_any (x := (do let o ← optionalFromJson pid151; stepwiseFromJson pid151 o))
    (P := fun i : StepwiseInfo => decide (i.reading 2 = nan ∧ i.reading 1 = 60 ∧ i.reading 0 = 30 ∧ i.output 1 = 80 ∧
      i.output 0 = 30 ∧ i.positiveHysteresis = 0)) (by decide +kernel)
  obtain ⟨a1, a2, a3, a4, a5, a6⟩ := of_decide_eq_true hP
  obtain ⟨o, h1, h2⟩ := bind_eq_ok.1 h
  exact ⟨info, stepwiseFromJson_iff.1 ⟨o, h1, h2⟩, rising149 a1 a2 a3 a4 a5, a2, a4, a6⟩

/-- a zone that adds up set points, for which the other alternative of C151 holds -/
def zoneSum151 : Json := .obj [("accumulateSetPoint", .bool true), ("id", .int 3), ("pids", .arr [fanLoop151, stepLoop151])]

example : Setting zoneSum151 "accumulateSetPoint" IsFlag true ∧ FileTables zoneSum151 := by
  refine ⟨⟨_, member113 rfl, rfl⟩, ?_⟩
  rintro type hty l ⟨⟨name, hc⟩, ht⟩
  have hpids : Member zoneSum151 "pids" (.arr [fanLoop151, stepLoop151]) := member113 rfl
  obtain ⟨pre, post, he, -, -⟩ := (chosen_iff hpids (.arr _)).1 hc
  have hm : l ∈ [fanLoop151, stepLoop151] := by rw [he]; simp
  simp only [List.mem_cons, List.not_mem_nil, or_false] at hm
  rcases hm with rfl | rfl
  · rw [settingText_unique ht ⟨_, member113 rfl, rfl⟩] at hty
    exact absurd hty (by decide)
  · refine ⟨settingText_unique ht ⟨_, member113 rfl, rfl⟩, fun p info hp hi => ?_⟩
    have hpid : Member stepLoop151 "pid" pid151 := member113 rfl
    rw [member_unique hp hpid] at hi
    obtain ⟨o, h1, h2⟩ := stepwiseFromJson_iff.2 hi
    have key : ∀ (x : Res StepwiseInfo), x = .ok info → (x.toOption.any (fun i => decide (i.reading 2 = nan ∧ i.reading 1 = 60 ∧
        i.reading 0 = 30 ∧ i.output 1 = 80 ∧ i.output 0 = 30))) = true → (∃ n, RisingTable info n) ∧ 0 ≤ info.output 0 := by
      rintro x rfl hx
      obtain ⟨a1, a2, a3, a4, a5⟩ := of_decide_eq_true hx
      exact ⟨⟨2, rising149 a1 a2 a3 a4 a5⟩, by rw [a5]; decide +kernel⟩
    exact key (do let o ← optionalFromJson pid151; stepwiseFromJson pid151 o) (by rw [h1, ok_bind]; exact h2) (by decide +kernel)

theorem handsOn151 {pf : Json} (hp : Member fanLoop151 "pid" pf) {cf : PidConf} (h : PidEntry pf cf) :
    HandsOn cf ∧ (80 : Dbl) ≤ cf.outLim.max := by
  have hm : Member fanLoop151 "pid" _ := member113 rfl
  rw [member_unique hp hm] at h
  obtain ⟨o, h1, h2⟩ := pidConfFromJson_iff.2 h
  have key : ∀ (x : Res PidConf), x = .ok cf → (x.toOption.any (fun c => decide ((c.checkHysterWithSetpt = false ∧
      (c.proportionalCoeff = 0 ∧ c.integralCoeff = 0 ∧ c.derivativeCoeff = 0) ∧ (c.feedFwdOffset = 0 ∧ c.feedFwdGain = 1) ∧
      (c.slewNeg = 0 ∧ c.slewPos = 0)) ∧ (80 : Dbl) ≤ c.outLim.max))) = true →
      HandsOn cf ∧ (80 : Dbl) ≤ cf.outLim.max := by
    rintro x rfl hx
    obtain ⟨⟨a1, a2, a3, a4⟩, a5⟩ := of_decide_eq_true hx
    exact ⟨⟨a1, a2, a3, a4⟩, a5⟩
  refine key (do let o ← optionalFromJson _; pidConfFromJson _ o) (by rw [h1, ok_bind]; exact h2) (by decide +kernel)

theorem fan151 : FileFan bus149.dirs json151 "fan0" "/sys/class/hwmon/pwm1" 0 255 := by
  refine ⟨⟨sensorFan113, ?_, ⟨_, member113 rfl, rfl⟩, ⟨_, ⟨_, member113 rfl, rfl⟩, .inr ⟨?_, .plain (by decide)⟩⟩,
    member113 rfl, member113 rfl⟩, by decide, ?_⟩
  · refine (chosen_iff sensors151 (.arr _)).2 ⟨[], [sensorCpu113], rfl, ⟨_, member113 rfl, rfl⟩, ?_⟩
    intro e he
    simp only [List.mem_cons, List.not_mem_nil, or_false] at he
    subst he
    intro h
    exact absurd ((named113 rfl).1 h) (by decide)
  · exact .sysfs (by decide)
  · intro m' e' hne hc p hp
    obtain ⟨pre, post, he, hn, -⟩ := (chosen_iff sensors151 (.arr _)).1 hc
    have hm : e' ∈ [sensorFan113, sensorCpu113] := by rw [he]; simp
    simp only [List.mem_cons, List.not_mem_nil, or_false] at hm
    rcases hm with rfl | rfl
    · exact absurd ((named113 rfl).1 hn) hne
    · obtain ⟨v, hv, -⟩ := hp
      exact absurd hv (lacks113 rfl v)

theorem onlyIn151 : OnlyIn json151 3 "fan0" := by
  intro j zone hj hz
  obtain ⟨pre, post, he, hn, -⟩ := (chosen_iff zones151 (.arr _)).1 hz
  have hm : zone ∈ [zone149] := by rw [he]; simp
  simp only [List.mem_cons, List.not_mem_nil, or_false] at hm
  subst hm
  exact absurd (setting_unique reads_i64 hn ⟨_, member113 rfl, by norm_num, by norm_num, .inl ⟨3, rfl, by norm_num⟩⟩) hj

/-- C151: all hypotheses hold for the file and the life of C149; after the reload the fan is told 80 percent of 255 -/
example : ∃ s1 s0 s, (Whole.init world99).run {} life149 = .ok s1 ∧ s1.step {} (.reload warm149) = .ok s0 ∧
    s0.run {} (after150.map .event) = .ok s ∧ WrittenAtLeast 0 255 "/sys/class/hwmon/pwm1" (80 / 100) s.d.w := by
  obtain ⟨s, hs, hP⟩ := ok_of_any (x := (Whole.init world99).run {} ((life149 ++ [.reload warm149]) ++ after150.map .event))
    (P := fun _ : Whole => true) (by decide +kernel)
  obtain ⟨s0, hs0, hr⟩ := wrun_append.1 hs
  obtain ⟨s1, hs1, hre⟩ := wrun_append.1 hs0
  unfold Whole.run at hre
  obtain ⟨s0', h3, h4⟩ := bind_eq_ok.1 hre
  cases h4
  have hP : (((Whole.init world99).run {} (life149 ++ [.reload warm149])).toOption.any (fun s : Whole => !s.again &&
      s.idle.isEmpty && !s.d.zones.isEmpty && nowB "cpu" (fun v => decide (Passed 0 60 v)) s.d.w &&
      hotB 3 "cpu" (fun v => decide (Passed 0 60 v)) s.d after150)) = true := by decide +kernel
  rw [hs0] at hP
  have hP : (_ && _) = true := hP
  simp only [Bool.and_eq_true, Bool.not_eq_true', List.isEmpty_iff] at hP
  obtain ⟨⟨⟨⟨p1, p2⟩, p3⟩, p4⟩, p5⟩ := hP
  have hbus : (((Whole.init world99).run {} life149).toOption.any (fun s : Whole => s.d.w.busOk "/sys/class/hwmon/pwm1")) = true := by
    decide +kernel
  rw [hs1] at hbus
  obtain ⟨info, i1, i2, i3, i4, i5⟩ := step151
  refine ⟨s1, s0, s, hs1, h3, hr, ?_⟩
  have g := C151_file (o := {}) rfl rfl h3 ⟨p1, p2, p3⟩ source151 (data := json151) rfl 3 zone149 zoneChosen151
    (.inl (by rintro ⟨v, hv, -⟩; exact absurd hv (lacks113 rfl v)))
    (by
      intro l p hl hp
      rcases loopIn151 hl with ⟨-, h⟩ | ⟨rfl, -⟩
      · exact absurd h (by decide)
      · have hm : Member stepLoop151 "pid" pid151 := member113 rfl
        rw [member_unique hp hm]
        exact ⟨_, member113 rfl, rfl⟩)
    "step" stepLoop151 pid151 info ["cpu"] stepChosen151 ⟨_, member113 rfl, rfl⟩ ⟨_, member113 rfl, _, rfl, .cons rfl .nil⟩
    (member113 rfl) i1 2 1 i2 (by decide) (by rw [i4]; decide +kernel)
    (by
      intro lf pf cf hl hp h
      rcases loopIn151 hl with ⟨rfl, -⟩ | ⟨-, h⟩
      · rw [i4]; exact handsOn151 hp h
      · exact absurd h (by decide))
    after150 hr
    (now_of (n := "cpu") (by simp) (fun v hv => by rw [i5, i3]; exact of_decide_eq_true hv) p4)
    (hot_of (n := "cpu") (by simp) (fun v hv => by rw [i5, i3]; exact of_decide_eq_true hv) p5)
    (fun es1 es2 h => switch_still (fun x hx => (quiet150 x (by rw [h]; exact List.mem_append_left _ hx)).1.1))
    (fun es1 es2 h => mode_still (fun x hx => (quiet150 x (by rw [h]; exact List.mem_append_left _ hx)).1.2))
    (by simp [after150]) fanLoop151 "fan0" _ 0 255 fanLoopIn151 (lists113.2 rfl) fan151 onlyIn151 hbus
    (fun e he => (quiet150 e he).2)
  rw [i4] at g
  exact g

end
end Ex
end Verif
