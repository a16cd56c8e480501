import Verif.Spec.Shared
import Verif.Props.Quiet
import Verif.Props.Unattended
import Verif.Props.SlowFans

/-!
# Fans that several zones turn (C147)

Nothing keeps two zones from turning the same fan (pid/builder.cpp:76-96 takes the inputs of the fan loops as they come). Both
write through the same sensor object.
-/

namespace Verif
open Dbl
section
variable [F : FloatModel]

/-- `Away` for the zones that do not turn the fan -/
theorem away_unless {o : Opts} {bus : BuildBus} {now : Int} {w : World} {sensors : OMap String SensorConfig}
    {pids : OMap Int PIDConf} {configs : OMap Int ZoneConfig} (hw : pids.WF) (hc : ∀ e ∈ pids.entries, OMap.WF e.2)
    {d : Daemon} (hl : Daemon.launch o bus now w sensors pids configs = .ok d) {n : String} (j : Int) (z : Zone) (cnt : Nat)
    (hj : ¬ TurnedBy pids n j) (hd : d.zones.find? j = some (z, cnt)) : Away n z := by
  obtain ⟨m, zones, hL⟩ := launch_spec hl
  cases hzb : zones.find? j with
  | none => rw [hL.only j hzb] at hd; cases hd
  | some zb =>
    obtain ⟨z0, h1, h2⟩ := hL.started j zb hzb
    rw [hd] at h2
    cases h2
    have hzs := C64_zones hw hc hL.built j
    cases hp : pids.find? j with
    | none => rw [hzs.2 hp] at hzb; cases hzb
    | some conf =>
      obtain ⟨z', c, hz', _, hN⟩ := hzs.1 conf hp
      rw [hzb] at hz'
      cases hz'
      intro ns hns
      rw [(start_flags h1).2, hN.fans, List.map_map] at hns
      obtain ⟨e, he, hx⟩ := List.mem_map.1 hns
      rw [List.mem_filter] at he
      simp only [Function.comp, fanOf] at hx
      split_ifs at hx
      · cases hx
      have hns := Option.some.inj hx
      intro hin
      rw [← hns] at hin
      obtain ⟨x, hx, hxn⟩ := List.mem_map.1 hin
      exact hj ⟨conf, hp, e, he.1, by simpa using he.2, x, hx, hxn⟩

/-- only ticks of the zones that turn the fan change what it was told -/
theorem told_unless {o : Opts} {n p : String} {lim : Option (Int × Int)} {T : Int → Prop} : ∀ {es : List DEvent} {d d' : Daemon},
    d.run o es = .ok d' → (∀ e ∈ es, BusWorks p e) → FanAt n p lim d.w →
    (∀ j z cnt, ¬ T j → d.zones.find? j = some (z, cnt) → Away n z) →
    (∀ j z cnt, ¬ T j → d'.zones.find? j = some (z, cnt) → Away n z) ∧
      ((∀ j, .tick j ∈ es → ¬ T j) → valueAt p d'.w = valueAt p d.w)
  | [], d, d', h, _, _, ha => by cases h; exact ⟨ha, fun _ => rfl⟩
  | e :: es, d, d', h, hb, hf, ha => by
    obtain ⟨d1, h1, h2⟩ := bind_eq_ok.1 h
    have ha1 : ∀ j z cnt, ¬ T j → d1.zones.find? j = some (z, cnt) → Away n z := by
      intro j z cnt hj hz
      cases hz0 : d.zones.find? j with
      | none => rw [step_none h1 hz0] at hz; cases hz
      | some x =>
        obtain ⟨z', cnt', a1, a2⟩ := step_zone h1 (z := x.1) (cnt := x.2) hz0
        rw [hz] at a1
        cases a1
        exact away_step (ha j _ _ hj hz0) a2
    obtain ⟨r1, r2⟩ := told_unless h2 (fun e he => hb e (List.mem_cons_of_mem _ he))
      (fanAt_step h1 (hb e List.mem_cons_self) hf) ha1
    refine ⟨r1, fun hn => (r2 (fun j hj => hn j (List.mem_cons_of_mem _ hj))).trans ?_⟩
    by_cases he : ∃ j, e = .tick j
    · obtain ⟨j, rfl⟩ := he
      have hj : ¬ T j := hn j List.mem_cons_self
      simp only [Daemon.step] at h1
      split at h1
      · next z cnt hz =>
        obtain ⟨⟨w', z', cnt'⟩, h3, h1⟩ := bind_eq_ok.1 h1
        cases h1
        exact away_tick (ha j z cnt hj hz) hf h3
      · cases h1; rfl
    · unfold valueAt
      rw [trace_step h1 (fun j hj => he ⟨j, hj⟩)]

/-- what a fan was told stays until the next tick of a zone that turns it -/
theorem shared_kept {o : Opts} {bus : BuildBus} {now : Int} {w : World} (htr : w.trace = []) {sensors : OMap String SensorConfig}
    (hws : sensors.WF) {pids : OMap Int PIDConf} {configs : OMap Int ZoneConfig} (hw : pids.WF)
    (hc : ∀ e ∈ pids.entries, OMap.WF e.2) {d0 : Daemon} (hl : Daemon.launch o bus now w sensors pids configs = .ok d0)
    {es rest : List DEvent} {d2 d3 : Daemon} (h2 : d0.run o es = .ok d2) (h3 : d2.run o rest = .ok d3) {n path : String}
    {fc : SensorConfig} (hfo : FanOn bus.dirs sensors n fc path) (hno : ∀ j, .tick j ∈ rest → ¬ TurnedBy pids n j)
    (hb : w.busOk path = true) (hbs : ∀ e ∈ es ++ rest, BusWorks path e) : valueAt path d3.w = valueAt path d2.w := by
  have hf0 := fanAt_launched hws hl hfo.configured hfo.fan hfo.written hfo.only hb htr
  have hb1 : ∀ e ∈ es, BusWorks path e := fun e he => hbs e (List.mem_append_left _ he)
  have ha2 := (told_unless (T := TurnedBy pids n) h2 hb1 hf0 (fun j z cnt => away_unless hw hc hl j z cnt)).1
  exact (told_unless h3 (fun e he => hbs e (List.mem_append_right _ he)) (fanAt_run h2 hb1 hf0) ha2).2 hno

/-- **C147** The zone that ran last decides. Whatever the other zones that turn a fan asked for before: if zone `i`, which turns it,
commanded its fans at least `lo` and at most `hi` in a cycle, the fan has been told a number from that for `lo` to that for `hi`
after it, until a zone that turns the fan has its next cycle. -/
theorem C147_last {o : Opts} {bus : BuildBus} {now : Int} {w : World} (htr : w.trace = []) {sensors : OMap String SensorConfig}
    (hws : sensors.WF) {pids : OMap Int PIDConf} {configs : OMap Int ZoneConfig} (hw : pids.WF)
    (hc : ∀ e ∈ pids.entries, OMap.WF e.2) {d0 : Daemon} (hl : Daemon.launch o bus now w sensors pids configs = .ok d0) {i : Int}
    {es rest : List DEvent} {d1 d2 d3 : Daemon} (h1 : d0.run o es = .ok d1) (h2 : d1.step o (.tick i) = .ok d2)
    (h3 : d2.run o rest = .ok d3) {n path : String} {fc : SensorConfig} (hfo : FanOn bus.dirs sensors n fc path)
    (hno : ∀ j, .tick j ∈ rest → ¬ TurnedBy pids n j) (hb : w.busOk path = true)
    (hbs : ∀ e ∈ es ++ .tick i :: rest, BusWorks path e) {conf : List Entry} (hin : Turns conf n) {lo hi : Dbl} (hlo : 0 ≤ lo)
    (hfw : FansWithin conf lo hi d1.w d2.w) : ToldAtLeast fc path lo d3.w ∧ ToldAtMost fc path hi d3.w := by
  have h12 : d0.run o (es ++ [.tick i]) = .ok d2 := run_append.2 ⟨d1, h1, by unfold Daemon.run; rw [h2, ok_bind]; rfl⟩
  have hk := shared_kept htr hws hw hc hl h12 h3 hfo hno hb (by simpa using hbs)
  have hbs1 : ∀ e ∈ es, BusWorks path e := fun e he => hbs e (List.mem_append_left _ he)
  obtain ⟨l, b, g1, g2, g3⟩ := hfw
  obtain ⟨u, r, a1, a2, a3⟩ := C106_told hws htr hl h1 hfo hb hbs1 hlo (conf := conf) (w2 := d2.w)
    ⟨l, b, g1, g2, fun x hx hm => (g3 x hx hm).1⟩ hin
  obtain ⟨u', b1, b2, b3⟩ := told_within hws htr hl h1 hfo hb hbs1 (conf := conf) (v := hi) (w2 := d2.w)
    ⟨l, b, g1, g2, fun x hx hm => ⟨le_trans hlo (g3 x hx hm).1, (g3 x hx hm).2⟩⟩ hin
  exact ⟨⟨u, r, by rw [hk]; exact a1, a2, a3⟩, u', by rw [hk]; exact b1, b2, b3⟩

omit F in
/-- the last tick of one of the zones -/
theorem last_shared [FloatModel] {T : Int → Prop} : ∀ {es : List DEvent}, (∃ j, T j ∧ DEvent.tick j ∈ es) →
    ∃ mid i rest, es = mid ++ .tick i :: rest ∧ T i ∧ ∀ j, .tick j ∈ rest → ¬ T j
  | [], ⟨_, _, h⟩ => by cases h
  | e :: es, ⟨j, hj, h⟩ => by
    by_cases hr : ∃ k, T k ∧ DEvent.tick k ∈ es
    · obtain ⟨mid, i, rest, h1, h2, h3⟩ := last_shared hr
      exact ⟨e :: mid, i, rest, by rw [h1]; rfl, h2, h3⟩
    · rcases List.mem_cons.1 h with rfl | h
      · exact ⟨[], j, es, rfl, hj, fun k hk hT => hr ⟨k, hT, hk⟩⟩
      · exact absurd ⟨j, hj, h⟩ hr

/-- **C147** When a failing sensor protects a fan of several zones: if every zone that turns the fan depends on the sensor, the fan is
told at least the number for `v` percent, where no failsafe percentage of these zones is less than `v`, from the time on at which
all of them had ceil(T/F) automatic cycles, whichever ran last. -/
theorem C147_guarded {o : Opts} (ho : o.tuningEnabled = false) {bus : BuildBus} {now : Int} {w : World} (htr : w.trace = [])
    {sensors : OMap String SensorConfig} (hws : sensors.WF) {pids : OMap Int PIDConf} {configs : OMap Int ZoneConfig} (hw : pids.WF)
    (hc : ∀ e ∈ pids.entries, OMap.WF e.2) {d0 : Daemon} (hl : Daemon.launch o bus now w sensors pids configs = .ok d0)
    {n path : String} {fc : SensorConfig} (hfo : FanOn bus.dirs sensors n fc path) {s : String} {v : Dbl} (hv : 0 ≤ v)
    {pre post rest : List DEvent}
    (hg : ∀ i conf, pids.find? i = some conf → Turns conf.entries n → Guards configs s v pre post i conf)
    {d1 d2 : Daemon} (hr1 : d0.run o pre = .ok d1) (hr2 : d1.run o (post ++ rest) = .ok d2)
    (hft : ∀ i, TurnedBy pids n i → FailsThroughout o i s d1 (post ++ rest))
    (hauto : ∀ i, TurnedBy pids n i → Automatic i (pre ++ post) rest) (htick : ∃ i, TurnedBy pids n i ∧ .tick i ∈ rest)
    (hb : w.busOk path = true) (hbs : ∀ e ∈ pre ++ (post ++ rest), BusWorks path e) : ToldAtLeast fc path (v / 100) d2.w := by
  obtain ⟨mid, i, tail, rfl, hi, hno⟩ := last_shared htick
  obtain ⟨conf, hp, hT⟩ := hi
  obtain ⟨hread, zc, hcc, hsf, hnum, hF, hn⟩ := hg i conf hp hT
  rw [← List.append_assoc] at hr2
  obtain ⟨da, r1, r2⟩ := run_append.1 hr2
  obtain ⟨db, r3, r4⟩ := bind_eq_ok.1 r2
  have hm : modeAfter i false (pre ++ (post ++ mid)) = false := by
    rw [← List.append_assoc]; exact hauto i ⟨conf, hp, hT⟩ mid _ rfl
  obtain ⟨p, g1, g2⟩ := C100_failsafe ho hw hc hl hp hcc hread hnum (ne_nan_of_le_right hsf.1) hF hr1 r1
    (fun es1 es2 d hes hr => hft i ⟨conf, hp, hT⟩ es1 (es2 ++ tail) d
      (by rw [show post ++ (mid ++ DEvent.tick i :: tail) = (post ++ mid ++ [.tick i]) ++ tail by simp, hes]; simp) hr)
    (le_trans hn (autoTicks_le ..)) hm r3
  have hle := percent_from hsf g1
  have hle' : v / 100 ≤ p / 100 :=
    div_le_div_of_pos pos100 hle (div100_ne_nan (ne_nan_of_le_left hle)) (div100_ne_nan (ne_nan_of_le_right hle))
  obtain ⟨l, b, k1, k2, k3⟩ := g2
  have h1 : d0.run o (pre ++ (post ++ mid)) = .ok da := run_append.2 ⟨_, hr1, r1⟩
  have h12 : d0.run o (pre ++ (post ++ mid) ++ [.tick i]) = .ok db :=
    run_append.2 ⟨_, h1, by unfold Daemon.run; rw [r3, ok_bind]; rfl⟩
  have hk := shared_kept htr hws hw hc hl h12 r4 hfo hno hb (by simpa using hbs)
  obtain ⟨u, r, a1, a2, a3⟩ := C106_told hws htr hl h1 hfo hb (fun e he => hbs e (by
      simp only [List.mem_append] at he ⊢; tauto)) (percent_nonneg hv) (conf := conf.entries) (w2 := db.w)
    ⟨l, b, k1, k2, fun x hx hm => le_trans hle' (k3 x hx hm)⟩ hT
  exact ⟨u, r, by rw [hk]; exact a1, a2, a3⟩

end

namespace Ex
section
attribute [local instance] binary64

/-- as `sensors106`, and another temperature sensor -/
def sensors147 : OMap String SensorConfig :=
  sensors106.insert "dimm" ⟨"temp", "/xyz/openbmc_project/sensors/temperature/dimm", "", 0, 0, 5, false, true, false⟩

theorem sensors147_wf : sensors147.WF := OMap.wf_insert sensors106_wf _ _

theorem fanOn147 : FanOn bus98.dirs sensors147 "fan0" fan106 "/xyz/openbmc_project/control/fanpwm/pwm1" where
  configured := by decide +kernel
  fan := rfl
  limits _ := by decide
  written := .dbus ((C65_write _ _).1 (by decide +kernel))
  only := by
    intro m c hm hc ht hp
    have key : ∀ e ∈ sensors147.entries, e.1 ≠ "fan0" → e.2.type = "fan" →
        e.2.writePath ≠ "/xyz/openbmc_project/control/fanpwm/pwm1" ∧ getWriteInterfaceType e.2.writePath ≠ .sysfs := by
      decide +kernel
    have := key (m, c) ((OMap.mem_entries_iff sensors147_wf m c).2 hc) hm ht
    generalize hq : "/xyz/openbmc_project/control/fanpwm/pwm1" = q at *
    cases hp with
    | dbus _ => exact this.1 rfl
    | sysfs h _ => exact this.2 ((C65_write _ _).2 h)

/-- the loops of a second zone, which turns the same fan because of the sensor `s` -/
def loops147 (s : String) : PIDConf :=
  (({} : PIDConf).insert "fans" (loop99 "fan" "fan0" 0 1 0)).insert "temps" (loop99 "temp" s (-2) 0 60)
def pids147 (s : String) : OMap Int PIDConf := pids99.insert 2 (loops147 s)
def zones147 : OMap Int ZoneConfig := zones99.insert 2 zone99

def run147 (s : String) (es : List DEvent) : Res Daemon := do
  let d ← Daemon.launch {} bus98 0 world99 sensors147 (pids147 s) zones147
  d.run {} es

/-- an alarm of the processor, and two cycles of both zones -/
def pre147 : List DEvent := [.tick 1, .tick 2, .signal "cpu" 5 (alarm99 true)]
def post147 : List DEvent := [.tick 1, .tick 2, .tick 1, .tick 2]

theorem pids147_find {s : String} {i : Int} {conf : PIDConf} (h : (pids147 s).find? i = some conf) :
    i = 1 ∧ conf = loops99 ∨ i = 2 ∧ conf = loops147 s := by
  unfold pids147 at h
  by_cases hi : i = 2
  · subst hi
    rw [OMap.find?_insert_self] at h
    cases h; exact .inr ⟨rfl, rfl⟩
  · rw [OMap.find?_insert_ne _ hi] at h
    exact .inl (pids99_find h)

/-- C147, finding: the zone of the processor is in failsafe because of a critical alarm and asks for 90%; the other zone, which has no
part in this, asks for 20%. The fan is told 229 and 51 (of 255) in turns; after every cycle of the other zone it runs at 20%, although
the alarm stands. -/
theorem C147_overruled : ∃ d, run147 "dimm" (pre147 ++ post147 ++ post147) = .ok d ∧
    valueAt "/xyz/openbmc_project/control/fanpwm/pwm1" d.w = some 51 ∧ d.w.trace.map Effect.value = [51, 229, 51, 229, 51, 229, 51] ∧
    (d.w.sensors.find? "cpu").map (fun x => (x.getFailed d.w).toOption) = some (some true) := by
  obtain ⟨d, h, hP⟩ := ok_of_any (x := run147 "dimm" (pre147 ++ post147 ++ post147)) (P := fun d : Daemon =>
    decide (valueAt "/xyz/openbmc_project/control/fanpwm/pwm1" d.w = some 51 ∧ d.w.trace.map Effect.value = [51, 229, 51, 229, 51, 229, 51] ∧
    (d.w.sensors.find? "cpu").map (fun x => (x.getFailed d.w).toOption) = some (some true))) (by decide +kernel)
  exact ⟨d, h, of_decide_eq_true hP⟩

/-- C147_guarded: if the other zone depends on the processor too, with 60%, the fan never gets less than 60% (153 of 255) -/
example : ∃ d, run147 "cpu" (pre147 ++ (post147 ++ [.tick 1, .tick 2, .tick 1])) = .ok d ∧
    rawCommand (limitsOf fan106) (60 / 100) = some 153 ∧
    ToldAtLeast fan106 "/xyz/openbmc_project/control/fanpwm/pwm1" (60 / 100) d.w := by
  obtain ⟨d, h, -⟩ := ok_of_any (x := run147 "cpu" (pre147 ++ (post147 ++ [.tick 1, .tick 2, .tick 1])))
    (P := fun _ : Daemon => true) (by decide +kernel)
  obtain ⟨d0, hl, hr⟩ := bind_eq_ok.1 h
  obtain ⟨d1, hr1, hr2⟩ := run_append.1 hr
  have hwp : (pids147 "cpu").WF := OMap.wf_insert pids99_wf _ _
  have hmode : ∀ i, Automatic i (pre147 ++ post147) [.tick 1, .tick 2, .tick 1] := by
    intro i es1 es2 he
    have : ∀ e ∈ es1, e ∈ [DEvent.tick 1, .tick 2, .tick 1] := fun e h => by rw [he]; exact List.mem_append_left _ h
    have key : ∀ l : List DEvent, (∀ e ∈ l, ∃ j, e = .tick j) → modeAfter i false l = false := by
      intro l
      induction l with
      | nil => intro _; rfl
      | cons e l ih =>
        intro h
        obtain ⟨j, rfl⟩ := h e List.mem_cons_self
        exact ih (fun e he => h e (List.mem_cons_of_mem _ he))
    rw [modeAfter_append]
    refine key es1 (fun e he => ?_)
    have := this e he
    simp only [List.mem_cons, List.not_mem_nil, or_false] at this
    rcases this with rfl | rfl | rfl <;> exact ⟨_, rfl⟩
  refine ⟨d, h, by decide +kernel, C147_guarded (o := {}) rfl rfl sensors147_wf hwp (fun e he => ?_) hl fanOn147 (s := "cpu")
    (v := 60) (by decide +kernel) (fun i conf hp _ => ?_) hr1 hr2 (fun i _ => ?_) (fun i _ => hmode i)
    ⟨1, ⟨loops99, ?_, ?_⟩, List.mem_cons_self⟩ rfl ?_⟩
  · rcases pids147_find ((OMap.mem_entries_iff hwp e.1 e.2).1 he) with ⟨-, h⟩ | ⟨-, h⟩ <;> rw [h]
    · exact loops99_wf
    · exact OMap.wf_insert (OMap.wf_insert OMap.wf_empty _ _) _ _
  · rcases pids147_find hp with ⟨rfl, rfl⟩ | ⟨rfl, rfl⟩
    · exact ⟨⟨by decide +kernel, by decide +kernel⟩, zone99, rfl, ⟨by decide +kernel, by decide +kernel⟩,
        by decide +kernel, by decide, by decide +kernel⟩
    · exact ⟨⟨by decide +kernel, by decide +kernel⟩, zone99, rfl, ⟨by decide +kernel, by decide +kernel⟩,
        by decide +kernel, by decide, by decide +kernel⟩
  · refine C100_alarm_fails (pre := [.tick 1, .tick 2]) sensors147_wf hl
      (c := ⟨"temp", "/xyz/openbmc_project/sensors/temperature/cpu", "", 0, 0, 5, false, true, false⟩)
      (by decide +kernel) (by decide) ((C65_read _ _).1 (by decide +kernel)) rfl rfl hr1 (by decide +kernel) ?_ i
    intro x hx
    cases hx
  · rfl
  · unfold Turns; decide +kernel
  · intro e he
    simp only [pre147, post147, List.mem_cons, List.mem_append, List.not_mem_nil, or_false] at he
    rcases he with (rfl | rfl | rfl) | (rfl | rfl | rfl | rfl) | rfl | rfl | rfl <;> trivial

/-- a zone that turns the fan because of the memory, and one that turns it because of the processor, with a table -/
def pidsTable147 : OMap Int PIDConf := (({} : OMap Int PIDConf).insert 1 (loops147 "dimm")).insert 2 loops103

def runTable147 (es : List DEvent) : Res Daemon := do
  let d ← Daemon.launch {} bus103 0 world99 sensors147 pidsTable147 zones147
  d.run {} es

/-- an alarm of the memory; the processor is cool -/
def preTable147 : List DEvent := [.signal "cpu" 2 (temp103 40), .signal "dimm" 2 (alarm99 true), .tick 2, .tick 1, .tick 1, .tick 1]

theorem pidsTable147_wf : pidsTable147.WF := OMap.wf_insert (OMap.wf_insert OMap.wf_empty _ _) _ _

/-- C147_last: the alarm of the memory has the fan at 60% (153 of 255); after a cycle of the other zone it has at most 40% (102),
also while the clock goes on. -/
example : ∃ d2 d3, runTable147 (preTable147 ++ [.tick 2, .tick 2, .tick 1]) = .ok d2 ∧
    valueAt "/xyz/openbmc_project/control/fanpwm/pwm1" d2.w = some 153 ∧
    d2.run {} [.tick 2, .tick 3] = .ok d3 ∧ rawCommand (limitsOf fan106) (40 / 100) = some 102 ∧
    ToldAtMost fan106 "/xyz/openbmc_project/control/fanpwm/pwm1" (40 / 100) d3.w := by
  obtain ⟨d4, h, _⟩ := ok_of_any (x := runTable147 ((preTable147 ++ [.tick 2, .tick 2, .tick 1]) ++ [.tick 2, .tick 3]))
    (P := fun _ : Daemon => true) (by decide +kernel)
  obtain ⟨d1', hp, hb⟩ := ok_of_any (x := runTable147 preTable147)
    (P := fun d : Daemon => hotB 2 "cpu" (fun v => decide (cool112 v)) d ([.tick 2, .tick 2, .tick 1] ++ [.tick 2]) &&
      worksB 2 ["fan0", "cpu"] d ([.tick 2, .tick 2, .tick 1] ++ [.tick 2])) (by decide +kernel)
  obtain ⟨d2', hv, hv'⟩ := ok_of_any (x := runTable147 (preTable147 ++ [.tick 2, .tick 2, .tick 1]))
    (P := fun d : Daemon => decide (valueAt "/xyz/openbmc_project/control/fanpwm/pwm1" d.w = some 153)) (by decide +kernel)
  rw [Bool.and_eq_true] at hb
  obtain ⟨d0, hl, h⟩ := bind_eq_ok.1 h
  obtain ⟨d2, hr, h⟩ := run_append.1 h
  obtain ⟨d3, ht, h3⟩ := bind_eq_ok.1 h
  obtain ⟨d1, hr1, hr2⟩ := run_append.1 hr
  obtain ⟨d0', hl', hp⟩ := bind_eq_ok.1 hp
  rw [hl] at hl'
  cases hl'
  rw [hr1] at hp
  cases hp
  have hv0 := hv
  obtain ⟨d0', hl', hv⟩ := bind_eq_ok.1 hv
  rw [hl] at hl'
  cases hl'
  rw [hr] at hv
  cases hv
  have hneed : ∀ n, NeededBy loops103.entries n → n ∈ ["fan0", "cpu"] := by
    rintro n ⟨⟨e, he, _, x, hx, rfl⟩, _⟩
    have key : ∀ e ∈ loops103.entries, ∀ x ∈ e.2.inputs, x.name ∈ ["fan0", "cpu"] := by decide +kernel
    exact key e he x hx
  have hcool : CoolThroughout {} 2 loops103.entries (fun _ => cool112) d1' ([.tick 2, .tick 2, .tick 1] ++ [.tick 2]) := by
    intro es1 es2 d hes hr e he hh j hj s r hs hrd
    rcases loops103_mem he with rfl | rfl
    · exact absurd hh (by decide)
    · have hj : j = { name := "cpu" } := by simpa [steps103, loop99] using hj
      subst hj
      obtain ⟨n, hn, s', r', h1, h2, h3⟩ := hot_of (n := "cpu") (names := ["cpu"]) (by simp) (P := cool112)
        (fun v hv => of_decide_eq_true hv) hb.1 es1 es2 d hes hr
      have hn : n = "cpu" := by simpa using hn
      subst hn
      rw [hs] at h1
      cases h1
      rw [hrd] at h2
      cases h2
      exact h3
  have hloops : ∀ e ∈ pidsTable147.entries, OMap.WF e.2 := by
    intro e he
    have := (OMap.mem_entries_iff pidsTable147_wf e.1 e.2).1 he
    unfold pidsTable147 at this
    by_cases hi : e.1 = 2
    · rw [hi, OMap.find?_insert_self] at this
      rw [← Option.some.inj this]; exact loops103_wf
    · rw [OMap.find?_insert_ne _ hi] at this
      by_cases hi : e.1 = 1
      · rw [hi, OMap.find?_insert_self] at this
        rw [← Option.some.inj this]; exact OMap.wf_insert (OMap.wf_insert OMap.wf_empty _ _) _ _
      · rw [OMap.find?_insert_ne _ hi, OMap.find?_empty] at this
        cases this
  have g := C112_quiet (o := {}) rfl pidsTable147_wf hloops hl
    (i := 2) (conf := loops103) (c := zone99) rfl rfl rfl (y := 40) (by decide +kernel) (by decide +kernel)
    keeps112 fans112 (by decide) hr1 hr2
    (by
      intro e he t
      rcases loops103_mem he with rfl | rfl <;> exact absurd t (by decide))
    (works_of hneed hb.2) hcool (by decide) rfl ht
  refine ⟨_, d4, hv0, of_decide_eq_true hv', h, by decide +kernel, ?_⟩
  refine (C147_last (es := preTable147 ++ [.tick 2, .tick 2, .tick 1]) rfl sensors147_wf pidsTable147_wf hloops hl hr ht h3 fanOn147
    (fun j hj => ?_) rfl ?_ (conf := loops103.entries) ?_ (le_refl (by decide +kernel)) g).2
  · simp only [List.mem_cons, List.not_mem_nil, or_false, DEvent.tick.injEq] at hj
    subst hj
    rintro ⟨conf, h, -⟩
    cases h
  · intro e he
    simp only [preTable147, List.mem_cons, List.mem_append, List.not_mem_nil, or_false] at he
    rcases he with ((rfl | rfl | rfl | rfl | rfl | rfl) | rfl | rfl | rfl) | rfl | rfl <;> trivial
  · unfold Turns; decide +kernel

end
end Ex
end Verif
