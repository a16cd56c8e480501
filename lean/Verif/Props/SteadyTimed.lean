import Verif.Spec.SteadyTimed
import Verif.Props.SteadySum
import Verif.Props.Timed
import Verif.Lemmas.Written

/-! # The time until the steady state -/

namespace Verif
open Dbl

section
variable [F : FloatModel]

theorem SetPointFor.unique {c : ZoneConfig} {conf : List Entry} {on : String → Bool} {val : String → Dbl} {m m' : Dbl}
    (h : SetPointFor c conf on val m) (h' : SetPointFor c conf on val m') : m = m' := by
  unfold SetPointFor at h h'
  split_ifs at h h'
  · exact C127_unique h h'
  · exact C125_unique h h'

theorem setPointFor_pass {o : Opts} (ho : o.tuningEnabled = false) {c : ZoneConfig} {conf : List Entry} {on : String → Bool}
    {val : String → Dbl} (hml : ∀ e ∈ conf, HasSay on e → Memoryless e.2) :
    PassMeans o conf on val c.accumulateSetPoint c.minThermalOutput (SetPointFor c conf on val) := by
  unfold SetPointFor
  by_cases h : c.accumulateSetPoint = true
  · simp only [if_pos h]
    rw [h]
    exact steady_sum_pass ho hml
  · simp only [if_neg h]
    rw [show c.accumulateSetPoint = false by simpa using h]
    exact steady_pass ho hml

/-- **C128** The time until the fans get exactly what the configuration says. From time `ta` on a zone is in automatic mode, its
switches stay, its loops see the same inputs at every expiry of the timer, and the same sensors fail. Once the thermal interval,
two fan intervals and the lateness of the event loop have passed, every fan of the zone that has a D-Bus object or file for
itself and is listed by one fan loop only has been told exactly the number that its configuration makes of the percentage that
C125 to C127 describe, and this is so at every later moment. -/
theorem C128_told {o : Opts} (ho : o.tuningEnabled = false) {bus : BuildBus} {now : Int} {started : Int → Int} {w : World}
    (htr : w.trace = []) {sensors : OMap String SensorConfig} (hws : sensors.WF) {pids : OMap Int PIDConf}
    {configs : OMap Int ZoneConfig} (hw : pids.WF) (hc : ∀ e ∈ pids.entries, OMap.WF e.2) {td : Timed}
    (hl : Timed.launch o bus now started w sensors pids configs = .ok td) {i : Int} {conf : PIDConf} {c : ZoneConfig}
    (hp : pids.find? i = some conf) (hcc : configs.find? i = some c) {on : String → Bool} (hplain : PlainConf c conf.entries on)
    (hF : 1 ≤ c.cycleTime.cycleIntervalTimeMS) {val : String → Dbl} {broken : String → Prop} {late t0 ta : Int} (h0 : started i ≤ t0)
    {pre post : List TEvent} {tda td1 : Timed} {t : Int} {ev : DEvent}
    (hs : SteadySince o i c conf.entries on val broken late t0 ta td pre tda post td1 t ev) :
    ∃ m, SetPointFor c conf.entries on val m ∧ ∀ f ∈ conf.entries, IsFan f →
      0 ≤ f.2.pidInfo.outLim.min → f.2.pidInfo.outLim.min ≤ f.2.pidInfo.outLim.max → ∀ x ∈ f.2.inputs, OneLoop conf.entries x.name →
      ∀ fc path, FanOn bus.dirs sensors x.name fc path → OnlyZone pids i x.name → w.busOk path = true →
      (∀ e ∈ eventsOf (pre ++ post), BusWorks path e) →
      ∃ y u, Raised o.strictFailsafePwm c conf.entries broken (limited m f.2.pidInfo.outLim.min f.2.pidInfo.outLim.max) y ∧
        valueAt path td1.d.w = some u ∧ rawCommand (limitsOf fc) (y / 100) = some u := by
  obtain ⟨l1, -⟩ := timed_launch hw hc hl
  obtain ⟨mid, t', rest, td3, td4, b1, b2, b3, b4, b5, b6⟩ :=
    last_of_history hw hc hl hp hcc hF h0 hs.served hs.start hs.before hs.ranPre hs.ranPost hs.long
  have hmid : eventsOf post = eventsOf mid ++ .tick i :: eventsOf rest := by rw [b1]; exact eventsOf_append _ _
  have hmod := hs.moderate
  have hst := hs.steady
  have hbr := hs.failing
  have hauto := hs.automatic
  rw [hmid] at hmod hst hbr hauto
  have hau := automatic_prefix hauto
  have hstp := (timed_step b3).1
  have hmod' : ∀ e ∈ conf.entries, IsPid e.2.type → Memoryless e.2 → ModerateInput o e.2 td.d (eventsOf pre ++ eventsOf mid) :=
    fun e he hpid hm es1 es2 d hes hr => hmod e he hpid hm es1 (es2 ++ .tick i :: eventsOf rest) d (by
      rw [← List.append_assoc, hes, List.append_assoc]) hr
  have hsplit : eventsOf mid ++ DEvent.tick i :: eventsOf rest = (eventsOf mid ++ [.tick i]) ++ eventsOf rest := by simp
  have hst' : SteadyThroughout o i conf.entries on val (eventsOf pre) tda.d (eventsOf mid ++ [.tick i]) :=
    fun es1 es2 d hes hr => hst es1 (es2 ++ eventsOf rest) d (by rw [hsplit, hes]; simp) hr
  have hbr' : BrokenThroughout o i conf.entries broken tda.d (eventsOf mid ++ [.tick i]) :=
    fun es1 es2 d hes hr => hbr es1 (es2 ++ eventsOf rest) d (by rw [hsplit, hes]; simp) hr
  have hn : (c.cycleTime.updateThermalsTimeMS + c.cycleTime.cycleIntervalTimeMS - 1) / c.cycleTime.cycleIntervalTimeMS ≤
      autoTicks i (modeAfter i false (eventsOf pre)) (eventsOf mid) := by rw [autoTicks_all hau]; exact b6
  have hP : PassMeans o conf.entries on val c.accumulateSetPoint c.minThermalOutput (SetPointFor c conf.entries on val) :=
    setPointFor_pass ho hplain.memoryless
  obtain ⟨m, hm, -⟩ := steady_fans ho hw hc l1 hp hcc hP hplain.fans hF (fun e he => Dbl.ne_nan_of_le_right (hplain.percents e he))
    (Dbl.ne_nan_of_le_right hplain.percent) (timed_run hs.ranPre) (timed_run b2) hmod' hst' hbr' hn (hau _ [] (by simp)) hstp
  refine ⟨m, hm, fun f hf hff hmin hmax x hx hone fc path hfo hz hb hbs => ?_⟩
  have hbs' : ∀ e ∈ (eventsOf pre ++ eventsOf mid) ++ .tick i :: eventsOf rest, BusWorks path e := fun e he => hbs e (by
    rw [b1]
    simpa [eventsOf] using he)
  have h1 : td.d.run o (eventsOf pre ++ eventsOf mid) = .ok td3.d := run_append.2 ⟨_, timed_run hs.ranPre, timed_run b2⟩
  obtain ⟨m', y, u, g1, g2, g3, g4⟩ := steady_told ho htr hws hw hc l1 hp hcc hP hplain.fans hF hplain.percents hplain.percent
    (timed_run hs.ranPre) (timed_run b2) hmod' hst' hbr' hn (hau _ [] (by simp)) hstp hfo hb
    (fun e he => hbs' e (List.mem_append_left _ he)) hf hff ⟨x, hx, rfl⟩ hone ⟨hmin, hmax⟩
  cases hm.unique g1
  refine ⟨y, u, g2, ?_, g4⟩
  rw [← g3]
  have hf0 := fanAt_launched hws l1 hfo.configured hfo.fan hfo.written hfo.only hb htr
  have h12 : td.d.run o ((eventsOf pre ++ eventsOf mid) ++ [.tick i]) = .ok td4.d :=
    run_append.2 ⟨_, h1, by unfold Daemon.run; rw [hstp, ok_bind]; rfl⟩
  have hbs1 : ∀ e ∈ (eventsOf pre ++ eventsOf mid) ++ [DEvent.tick i], BusWorks path e := fun e he => hbs' e (by
    rw [List.mem_append] at he ⊢
    rcases he with he | he
    · exact .inl he
    · exact .inr (List.mem_cons.2 (.inl (by simpa using he))))
  have hf2 := fanAt_run h12 hbs1 hf0
  have ha2 := (told_run (i := i) h12 hbs1 hf0 (fun j z cnt => away_launched hw hc l1 hz j z cnt)).1
  exact (told_run (timed_run b4) (fun e he => hbs' e (List.mem_append_right _ (List.mem_cons_of_mem _ he))) hf2 ha2).2 b5

/-- **C128** The same from the configuration file. The entry of a zone in the file stands for settings and loops with this
behaviour. -/
theorem C128_file {o : Opts} (ho : o.tuningEnabled = false) {conf file : String} {f : StartFiles} (hsrc : Source conf f (some file))
    {data : Json} (hj : f.json file = some data) {b : ConfBus} {h : HashOrder} {bus : BuildBus} {now : Int} {w : World}
    (htr : w.trace = []) {d : Daemon} (hd : attempt o conf f b h bus now w = .running d) {started : Int → Int} {td : Timed}
    (htd : WithTimers data started d td) : ∀ i zone, Chosen data "zones" Numbering i zone →
      ∃ (c : ZoneConfig) (loops : PIDConf), ZoneEntry zone c ∧ LoopsMatch zone loops ∧ loops.WF ∧
      ∀ on val broken late t0 ta pre tda post td1 t ev, PlainConf c loops.entries on → started i ≤ t0 →
      SteadySince o i c loops.entries on val broken late t0 ta td pre tda post td1 t ev →
      ∃ m, SetPointFor c loops.entries on val m ∧ ∀ f ∈ loops.entries, IsFan f →
        0 ≤ f.2.pidInfo.outLim.min → f.2.pidInfo.outLim.min ≤ f.2.pidInfo.outLim.max →
        ∀ x ∈ f.2.inputs, OneLoop loops.entries x.name → ∀ path lo hi, FileFan bus.dirs data x.name path lo hi →
        OnlyIn data i x.name → w.busOk path = true → (∀ e ∈ eventsOf (pre ++ post), BusWorks path e) →
        ∃ y u, Raised o.strictFailsafePwm c loops.entries broken (limited m f.2.pidInfo.outLim.min f.2.pidInfo.outLim.max) y ∧
          valueAt path td1.d.w = some u ∧ rawCommand (some (lo, hi)) (y / 100) = some u := by
  obtain ⟨c, hm, -, hiff⟩ := runs_from_file hsrc hj hd started
  have hl := (hiff td).2 htd
  intro i zone hz
  obtain ⟨z, loops, g1, g2, g3, g4⟩ := hm.zone i zone hz
  refine ⟨z, loops, g3, g4, hm.loopsWf _ ((OMap.mem_entries_iff hm.pidsWf _ _).2 g2), ?_⟩
  intro on val broken late t0 ta pre tda post td1 t ev hplain h0 hs
  obtain ⟨m, k1, k2⟩ := C128_told ho htr hm.sensorsWf hm.pidsWf hm.loopsWf hl g2 g1 hplain (g3.cycle.pos (by norm_num)) h0 hs
  refine ⟨m, k1, fun f hf hff a1 a2 x hx hone path lo hi hfan honly hb hbs => ?_⟩
  obtain ⟨fs, hfo, hlim⟩ := fanOn_of hm hfan
  obtain ⟨y, u, q1, q2, q3⟩ := k2 f hf hff a1 a2 x hx hone fs path hfo (onlyZone_of hm honly) hb hbs
  rw [hlim] at q3
  exact ⟨y, u, q1, q2, q3⟩

end

namespace Ex
section
attribute [local instance] binary64

/-- the daemon of C125 from time 0 on -/
def launch128 : Res Timed := Timed.launch {} bus103 0 (fun _ => 0)
  { world99 with nowFans := 4000000000, nowThermals := 4000000000 } sensors106 pids125 zones99
/-- at 700 ms the processor reports 95 degrees -/
def pre128 : List TEvent := before111 ++ [at111 700 (.signal "cpu" (ms 700) (temp103 95))]

/-- C128: at 2720 ms the fan has been told 63 of 255, the 25 percent of the ceiling -/
example : ∃ td, (do let td ← launch128; td.run {} (pre128 ++ since111)) = .ok td ∧
    decide (valueAt path124 td.d.w = some 63) = true :=
  ok_of_any (P := fun td : Timed => decide (valueAt path124 td.d.w = some 63)) (by decide +kernel)

theorem fine128_of {d : Daemon} {es : List DEvent} (h : fine127B d es = true) :
    BrokenThroughout {} 1 loops125.entries (fun _ => False) d es := by
  intro a b d1 hes hr n hn
  subst hes
  have := List.all_eq_true.1 h a before124_mem
  simp only [hr, Bool.and_eq_true, Bool.not_eq_true'] at this
  obtain ⟨⟨⟨s1, s2⟩, s3⟩, s4⟩ := this
  rw [failsB_iff, failsB_iff]
  rcases needed125 n hn with rfl | rfl
  · rw [s3, s4]; simp
  · rw [s1, s2]; simp

theorem automatic128 : Automatic 1 (eventsOf pre128) (eventsOf since111) := by
  intro es1 es2 he
  have := automatic111 es1 es2 he
  simpa [pre128, eventsOf, before111, at111, modeAfter] using this

/-- … all hypotheses of the theorem hold -/
example : ∃ td1 m y u, (do let td ← launch128; td.run {} (pre128 ++ since111)) = .ok td1 ∧
    SetPointFor zone99 loops125.entries (fun _ => true) (fun _ => 95) m ∧
    Raised false zone99 loops125.entries (fun _ => False) (limited m 0 100) y ∧ valueAt path124 td1.d.w = some u ∧
    rawCommand (limitsOf fan106) (y / 100) = some u := by
  obtain ⟨td1, h, _⟩ := ok_of_any (x := (do let td ← launch128; td.run {} (pre128 ++ since111))) (P := fun _ : Timed => true)
    (by decide +kernel)
  obtain ⟨tda', hp, hb⟩ := ok_of_any (x := (do let td ← launch128; td.run {} pre128))
    (P := fun td : Timed => fine127B td.d (eventsOf since111) && steady125B (eventsOf pre128) td.d (eventsOf since111))
    (by decide +kernel)
  obtain ⟨td, hl, hck⟩ := ok_of_any (x := launch128)
    (P := fun td : Timed => modB "cpu" td.d (eventsOf pre128 ++ eventsOf since111) &&
      servedCheck {} 20000000 td (pre128 ++ since111 ++ [at111 2720 (.manual 1 true)])) (by decide +kernel)
  rw [Bool.and_eq_true] at hb hck
  have hh := h
  rw [hl, ok_bind] at h hp
  obtain ⟨tda, hr1, hr2⟩ := timed_append.1 h
  rw [hr1] at hp
  cases hp
  have hsv : Served {} 20000000 0 td (pre128 ++ since111 ++ [at111 2720 (.manual 1 true)]) :=
    served_of_check hck.2 (by decide +kernel) (by decide +kernel)
  obtain ⟨m, g1, g2⟩ := C128_told (o := {}) rfl rfl sensors106_wf pids125_wf pids125_wfs hl (i := 1) (conf := loops125) (c := zone99)
    (by unfold pids125; rw [OMap.find?_insert_self]) (by unfold zones99; rw [OMap.find?_insert_self]) (on := fun _ => true)
    ⟨by
      intro e he hs
      rcases loops125_mem he with rfl | rfl | rfl
      · exact absurd hs.1 (by decide)
      · exact temps125_memoryless
      · exact cap125_memoryless,
     by
      intro f hf hff
      rcases loops125_mem hf with rfl | rfl | rfl
      · exact ⟨rfl, by decide +kernel, by decide +kernel, by decide +kernel⟩
      · exact absurd hff (by decide)
      · exact absurd hff (by decide),
     by
      intro e he
      rcases loops125_mem he with rfl | rfl | rfl <;> decide +kernel,
     by decide +kernel⟩
    (by decide) (val := fun _ => 95) (broken := fun _ => False) (late := 20000000) (t0 := 0) (ta := ms 700) le_rfl
    ⟨hsv, by decide, hr1, hr2, by decide +kernel, moderate125 hck.1, steady125_of hb.2, fine128_of hb.1, automatic128, by decide⟩
  obtain ⟨y, u, q1, q2, q3⟩ := g2 ("fans", loop99 "fan" "fan0" 0 1 0) ((OMap.mem_entries_iff loops125_wf _ _).2 (by
      unfold loops125
      rw [OMap.find?_insert_ne _ (by decide), OMap.find?_insert_ne _ (by decide), OMap.find?_insert_self]))
    (by decide) (by decide +kernel) (by decide +kernel) { name := "fan0" } List.mem_cons_self (by unfold OneLoop; decide +kernel)
    fan106 path124 fanOn106
    (by
      intro j conf hj hp
      unfold pids125 at hp
      rw [OMap.find?_insert_ne _ hj, OMap.find?_empty] at hp
      cases hp) rfl
    (by
      intro e he
      simp only [eventsOf, pre128, before111, since111, at111, List.map_cons, List.map_nil, List.mem_cons,
        List.mem_append, List.map_append, List.not_mem_nil, or_false] at he
      rcases he with (rfl | rfl) | rfl | rfl | rfl | rfl <;> trivial)
  exact ⟨td1, m, y, u, hh, g1, q1, q2, q3⟩

end
end Ex
end Verif
