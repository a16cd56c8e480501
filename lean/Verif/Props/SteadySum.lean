import Verif.Spec.SteadySum
import Verif.Props.SteadyFail

/-! # The steady state of zones that add up set points -/

namespace Verif
open Dbl

section
variable [F : FloatModel]

/-- how the submission of a loop relates to its entry -/
def SubOf (z : ZoneData) (on : String → Bool) (ask : Entry → Dbl) (e : Entry) (s : Submission) : Prop :=
  IsHeat e ∧ (Enabled z e.1 ↔ on e.1 = true) ∧
    ∃ v, (¬ SetsCeiling e ∧ s = .setPoint e.1 v ∨ SetsCeiling e ∧ s = .ceiling v) ∧ (HasSay on e → v = ask e)

theorem asksOf_cons (on : String → Bool) (ask : Entry → Dbl) (p : String) (e : Entry) (l : List Entry) :
    (HasSay on e ∧ ¬ SetsCeiling e ∧ IsProfile e.1 p → asksOf on ask p (e :: l) = ask e :: asksOf on ask p l) ∧
    (¬ (HasSay on e ∧ ¬ SetsCeiling e ∧ IsProfile e.1 p) → asksOf on ask p (e :: l) = asksOf on ask p l) := by
  constructor
  · intro h
    unfold asksOf
    rw [List.filter_cons_of_pos (by simpa using h), List.map_cons]
  · intro h
    unfold asksOf
    rw [List.filter_cons_of_neg (by simpa using h)]

theorem profileValues_asks {z : ZoneData} {on : String → Bool} {ask : Entry → Dbl} (p : String) {l : List Entry} {subs : List Submission}
    (h : List.Forall₂ (SubOf z on ask) l subs) : profileValues z subs p = asksOf on ask p l := by
  induction h with
  | nil => rfl
  | @cons e s l subs hs _ ih =>
    obtain ⟨hh, hen, v, hv, hsay⟩ := hs
    rcases hv with ⟨hc, rfl⟩ | ⟨hc, rfl⟩
    · by_cases hE : Enabled z e.1 ∧ IsProfile e.1 p
      · have hS : HasSay on e := ⟨hh, .inr (hen.1 hE.1)⟩
        rw [(asksOf_cons on ask p e l).1 ⟨hS, hc, hE.2⟩, ← ih, ← hsay hS]
        unfold profileValues
        rw [List.filterMap_cons]
        simp only [if_pos hE]
      · rw [(asksOf_cons on ask p e l).2 (fun ⟨h1, h2, h3⟩ => hE ⟨hen.2 (h1.2.resolve_left h2), h3⟩), ← ih]
        unfold profileValues
        rw [List.filterMap_cons]
        simp only [if_neg hE]
    · rw [(asksOf_cons on ask p e l).2 (fun ⟨_, h2, _⟩ => h2 hc), ← ih]
      unfold profileValues
      rw [List.filterMap_cons]

theorem asksOf_heats (on : String → Bool) (ask : Entry → Dbl) (p : String) (l : List Entry) :
    asksOf on ask p (l.filter IsHeat) = asksOf on ask p l := by
  unfold asksOf
  rw [List.filter_filter]
  congr 1
  refine List.filter_congr (fun e _ => ?_)
  by_cases h : IsHeat e
  · simp [h]
  · have : ¬ HasSay on e := fun h' => h h'.1
    simp [h, this]

theorem forall₂_prefix {α β : Type} {R : α → β → Prop} {l : List α} {m : List β} (h : List.Forall₂ R l m) :
    (∀ m', m' <+: m → ∃ l', l' <+: l ∧ List.Forall₂ R l' m') ∧ (∀ l', l' <+: l → ∃ m', m' <+: m ∧ List.Forall₂ R l' m') := by
  constructor
  · intro m' hm
    rw [List.prefix_iff_eq_take] at hm
    rw [hm]
    exact ⟨l.take m'.length, List.take_prefix _ _, List.forall₂_take _ h⟩
  · intro l' hl
    rw [List.prefix_iff_eq_take] at hl
    rw [hl]
    exact ⟨m.take l'.length, List.take_prefix _ _, List.forall₂_take _ h⟩

/-- the running sums of the submissions are those of the configuration -/
theorem runningSum_asks {z : ZoneData} {on : String → Bool} {ask : Entry → Dbl} {conf : List Entry} {subs : List Submission}
    (h : List.Forall₂ (SubOf z on ask) (conf.filter IsHeat) subs) (x : Dbl) :
    RunningSum z subs x ↔ ∃ first p, first <+: conf ∧ asksOf on ask p first ≠ [] ∧ x = sumUp (asksOf on ask p first) := by
  constructor
  · rintro ⟨pre, p, h1, h2, h3⟩
    obtain ⟨l', hl, hf⟩ := (forall₂_prefix h).1 pre h1
    obtain ⟨first, hfi, rfl⟩ := List.prefix_filter_iff.1 hl
    rw [profileValues_asks p hf, asksOf_heats] at h2 h3
    exact ⟨first, p, hfi, h2, h3⟩
  · rintro ⟨first, p, h1, h2, h3⟩
    obtain ⟨m', hm, hf⟩ := (forall₂_prefix h).2 (first.filter IsHeat) (List.prefix_filter_iff.2 ⟨first, h1, rfl⟩)
    rw [← asksOf_heats, ← profileValues_asks p hf] at h2 h3
    exact ⟨m', p, hm, h2, h3⟩

/-- a thermal pass in the steady state -/
theorem steady_sum_pass {conf : List Entry} {on : String → Bool} {val : String → Dbl} {min : Dbl} {o : Opts}
    (ho : o.tuningEnabled = false) (hml : ∀ e ∈ conf, HasSay on e → Memoryless e.2) :
    PassMeans o conf on val true min (SteadySum conf on val min) := by
  classical
  intro ct ti fk w z zt hti hz hq hsw hin h
  obtain ⟨d, subs, h1, h2, h3⟩ := thermals_accumulated ho hz.acc h
  have hqd := hq z.d d hz.inputs h1
  have hti' : ∀ e ∈ conf, IsHeat e → ∀ j ∈ e.2.inputs, j.name ∈ z.d.thermalInputs := fun e he hh j hj => by
    rw [hz.inputs]; exact hti e he hh j hj
  have hheats : ∀ e ∈ conf.filter IsHeat, e ∈ conf ∧ IsHeat e := fun e he => by
    obtain ⟨a, b⟩ := List.mem_filter.1 he
    exact ⟨a, by simpa using b⟩
  have hask : ∀ e ∈ conf, HasSay on e → ∀ c v c', SteadyLoop e c → CtlOut d c v c' → AsksAt e.2 (val e.1) v ∧ v ≠ nan := by
    intro e he hs c v c' hc hco
    obtain ⟨x, a1, a2, a3⟩ := steadyLoop_asks he hs.1 (hml e he hs) h1 (hti' e he hs.1) hqd hc hco
    rw [← hin e he hs x a1]
    exact ⟨a2, a3⟩
  have hen : ∀ e ∈ conf, IsHeat e → (Enabled z.d e.1 ↔ on e.1 = true) := by
    intro e he hh
    have := hsw e he hh
    unfold switchOf at this
    unfold Enabled
    cases hp : z.d.procs.find? e.1 with
    | none => rw [hp] at this; cases this
    | some p =>
      rw [hp] at this
      have := Option.some.inj this
      rw [← this]
      exact ⟨fun ⟨q, h, h'⟩ => by cases h; exact h', fun h => ⟨p, rfl, h⟩⟩
  -- what the loops ask for
  let ask : Entry → Dbl := fun e => if h : ∃ y, AsksAt e.2 (val e.1) y then h.choose else 0
  have haskv : ∀ e v, AsksAt e.2 (val e.1) v → v = ask e := fun e v hv => by
    have hx : ∃ y, AsksAt e.2 (val e.1) y := ⟨v, hv⟩
    show v = if h : ∃ y, AsksAt e.2 (val e.1) y then h.choose else 0
    rw [dif_pos hx]
    exact hv.unique hx.choose_spec
  have hrel : List.Forall₂ (fun e s => SubOf z.d on ask e s ∧ (HasSay on e → AsksAt e.2 (val e.1) (ask e) ∧ ask e ≠ nan))
      (conf.filter IsHeat) subs := by
    have := List.forall₂_iff_get.1 hz.loops
    have h2' := List.forall₂_iff_get.1 h2
    refine List.forall₂_iff_get.2 ⟨this.1.trans h2'.1, fun k ha hb => ?_⟩
    have hl := this.2 k ha (this.1 ▸ ha)
    obtain ⟨v, c', hco, hcs⟩ := h2'.2 k (this.1 ▸ ha) hb
    generalize hee : (conf.filter IsHeat).get ⟨k, ha⟩ = e at *
    generalize z.thermals.get ⟨k, this.1 ▸ ha⟩ = c at *
    have he : e ∈ conf.filter IsHeat := by rw [← hee]; exact List.get_mem _ _
    obtain ⟨he1, he2⟩ := hheats e he
    have hv : HasSay on e → v = ask e := fun hs => haskv e v (hask e he1 hs c v c' hl hco).1
    refine ⟨⟨he2, hen e he1 he2, v, ?_, hv⟩, fun hs => ?_⟩
    · rcases hcs with ⟨a, b⟩ | ⟨a, b⟩
      · exact .inl ⟨hl.ceiling.1 a, by rw [b, hl.id]⟩
      · exact .inr ⟨not_not.1 (fun hn => a (hl.ceiling.2 hn)), b⟩
    · rw [← hv hs]
      exact hask e he1 hs c v c' hl hco
  have hcei : ∀ x, CeilingOf subs x ↔ ∃ e ∈ conf, IsHeat e ∧ SetsCeiling e ∧ x = ask e := by
    intro x
    constructor
    · intro hx
      obtain ⟨e, he, ⟨hh, _, v, hv, hs⟩, _⟩ := forall₂_right hrel hx
      rcases hv with ⟨a, b⟩ | ⟨a, b⟩
      · cases b
      · cases b
        exact ⟨e, (hheats e he).1, hh, a, hs ⟨hh, .inl a⟩⟩
    · rintro ⟨e, he, hh, hc, rfl⟩
      obtain ⟨s, hs, ⟨_, _, v, hv, hsay⟩, _⟩ := forall₂_left hrel (List.mem_filter.2 ⟨he, by simpa using hh⟩)
      rcases hv with ⟨a, b⟩ | ⟨a, b⟩
      · exact absurd hc a
      · rw [← hsay ⟨hh, .inl hc⟩]
        subst b
        exact hs
  have hsay : ∀ e ∈ conf, HasSay on e → AsksAt e.2 (val e.1) (ask e) ∧ ask e ≠ nan := fun e he hs => by
    obtain ⟨s, _, _, h⟩ := forall₂_left hrel (List.mem_filter.2 ⟨he, by simpa using hs.1⟩)
    exact h hs
  have hcn : ∀ x, CeilingOf subs x → x ≠ nan := fun x hx => by
    obtain ⟨e, he, hh, hc, rfl⟩ := (hcei x).1 hx
    exact (hsay e he ⟨hh, .inl hc⟩).2
  obtain ⟨req, cap, k1, k2, k3⟩ := h3 (fun hn => hcn _ hn rfl)
  refine ⟨ask, req, cap, fun e he hs => (hsay e he hs).1, k1.congr (fun x => or_congr_right (and_congr_right (fun _ =>
    runningSum_asks (hrel.imp (fun _ _ h => h.1)) x))), k2.congr (fun x => or_congr_right
    ⟨fun hx => (hcei x).1 hx.2, fun hx => ⟨hcn x ((hcei x).2 hx), (hcei x).2 hx⟩⟩), ?_⟩
  rw [hz.minimum] at k3
  exact k3

/-- **C127** The steady state of a zone that adds up set points, with failed sensors or without. As in C125 and C126, but the zone
accumulates set points. After ceil(T/F) automatic cycles every further one commands every fan loop exactly this: the outputs of
the loops are added up per profile in the order of the configuration, the largest sum on the way counts (at least 0), it is
capped by the lowest ceiling and raised to the minimum, limited by the fan loop, and raised to the largest failsafe percentage
of a failed sensor. -/
theorem C127_exact {o : Opts} (ho : o.tuningEnabled = false) {bus : BuildBus} {now : Int} {w : World}
    {sensors : OMap String SensorConfig} {pids : OMap Int PIDConf} {configs : OMap Int ZoneConfig} (hw : pids.WF)
    (hc : ∀ e ∈ pids.entries, OMap.WF e.2) {d0 : Daemon} (hl : Daemon.launch o bus now w sensors pids configs = .ok d0)
    {i : Int} {conf : PIDConf} {c : ZoneConfig} (hp : pids.find? i = some conf) (hcc : configs.find? i = some c)
    (hacc : c.accumulateSetPoint = true) {on : String → Bool} {val : String → Dbl}
    (hml : ∀ e ∈ conf.entries, HasSay on e → Memoryless e.2)
    (hfan : ∀ f ∈ conf.entries, IsFan f → HandsOn f.2.pidInfo) (hF : 1 ≤ c.cycleTime.cycleIntervalTimeMS)
    (hnum : ∀ e ∈ conf.entries, e.2.failSafePercent ≠ nan) (hzn : c.failsafePercent ≠ nan) {broken : String → Prop}
    {pre post : List DEvent} {d1 d2 d3 : Daemon} (hr1 : d0.run o pre = .ok d1) (hr2 : d1.run o post = .ok d2)
    (hmod : ∀ e ∈ conf.entries, IsPid e.2.type → Memoryless e.2 → ModerateInput o e.2 d0 (pre ++ post))
    (hst : SteadyThroughout o i conf.entries on val pre d1 (post ++ [.tick i]))
    (hbr : BrokenThroughout o i conf.entries broken d1 (post ++ [.tick i]))
    (hn : (c.cycleTime.updateThermalsTimeMS + c.cycleTime.cycleIntervalTimeMS - 1) / c.cycleTime.cycleIntervalTimeMS ≤
      autoTicks i (modeAfter i false pre) post)
    (hm : modeAfter i false (pre ++ post) = false) (ht : d2.step o (.tick i) = .ok d3) :
    ∃ m, SteadySum conf.entries on val c.minThermalOutput m ∧
      FansGetBy (Raised o.strictFailsafePwm c conf.entries broken) conf.entries m d2.w d3.w :=
  steady_fans ho hw hc hl hp hcc (by rw [hacc]; exact steady_sum_pass ho hml) hfan hF hnum hzn hr1 hr2 hmod hst hbr hn hm ht

theorem asksOf_congr {on : String → Bool} {ask ask' : Entry → Dbl} {conf : List Entry} (h : ∀ e ∈ conf, HasSay on e → ask e = ask' e)
    (p : String) : asksOf on ask p conf = asksOf on ask' p conf := by
  unfold asksOf
  refine List.map_congr_left (fun e he => ?_)
  obtain ⟨h1, h2⟩ := List.mem_filter.1 he
  exact h e h1 (show HasSay on e ∧ _ by simpa using h2).1

/-- **C127** There is only one such set point. -/
theorem C127_unique {conf : List Entry} {on : String → Bool} {val : String → Dbl} {min m m' : Dbl}
    (h : SteadySum conf on val min m) (h' : SteadySum conf on val min m') : m = m' := by
  obtain ⟨ask, req, cap, a1, a2, a3, a4⟩ := h
  obtain ⟨ask', req', cap', b1, b2, b3, b4⟩ := h'
  have e : ∀ e ∈ conf, HasSay on e → ask e = ask' e := fun e he hs => (a1 e he hs).unique (b1 e he hs)
  have hreq : req = req' := a2.unique (b2.congr (fun x => by
    refine or_congr_right (and_congr_right (fun _ => exists_congr (fun first => exists_congr (fun p => and_congr_right (fun hf => ?_)))))
    rw [asksOf_congr (fun e' he' => e e' (hf.subset he')) p]))
  subst hreq
  have hcap : cap = cap' := a3.unique (b3.congr (fun x => or_congr_right (exists_congr (fun e' => and_congr_right (fun he' =>
    and_congr_right (fun hh => and_congr_right (fun hc => by rw [e e' he' ⟨hh, .inl hc⟩])))))))
  subst hcap
  exact a4.unique b4

/-- **C127** If no loop asks for less than 0, the total of every profile counts. -/
theorem C127_totals {conf : List Entry} {on : String → Bool} {val : String → Dbl} {min m : Dbl} (h : SteadySum conf on val min m)
    (hpos : ∀ e ∈ conf, HasSay on e → ¬ SetsCeiling e → ∀ y, AsksAt e.2 (val e.1) y → 0 ≤ y) : SteadyTotal conf on val min m := by
  obtain ⟨ask, req, cap, a1, a2, a3, a4⟩ := h
  refine ⟨ask, req, cap, a1, ?_, a3, a4⟩
  have hval : ∀ p, ∀ x ∈ asksOf on ask p conf, 0 ≤ x := by
    intro p x hx
    obtain ⟨e, he, rfl⟩ := List.mem_map.1 hx
    obtain ⟨h1, h2⟩ := List.mem_filter.1 he
    have h2 : HasSay on e ∧ ¬ SetsCeiling e ∧ IsProfile e.1 p := by simpa using h2
    exact hpos e h1 h2.1 h2.2.1 _ (a1 e h1 h2.1)
  have htot : ∀ p, sumUp (asksOf on ask p conf) ≤ req := by
    intro p
    by_cases hp : asksOf on ask p conf = []
    · rw [hp]; exact a2.2 0 (.inl rfl)
    · exact a2.2 _ (.inr ⟨ne_nan_of_le_right (sumUp_nonneg (hval p)), conf, p, List.prefix_rfl, hp, rfl⟩)
  refine ⟨?_, ?_⟩
  · rcases a2.1 with h1 | ⟨_, first, p, h1, h2, h3⟩
    · exact .inl h1
    · refine .inr ⟨p, Dbl.le_antisymm ?_ (htot p)⟩
      rw [h3]
      refine sumUp_prefix ?_ (hval p)
      unfold asksOf
      exact (h1.filter _).map _
  · rintro x (rfl | ⟨p, rfl⟩)
    · exact a2.2 0 (.inl rfl)
    · exact htot p

/-- **C127** A fan of the zone that has its D-Bus object or file for itself, and is listed by one fan loop only, is told exactly
what its configuration makes of this percentage. No percentage is negative. -/
theorem C127_told {o : Opts} (ho : o.tuningEnabled = false) {bus : BuildBus} {now : Int} {w : World} (htr : w.trace = [])
    {sensors : OMap String SensorConfig} (hws : sensors.WF) {pids : OMap Int PIDConf} {configs : OMap Int ZoneConfig} (hw : pids.WF)
    (hc : ∀ e ∈ pids.entries, OMap.WF e.2) {d0 : Daemon} (hl : Daemon.launch o bus now w sensors pids configs = .ok d0)
    {i : Int} {conf : PIDConf} {c : ZoneConfig} (hp : pids.find? i = some conf) (hcc : configs.find? i = some c)
    (hacc : c.accumulateSetPoint = true) {on : String → Bool} {val : String → Dbl}
    (hml : ∀ e ∈ conf.entries, HasSay on e → Memoryless e.2)
    (hfan : ∀ f ∈ conf.entries, IsFan f → HandsOn f.2.pidInfo) (hF : 1 ≤ c.cycleTime.cycleIntervalTimeMS)
    (hnum : ∀ e ∈ conf.entries, 0 ≤ e.2.failSafePercent) (hzn : 0 ≤ c.failsafePercent) {broken : String → Prop}
    {pre post : List DEvent} {d1 d2 d3 : Daemon} (hr1 : d0.run o pre = .ok d1) (hr2 : d1.run o post = .ok d2)
    (hmod : ∀ e ∈ conf.entries, IsPid e.2.type → Memoryless e.2 → ModerateInput o e.2 d0 (pre ++ post))
    (hst : SteadyThroughout o i conf.entries on val pre d1 (post ++ [.tick i]))
    (hbr : BrokenThroughout o i conf.entries broken d1 (post ++ [.tick i]))
    (hn : (c.cycleTime.updateThermalsTimeMS + c.cycleTime.cycleIntervalTimeMS - 1) / c.cycleTime.cycleIntervalTimeMS ≤
      autoTicks i (modeAfter i false pre) post)
    (hm : modeAfter i false (pre ++ post) = false) (ht : d2.step o (.tick i) = .ok d3)
    {n path : String} {fc : SensorConfig} (hfo : FanOn bus.dirs sensors n fc path) (hb : w.busOk path = true)
    (hbs : ∀ e ∈ pre ++ post, BusWorks path e) {f : Entry} (hf : f ∈ conf.entries) (hff : IsFan f)
    (hin : ∃ x ∈ f.2.inputs, x.name = n) (hone : OneLoop conf.entries n)
    (hlim : 0 ≤ f.2.pidInfo.outLim.min ∧ f.2.pidInfo.outLim.min ≤ f.2.pidInfo.outLim.max) :
    ∃ m y u, SteadySum conf.entries on val c.minThermalOutput m ∧
      Raised o.strictFailsafePwm c conf.entries broken (limited m f.2.pidInfo.outLim.min f.2.pidInfo.outLim.max) y ∧
      valueAt path d3.w = some u ∧ rawCommand (limitsOf fc) (y / 100) = some u :=
  steady_told ho htr hws hw hc hl hp hcc (by rw [hacc]; exact steady_sum_pass ho hml) hfan hF hnum hzn hr1 hr2 hmod hst hbr hn hm ht hfo
    hb hbs hf hff hin hone hlim

end

namespace Ex
section
attribute [local instance] binary64

def zone127 : ZoneConfig := { zone99 with accumulateSetPoint := true }
def zones127 : OMap Int ZoneConfig := ({} : OMap Int ZoneConfig).insert 1 zone127
/-- two loops of profile "one" and one of profile "two" -/
def loops127 : PIDConf :=
  (((({} : PIDConf).insert "fans" (loop99 "fan" "fan0" 0 1 0)).insert "a_one" temps125).insert "b_one" temps125).insert "two" temps125
def pids127 : OMap Int PIDConf := ({} : OMap Int PIDConf).insert 1 loops127
def launch127 : Res Daemon := Daemon.launch {} bus103 0 world99 sensors106 pids127 zones127
def run127 (es : List DEvent) : Res Daemon := do
  let d ← launch127
  d.run {} es

/-- C127: every loop asks for 30 percent at 95 degrees, so the fans get 60 (153 of 255) -/
example : ∃ d, run127 (short125 ++ [.tick 1, .tick 1] ++ [.tick 1]) = .ok d ∧ decide (valueAt path124 d.w = some 153) = true :=
  ok_of_any (P := fun d : Daemon => decide (valueAt path124 d.w = some 153)) (by decide +kernel)

theorem loops127_wf : loops127.WF :=
  OMap.wf_insert (OMap.wf_insert (OMap.wf_insert (OMap.wf_insert OMap.wf_empty _ _) _ _) _ _) _ _
theorem pids127_wf : pids127.WF := OMap.wf_insert OMap.wf_empty _ _
theorem pids127_wfs : ∀ e ∈ pids127.entries, OMap.WF e.2 := fun e he => by
  have := (OMap.mem_entries_iff pids127_wf e.1 e.2).1 he
  unfold pids127 at this
  by_cases hi : e.1 = 1
  · rw [hi, OMap.find?_insert_self] at this
    rw [← Option.some.inj this]; exact loops127_wf
  · rw [OMap.find?_insert_ne _ hi, OMap.find?_empty] at this
    cases this

theorem loops127_mem {e : Entry} (h : e ∈ loops127.entries) :
    e = ("fans", loop99 "fan" "fan0" 0 1 0) ∨ ((e.1 = "a_one" ∨ e.1 = "b_one" ∨ e.1 = "two") ∧ e.2 = temps125) := by
  have h := (OMap.mem_entries_iff loops127_wf e.1 e.2).1 h
  obtain ⟨n, x⟩ := e
  unfold loops127 at h
  dsimp only at h
  rw [OMap.find?_insert, OMap.find?_insert, OMap.find?_insert, OMap.find?_insert, OMap.find?_empty] at h
  split_ifs at h with h1 h2 h3 h4
  · cases h; exact .inr ⟨.inr (.inr h1), rfl⟩
  · cases h; exact .inr ⟨.inr (.inl h2), rfl⟩
  · cases h; exact .inr ⟨.inl h3, rfl⟩
  · cases h; rw [h4]; exact .inl rfl

/-- a computation of `SteadyThroughout` for this zone with the processor at 95 degrees -/
def steady127B (pre : List DEvent) (d : Daemon) (es : List DEvent) : Bool :=
  (before124 1 es).all (fun a => switchAfter 1 "a_one" true (pre ++ a) && switchAfter 1 "b_one" true (pre ++ a) &&
    switchAfter 1 "two" true (pre ++ a) &&
    (match d.run {} a with | .ok d => readings124 "cpu" (fun r _ => decide (r = 95)) d.w d.w | .error _ => true))

theorem steady127_of {pre es : List DEvent} {d : Daemon} (h : steady127B pre d es = true) :
    SteadyThroughout {} 1 loops127.entries (fun _ => true) (fun _ => 95) pre d es := by
  intro a b d1 hes hr e he hh
  subst hes
  have := List.all_eq_true.1 h a before124_mem
  simp only [hr, Bool.and_eq_true] at this
  obtain ⟨⟨⟨s1, s2⟩, s4⟩, s3⟩ := this
  obtain ⟨r, _, hg, _, hr95⟩ := readings124_of s3
  replace hr95 := of_decide_eq_true hr95
  subst hr95
  rcases loops127_mem he with rfl | ⟨hn, h2⟩
  · exact absurd hh (by decide)
  · refine ⟨?_, fun _ v hv => ?_⟩
    · rcases hn with hn | hn | hn <;> rw [hn] <;> assumption
    · rw [h2] at hv
      cases hv with
      | pid _ hs =>
        obtain ⟨r, hr, ⟨_, hf⟩ | ⟨rfl, _⟩⟩ := temps125_sees hs
        · rw [gives_unique hr hg] at hf; exact absurd (by decide +kernel) hf
        · exact gives_unique hr hg
      | stepwise h => exact absurd h (by decide)

theorem moderate127 {d : Daemon} {es : List DEvent} (h : modB "cpu" d es = true) :
    ∀ e ∈ loops127.entries, IsPid e.2.type → Memoryless e.2 → ModerateInput {} e.2 d es := by
  intro e he hp _ es1 es2 d1 hes hr v hv
  rcases loops127_mem he with rfl | ⟨_, h2⟩
  · rcases hp with h | h | h | h <;> exact absurd h (by decide)
  · rw [h2] at hv
    obtain ⟨r, ⟨s, rr, h1, h2, rfl⟩, ⟨rfl, _⟩ | ⟨rfl, hf⟩⟩ := temps125_sees hv
    · decide +kernel
    · exact mod_of h es1 es2 d1 hes hr "cpu" (List.mem_singleton.2 rfl) s rr h1 h2 hf

/-- a computation of `BrokenThroughout` for this zone with no failures -/
def fine127B (d : Daemon) (es : List DEvent) : Bool :=
  (before124 1 es).all (fun a => match d.run {} a with
    | .ok d => !failsB d.w d.w.nowFans "cpu" && !failsB d.w d.w.nowThermals "cpu" && !failsB d.w d.w.nowFans "fan0" &&
        !failsB d.w d.w.nowThermals "fan0"
    | .error _ => true)

theorem fine127_of {d : Daemon} {es : List DEvent} (h : fine127B d es = true) :
    BrokenThroughout {} 1 loops127.entries (fun _ => False) d es := by
  intro a b d1 hes hr n hn
  subst hes
  have := List.all_eq_true.1 h a before124_mem
  simp only [hr, Bool.and_eq_true, Bool.not_eq_true'] at this
  obtain ⟨⟨⟨s1, s2⟩, s3⟩, s4⟩ := this
  have key : ∀ e ∈ loops127.entries, ∀ x ∈ e.2.inputs, x.name = "fan0" ∨ x.name = "cpu" := by decide +kernel
  obtain ⟨⟨e, he, _, x, hx, rfl⟩, _⟩ := hn
  rw [failsB_iff, failsB_iff]
  rcases key e he x hx with hx | hx <;> rw [hx]
  · rw [s3, s4]; simp
  · rw [s1, s2]; simp

/-- … all hypotheses of the theorem hold -/
example : ∃ d m y u, run127 (short125 ++ [.tick 1, .tick 1] ++ [.tick 1]) = .ok d ∧
    SteadySum loops127.entries (fun _ => true) (fun _ => 95) 20 m ∧
    Raised false zone127 loops127.entries (fun _ => False) (limited m 0 100) y ∧ valueAt path124 d.w = some u ∧
    rawCommand (limitsOf fan106) (y / 100) = some u := by
  obtain ⟨d3, h, _⟩ := ok_of_any (x := run127 (short125 ++ [.tick 1, .tick 1] ++ [.tick 1])) (P := fun _ : Daemon => true)
    (by decide +kernel)
  obtain ⟨d1', hp, hb⟩ := ok_of_any (x := run127 short125)
    (P := fun d : Daemon => fine127B d ([.tick 1, .tick 1] ++ [.tick 1]) &&
      steady127B short125 d ([.tick 1, .tick 1] ++ [.tick 1])) (by decide +kernel)
  obtain ⟨d0, hl, hmo⟩ := ok_of_any (x := launch127) (P := fun d : Daemon => modB "cpu" d (short125 ++ [.tick 1, .tick 1]))
    (by decide +kernel)
  have hh := h
  simp only [run127, hl, ok_bind] at h hp
  obtain ⟨d2, hr, h⟩ := run_append.1 h
  obtain ⟨x, ht, h⟩ := bind_eq_ok.1 h
  cases h
  obtain ⟨d1, hr1, hr2⟩ := run_append.1 hr
  rw [hr1] at hp
  cases hp
  rw [Bool.and_eq_true] at hb
  obtain ⟨m, y, u, g1, g2, g3, g4⟩ := C127_told (o := {}) rfl (show world99.trace = [] from rfl) sensors106_wf pids127_wf pids127_wfs
    hl (i := 1) (conf := loops127) (c := zone127) (n := "fan0") (fc := fan106) (path := path124)
    (f := ("fans", loop99 "fan" "fan0" 0 1 0)) (by unfold pids127; rw [OMap.find?_insert_self])
    (by unfold zones127; rw [OMap.find?_insert_self]) rfl (on := fun _ => true) (val := fun _ => 95)
    (by
      intro e he hs
      rcases loops127_mem he with rfl | ⟨_, h2⟩
      · exact absurd hs.1 (by decide)
      · rw [h2]; exact temps125_memoryless)
    (by
      intro f hf hff
      rcases loops127_mem hf with rfl | ⟨_, h2⟩
      · exact ⟨rfl, by decide +kernel, by decide +kernel, by decide +kernel⟩
      · unfold IsFan at hff; rw [h2] at hff; exact absurd hff (by decide))
    (by decide)
    (by
      intro e he
      rcases loops127_mem he with rfl | ⟨_, h2⟩
      · decide +kernel
      · rw [h2]; decide +kernel)
    (by decide +kernel) hr1 hr2 (moderate127 hmo) (steady127_of hb.2) (fine127_of hb.1) (by decide) rfl ht fanOn106 rfl
    (by
      intro e he
      simp only [short125, List.cons_append, List.nil_append, List.mem_cons, List.not_mem_nil, or_false] at he
      rcases he with rfl | rfl | rfl <;> trivial)
    ((OMap.mem_entries_iff loops127_wf _ _).2 (by
      unfold loops127
      rw [OMap.find?_insert_ne _ (by decide), OMap.find?_insert_ne _ (by decide), OMap.find?_insert_ne _ (by decide),
        OMap.find?_insert_self]))
    (by decide) ⟨{ name := "fan0" }, List.mem_cons_self, rfl⟩ (by unfold OneLoop; decide +kernel) (by decide +kernel)
  exact ⟨d3, m, y, u, hh, g1, g2, g3, g4⟩

/-- a loop whose output may be negative -/
def dip127 (k : Int) : ControllerInfo :=
  { loop99 "temp" "cpu" k 0 90 with pidInfo := { (loop99 "temp" "cpu" k 0 90).pidInfo with outLim := ⟨-100, 100⟩ } }
def order127 (a b : String) (es : List DEvent) : Res Daemon := do
  let d ← Daemon.launch {} bus103 0 world99 sensors106 (({} : OMap Int PIDConf).insert 1
    (((({} : PIDConf).insert "fans" (loop99 "fan" "fan0" 0 1 0)).insert a (dip127 (-4))).insert b (dip127 1))) zones127
  d.run {} es

/-- **C127** So the names of the loops decide how fast the fans run. At 95 degrees one loop asks for 60 percent and one of the
same profile for -15. With "a_one" for the first and "b_one" for the second the fans get 60 percent (153), with the names
swapped 45 (114). -/
theorem C127_names :
    (∃ d, order127 "a_one" "b_one" (short125 ++ [.tick 1, .tick 1, .tick 1]) = .ok d ∧
      decide (valueAt path124 d.w = some 153) = true) ∧
    ∃ d, order127 "b_one" "a_one" (short125 ++ [.tick 1, .tick 1, .tick 1]) = .ok d ∧
      decide (valueAt path124 d.w = some 114) = true :=
  ⟨ok_of_any (P := fun d : Daemon => decide (valueAt path124 d.w = some 153)) (by decide +kernel),
   ok_of_any (P := fun d : Daemon => decide (valueAt path124 d.w = some 114)) (by decide +kernel)⟩

end
end Ex
end Verif
