import Verif.Lemmas.Demand
import Verif.Lemmas.Remote
import Verif.Props.Daemon
import Verif.Spec.Shown
import Verif.Spec.Lasting

/-! # Lemmas: what loops show is what they computed -/

namespace Verif
open Dbl
variable [F : FloatModel]

/-- what a thermal loop does to the objects of the loops of its zone -/
structure ProcsStep (c : ThermalPid) (P P' : OMap String ProcObj) : Prop where
  others : ∀ k, k ≠ c.id → P'.find? k = P.find? k
  keep : ∀ p, P.find? c.id = some p → ∃ p', P'.find? c.id = some p'
  own : ∀ p', P'.find? c.id = some p' → ∃ p, P.find? c.id = some p ∧ p'.enabled = p.enabled ∧ p'.setpoint = p.setpoint ∧
    p'.classType = p.classType ∧ (p'.leader = p.leader ∨ ∃ i ∈ c.inputs, p'.leader = i.name)

theorem ProcsStep.refl (c : ThermalPid) (P : OMap String ProcObj) : ProcsStep c P P :=
  ⟨fun _ _ => rfl, fun p h => ⟨p, h⟩, fun p h => ⟨p, h, rfl, rfl, rfl, .inl rfl⟩⟩

theorem ProcsStep.trans {c : ThermalPid} {P Q R : OMap String ProcObj} (h : ProcsStep c P Q) (h' : ProcsStep c Q R) :
    ProcsStep c P R := by
  refine ⟨fun k hk => (h'.others k hk).trans (h.others k hk), fun p hp => ?_, fun p hp => ?_⟩
  · obtain ⟨q, hq⟩ := h.keep p hp
    exact h'.keep q hq
  · obtain ⟨q, hq, a1, a2, a3, a4⟩ := h'.own p hp
    obtain ⟨r, hr, b1, b2, b3, b4⟩ := h.own q hq
    refine ⟨r, hr, a1.trans b1, a2.trans b2, a3.trans b3, ?_⟩
    rcases a4 with a4 | a4
    · rw [a4]; exact b4
    · exact .inr a4

theorem updateDebug_step {c : ThermalPid} {z z' : ZoneData} {l : String} (hl : l = "" ∨ ∃ i ∈ c.inputs, l = i.name) {i v : Dbl}
    (h : z.updateThermalPowerDebugInterface c.id l i v = .ok z') :
    ProcsStep c z.procs z'.procs ∧ (l = "" → ∃ p, z'.procs.find? c.id = some p ∧ p.output = v) := by
  unfold ZoneData.updateThermalPowerDebugInterface at h
  cases hp : z.procs.find? c.id with
  | none => rw [hp] at h; cases h
  | some p =>
    rw [hp] at h
    dsimp only at h
    have key : ∀ q : ProcObj, q.enabled = p.enabled → q.setpoint = p.setpoint → q.classType = p.classType →
        (q.leader = p.leader ∨ ∃ i ∈ c.inputs, q.leader = i.name) → ProcsStep c z.procs (z.procs.insert c.id q) := by
      intro q q1 q2 q3 q4
      refine ⟨fun k hk => OMap.find?_insert_ne _ hk _, fun _ _ => ⟨q, OMap.find?_insert_self _ _ _⟩, fun q' hq' => ?_⟩
      rw [OMap.find?_insert_self] at hq'
      cases hq'
      exact ⟨p, hp, q1, q2, q3, q4⟩
    split_ifs at h with e
    · cases h
      exact ⟨key _ rfl rfl rfl (.inl rfl), fun _ => ⟨_, OMap.find?_insert_self _ _ _, rfl⟩⟩
    · cases h
      refine ⟨key _ rfl rfl rfl (.inr ?_), fun h => absurd h e⟩
      rcases hl with hl | hl
      · exact absurd hl e
      · exact hl

theorem inputOne_step {c : ThermalPid} {z z' : ZoneData} {v v' : Dbl} {a a' : Bool} {i : SensorInput} (hi : i ∈ c.inputs)
    (h : c.inputOne z v a i = .ok (z', v', a')) : ProcsStep c z.procs z'.procs := by
  unfold ThermalPid.inputOne at h
  obtain ⟨e, _, h⟩ := bind_eq_ok.1 h
  dsimp only at h
  have key : ∀ new : Dbl, (if (!v.eqb new) = true then do
        let z ← z.updateThermalPowerDebugInterface c.id i.name new 0
        .ok (z, new, true)
      else .ok (z, new, true)) = .ok (z', v', a') → ProcsStep c z.procs z'.procs := by
    intro new h
    split_ifs at h
    · obtain ⟨z1, h1, h⟩ := bind_eq_ok.1 h
      cases h
      exact (updateDebug_step (.inr ⟨i, hi, rfl⟩) h1).1
    · cases h; exact .refl _ _
  split_ifs at h
  · cases h; exact .refl _ _
  · exact absurd h (by simp)
  · exact key _ h
  · exact key _ h

theorem inputLoop_step {c : ThermalPid} : ∀ {is : List SensorInput} {z z' : ZoneData} {v v' : Dbl} {a a' : Bool},
    (∀ i ∈ is, i ∈ c.inputs) → c.inputLoop z v a is = .ok (z', v', a') → ProcsStep c z.procs z'.procs
  | [], _, _, _, _, _, _, _, h => by cases h; exact .refl _ _
  | i :: is, z, z', v, v', a, a', hi, h => by
    unfold ThermalPid.inputLoop at h
    obtain ⟨⟨z1, v1, a1⟩, h1, h2⟩ := bind_eq_ok.1 h
    exact (inputOne_step (hi i List.mem_cons_self) h1).trans
      (inputLoop_step (fun j hj => hi j (List.mem_cons_of_mem _ hj)) h2)

theorem inputProc_step {c : ThermalPid} {z z' : ZoneData} {v : Dbl} (h : c.inputProc z = .ok (z', v)) :
    ProcsStep c z.procs z'.procs := by
  unfold ThermalPid.inputProc at h
  split_ifs at h
  obtain ⟨⟨z1, v1, a1⟩, h1, h2⟩ := bind_eq_ok.1 h
  cases h2
  exact inputLoop_step (fun _ h => h) h1

theorem pidStep_last (c : PidCtl) (s i : Dbl) : (pidStep c s i).2.info.lastOutput = (pidStep c s i).1 := by
  unfold pidStep; rfl

/-- what a PID loop leaves behind -/
structure PidShown (c c' : ThermalPid) (z z' : ZoneData) (v : Dbl) : Prop where
  step : ProcsStep c z.procs z'.procs
  output : ∃ p, z'.procs.find? c.id = some p ∧ p.output = v
  last : c'.ctl.info.lastOutput = v
  id : c'.id = c.id
  inputs : c'.inputs = c.inputs
  setpoint : c'.setpoint = c.setpoint
  type : c'.type = c.type
  max : NonAccInv z → z'.maximumSetPoint = if enabledB z c.id then cmax z.maximumSetPoint v else z.maximumSetPoint

theorem pid_shown {c c' : ThermalPid} {z z' : ZoneData} (h : c.process z = .ok (z', c')) : ∃ v, PidShown c c' z z' v := by
  unfold ThermalPid.process at h
  obtain ⟨⟨z1, x⟩, h1, h⟩ := bind_eq_ok.1 h
  have hr := pidStep_last c.ctl c.setpoint x
  dsimp only at h
  generalize pidStep c.ctl c.setpoint x = r at h hr
  obtain ⟨y, k⟩ := r
  obtain ⟨z2, h2, h⟩ := bind_eq_ok.1 h
  obtain ⟨z3, h3, h⟩ := bind_eq_ok.1 h
  cases h
  obtain ⟨_, rfl⟩ := submit_ok (s := .setPoint c.id y) h2
  have hs := sub1_same z1 (.setPoint c.id y)
  obtain ⟨u1, u2⟩ := updateDebug_step (c := c) (.inl rfl) h3
  rw [hs.procs] at u1
  refine ⟨y, (inputProc_step h1).trans u1, u2 rfl, hr, rfl, rfl, rfl, rfl, fun hi => ?_⟩
  have d1 := inputProc_only h1
  rw [(updateDebug_only h3).max, sub1_max_nonacc (hi.debug d1), enabledB_debug d1, d1.max]

/-! ## The loops of a zone -/

/-- the object of a loop shows what the loop computed (PID), or nothing (stepwise) -/
def LoopShows (d : ZoneData) : ThermalCtl → Prop
  | .pid c => ∃ p, d.procs.find? c.id = some p ∧ p.output = c.ctl.info.lastOutput ∧
      (p.leader = "" ∨ ∃ i ∈ c.inputs, p.leader = i.name)
  | .stepwise c => ∃ p, d.procs.find? c.id = some p ∧ p.output = 0 ∧ p.input = 0 ∧ p.leader = ""

theorem LoopShows.congr {d d' : ZoneData} {c : ThermalCtl} (h : d'.procs.find? c.id = d.procs.find? c.id)
    (hl : LoopShows d c) : LoopShows d' c := by
  cases c with
  | pid c => obtain ⟨p, h1, h2⟩ := hl; exact ⟨p, h.trans h1, h2⟩
  | stepwise c => obtain ⟨p, h1, h2⟩ := hl; exact ⟨p, h.trans h1, h2⟩

/-- the set point and the class shown by a loop -/
def labelOf (d : ZoneData) (k : String) : Option (Dbl × String) := (d.procs.find? k).map (fun p => (p.setpoint, p.classType))

/-- a loop is the one configured by an entry -/
def LoopOf (e : Entry) : ThermalCtl → Prop
  | .pid c => IsPid e.2.type ∧ c.id = e.1 ∧ c.inputs = e.2.inputs ∧ c.setpoint = e.2.setpoint
  | .stepwise c => e.2.type = "stepwise" ∧ c.id = e.1

theorem LoopOf.id {e : Entry} {c : ThermalCtl} (h : LoopOf e c) : c.id = e.1 := by
  cases c with
  | pid c => exact h.2.1
  | stepwise c => exact h.2

/-- what one loop leaves behind -/
structure CtlShown (c c' : ThermalCtl) (z z' : ZoneData) : Prop where
  others : ∀ k, k ≠ c.id → z'.procs.find? k = z.procs.find? k
  labels : ∀ k, labelOf z' k = labelOf z k
  id : c'.id = c.id
  of : ∀ e, LoopOf e c → LoopOf e c'
  shows : LoopShows z c → LoopShows z' c'

theorem ProcsStep.labels {c : ThermalPid} {z z' : ZoneData} (h : ProcsStep c z.procs z'.procs) (k : String) :
    labelOf z' k = labelOf z k := by
  unfold labelOf
  by_cases hk : k = c.id
  · subst hk
    cases hp : z'.procs.find? c.id with
    | none =>
      cases hq : z.procs.find? c.id with
      | none => rfl
      | some q =>
        obtain ⟨p, hp'⟩ := h.keep q hq
        rw [hp] at hp'; cases hp'
    | some p =>
      obtain ⟨q, hq, _, a2, a3, _⟩ := h.own p hp
      rw [hq]
      simp [a2, a3]
  · rw [h.others k hk]

theorem ctl_shown {c c' : ThermalCtl} {z z' : ZoneData} (h : c.process z = .ok (z', c')) : CtlShown c c' z z' := by
  cases c with
  | pid c =>
    obtain ⟨⟨z1, c1⟩, h1, h2⟩ := bind_eq_ok.1 h
    cases h2
    obtain ⟨v, hv⟩ := pid_shown h1
    refine ⟨hv.step.others, hv.step.labels, hv.id, fun e he => ?_, fun hl => ?_⟩
    · exact ⟨he.1, hv.id.trans he.2.1, hv.inputs.trans he.2.2.1, hv.setpoint.trans he.2.2.2⟩
    · obtain ⟨p, hp, h4⟩ := hv.output
      obtain ⟨q, hq, _, _, _, hql⟩ := hv.step.own p hp
      obtain ⟨q', hq', _, h6⟩ := hl
      rw [hq] at hq'
      cases hq'
      refine ⟨p, (by rw [hv.id]; exact hp), h4.trans hv.last.symm, ?_⟩
      rw [hv.inputs]
      rcases hql with e | e
      · rw [e]; exact h6
      · exact .inr e
  | stepwise c =>
    obtain ⟨⟨z1, c1⟩, h1, h2⟩ := bind_eq_ok.1 h
    cases h2
    unfold StepwiseCtl.process at h1
    obtain ⟨x, _, h4⟩ := bind_eq_ok.1 h1
    dsimp only at h4
    have fin : z'.procs = z.procs → CtlShown (.stepwise c) (.stepwise { c with st := (stepwiseStep c.info c.st x).2 }) z z' := by
      intro hp
      refine ⟨fun k _ => by rw [hp], fun k => by unfold labelOf; rw [hp], rfl, fun e he => he, fun hl => ?_⟩
      exact LoopShows.congr (c := .stepwise { c with st := (stepwiseStep c.info c.st x).2 }) (d := z) (by rw [hp]) hl
    split_ifs at h4
    · cases h4; exact fin rfl
    · obtain ⟨z4, h7, h8⟩ := bind_eq_ok.1 h4
      cases h8
      obtain ⟨_, rfl⟩ := submit_ok (s := .setPoint c.id _) h7
      exact fin (sub1_same z _).procs

theorem list_shown : ∀ {cs cs' : List ThermalCtl} {z z' : ZoneData}, processThermalList z cs = .ok (z', cs') →
    (cs.map ThermalCtl.id).Nodup →
    (∀ k, k ∉ cs.map ThermalCtl.id → z'.procs.find? k = z.procs.find? k) ∧ (∀ k, labelOf z' k = labelOf z k) ∧
      cs'.map ThermalCtl.id = cs.map ThermalCtl.id ∧
      (∀ es, List.Forall₂ LoopOf es cs → List.Forall₂ LoopOf es cs') ∧
      ((∀ c ∈ cs, LoopShows z c) → ∀ c ∈ cs', LoopShows z' c)
  | [], _, z, z', h, _ => by
    cases h
    exact ⟨fun _ _ => rfl, fun _ => rfl, rfl, fun _ h => h, fun h => h⟩
  | c :: cs, _, z, z', h, hn => by
    unfold processThermalList at h
    obtain ⟨⟨z1, c1⟩, h1, h2⟩ := bind_eq_ok.1 h
    obtain ⟨⟨z2, cs2⟩, h3, h4⟩ := bind_eq_ok.1 h2
    cases h4
    have a := ctl_shown h1
    rw [List.map_cons, List.nodup_cons] at hn
    obtain ⟨b1, b2, b3, b4, b5⟩ := list_shown h3 hn.2
    refine ⟨fun k hk => ?_, fun k => (b2 k).trans (a.labels k), by rw [List.map_cons, List.map_cons, a.id, b3], fun es hes => ?_,
      fun hl => ?_⟩
    · simp only [List.map_cons, List.mem_cons, not_or] at hk
      exact (b1 k hk.2).trans (a.others k hk.1)
    · cases hes with
      | cons q1 q2 => exact .cons (a.of _ q1) (b4 _ q2)
    · intro x hx
      rcases List.mem_cons.1 hx with rfl | hx
      · refine LoopShows.congr (d := z1) ?_ (a.shows (hl c List.mem_cons_self))
        rw [a.id]
        exact b1 _ hn.1
      · refine b5 (fun y hy => ?_) x hx
        refine LoopShows.congr (d := z) (a.others _ ?_) (hl y (List.mem_cons_of_mem _ hy))
        intro e
        exact hn.1 (List.mem_map.2 ⟨y, hy, e⟩)

/-! ## Zones -/

/-- a zone with the loops `es` shows the truth -/
structure ShowsAll (es : List Entry) (L : String → Option (Dbl × String)) (z : Zone) : Prop where
  loops : List.Forall₂ LoopOf es z.thermals
  nodup : (es.map Prod.fst).Nodup
  labels : ∀ k, labelOf z.d k = L k
  shows : ∀ c ∈ z.thermals, LoopShows z.d c

theorem loopOf_ids {es : List Entry} {cs : List ThermalCtl} (h : List.Forall₂ LoopOf es cs) :
    cs.map ThermalCtl.id = es.map Prod.fst := by
  induction h with
  | nil => rfl
  | cons h1 _ ih => rw [List.map_cons, List.map_cons, h1.id, ih]

theorem ShowsAll.ids {es : List Entry} {L : String → Option (Dbl × String)} {z : Zone} (h : ShowsAll es L z) :
    (z.thermals.map ThermalCtl.id).Nodup := by rw [loopOf_ids h.loops]; exact h.nodup

theorem ShowsAll.congr {es : List Entry} {L : String → Option (Dbl × String)} {z z' : Zone} (h : ShowsAll es L z)
    (ht : z'.thermals = z.thermals) (hp : z'.d.procs = z.d.procs) : ShowsAll es L z' :=
  ⟨by rw [ht]; exact h.loops, h.nodup, fun k => by unfold labelOf; rw [hp]; exact h.labels k,
    fun c hc => (h.shows c (ht ▸ hc)).congr (by rw [hp])⟩

theorem ShowsAll.thermals {es : List Entry} {L : String → Option (Dbl × String)} {z z' : Zone} (h : ShowsAll es L z) {o : Opts} {w : World}
    (ht : z.processThermals o w = .ok z') : ShowsAll es L z' := by
  unfold Zone.processThermals at ht
  obtain ⟨d, h1, ht⟩ := bind_eq_ok.1 ht
  obtain ⟨⟨d1, ts⟩, h2, ht⟩ := bind_eq_ok.1 ht
  obtain ⟨d2, h3, ht⟩ := bind_eq_ok.1 ht
  cases ht
  have e := (pollAll_spec h1).frame.eq
  have ep : d.clearSetPoints.clearRPMCeilings.procs = z.d.procs := by
    show d.procs = _
    rw [e]
  have e2 : d2.procs = d1.procs := by
    rw [determine_eq] at h3
    split_ifs at h3
    · obtain ⟨r, _, h3⟩ := bind_eq_ok.1 h3
      obtain ⟨r, _, h3⟩ := bind_eq_ok.1 h3
      cases h3; rfl
    · cases h3; rfl
  obtain ⟨_, b2, _, b4, b5⟩ := list_shown h2 h.ids
  refine ⟨b4 _ h.loops, h.nodup, fun k => ?_, fun c hc => ?_⟩
  · have q := b2 k
    unfold labelOf at q ⊢
    rw [ep] at q
    dsimp only
    rw [e2, q]
    exact h.labels k
  · refine LoopShows.congr (d := d1) (by dsimp only; rw [e2]) (b5 (fun x hx => ?_) c hc)
    exact (h.shows x hx).congr (by rw [ep])

theorem ShowsAll.fans {es : List Entry} {L : String → Option (Dbl × String)} {z z' : Zone} (h : ShowsAll es L z) {o : Opts} {w w' : World}
    (ht : z.processFans o w = .ok (w', z')) : ShowsAll es L z' := by
  obtain ⟨_, _, _, _, _, a, b⟩ := processFans_spec ht
  exact h.congr b (by rw [a])

theorem ShowsAll.tick {es : List Entry} {L : String → Option (Dbl × String)} {z z' : Zone} (h : ShowsAll es L z) {o : Opts} {w w' : World}
    {cnt cnt' : Nat} (ht : z.tick o w cnt = .ok (w', z', cnt')) : ShowsAll es L z' := by
  by_cases hm : z.d.manualMode = true
  · rw [tick_manual hm] at ht; cases ht; exact h
  · obtain ⟨d, h1, h2⟩ := tick_auto (by simpa using hm) ht
    have e := (pollAll_spec h1).frame.eq
    have hd : ShowsAll es L { z with d := d } := h.congr rfl (by show d.procs = _; rw [e])
    rcases h2 with ⟨_, zt, h3, h4, _⟩ | ⟨_, h3, _⟩
    · exact (hd.thermals h3).fans h4
    · exact hd.fans h3

theorem ShowsAll.setEnabled {es : List Entry} {L : String → Option (Dbl × String)} {z : Zone} (h : ShowsAll es L z) (l : String) (b : Bool) :
    ShowsAll es L { z with d := z.d.setEnabled l b } := by
  unfold ZoneData.setEnabled
  cases hl : z.d.procs.find? l with
  | none => exact h
  | some p =>
    dsimp only
    have hf : ∀ k, (z.d.procs.insert l { p with enabled := b }).find? k =
        (z.d.procs.find? k).map (fun q => if k = l then { q with enabled := b } else q) := by
      intro k
      rw [OMap.find?_insert]
      split_ifs with e
      · subst e; rw [hl]; rfl
      · cases z.d.procs.find? k <;> rfl
    refine ⟨h.loops, h.nodup, fun k => ?_, fun c hc => ?_⟩
    · have := h.labels k
      unfold labelOf at this ⊢
      dsimp only
      rw [hf, Option.map_map, ← this]
      cases z.d.procs.find? k with
      | none => rfl
      | some q => simp only [Option.map_some, Function.comp_apply]; split_ifs <;> rfl
    · have := h.shows c hc
      cases c with
      | pid c =>
        obtain ⟨q, hq, h1⟩ := this
        refine ⟨_, (hf c.id).trans (by rw [hq]; rfl), ?_⟩
        split_ifs <;> exact h1
      | stepwise c =>
        obtain ⟨q, hq, h1⟩ := this
        refine ⟨_, (hf c.id).trans (by rw [hq]; rfl), ?_⟩
        split_ifs <;> exact h1

theorem ShowsAll.step {es : List Entry} {L : String → Option (Dbl × String)} {z z' : Zone} {o : Opts} {i : Int} {w : World} {cnt cnt' : Nat}
    {e : DEvent} (h : ShowsAll es L z) (hs : ZoneStep o i w z cnt e z' cnt') : ShowsAll es L z' := by
  cases hs with
  | manual b => exact h.congr rfl rfl
  | enable l b => exact h.setEnabled l b
  | tick ht => exact h.tick ht
  | other _ _ _ => exact h

theorem shows_run {es : List Entry} {L : String → Option (Dbl × String)} {o : Opts} {i : Int} :
    ∀ {evs : List DEvent} {d d' : Daemon} {z : Zone} {cnt : Nat}, d.run o evs = .ok d' → d.zones.find? i = some (z, cnt) →
    ShowsAll es L z → ∃ z' cnt', d'.zones.find? i = some (z', cnt') ∧ ShowsAll es L z'
  | [], d, d', z, cnt, h, hz, hs => by cases h; exact ⟨z, cnt, hz, hs⟩
  | e :: evs, d, d', z, cnt, h, hz, hs => by
    unfold Daemon.run at h
    obtain ⟨d1, h1, h⟩ := bind_eq_ok.1 h
    obtain ⟨z1, c1, h2, h3⟩ := step_zone h1 hz
    exact shows_run h h2 (hs.step h3)

theorem heatLoop_of {e : Entry} {c : ThermalCtl} (h : HeatLoop e c) : LoopOf e c := by
  cases h with
  | margin h => exact ⟨.inr (.inr (.inl h)), rfl, rfl, rfl⟩
  | absolute h => exact ⟨h.elim .inl (fun h => .inr (.inl h)), rfl, rfl, rfl⟩
  | summation h => exact ⟨.inr (.inr (.inr h)), rfl, rfl, rfl⟩
  | stepwise h => exact ⟨h, rfl⟩

theorem shows_new {id : Int} {c : ZoneConfig} {conf : List Entry} {z : Zone} (h : NewZone id c conf z)
    (hn : (conf.map Prod.fst).Nodup) : ShowsAll (conf.filter IsHeat) (labelOf z.d) z := by
  refine ⟨h.thermals.imp (fun _ _ => heatLoop_of), ?_, fun _ => rfl, fun x hx => ?_⟩
  · exact List.Nodup.sublist (List.Sublist.map _ List.filter_sublist) hn
  · obtain ⟨e, he, hl⟩ := forall₂_right h.thermals hx
    rw [List.mem_filter] at he
    have hp := (h.processes e.1 _).2 ⟨e, he.1, by simpa using he.2, rfl, rfl⟩
    cases hl with
    | margin _ => exact ⟨_, hp, rfl, .inl rfl⟩
    | absolute _ => exact ⟨_, hp, rfl, .inl rfl⟩
    | summation _ => exact ⟨_, hp, rfl, .inl rfl⟩
    | stepwise _ => exact ⟨_, hp, rfl, rfl, rfl⟩

/-! ## The set point, from what is shown -/

theorem ShownOn.congr {z z' : ZoneData} {n : String} (h : z'.procs.find? n = z.procs.find? n) (x : Dbl) :
    ShownOn z' n x ↔ ShownOn z n x := by
  unfold ShownOn; rw [h]

theorem list_explains : ∀ {cs cs' : List ThermalCtl} {z z' : ZoneData} {done : List String}, NonAccInv z →
    processThermalList z cs = .ok (z', cs') → (∀ c ∈ cs, ∃ p, c = .pid p) → (cs.map ThermalCtl.id).Nodup →
    (∀ c ∈ cs, c.id ∉ done) → Largest (fun x => x = 0 ∨ (x ≠ nan ∧ ∃ n ∈ done, ShownOn z n x)) z.maximumSetPoint →
    Largest (fun x => x = 0 ∨ (x ≠ nan ∧ ∃ n ∈ done ++ cs.map ThermalCtl.id, ShownOn z' n x)) z'.maximumSetPoint
  | [], _, z, z', done, _, h, _, _, _, hL => by cases h; simpa using hL
  | c :: cs, _, z, z', done, hi, h, hp, hn, hd, hL => by
    unfold processThermalList at h
    obtain ⟨⟨z1, c1⟩, h1, h2⟩ := bind_eq_ok.1 h
    obtain ⟨⟨z2, cs2⟩, h3, h4⟩ := bind_eq_ok.1 h2
    cases h4
    have hi1 := (process_asked hi (by obtain ⟨p, rfl⟩ := hp c List.mem_cons_self; trivial) h1).1.inv
    obtain ⟨c, rfl⟩ := hp c List.mem_cons_self
    obtain ⟨⟨z5, c5⟩, h5, h6⟩ := bind_eq_ok.1 h1
    cases h6
    obtain ⟨v, hv⟩ := pid_shown h5
    rw [List.map_cons, List.nodup_cons] at hn
    have hcd : c.id ∉ done := hd _ List.mem_cons_self
    have := list_explains (done := done ++ [c.id]) hi1 h3 (fun x hx => hp x (List.mem_cons_of_mem _ hx)) hn.2 ?_ ?_
    · rw [List.append_assoc] at this; exact this
    · intro x hx hm
      rcases List.mem_append.1 hm with hm | hm
      · exact hd x (List.mem_cons_of_mem _ hx) hm
      · rw [List.mem_singleton] at hm
        exact hn.1 (List.mem_map.2 ⟨x, hx, hm⟩)
    · have hmax := hv.max hi
      obtain ⟨p, hp1, hp2⟩ := hv.output
      obtain ⟨q, hq, he, _⟩ := hv.step.own p hp1
      have hen : enabledB z c.id = p.enabled := by unfold enabledB; rw [hq, he]; rfl
      rw [hen] at hmax
      have hold : ∀ n ∈ done, ∀ x, ShownOn z1 n x ↔ ShownOn z n x := fun n hn x =>
        ShownOn.congr (hv.step.others n (fun e => hcd (e ▸ hn))) x
      have hnew : ∀ x, ShownOn z1 c.id x ↔ p.enabled = true ∧ x = v := by
        intro x
        unfold ShownOn
        constructor
        · rintro ⟨p', a, b, rfl⟩
          rw [hp1] at a; cases a
          exact ⟨b, hp2⟩
        · rintro ⟨a, rfl⟩
          exact ⟨p, hp1, a, hp2⟩
      have hne : z.maximumSetPoint ≠ nan := hi.2.1
      refine ⟨?_, ?_⟩
      · rw [hmax]
        have old : ∀ x, (x = 0 ∨ (x ≠ nan ∧ ∃ n ∈ done, ShownOn z n x)) →
            (x = 0 ∨ (x ≠ nan ∧ ∃ n ∈ done ++ [c.id], ShownOn z1 n x)) := by
          rintro x (h | ⟨h, n, hn, hs⟩)
          · exact .inl h
          · exact .inr ⟨h, n, List.mem_append_left _ hn, (hold n hn x).2 hs⟩
        split_ifs with e
        · unfold cmax
          split_ifs with hlt
          · exact .inr ⟨Dbl.ne_nan_of_lt_right hlt, c.id, by simp, (hnew _).2 ⟨e, rfl⟩⟩
          · exact old _ hL.1
        · exact old _ hL.1
      · have ge : z.maximumSetPoint ≤ z1.maximumSetPoint := by
          rw [hmax]
          split_ifs
          · exact cmax_ge_left hne
          · exact Dbl.le_refl hne
        rintro x (h | ⟨h, n, hn, hs⟩)
        · exact Dbl.le_trans (hL.2 x (.inl h)) ge
        · rcases List.mem_append.1 hn with hn | hn
          · exact Dbl.le_trans (hL.2 x (.inr ⟨h, n, hn, (hold n hn x).1 hs⟩)) ge
          · rw [List.mem_singleton] at hn
            subst hn
            obtain ⟨e, rfl⟩ := (hnew x).1 hs
            rw [hmax, if_pos e]
            exact cmax_ge_right hne h

/-- the set point after a thermal pass, from the objects of the loops -/
theorem thermals_explain {o : Opts} (ho : o.tuningEnabled = false) {w : World} {z z' : Zone} {es : List Entry}
    {L : String → Option (Dbl × String)} (hs : ShowsAll es L z) (hacc : z.d.accumulateSetPoint = false)
    (hpid : ∀ e ∈ es, e.2.type ≠ "stepwise") (hk : ∀ k, L k ≠ none → k ∈ es.map Prod.fst)
    (h : z.processThermals o w = .ok z') :
    ToldByShown z.d.minThermalOutputSetPt z'.d := by
  have hs' := hs.thermals h
  unfold Zone.processThermals at h
  obtain ⟨d, h1, h⟩ := bind_eq_ok.1 h
  obtain ⟨⟨d1, ts⟩, h2, h⟩ := bind_eq_ok.1 h
  obtain ⟨d2, h3, h⟩ := bind_eq_ok.1 h
  cases h
  have e := (pollAll_spec h1).frame.eq
  have ea : d.accumulateSetPoint = z.d.accumulateSetPoint := by rw [e]
  have em : d.minThermalOutputSetPt = z.d.minThermalOutputSetPt := by rw [e]
  have hall : ∀ c ∈ z.thermals, ∃ p, c = .pid p := by
    intro c hc
    obtain ⟨e, he, hl⟩ := forall₂_right hs.loops hc
    cases c with
    | pid p => exact ⟨p, rfl⟩
    | stepwise s => exact absurd hl.1 (hpid e he)
  have hi := nonAccInv_clear (ea.trans hacc)
  have key := list_explains (done := []) hi h2 hall hs.ids (by simp) ⟨.inl rfl, by
    rintro x (rfl | ⟨_, n, hn, _⟩)
    · exact Dbl.le_refl Dbl.zero_ne_nan
    · cases hn⟩
  have asked := (list_asked hi (fun c hc => by obtain ⟨p, rfl⟩ := hall c hc; trivial) h2).1
  rw [determine_eq, ho] at h3
  have h3 : settled (ts.map ThermalCtl.id) d1 = d2 := by simpa using h3
  have hm : d2.maximumSetPoint = floorBy z.d.minThermalOutputSetPt d1.maximumSetPoint := by
    rw [← h3]
    show floorBy d1.minThermalOutputSetPt (capBy d1.maximumSetPoint d1.rpmCeilings) = _
    rw [show d1.rpmCeilings = [] from asked.ceilings, show d1.minThermalOutputSetPt = _ from asked.minimum.trans em]
    rfl
  have hpr : d2.procs = d1.procs := by rw [← h3]; rfl
  have hfl := floorBy_largest (min := z.d.minThermalOutputSetPt) asked.inv.2.1
  rw [← hm] at hfl
  have hsh : ∀ n x, ShownOn d2 n x ↔ ShownOn d1 n x := fun n x => ShownOn.congr (by rw [hpr]) x
  unfold ToldByShown
  dsimp only at key ⊢
  rw [List.nil_append] at key
  refine ⟨?_, ?_⟩
  · rcases hfl.1 with h | ⟨h, h'⟩
    · rw [h]
      rcases key.1 with h | ⟨h, n, _, hn⟩
      · exact .inl h
      · exact .inr ⟨h, .inr ⟨n, (hsh _ _).2 hn⟩⟩
    · exact .inr ⟨h, .inl h'⟩
  · have ge : d1.maximumSetPoint ≤ d2.maximumSetPoint := hfl.2 _ (.inl rfl)
    rintro x (h | ⟨h, h' | ⟨n, hn⟩⟩)
    · exact Dbl.le_trans (key.2 x (.inl h)) ge
    · exact hfl.2 x (.inr ⟨h, h'⟩)
    · refine Dbl.le_trans (key.2 x (.inr ⟨h, n, ?_, (hsh _ _).1 hn⟩)) ge
      rw [loopOf_ids hs.loops]
      obtain ⟨p, hp, _⟩ := hn
      refine hk n ?_
      rw [← hs'.labels n]
      unfold labelOf
      dsimp only
      rw [hp]
      simp

/-! ## The set point at any time -/

/-- the settings of a zone that no event changes -/
structure Settled (c : ZoneConfig) (z : ZoneData) : Prop where
  acc : z.accumulateSetPoint = c.accumulateSetPoint
  cycle : z.cycleTime = c.cycleTime
  minimum : z.minThermalOutputSetPt = c.minThermalOutput

theorem Settled.poll {c : ZoneConfig} {z z' : ZoneData} {w : World} {now : Int} {ns : List String} (h : Settled c z)
    (hp : z.processSensorInputs w now ns = .ok z') : Settled c z' := by
  have e := (pollAll_spec hp).frame.eq
  exact ⟨by rw [e]; exact h.acc, by rw [e]; exact h.cycle, by rw [e]; exact h.minimum⟩

theorem Settled.thermals {c : ZoneConfig} {z z' : Zone} {o : Opts} {w : World} (h : Settled c z.d)
    (hp : z.processThermals o w = .ok z') : Settled c z'.d := by
  obtain ⟨d, h1, h4⟩ := processThermals_rest hp
  have hd := h.poll h1
  exact ⟨by rw [h4]; exact hd.acc, by rw [h4]; exact hd.cycle, by rw [h4]; exact hd.minimum⟩

theorem Settled.fans {c : ZoneConfig} {z z' : Zone} {o : Opts} {w w' : World} (h : Settled c z.d)
    (hp : z.processFans o w = .ok (w', z')) : Settled c z'.d := by
  obtain ⟨_, _, _, _, _, a, _⟩ := processFans_spec hp
  exact ⟨by rw [a]; exact h.acc, by rw [a]; exact h.cycle, by rw [a]; exact h.minimum⟩

theorem Settled.setEnabled {c : ZoneConfig} {z : ZoneData} (h : Settled c z) (l : String) (b : Bool) :
    Settled c (z.setEnabled l b) := by
  unfold ZoneData.setEnabled
  split <;> exact ⟨h.acc, h.cycle, h.minimum⟩

theorem ToldByShown.congr {m : Dbl} {z z' : ZoneData} (h : ToldByShown m z) (hm : z'.maximumSetPoint = z.maximumSetPoint)
    (hp : z'.procs = z.procs) : ToldByShown m z' := by
  unfold ToldByShown ShownOn at h ⊢
  rw [hm, hp]
  exact h

theorem explained_fans {m : Dbl} {z z' : Zone} {o : Opts} {w w' : World} (h : ToldByShown m z.d)
    (hp : z.processFans o w = .ok (w', z')) : ToldByShown m z'.d := by
  obtain ⟨_, _, _, _, _, a, _⟩ := processFans_spec hp
  exact h.congr (by rw [a]) (by rw [a])

/-- zone, settings and truth of what is shown -/
structure Diagnosed (es : List Entry) (L : String → Option (Dbl × String)) (c : ZoneConfig) (z : Zone) : Prop where
  shows : ShowsAll es L z
  settled : Settled c z.d

theorem Diagnosed.tick {es : List Entry} {L : String → Option (Dbl × String)} {c : ZoneConfig} {z z' : Zone} {o : Opts} {w w' : World}
    {cnt cnt' : Nat} (h : Diagnosed es L c z) (ht : z.tick o w cnt = .ok (w', z', cnt')) : Diagnosed es L c z' := by
  refine ⟨h.shows.tick ht, ?_⟩
  by_cases hm : z.d.manualMode = true
  · rw [tick_manual hm] at ht; cases ht; exact h.settled
  · obtain ⟨d, h1, h2⟩ := tick_auto (by simpa using hm) ht
    have hd : Settled c d := h.settled.poll h1
    rcases h2 with ⟨_, zt, h3, h4, _⟩ | ⟨_, h3, _⟩
    · exact (Settled.thermals (z := { z with d := d }) hd h3).fans h4
    · exact Settled.fans (z := { z with d := d }) hd h3

theorem Diagnosed.step {es : List Entry} {L : String → Option (Dbl × String)} {c : ZoneConfig} {z z' : Zone} {o : Opts} {i : Int}
    {w : World} {cnt cnt' : Nat} {e : DEvent} (h : Diagnosed es L c z) (hs : ZoneStep o i w z cnt e z' cnt') :
    Diagnosed es L c z' := by
  refine ⟨h.shows.step hs, ?_⟩
  cases hs with
  | manual b => exact ⟨h.settled.acc, h.settled.cycle, h.settled.minimum⟩
  | enable l b => exact h.settled.setEnabled l b
  | tick ht => exact (h.tick ht).settled
  | other _ _ _ => exact h.settled

theorem diagnosed_run {es : List Entry} {L : String → Option (Dbl × String)} {c : ZoneConfig} {o : Opts} {i : Int} :
    ∀ {evs : List DEvent} {d d' : Daemon} {z : Zone} {cnt : Nat}, d.run o evs = .ok d' → d.zones.find? i = some (z, cnt) →
    Diagnosed es L c z → ∃ z' cnt', d'.zones.find? i = some (z', cnt') ∧ Diagnosed es L c z' ∧
      z'.d.manualMode = modeAfter i z.d.manualMode evs
  | [], d, d', z, cnt, h, hz, hs => by cases h; exact ⟨z, cnt, hz, hs, rfl⟩
  | e :: evs, d, d', z, cnt, h, hz, hs => by
    unfold Daemon.run at h
    obtain ⟨d1, h1, h⟩ := bind_eq_ok.1 h
    obtain ⟨z1, c1, h2, h3⟩ := step_zone h1 hz
    obtain ⟨z2, c2, a1, a2, a3⟩ := diagnosed_run h h2 (hs.step h3)
    refine ⟨z2, c2, a1, a2, a3.trans ?_⟩
    cases h3 with
    | manual b => simp [modeAfter, ZoneData.setManualMode]
    | enable l b => rw [setEnabled_manual]; rfl
    | tick ht => rw [(tick_flags ht).1]; rfl
    | other q1 q2 q3 =>
      cases e with
      | manual j b =>
        have hj : j ≠ i := fun hj => q1 b (by rw [hj])
        simp [modeAfter, hj]
      | outside | signal | hostWrite | tick | enable => rfl

/-- one cycle: a thermal pass makes the set point explained, and it stays so -/
theorem explained_tick {es : List Entry} {L : String → Option (Dbl × String)} {c : ZoneConfig} (hacc : c.accumulateSetPoint = false)
    (hpid : ∀ e ∈ es, e.2.type ≠ "stepwise") (hk : ∀ k, L k ≠ none → k ∈ es.map Prod.fst) {o : Opts}
    (ho : o.tuningEnabled = false) {z z' : Zone} {w w' : World} {cnt cnt' : Nat} (h : Diagnosed es L c z)
    (hm : z.d.manualMode = false) (ht : z.tick o w cnt = .ok (w', z', cnt')) :
    (ToldByShown c.minThermalOutput z.d → ToldByShown c.minThermalOutput z'.d) ∧
    (ToldByShown c.minThermalOutput z'.d ∨ cnt < c.cycleTime.updateThermalsTimeMS ∧ cnt' = cnt + c.cycleTime.cycleIntervalTimeMS) := by
  obtain ⟨d, h1, h2⟩ := tick_auto hm ht
  have e := (pollAll_spec h1).frame.eq
  have hd : Settled c d := h.settled.poll h1
  have hs : ShowsAll es L { z with d := d } := h.shows.congr rfl (by show d.procs = _; rw [e])
  rw [h.settled.cycle] at h2
  rcases h2 with ⟨_, zt, h3, h4, _⟩ | ⟨hn, h3, h4⟩
  · have := thermals_explain ho hs (hd.acc.trans hacc) hpid hk h3
    dsimp only at this
    rw [hd.minimum] at this
    have := explained_fans (m := c.minThermalOutput) this h4
    exact ⟨fun _ => this, .inl this⟩
  · refine ⟨fun ht => explained_fans (m := c.minThermalOutput) (z := { z with d := d }) (ht.congr ?_ ?_) h3, .inr ⟨by omega, h4⟩⟩
    · show d.maximumSetPoint = _
      rw [e]
    · show d.procs = _
      rw [e]

/-- along events that leave the switches alone: explained, or no thermal pass yet -/
theorem explained_run {es : List Entry} {L : String → Option (Dbl × String)} {c : ZoneConfig} (hacc : c.accumulateSetPoint = false)
    (hpid : ∀ e ∈ es, e.2.type ≠ "stepwise") (hk : ∀ k, L k ≠ none → k ∈ es.map Prod.fst) {o : Opts}
    (ho : o.tuningEnabled = false) {i : Int} :
    ∀ {evs : List DEvent} {d d' : Daemon} {z : Zone} {cnt k : Nat}, d.run o evs = .ok d' → d.zones.find? i = some (z, cnt) →
    Diagnosed es L c z → (∀ l b, DEvent.enable i l b ∉ evs) →
    (ToldByShown c.minThermalOutput z.d ∨ k * c.cycleTime.cycleIntervalTimeMS ≤ cnt ∧
      (k = 0 ∨ cnt < c.cycleTime.updateThermalsTimeMS + c.cycleTime.cycleIntervalTimeMS)) →
    ∃ z' cnt', d'.zones.find? i = some (z', cnt') ∧ (ToldByShown c.minThermalOutput z'.d ∨
      (k + autoTicks i z.d.manualMode evs) * c.cycleTime.cycleIntervalTimeMS ≤ cnt' ∧
      (k + autoTicks i z.d.manualMode evs = 0 ∨
        cnt' < c.cycleTime.updateThermalsTimeMS + c.cycleTime.cycleIntervalTimeMS))
  | [], d, d', z, cnt, k, h, hz, _, _, hk => by cases h; exact ⟨z, cnt, hz, hk⟩
  | e :: evs, d, d', z, cnt, k, h, hz, hs, hn, hT => by
    obtain ⟨d1, h1, hr⟩ := bind_eq_ok.1 h
    obtain ⟨z1, c1, h2, h3⟩ := step_zone h1 hz
    have hs1 := hs.step h3
    have hn1 : ∀ l b, DEvent.enable i l b ∉ evs := fun l b hb => hn l b (List.mem_cons_of_mem _ hb)
    cases h3 with
    | manual b =>
      have := explained_run hacc hpid hk ho (k := k) hr h2 hs1 hn1 (hT.imp (fun h => h.congr rfl rfl) id)
      simpa [autoTicks, ZoneData.setManualMode] using this
    | enable l b => exact absurd List.mem_cons_self (hn l b)
    | tick ht =>
      have hm := (tick_flags ht).1
      by_cases hmm : z.d.manualMode = true
      · have e : (z1, c1) = (z, cnt) := by rw [tick_manual hmm] at ht; cases ht; rfl
        cases e
        have := explained_run hacc hpid hk ho (k := k) hr h2 hs1 hn1 hT
        simpa [autoTicks, hmm] using this
      · have hmm : z.d.manualMode = false := by simpa using hmm
        obtain ⟨a1, a2⟩ := explained_tick hacc hpid hk ho hs hmm ht
        have := explained_run hacc hpid hk ho (k := k + 1) hr h2 hs1 hn1 (by
          rcases hT with hT | ⟨b1, b2⟩
          · exact .inl (a1 hT)
          · rcases a2 with a2 | ⟨a2, a3⟩
            · exact .inl a2
            · refine .inr ⟨?_, .inr ?_⟩
              · rw [a3, Nat.succ_mul]; omega
              · omega)
        rw [hm] at this
        simpa [autoTicks, hmm, Nat.add_assoc] using this
    | other q1 q2 q3 =>
      have := explained_run hacc hpid hk ho (k := k) hr h2 hs1 hn1 hT
      cases e with
      | manual j b =>
        have hj : j ≠ i := fun hj => q1 b (by rw [hj])
        simpa [autoTicks, hj] using this
      | tick j =>
        have hj : j ≠ i := fun hj => q3 (by rw [hj])
        simpa [autoTicks, hj] using this
      | outside | signal | hostWrite | enable => exact this

theorem labels_known {id : Int} {c : ZoneConfig} {conf : List Entry} {z : Zone} (h : NewZone id c conf z) {k : String}
    (hk : labelOf z.d k ≠ none) : k ∈ (conf.filter IsHeat).map Prod.fst := by
  unfold labelOf at hk
  cases hp : z.d.procs.find? k with
  | none => rw [hp] at hk; exact absurd rfl hk
  | some p =>
    obtain ⟨e, he, hh, rfl, _⟩ := (h.processes k p).1 hp
    exact List.mem_map.2 ⟨e, List.mem_filter.2 ⟨he, by simpa using hh⟩, rfl⟩

theorem diagnosed_launch {o : Opts} {bus : BuildBus} {now : Int} {w : World} {sensors : OMap String SensorConfig}
    {pids : OMap Int PIDConf} {configs : OMap Int ZoneConfig} (hw : pids.WF) (hc : ∀ e ∈ pids.entries, OMap.WF e.2) {d : Daemon}
    (hl : Daemon.launch o bus now w sensors pids configs = .ok d) {i : Int} {conf : PIDConf} (hp : pids.find? i = some conf) :
    ∃ (zb : Zone) (c : ZoneConfig) (z : Zone), configs.find? i = some c ∧ NewZone i c conf.entries zb ∧ d.zones.find? i = some (z, 0) ∧
      Diagnosed (conf.entries.filter IsHeat) (labelOf zb.d) c z ∧ z.d.manualMode = false ∧
      (c.accumulateSetPoint = false → (∀ e ∈ conf.entries, e.2.type ≠ "stepwise") → o.tuningEnabled = false →
        ToldByShown c.minThermalOutput z.d) := by
  obtain ⟨m, zones, hL⟩ := launch_spec hl
  obtain ⟨zb, c, h1, h2, h3⟩ := (C64_zones hw hc hL.built i).1 conf hp
  obtain ⟨z, h4, h5⟩ := hL.started i zb h1
  have hs := shows_new h3 (OMap.wf_nodup (hc _ ((OMap.mem_entries_iff hw _ _).2 hp)))
  have e := (initializeCache_spec zb.d).eq
  have hi : ShowsAll (conf.entries.filter IsHeat) (labelOf zb.d) { zb with d := zb.d.initializeCache } :=
    hs.congr rfl (by show zb.d.initializeCache.procs = _; rw [e])
  have hst : Settled c zb.d.initializeCache := by
    refine ⟨?_, ?_, ?_⟩
    · rw [e]; exact h3.accumulateSetPoint
    · rw [e]; exact h3.cycleTime
    · rw [e]; exact h3.minThermalOutput
  refine ⟨zb, c, z, h2, h3, h5, ⟨hi.thermals h4, Settled.thermals (z := { zb with d := zb.d.initializeCache }) hst h4⟩, ?_, ?_⟩
  · rw [(start_flags h4).1]; exact h3.manualMode
  · intro ha hp ho
    have := thermals_explain ho hi (hst.acc.trans ha) (fun e he => hp e (List.mem_filter.1 he).1) (fun k hk => ?_) h4
    · dsimp only at this
      rw [hst.minimum] at this
      exact this
    · exact labels_known h3 hk

end Verif
