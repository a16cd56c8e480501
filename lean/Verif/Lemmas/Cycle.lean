import Verif.Lemmas.Arb

/-! # Helper lemmas about a thermal cycle -/

namespace Verif
variable [F : FloatModel]
open Dbl

theorem foldl_cmin_ne_nan {c : Dbl} (h : c ≠ nan) (cs : List Dbl) : cs.foldl cmin c ≠ nan :=
  ne_nan_of_le_left ((foldl_cmin_smallest cs h).2 c (.inl rfl))

/-- the first ceiling, if any, is a number -/
def FirstNum : List Dbl → Prop
  | [] => True
  | c :: _ => c ≠ nan

theorem capBy_smallest {m : Dbl} (hm : m ≠ nan) {cs : List Dbl} (h : FirstNum cs) :
    Smallest (fun x => x = m ∨ (x ≠ nan ∧ x ∈ cs)) (capBy m cs) := by
  cases cs with
  | nil => exact ⟨.inl rfl, by rintro x (rfl | ⟨_, h⟩); exact Dbl.le_refl hm; cases h⟩
  | cons c cs =>
    have hs := foldl_cmin_smallest cs h
    have hn := foldl_cmin_ne_nan h cs
    have memIff : ∀ x, (x = c ∨ x ∈ cs ∧ x ≠ nan) ↔ (x ≠ nan ∧ x ∈ c :: cs) := by
      intro x
      simp only [List.mem_cons]
      constructor
      · rintro (rfl | ⟨h1, h2⟩)
        · exact ⟨h, .inl rfl⟩
        · exact ⟨h2, .inr h1⟩
      · rintro ⟨h1, rfl | h2⟩
        · exact .inl rfl
        · exact .inr ⟨h2, h1⟩
    unfold capBy cmin
    change Smallest _ (if cs.foldl cmin c < m then cs.foldl cmin c else m)
    split_ifs with hl
    · refine ⟨.inr ((memIff _).1 hs.1), ?_⟩
      rintro x (rfl | hx)
      · exact Dbl.le_of_lt hl
      · exact hs.2 x ((memIff x).2 hx)
    · refine ⟨.inl rfl, ?_⟩
      rintro x (rfl | hx)
      · exact Dbl.le_refl hm
      · exact Dbl.le_trans (le_of_not_lt hm hn hl) (hs.2 x ((memIff x).2 hx))

theorem capBy_nan_first (m : Dbl) (cs : List Dbl) : capBy m (nan :: cs) = m := by
  simp [capBy, foldl_cmin_nan, cmin]

theorem floorBy_largest {min m : Dbl} (hm : m ≠ nan) :
    Largest (fun x => x = m ∨ (x ≠ nan ∧ x = min)) (floorBy min m) := by
  unfold floorBy
  split_ifs with h
  · refine ⟨.inr ⟨ne_nan_of_le_right h, rfl⟩, ?_⟩
    rintro x (rfl | ⟨_, rfl⟩)
    · exact h
    · exact Dbl.le_refl (ne_nan_of_le_right h)
  · refine ⟨.inl rfl, ?_⟩
    rintro x (rfl | ⟨hn, rfl⟩)
    · exact Dbl.le_refl hm
    · exact Dbl.le_of_lt (lt_of_not_le hn hm h)

/-- zone cleared for a new round -/
def cleared (z : ZoneData) : ZoneData := z.clearSetPoints.clearRPMCeilings

theorem arbitrate_off {o : Opts} (ho : o.tuningEnabled = false) {w : World} {ids : List String} {z z' : ZoneData}
    {subs : List Submission} (h : arbitrate o w ids z subs = .ok z') :
    (∀ s ∈ subs, HasProc z s) ∧ z' = settled ids (subs.foldl sub1 (cleared z)) := by
  unfold arbitrate at h
  obtain ⟨z1, h1, h2⟩ := bind_eq_ok.1 h
  obtain ⟨h3, rfl⟩ := submitAll_ok h1
  rw [determine_eq, ho] at h2
  simp only [Bool.false_eq_true, if_false] at h2
  cases h2
  exact ⟨h3, rfl⟩

theorem arbitrate_off_eq {o : Opts} (ho : o.tuningEnabled = false) {w : World} {ids : List String} {z : ZoneData}
    {subs : List Submission} (h : ∀ s ∈ subs, HasProc z s) :
    arbitrate o w ids z subs = .ok (settled ids (subs.foldl sub1 (cleared z))) := by
  unfold arbitrate
  rw [submitAll_eq (z := z.clearSetPoints.clearRPMCeilings) h, ok_bind, determine_eq, ho]
  rfl

theorem requests_cleared (z : ZoneData) (subs : List Submission) : requests (cleared z) subs = requests z subs :=
  requests_congr (z := z) (z' := cleared z) rfl subs

theorem round_max {z : ZoneData} (hacc : z.accumulateSetPoint = false) (subs : List Submission) :
    (subs.foldl sub1 (cleared z)).maximumSetPoint = (requests z subs).foldl cmax 0 := by
  rw [foldl_sub1_max subs (cleared z) (nonAccInv_clear hacc)]
  exact congrArg (fun l => List.foldl cmax 0 l) (requests_cleared z subs)

theorem round_ceilings (z : ZoneData) (subs : List Submission) :
    (subs.foldl sub1 (cleared z)).rpmCeilings = ceilings subs := by
  rw [foldl_sub1_ceilings]; rfl

theorem settled_max (ids : List String) {z : ZoneData} (hacc : z.accumulateSetPoint = false) (subs : List Submission) :
    (settled ids (subs.foldl sub1 (cleared z))).maximumSetPoint =
      floorBy z.minThermalOutputSetPt (capBy ((requests z subs).foldl cmax 0) (ceilings subs)) := by
  simp only [settled, round_max hacc, round_ceilings, (foldl_sub1_same subs (cleared z)).minT]
  rfl

theorem settled_arbitrated (ids : List String) {z : ZoneData} (hacc : z.accumulateSetPoint = false)
    (subs : List Submission) (h : FirstNum (ceilings subs)) :
    ArbitratedTo z subs (settled ids (subs.foldl sub1 (cleared z))).maximumSetPoint := by
  rw [settled_max ids hacc]
  have hr := foldl_cmax_largest (requests z subs) Dbl.zero_ne_nan
  have hrn : (requests z subs).foldl cmax 0 ≠ nan := ne_nan_of_le_right (hr.2 0 (.inl rfl))
  have hc := capBy_smallest hrn h
  have hcn : capBy ((requests z subs).foldl cmax 0) (ceilings subs) ≠ nan := ne_nan_of_le_left (hc.2 _ (.inl rfl))
  refine ⟨_, _, hr.congr (fun x => ?_), hc.congr (fun x => ?_), floorBy_largest hcn⟩
  · rw [mem_requests, and_comm]
  · rw [mem_ceilings]

theorem ArbitratedTo.unique {z : ZoneData} {subs : List Submission} {a b : Dbl} (ha : ArbitratedTo z subs a)
    (hb : ArbitratedTo z subs b) : a = b := by
  obtain ⟨r1, c1, h1, h2, h3⟩ := ha
  obtain ⟨r2, c2, h4, h5, h6⟩ := hb
  obtain rfl := h1.unique h4
  obtain rfl := h2.unique h5
  exact h3.unique h6

/-! ## One controller -/

/-- aggregated input of a PID loop -/
def pidInput (z : ZoneData) (c : ThermalPid) : Dbl :=
  if contribs c.type z c.inputs = [] then c.setpoint
  else (contribs c.type z c.inputs).foldl (aggStep c.type) (aggStart c.type)

/-- submission and next state of a controller -/
def subOf (z : ZoneData) : ThermalCtl → Submission × ThermalCtl
  | .pid c => (.setPoint c.id (pidStep c.ctl c.setpoint (pidInput z c)).1,
      .pid { c with ctl := (pidStep c.ctl c.setpoint (pidInput z c)).2 })
  | .stepwise c => (if c.info.isCeiling then
        .ceiling (stepwiseStep c.info c.st ((c.inputs.map (scaledOf z)).foldl cmax lowest)).1
      else .setPoint c.id (stepwiseStep c.info c.st ((c.inputs.map (scaledOf z)).foldl cmax lowest)).1,
      .stepwise { c with st := (stepwiseStep c.info c.st ((c.inputs.map (scaledOf z)).foldl cmax lowest)).2 })

theorem submits_iff {z : ZoneData} {c : ThermalCtl} (h : CtlReady z c) (r : Submission × ThermalCtl) :
    Submits z c r ↔ r = subOf z c := by
  cases c with
  | pid c =>
    obtain ⟨z', _, he, _⟩ := inputProc_spec h
    simp only [Submits, he, subOf, pidInput]
    constructor
    · rintro ⟨_, _, h1, rfl⟩; cases h1; rfl
    · rintro rfl; exact ⟨_, _, rfl, rfl⟩
  | stepwise c =>
    simp only [Submits, stepInput_eq z c.inputs lowest h.1, subOf]
    constructor
    · rintro ⟨_, h1, rfl⟩; cases h1; rfl
    · rintro rfl; exact ⟨_, rfl, rfl⟩

/-- same cached readings -/
def SameCache (z z' : ZoneData) : Prop := z'.cachedValuesByName = z.cachedValuesByName

theorem scaledOf_cache {z z' : ZoneData} (h : SameCache z z') (n : String) : scaledOf z' n = scaledOf z n := by
  unfold scaledOf; rw [h]

theorem subOf_cache {z z' : ZoneData} (h : SameCache z z') (c : ThermalCtl) : subOf z' c = subOf z c := by
  have e : scaledOf z' = scaledOf z := funext (scaledOf_cache h)
  cases c with
  | pid c =>
    have : contribs c.type z' c.inputs = contribs c.type z c.inputs := by unfold contribs; rw [e]
    simp only [subOf, pidInput, this]
  | stepwise c => simp only [subOf, e]

theorem sub1_cache (z : ZoneData) (s : Submission) : SameCache z (sub1 z s) := by
  have := (sub1_same z s).eq
  unfold SameCache; rw [this]

theorem CtlReady.congr {z z' : ZoneData} (hc : SameCache z z')
    (hp : ∀ k, (z'.procs.find? k).map (·.enabled) = (z.procs.find? k).map (·.enabled)) {c : ThermalCtl}
    (h : CtlReady z c) : CtlReady z' c := by
  have hr : ∀ n, (∃ x, Reads z n x) → ∃ x, Reads z' n x := by
    rintro n ⟨x, e, h1, h2⟩
    exact ⟨x, e, by rw [hc]; exact h1, h2⟩
  have hpr : ∀ k, (∃ p, z.procs.find? k = some p) → ∃ p, z'.procs.find? k = some p := by
    rintro k ⟨p, hp'⟩
    have := hp k
    rw [hp'] at this
    cases h' : z'.procs.find? k with
    | none => rw [h'] at this; simp at this
    | some q => exact ⟨q, rfl⟩
  cases c with
  | pid c => exact ⟨h.nonempty, fun i hi => hr _ (h.cached i hi), hpr _ h.proc, h.tjmax⟩
  | stepwise c => exact ⟨fun n hn => hr _ (h.1 n hn), fun hc => hpr _ (h.2 hc)⟩

theorem enabledB_debug {z z' : ZoneData} (h : DebugOnly z z') (n : String) : enabledB z' n = enabledB z n := by
  unfold enabledB; rw [h.keys]

theorem sub1_debug {z z' : ZoneData} (h : DebugOnly z z') (s : Submission) : DebugOnly (sub1 z s) (sub1 z' s) := by
  refine ⟨?_, fun k => ?_⟩
  · have e := h.eq
    cases s with
    | ceiling v => simp only [sub1, ZoneData.addRPMCeiling]; rw [e]
    | setPoint n v =>
      simp only [sub1, enabledB_debug h]
      split_ifs
      · rw [e]; rfl
      · exact e
  · rw [(sub1_same z s).procs, (sub1_same z' s).procs]; exact h.keys k

theorem foldl_sub1_debug (subs : List Submission) : ∀ {z z' : ZoneData}, DebugOnly z z' →
    DebugOnly (subs.foldl sub1 z) (subs.foldl sub1 z') := by
  induction subs with
  | nil => exact fun h => h
  | cons s ss ih => exact fun h => ih (sub1_debug h s)

theorem settled_debug (ids : List String) {z z' : ZoneData} (h : DebugOnly z z') :
    DebugOnly (settled ids z) (settled ids z') := by
  refine ⟨?_, fun k => h.keys k⟩
  rw [h.eq]
  rfl

theorem process_spec {z : ZoneData} {c : ThermalCtl} (h : CtlReady z c) :
    ∃ z', c.process z = .ok (z', (subOf z c).2) ∧ DebugOnly (sub1 z (subOf z c).1) z' ∧ HasProc z (subOf z c).1 := by
  cases c with
  | pid c =>
    obtain ⟨zi, hd, he, _⟩ := inputProc_spec h
    have hp : HasProc z (.setPoint c.id (pidStep c.ctl c.setpoint (pidInput z c)).1) := h.proc
    have hpi : HasProc zi (.setPoint c.id (pidStep c.ctl c.setpoint (pidInput z c)).1) := hd.proc h.proc
    have hs := submit_eq hpi
    simp only [submit] at hs
    have hp2 : ∃ p, (sub1 zi (.setPoint c.id (pidStep c.ctl c.setpoint (pidInput z c)).1)).procs.find? c.id = some p := by
      rw [(sub1_same zi _).procs]; exact hpi
    obtain ⟨z2, hu, hd2, _⟩ := updateDebug_ok hp2 "" 0 (pidStep c.ctl c.setpoint (pidInput z c)).1
    refine ⟨z2, ?_, (sub1_debug hd _).trans hd2, hp⟩
    change c.inputProc z = .ok (zi, pidInput z c) at he
    simp only [ThermalCtl.process, ThermalPid.process, he, ok_bind, hs, hu, subOf]
  | stepwise c =>
    have hi := stepInput_eq z c.inputs lowest h.1
    cases hc : c.info.isCeiling with
    | true =>
      refine ⟨_, ?_, DebugOnly.refl _, ?_⟩
      · simp [ThermalCtl.process, StepwiseCtl.process, hi, hc, subOf, sub1]
      · simp [subOf, hc, HasProc]
    | false =>
      have hp : HasProc z (.setPoint c.id (stepwiseStep c.info c.st ((c.inputs.map (scaledOf z)).foldl cmax lowest)).1) :=
        h.2 hc
      have hs := submit_eq hp
      simp only [submit] at hs
      refine ⟨_, ?_, DebugOnly.refl _, ?_⟩
      · simp [ThermalCtl.process, StepwiseCtl.process, hi, hc, subOf, hs]
      · simpa [subOf, hc] using hp

theorem thermalList_spec : ∀ (cs : List ThermalCtl) (z : ZoneData), (∀ c ∈ cs, CtlReady z c) →
    ∃ z', processThermalList z cs = .ok (z', cs.map (fun c => (subOf z c).2)) ∧
      DebugOnly ((cs.map (fun c => (subOf z c).1)).foldl sub1 z) z' ∧ ∀ s ∈ cs.map (fun c => (subOf z c).1), HasProc z s
  | [], z, _ => ⟨z, rfl, DebugOnly.refl z, by simp⟩
  | c :: cs, z, h => by
    obtain ⟨z1, h1, h2, h3⟩ := process_spec (h c List.mem_cons_self)
    have hc1 : SameCache z z1 := by
      have a := sub1_cache z (subOf z c).1
      have b := h2.cache
      exact b.trans a
    have hk : ∀ k, (z1.procs.find? k).map (·.enabled) = (z.procs.find? k).map (·.enabled) := by
      intro k
      rw [h2.keys, (sub1_same z _).procs]
    obtain ⟨z2, h4, h5, h6⟩ := thermalList_spec cs z1 (fun c' hc' => (h c' (List.mem_cons_of_mem _ hc')).congr hc1 hk)
    simp only [subOf_cache hc1] at h4 h5 h6
    refine ⟨z2, ?_, (foldl_sub1_debug _ h2).trans h5, ?_⟩
    · simp only [processThermalList, h1, ok_bind, h4, List.map_cons]
    · intro s hs
      rcases List.mem_cons.1 hs with rfl | hs
      · exact h3
      · have := h6 s hs
        cases s with
        | ceiling v => trivial
        | setPoint n v =>
          obtain ⟨p, hp⟩ := this
          have hkn := hk n
          rw [hp] at hkn
          cases h' : z.procs.find? n with
          | none => rw [h'] at hkn; simp at hkn
          | some q => exact ⟨q, h'⟩

theorem ctlId_subOf (z : ZoneData) (c : ThermalCtl) : (subOf z c).2.id = c.id := by cases c <;> rfl

end Verif
