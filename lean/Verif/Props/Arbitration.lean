import Verif.Lemmas.Profile
import Verif.Spec.Example

/-! # Set point arbitration in a zone: C23 to C27, C34 to C36 -/

namespace Verif
open Dbl
section
variable [F : FloatModel]

/-! ## C23 -/

theorem firstNum_of_no_nan {subs : List Submission} (h : ¬ CeilingOf subs nan) : FirstNum (ceilings subs) := by
  cases hc : ceilings subs with
  | nil => trivial
  | cons c cs =>
    rintro rfl
    exact h ((mem_ceilings subs nan).1 (by rw [hc]; exact List.mem_cons_self))

/-- C23: after one round of submissions the zone's set point is the largest enabled request (at least 0), capped by the
lowest ceiling, and not below the configured minimum. -/
theorem C23_arbitration {o : Opts} (ho : o.tuningEnabled = false) {w : World} {ids : List String} {z z' : ZoneData}
    (hacc : z.accumulateSetPoint = false) {subs : List Submission} (hn : ¬ CeilingOf subs nan)
    (h : arbitrate o w ids z subs = .ok z') : ArbitratedTo z subs z'.maximumSetPoint := by
  obtain ⟨_, rfl⟩ := arbitrate_off ho h
  exact settled_arbitrated ids hacc subs (firstNum_of_no_nan hn)

/-- C23: a round in which every submitting loop has its control process succeeds. -/
theorem C23_total {o : Opts} (ho : o.tuningEnabled = false) (w : World) (ids : List String) (z : ZoneData)
    {subs : List Submission} (hp : ∀ n v, Submission.setPoint n v ∈ subs → ∃ p, z.procs.find? n = some p) :
    ∃ z', arbitrate o w ids z subs = .ok z' := by
  refine ⟨_, arbitrate_off_eq ho ?_⟩
  intro s hs
  cases s with
  | setPoint n v => exact hp n v hs
  | ceiling v => trivial

theorem processThermals_spec {o : Opts} (ho : o.tuningEnabled = false) (w : World) {z : Zone} {d : ZoneData}
    (hd : z.d.updateSensors w = .ok d) (hr : ∀ c ∈ z.thermals, CtlReady d c) :
    ∃ z', z.processThermals o w = .ok z' ∧ z'.fans = z.fans ∧ z'.thermals = z.thermals.map (fun c => (subOf d c).2) ∧
      DebugOnly (settled (z.thermals.map ThermalCtl.id)
        ((z.thermals.map (fun c => (subOf d c).1)).foldl sub1 (cleared d))) z'.d := by
  have hr' : ∀ c ∈ z.thermals, CtlReady (cleared d) c := fun c hc => CtlReady.congr (z := d) (z' := cleared d) rfl (fun _ => rfl) (hr c hc)
  obtain ⟨z1, h1, h2, _⟩ := thermalList_spec z.thermals (cleared d) hr'
  have e : ∀ c, subOf (cleared d) c = subOf d c := subOf_cache (z := d) (z' := cleared d) rfl
  simp only [e] at h1 h2
  refine ⟨{ z with d := settled (z.thermals.map ThermalCtl.id) z1, thermals := z.thermals.map (fun c => (subOf d c).2) },
    ?_, rfl, rfl, settled_debug _ h2⟩
  have hi : (z.thermals.map (fun c => (subOf d c).2)).map ThermalCtl.id = z.thermals.map ThermalCtl.id := by
    rw [List.map_map]
    exact List.map_congr_left (fun c _ => ctlId_subOf d c)
  simp only [Zone.processThermals, hd, ok_bind]
  change (processThermalList (cleared d) z.thermals >>= _) = _
  rw [h1]
  simp only [ok_bind, hi, determine_eq, ho, Bool.false_eq_true, if_false]

/-- C23, whole thermal cycle: the sensors are polled, every controller computes its submission from the polled
readings, and the set point follows the arbitration rule. -/
theorem C23_cycle {o : Opts} (ho : o.tuningEnabled = false) {w : World} {z : Zone} {d : ZoneData}
    (hd : z.d.updateSensors w = .ok d) (hacc : d.accumulateSetPoint = false) (hr : ∀ c ∈ z.thermals, CtlReady d c) :
    ∃ z' subs, z.processThermals o w = .ok z' ∧ List.Forall₂ (Submits d) z.thermals (subs.zip z'.thermals) ∧
      subs.length = z.thermals.length ∧ (¬ CeilingOf subs nan → ArbitratedTo d subs z'.d.maximumSetPoint) := by
  obtain ⟨z', h1, _, h2, h3⟩ := processThermals_spec ho w hd hr
  refine ⟨z', z.thermals.map (fun c => (subOf d c).1), h1, ?_, by simp, fun hn => ?_⟩
  · rw [h2, List.zip_map']
    rw [List.forall₂_map_right_iff]
    refine List.forall₂_same.2 (fun c hc => (submits_iff (hr c hc) _).2 rfl)
  · have := settled_arbitrated (z.thermals.map ThermalCtl.id) hacc _ (firstNum_of_no_nan hn)
    rw [h3.eq]
    exact this

/-! ## C24 -/

/-- C24: the order of submissions does not matter for the set point, and submissions do not touch the failed set. -/
theorem C24_order {o : Opts} (ho : o.tuningEnabled = false) {w : World} {ids ids' : List String} {z a b : ZoneData}
    (hacc : z.accumulateSetPoint = false) {subs subs' : List Submission} (hp : subs.Perm subs')
    (hn : ¬ CeilingOf subs nan) (ha : arbitrate o w ids z subs = .ok a) (hb : arbitrate o w ids' z subs' = .ok b) :
    a.maximumSetPoint = b.maximumSetPoint ∧ a.failSafeSensors = b.failSafeSensors ∧
      a.getFailSafeMode = b.getFailSafeMode ∧ a.getFailSafePercent = b.getFailSafePercent := by
  have h1 := C23_arbitration ho hacc hn ha
  have hn' : ¬ CeilingOf subs' nan := fun h => hn (hp.mem_iff.2 h)
  have h2 := C23_arbitration ho hacc hn' hb
  have h3 : ArbitratedTo z subs b.maximumSetPoint := by
    simpa only [ArbitratedTo, Requested, CeilingOf, hp.mem_iff] using h2
  obtain ⟨_, rfl⟩ := arbitrate_off ho ha
  obtain ⟨_, rfl⟩ := arbitrate_off ho hb
  have e1 := (foldl_sub1_same subs (cleared z)).eq
  have e2 := (foldl_sub1_same subs' (cleared z)).eq
  refine ⟨h1.unique h3, ?_, ?_, ?_⟩
  · simp only [settled]; rw [e1, e2]
  · simp only [settled, ZoneData.getFailSafeMode]; rw [e1, e2]
  · simp only [settled, ZoneData.getFailSafePercent]; rw [e1, e2]

/-- C24, whole thermal cycle: two zones that differ only in the order of their thermal controllers end up with the same
set point and the same failed sensors, and each controller gets the same new state. -/
theorem C24_cycle {o : Opts} (ho : o.tuningEnabled = false) {w : World} {z y : Zone} {d : ZoneData}
    (hyz : y.d = z.d) (hp : z.thermals.Perm y.thermals) (hd : z.d.updateSensors w = .ok d)
    (hacc : d.accumulateSetPoint = false) (hr : ∀ c ∈ z.thermals, CtlReady d c)
    (hn : ∀ c ∈ z.thermals, ∀ c', ¬ Submits d c (.ceiling nan, c')) :
    ∃ z' y', z.processThermals o w = .ok z' ∧ y.processThermals o w = .ok y' ∧
      z'.d.maximumSetPoint = y'.d.maximumSetPoint ∧ z'.d.failSafeSensors = y'.d.failSafeSensors ∧
      z'.thermals.Perm y'.thermals := by
  have hr' : ∀ c ∈ y.thermals, CtlReady d c := fun c hc => hr c (hp.mem_iff.2 hc)
  obtain ⟨z', h1, _, h2, h3⟩ := processThermals_spec ho w hd hr
  obtain ⟨y', k1, _, k2, k3⟩ := processThermals_spec ho w (hyz ▸ hd) hr'
  refine ⟨z', y', h1, k1, ?_, ?_, ?_⟩
  · have hps : (z.thermals.map (fun c => (subOf d c).1)).Perm (y.thermals.map (fun c => (subOf d c).1)) := hp.map _
    have hno : ¬ CeilingOf (z.thermals.map (fun c => (subOf d c).1)) nan := by
      intro hc
      obtain ⟨c, hc, e⟩ := List.mem_map.1 hc
      exact hn c hc (subOf d c).2 ((submits_iff (hr c hc) _).2 (by rw [← e]))
    have hno' : ¬ CeilingOf (y.thermals.map (fun c => (subOf d c).1)) nan := fun h => hno (hps.mem_iff.2 h)
    have a1 := settled_arbitrated (z.thermals.map ThermalCtl.id) hacc _ (firstNum_of_no_nan hno)
    have a2 := settled_arbitrated (y.thermals.map ThermalCtl.id) hacc _ (firstNum_of_no_nan hno')
    have a3 : ∀ m, ArbitratedTo d (y.thermals.map (fun c => (subOf d c).1)) m →
        ArbitratedTo d (z.thermals.map (fun c => (subOf d c).1)) m := by
      intro m
      simp only [ArbitratedTo, Requested, CeilingOf, hps.mem_iff, imp_self]
    rw [h3.eq, k3.eq]
    exact a1.unique (a3 _ a2)
  · rw [h3.eq, k3.eq]
    simp only [settled]
    rw [(foldl_sub1_same _ (cleared d)).eq, (foldl_sub1_same (y.thermals.map _) (cleared d)).eq]
  · rw [h2, k2]; exact hp.map _

/-! ## C25 -/

/-- C25: in an accumulating zone the request is the largest of the running per-profile sums (at least 0); ceilings and the
minimum apply to it as usual. -/
theorem C25_accumulated {o : Opts} (ho : o.tuningEnabled = false) {w : World} {ids : List String} {z z' : ZoneData}
    (hacc : z.accumulateSetPoint = true) {subs : List Submission} (hn : ¬ CeilingOf subs nan)
    (h : arbitrate o w ids z subs = .ok z') :
    ∃ req cap, Largest (fun x => x = 0 ∨ (x ≠ nan ∧ RunningSum z subs x)) req ∧
      Smallest (fun x => x = req ∨ (x ≠ nan ∧ CeilingOf subs x)) cap ∧
      Largest (fun x => x = cap ∨ (x ≠ nan ∧ x = z.minThermalOutputSetPt)) z'.maximumSetPoint := by
  obtain ⟨_, rfl⟩ := arbitrate_off ho h
  have hr := (acc_spec hacc subs).2
  have hrn := ne_nan_of_le_right (hr.2 0 (.inl rfl))
  have hc := capBy_smallest hrn (firstNum_of_no_nan hn)
  have hcn := ne_nan_of_le_left (hc.2 _ (.inl rfl))
  refine ⟨_, _, hr, hc.congr (fun x => by rw [mem_ceilings]), ?_⟩
  have hf := floorBy_largest (min := z.minThermalOutputSetPt) hcn
  have e : (settled ids (subs.foldl sub1 (cleared z))).maximumSetPoint = floorBy z.minThermalOutputSetPt
      (capBy (subs.foldl sub1 (cleared z)).maximumSetPoint (ceilings subs)) := by
    simp only [settled, round_ceilings, (foldl_sub1_same subs (cleared z)).minT]
    rfl
  rw [e]
  exact hf

/-- C25: when no enabled request is negative or NaN, the request is the largest total over the profiles. -/
theorem C25_totals {z : ZoneData} {subs : List Submission} (hpos : ∀ x, Requested z subs x → 0 ≤ x) {req : Dbl}
    (h : Largest (fun x => x = 0 ∨ (x ≠ nan ∧ RunningSum z subs x)) req) :
    Largest (fun x => x = 0 ∨ ∃ p, x = sumUp (profileValues z subs p)) req := by
  have hval : ∀ p, ∀ x ∈ profileValues z subs p, 0 ≤ x := fun p x hx => hpos x (mem_profileValues hx)
  have htot : ∀ p, sumUp (profileValues z subs p) ≤ req := by
    intro p
    by_cases hp : profileValues z subs p = []
    · rw [hp]; exact h.2 0 (.inl rfl)
    · exact h.2 _ (.inr ⟨ne_nan_of_le_right (sumUp_nonneg (hval p)), subs, p, List.prefix_rfl, hp, rfl⟩)
  refine ⟨?_, ?_⟩
  · rcases h.1 with h1 | ⟨_, pre, p, h1, h2, h3⟩
    · exact .inl h1
    · refine .inr ⟨p, ?_⟩
      refine Dbl.le_antisymm ?_ (htot p)
      rw [h3]
      exact sumUp_prefix (profileValues_prefix h1 p) (hval p)
  · rintro x (rfl | ⟨p, rfl⟩)
    · exact h.2 0 (.inl rfl)
    · exact htot p

/-! ## C26 -/

/-- C26: a set point submitted by a disabled loop leaves the whole zone unchanged. -/
theorem C26_disabled_submission {z : ZoneData} {n : String} {p : ProcObj} (hp : z.procs.find? n = some p)
    (hd : p.enabled = false) (v : Dbl) : z.addSetPoint v n = .ok z := by
  rw [addSetPoint_eq hp, hd]; rfl

theorem foldl_sub1_filter {P : Submission → Prop} [DecidablePred P] (subs : List Submission) : ∀ z : ZoneData,
    (∀ s ∈ subs, ¬ P s → ∃ n v, s = .setPoint n v ∧ ¬ Enabled z n) →
    subs.foldl sub1 z = (subs.filter P).foldl sub1 z := by
  induction subs with
  | nil => intros; rfl
  | cons s ss ih =>
    intro z h
    have hc : ∀ t ∈ ss, ¬ P t → ∃ n v, t = .setPoint n v ∧ ¬ Enabled (sub1 z s) n := by
      intro t ht hP
      obtain ⟨n, v, e, hne⟩ := h t (List.mem_cons_of_mem _ ht) hP
      refine ⟨n, v, e, ?_⟩
      unfold Enabled at hne ⊢
      rw [(sub1_same z s).procs]
      exact hne
    by_cases hs : P s
    · simp only [List.foldl_cons, List.filter_cons, hs, decide_true, if_true]
      exact ih _ hc
    · obtain ⟨n, v, rfl, hne⟩ := h s List.mem_cons_self hs
      have e : sub1 z (.setPoint n v) = z := by
        have : enabledB z n = false := by
          cases hb : enabledB z n with
          | false => rfl
          | true => exact absurd ((enabledB_iff z n).1 hb) hne
        simp [sub1, this]
      simp only [List.foldl_cons, List.filter_cons, hs, e]
      rw [e] at hc
      exact ih z hc

/-- C26: dropping any set of submissions that come from disabled loops gives the same arbitration result. -/
theorem C26_disabled_dropped {o : Opts} {w : World} {ids : List String} {z z' : ZoneData}
    {subs : List Submission} {P : Submission → Prop} [DecidablePred P]
    (hP : ∀ s ∈ subs, ¬ P s → ∃ n v, s = .setPoint n v ∧ ¬ Enabled z n)
    (h : arbitrate o w ids z subs = .ok z') : arbitrate o w ids z (subs.filter P) = .ok z' := by
  unfold arbitrate at h ⊢
  obtain ⟨z1, h1, h2⟩ := bind_eq_ok.1 h
  obtain ⟨h3, rfl⟩ := submitAll_ok h1
  rw [submitAll_eq (fun s hs => h3 s (List.mem_filter.1 hs).1), ok_bind,
    ← foldl_sub1_filter subs z.clearSetPoints.clearRPMCeilings hP]
  exact h2

/-- C26, whole thermal cycle: removing a disabled loop that is not a ceiling leaves the set point as it is. -/
theorem C26_cycle {o : Opts} (ho : o.tuningEnabled = false) {w : World} {z : Zone} {d : ZoneData}
    {pre post : List ThermalCtl} {c : ThermalCtl} (hz : z.thermals = pre ++ c :: post)
    (hd : z.d.updateSensors w = .ok d) (hr : ∀ c ∈ z.thermals, CtlReady d c)
    (hdis : ¬ Enabled d c.id) (hnc : ∀ v c', ¬ Submits d c (.ceiling v, c')) :
    ∃ z' y', z.processThermals o w = .ok z' ∧ Zone.processThermals o w { z with thermals := pre ++ post } = .ok y' ∧
      z'.d.maximumSetPoint = y'.d.maximumSetPoint := by
  have hsub : ∀ c' ∈ pre ++ post, c' ∈ z.thermals := by
    intro c' hc'
    rw [hz]
    rcases List.mem_append.1 hc' with h | h
    · exact List.mem_append_left _ h
    · exact List.mem_append_right _ (List.mem_cons_of_mem _ h)
  obtain ⟨z', h1, _, h2, h3⟩ := processThermals_spec ho w hd hr
  obtain ⟨y', k1, _, k2, k3⟩ := processThermals_spec (z := { z with thermals := pre ++ post }) ho w hd
    (fun c' hc' => hr c' (hsub c' hc'))
  refine ⟨z', y', h1, k1, ?_⟩
  have hcs : c ∈ z.thermals := by rw [hz]; simp
  have hs : ∀ z0 : ZoneData, z0.procs = d.procs → sub1 z0 (subOf d c).1 = z0 := by
    intro z0 hz0
    have hid : ∀ n v, (subOf d c).1 = .setPoint n v → n = c.id := by
      intro n v e
      cases c with
      | pid c => simp only [subOf, Submission.setPoint.injEq] at e; exact e.1.symm
      | stepwise c =>
        simp only [subOf] at e
        split_ifs at e
        simp only [Submission.setPoint.injEq] at e; exact e.1.symm
    cases e : (subOf d c).1 with
    | ceiling v => exact absurd ((submits_iff (hr c hcs) (_, (subOf d c).2)).2 (by rw [← e])) (hnc v _)
    | setPoint n v =>
      obtain rfl := hid n v e
      have : enabledB z0 c.id = false := by
        rw [enabledB_congr hz0]
        cases hb : enabledB d c.id with
        | false => rfl
        | true => exact absurd ((enabledB_iff d c.id).1 hb) hdis
      simp [sub1, this]
  have e : (z.thermals.map (fun c => (subOf d c).1)).foldl sub1 (cleared d) =
      ((pre ++ post).map (fun c => (subOf d c).1)).foldl sub1 (cleared d) := by
    rw [hz]
    simp only [List.map_append, List.map_cons, List.foldl_append, List.foldl_cons]
    rw [hs]
    rw [(foldl_sub1_same _ (cleared d)).procs]
    rfl
  rw [h3.eq, k3.eq, e]
  rfl

/-! ## C27 -/

/-- the zone with other requests, ceilings, set point and requester name -/
def withRequests (sp : OMap String Dbl) (cs : List Dbl) (m : Dbl) (n : String) (z : ZoneData) : ZoneData :=
  { z with setPoints := sp, rpmCeilings := cs, maximumSetPoint := m, maximumSetPointName := n }

theorem mark_withRequests (sp : OMap String Dbl) (cs : List Dbl) (m : Dbl) (n : String) (z : ZoneData) (name reason : String) :
    (withRequests sp cs m n z).markSensorMissing name reason =
      withRequests sp cs m n (z.markSensorMissing name reason) := by
  unfold ZoneData.markSensorMissing
  by_cases h : z.missingAcceptable.contains name = true
  · have h' : (withRequests sp cs m n z).missingAcceptable.contains name = true := h
    rw [if_pos h, if_pos h']
  · have h' : ¬ (withRequests sp cs m n z).missingAcceptable.contains name = true := h
    rw [if_neg h, if_neg h']
    rfl

theorem process_withRequests (sp : OMap String Dbl) (cs : List Dbl) (m : Dbl) (n : String) (w : World) (now : Int)
    (z : ZoneData) (name : String) :
    (withRequests sp cs m n z).processSensorInput w now name =
      (z.processSensorInput w now name).map (withRequests sp cs m n) := by
  unfold ZoneData.processSensorInput
  cases w.getSensor name with
  | error e => rfl
  | ok s =>
    simp only [ok_bind]
    cases s.read w now with
    | error e => rfl
    | ok r =>
      simp only [ok_bind]
      cases s.getFailed w with
      | error e => rfl
      | ok b =>
        simp only [ok_bind]
        cases b with
        | true =>
          cases s.getFailReason with
          | error e => rfl
          | ok t => exact congrArg Except.ok (mark_withRequests sp cs m n { z with cachedValuesByName := z.cachedValuesByName.insert name ⟨r.value, r.unscaled⟩ } name t)
        | false =>
          simp only [Bool.false_eq_true, if_false]
          split_ifs
          · exact congrArg Except.ok (mark_withRequests sp cs m n { z with cachedValuesByName := z.cachedValuesByName.insert name ⟨r.value, r.unscaled⟩ } name _)
          · rfl

theorem processInputs_withRequests (sp : OMap String Dbl) (cs : List Dbl) (m : Dbl) (n : String) (w : World) (now : Int) :
    ∀ (names : List String) (z : ZoneData), (withRequests sp cs m n z).processSensorInputs w now names =
      (z.processSensorInputs w now names).map (withRequests sp cs m n)
  | [], _ => rfl
  | a :: as, z => by
    simp only [ZoneData.processSensorInputs, process_withRequests]
    cases z.processSensorInput w now a with
    | error e => rfl
    | ok z1 =>
      simp only [Except.map, ok_bind]
      exact processInputs_withRequests sp cs m n w now as z1

/-- C27: whatever requests, ceilings and set point earlier cycles left behind, a thermal cycle has the same outcome. -/
theorem C27_no_leak (o : Opts) (w : World) (z : Zone) (sp : OMap String Dbl) (cs : List Dbl) (m : Dbl) (n : String) :
    Zone.processThermals o w
      { z with d := { z.d with setPoints := sp, rpmCeilings := cs, maximumSetPoint := m, maximumSetPointName := n } } =
    z.processThermals o w := by
  unfold Zone.processThermals ZoneData.updateSensors
  have h := processInputs_withRequests sp cs m n w w.nowThermals z.d.thermalInputs z.d
  change ((withRequests sp cs m n z.d).processSensorInputs w w.nowThermals z.d.thermalInputs >>= _) = _
  rw [h]
  cases z.d.processSensorInputs w w.nowThermals z.d.thermalInputs with
  | error e => rfl
  | ok d => rfl

/-! ## C34 -/

/-- C34, the part that holds: as long as the first submitted ceiling is a number, NaN ceilings (and NaN requests) have no
influence: the set point follows the rule of C23, which ignores them. Missing: a NaN ceiling submitted first, see
`C34_nan_first`. -/
theorem C34_nan_ignored_partial {o : Opts} (ho : o.tuningEnabled = false) {w : World} {ids : List String} {z z' : ZoneData}
    (hacc : z.accumulateSetPoint = false) {subs : List Submission}
    (hfirst : ∀ pre v post, subs = pre ++ .ceiling v :: post → (∀ x, ¬ CeilingOf pre x) → v ≠ nan)
    (h : arbitrate o w ids z subs = .ok z') : ArbitratedTo z subs z'.maximumSetPoint := by
  obtain ⟨_, rfl⟩ := arbitrate_off ho h
  refine settled_arbitrated ids hacc subs ?_
  have key : ∀ (subs : List Submission), (∀ pre v post, subs = pre ++ .ceiling v :: post → (∀ x, ¬ CeilingOf pre x) → v ≠ nan) →
      FirstNum (ceilings subs) := by
    intro subs
    induction subs with
    | nil => intro _; trivial
    | cons s ss ih =>
      intro hf
      cases s with
      | ceiling v => exact hf [] v ss rfl (by simp [CeilingOf])
      | setPoint n v =>
        refine ih (fun pre x post e hx => hf (.setPoint n v :: pre) x post (by rw [e]; rfl) ?_)
        intro y hy
        rcases List.mem_cons.1 hy with hy | hy
        · cases hy
        · exact hx y hy
  exact key subs hfirst

/-- C34, the disagreement: when the first submitted ceiling is NaN every other ceiling is ignored as well. -/
theorem C34_nan_first {o : Opts} (ho : o.tuningEnabled = false) {w : World} {ids : List String} {z z' : ZoneData}
    (hacc : z.accumulateSetPoint = false) {pre post : List Submission} (hpre : ∀ x, ¬ CeilingOf pre x)
    (h : arbitrate o w ids z (pre ++ .ceiling nan :: post) = .ok z') :
    ∃ req, Largest (fun x => x = 0 ∨ (x ≠ nan ∧ Requested z (pre ++ .ceiling nan :: post) x)) req ∧
      Largest (fun x => x = req ∨ (x ≠ nan ∧ x = z.minThermalOutputSetPt)) z'.maximumSetPoint := by
  obtain ⟨_, rfl⟩ := arbitrate_off ho h
  rw [settled_max ids hacc]
  have hc : ceilings (pre ++ .ceiling nan :: post) = nan :: ceilings post := by
    have key : ∀ pre : List Submission, (∀ x, ¬ CeilingOf pre x) →
        ceilings (pre ++ .ceiling nan :: post) = nan :: ceilings post := by
      intro pre
      induction pre with
      | nil => intro _; rfl
      | cons s ss ih =>
        intro hh
        cases s with
        | ceiling v => exact absurd List.mem_cons_self (hh v)
        | setPoint n v => exact ih (fun x hx => hh x (List.mem_cons_of_mem _ hx))
    exact key pre hpre
  have hr := foldl_cmax_largest (requests z (pre ++ .ceiling nan :: post)) Dbl.zero_ne_nan
  have hrn := ne_nan_of_le_right (hr.2 0 (.inl rfl))
  rw [hc, capBy_nan_first]
  exact ⟨_, hr.congr (fun x => by rw [mem_requests, and_comm]), floorBy_largest hrn⟩

/-! ## C35 -/

/-- C35, non-accumulating zone: the requester is "Minimum" when the minimum applies, "Ceiling" when a ceiling caps, and
otherwise the first loop whose enabled request equals the set point; it is empty when nothing above 0 was requested. -/
theorem C35_requester {o : Opts} (ho : o.tuningEnabled = false) {w : World} {ids : List String} {z z' : ZoneData}
    (hacc : z.accumulateSetPoint = false) {subs : List Submission} (hn : ¬ CeilingOf subs nan)
    (h : arbitrate o w ids z subs = .ok z') :
    ∃ req cap, Largest (fun x => x = 0 ∨ (x ≠ nan ∧ Requested z subs x)) req ∧
      Smallest (fun x => x = req ∨ (x ≠ nan ∧ CeilingOf subs x)) cap ∧
      (cap ≤ z.minThermalOutputSetPt → z'.maximumSetPointName = "Minimum" ∧ z'.maximumSetPoint = z.minThermalOutputSetPt) ∧
      (¬ cap ≤ z.minThermalOutputSetPt → cap < req → z'.maximumSetPointName = "Ceiling" ∧ z'.maximumSetPoint = cap) ∧
      (¬ cap ≤ z.minThermalOutputSetPt → ¬ cap < req → z'.maximumSetPoint = req ∧
        (0 < req → ∃ pre n post, subs = pre ++ .setPoint n req :: post ∧ Enabled z n ∧ z'.maximumSetPointName = n ∧
          ∀ x, Requested z pre x → ¬ req ≤ x) ∧
        (req = 0 → z'.maximumSetPointName = "")) := by
  obtain ⟨_, rfl⟩ := arbitrate_off ho h
  have hr := foldl_cmax_largest (requests z subs) Dbl.zero_ne_nan
  have hrn : (requests z subs).foldl cmax 0 ≠ nan := ne_nan_of_le_right (hr.2 0 (.inl rfl))
  have hc := capBy_smallest hrn (firstNum_of_no_nan hn)
  have e0 := round_max hacc subs
  have hname := round_name hacc subs
  have hma : (subs.foldl sub1 (cleared z)).minThermalOutputSetPt = z.minThermalOutputSetPt :=
    (foldl_sub1_same subs (cleared z)).minT
  have haa : (subs.foldl sub1 (cleared z)).accumulateSetPoint = false := (foldl_sub1_same subs (cleared z)).acc.trans hacc
  have hcc := round_ceilings z subs
  generalize hy : subs.foldl sub1 (cleared z) = y at *
  have hj : joinedName ids y = capName y := by simp [joinedName, haa]
  rw [← e0] at hr hc hrn
  refine ⟨y.maximumSetPoint, capBy y.maximumSetPoint (ceilings subs), hr.congr (fun x => by rw [mem_requests, and_comm]),
    hc.congr (fun x => by rw [mem_ceilings]), ?_, ?_, ?_⟩
  · intro h1
    simp only [settled, hma, hcc, h1, if_true, floorBy, and_self]
  · intro h1 h2
    simp only [settled, hma, hcc, h1, if_false, floorBy, hj, and_true]
    cases hcs : ceilings subs with
    | nil => rw [hcs] at h2; exact absurd h2 (Dbl.lt_irrefl _)
    | cons c cs =>
      rw [hcs] at h2
      have h3 : cs.foldl cmin c < y.maximumSetPoint := by
        simp only [capBy] at h2
        by_contra h3
        rw [show cmin y.maximumSetPoint (cs.foldl cmin c) = y.maximumSetPoint by simp [cmin, h3]] at h2
        exact Dbl.lt_irrefl _ h2
      simp [capName, hcc, hcs, h3]
  · intro h1 h2
    have h4 : capBy y.maximumSetPoint (ceilings subs) = y.maximumSetPoint :=
      Dbl.le_antisymm (hc.2 _ (.inl rfl))
        (le_of_not_lt hrn (ne_nan_of_le_left (hc.2 _ (.inl rfl))) h2)
    have h5 : capName y = y.maximumSetPointName := by
      unfold capName
      rw [hcc]
      cases hcs : ceilings subs with
      | nil => rfl
      | cons c cs =>
        rw [hcs] at h4
        simp only [capBy] at h4
        have h3 : ¬ cs.foldl cmin c < y.maximumSetPoint := by
          intro h3
          rw [show cmin y.maximumSetPoint (cs.foldl cmin c) = cs.foldl cmin c by simp [cmin, h3]] at h4
          rw [h4] at h3
          exact Dbl.lt_irrefl _ h3
        simp [h3]
    simp only [settled, hma, hcc, h1, if_false, floorBy, hj, h5]
    refine ⟨h4, ?_, ?_⟩
    · intro hp
      rcases hname with ⟨_, _, h6⟩ | ⟨pre, n, v, post, h6, h7, h8, h9, h10, h11⟩
      · rw [h6] at hp; exact absurd hp (Dbl.lt_irrefl _)
      · refine ⟨pre, n, post, by rw [h9]; exact h6, h7, h10, by rw [h9]; exact h11⟩
    · intro hp
      rcases hname with ⟨_, h6, _⟩ | ⟨pre, n, v, post, h6, h7, h8, h9, h10, h11⟩
      · exact h6
      · rw [hp] at h9; rw [← h9] at h8; exact absurd h8 (Dbl.lt_irrefl _)

/-- C35, accumulating zone: the requester is "Minimum" when the minimum applies. Otherwise it lists the loops whose name
contains a word: the profile whose running sum was the first to reach the request; the word "Ceiling" when a ceiling caps; the
empty word, so all loops, when nothing above 0 was requested. -/
theorem C35_accumulating {o : Opts} (ho : o.tuningEnabled = false) {w : World} {ids : List String} {z z' : ZoneData}
    (hacc : z.accumulateSetPoint = true) {subs : List Submission} (hids : ∀ id ∈ ids, id ≠ "") (hn : ¬ CeilingOf subs nan)
    (h : arbitrate o w ids z subs = .ok z') :
    ∃ req cap, Largest (fun x => x = 0 ∨ (x ≠ nan ∧ RunningSum z subs x)) req ∧
      Smallest (fun x => x = req ∨ (x ≠ nan ∧ CeilingOf subs x)) cap ∧
      (cap ≤ z.minThermalOutputSetPt → z'.maximumSetPointName = "Minimum" ∧ z'.maximumSetPoint = z.minThermalOutputSetPt) ∧
      (¬ cap ≤ z.minThermalOutputSetPt → cap < req → z'.maximumSetPointName = namesWith "Ceiling" ids ∧ z'.maximumSetPoint = cap) ∧
      (¬ cap ≤ z.minThermalOutputSetPt → ¬ cap < req → z'.maximumSetPoint = req ∧
        (0 < req → ∃ pre n v post p, subs = pre ++ .setPoint n v :: post ∧ Enabled z n ∧ IsProfile n p ∧
          req = sumUp (profileValues z (pre ++ [.setPoint n v]) p) ∧ (∀ x, RunningSum z pre x → ¬ req ≤ x) ∧
          z'.maximumSetPointName = namesWith p ids) ∧
        (req = 0 → z'.maximumSetPointName = namesWith "" ids)) := by
  obtain ⟨_, rfl⟩ := arbitrate_off ho h
  have hr := (acc_spec hacc subs).2
  have hrn := ne_nan_of_le_right (hr.2 0 (.inl rfl))
  have hc := capBy_smallest hrn (firstNum_of_no_nan hn)
  have hname := acc_name hacc subs
  have hma : (subs.foldl sub1 (cleared z)).minThermalOutputSetPt = z.minThermalOutputSetPt :=
    (foldl_sub1_same subs (cleared z)).minT
  have haa : (subs.foldl sub1 (cleared z)).accumulateSetPoint = true := (foldl_sub1_same subs (cleared z)).acc.trans hacc
  have hcc := round_ceilings z subs
  generalize hy : subs.foldl sub1 (cleared z) = y at *
  have hj : joinedName ids y = namesWith (capName y) ids := by
    simp only [joinedName, haa, if_true]
    exact joinIds_eq _ ids hids
  refine ⟨y.maximumSetPoint, capBy y.maximumSetPoint (ceilings subs), hr, hc.congr (fun x => by rw [mem_ceilings]), ?_, ?_, ?_⟩
  · intro h1
    simp only [settled, hma, hcc, h1, if_true, floorBy, and_self]
  · intro h1 h2
    simp only [settled, hma, hcc, h1, if_false, floorBy, hj, and_true]
    cases hcs : ceilings subs with
    | nil => rw [hcs] at h2; exact absurd h2 (Dbl.lt_irrefl _)
    | cons c cs =>
      rw [hcs] at h2
      have h3 : cs.foldl cmin c < y.maximumSetPoint := by
        simp only [capBy] at h2
        by_contra h3
        rw [show cmin y.maximumSetPoint (cs.foldl cmin c) = y.maximumSetPoint by simp [cmin, h3]] at h2
        exact Dbl.lt_irrefl _ h2
      simp [capName, hcc, hcs, h3]
  · intro h1 h2
    have h4 : capBy y.maximumSetPoint (ceilings subs) = y.maximumSetPoint :=
      Dbl.le_antisymm (hc.2 _ (.inl rfl))
        (le_of_not_lt hrn (ne_nan_of_le_left (hc.2 _ (.inl rfl))) h2)
    have h5 : capName y = y.maximumSetPointName := by
      unfold capName
      rw [hcc]
      cases hcs : ceilings subs with
      | nil => rfl
      | cons c cs =>
        rw [hcs] at h4
        simp only [capBy] at h4
        have h3 : ¬ cs.foldl cmin c < y.maximumSetPoint := by
          intro h3
          rw [show cmin y.maximumSetPoint (cs.foldl cmin c) = cs.foldl cmin c by simp [cmin, h3]] at h4
          rw [h4] at h3
          exact Dbl.lt_irrefl _ h3
        simp [h3]
    simp only [settled, hma, hcc, h1, if_false, floorBy, hj, h5]
    refine ⟨h4, ?_, ?_⟩
    · intro hp
      rcases hname with ⟨_, h6⟩ | ⟨pre, n, v, post, p, h6, h7, h8, h9, h10, h11, h12⟩
      · rw [h6] at hp; exact absurd hp (Dbl.lt_irrefl _)
      · exact ⟨pre, n, v, post, p, h6, h7, h8, h10, h12, by rw [h11]⟩
    · intro hp
      rcases hname with ⟨h6, _⟩ | ⟨pre, n, v, post, p, h6, h7, h8, h9, _⟩
      · rw [h6]
      · rw [hp] at h9; exact absurd h9 (Dbl.lt_irrefl _)

/-! ## C36 -/

theorem fileParse_eq (c : FileContent) (rpm : Dbl) (hb : c ≠ .blank) :
    ZoneData.fileParseRpm c rpm = .ok ((overrideOf c).getD rpm) := by
  cases c with
  | missing => rfl
  | blank => exact absurd rfl hb
  | nonNumber => rfl
  | number v =>
    simp only [ZoneData.fileParseRpm, overrideOf]
    by_cases h1 : 100 < v
    · have h2 : ¬ (Max.max (-(2 ^ 31)) (Min.min v (2 ^ 31 - 1)) ≤ 0) := by omega
      have h3 : ¬ (Max.max (-(2 ^ 31)) (Min.min v (2 ^ 31 - 1)) ≤ 100) := by omega
      rw [if_neg h2, if_neg h3, if_pos h1]
      simp only [Option.getD_some]
      congr 2
      split_ifs with h4 <;> omega
    · rw [if_neg h1]
      simp only [Option.getD_none]
      by_cases h2 : Max.max (-(2 ^ 31)) (Min.min v (2 ^ 31 - 1)) ≤ 0
      · rw [if_pos h2]
      · rw [if_neg h2, if_pos (by omega)]

/-- C36: with tuning enabled and no blank set point file the zone file's override wins, then the global file's, then the
arbitrated set point stays. -/
theorem C36_override {o o' : Opts} (ho : o.tuningEnabled = true) (ho' : o'.tuningEnabled = false) {w w' : World}
    {ids : List String} {z z0 : ZoneData} {subs : List Submission}
    (hg : w.files "/etc/thermal.d/setpoint" ≠ .blank)
    (hz : w.files ("/etc/thermal.d/setpoint" ++ ".zone" ++ toString z.zoneId) ≠ .blank)
    (h0 : arbitrate o' w' ids z subs = .ok z0) :
    ∃ z', arbitrate o w ids z subs = .ok z' ∧
      z'.maximumSetPoint =
        ((overrideOf (w.files ("/etc/thermal.d/setpoint" ++ ".zone" ++ toString z.zoneId))).or
          (overrideOf (w.files "/etc/thermal.d/setpoint"))).getD z0.maximumSetPoint := by
  obtain ⟨hp, rfl⟩ := arbitrate_off ho' h0
  have hid : (subs.foldl sub1 z.clearSetPoints.clearRPMCeilings).zoneId = z.zoneId :=
    (foldl_sub1_same subs _).zoneId
  unfold arbitrate
  rw [submitAll_eq (z := z.clearSetPoints.clearRPMCeilings) hp, ok_bind, determine_eq, if_pos ho, hid]
  simp only [ZoneData.setpointPath]
  rw [fileParse_eq _ _ hg, ok_bind, fileParse_eq _ _ hz, ok_bind]
  refine ⟨_, rfl, ?_⟩
  cases overrideOf (w.files ("/etc/thermal.d/setpoint" ++ ".zone" ++ toString z.zoneId)) <;> rfl

/-- C36, a disagreement: a blank global set point file makes the code use an uninitialised value. -/
theorem C36_blank_file {o : Opts} (ho : o.tuningEnabled = true) {w : World} {ids : List String} {z : ZoneData}
    {subs : List Submission} (hp : ∀ n v, Submission.setPoint n v ∈ subs → ∃ p, z.procs.find? n = some p)
    (hg : w.files "/etc/thermal.d/setpoint" = .blank) :
    arbitrate o w ids z subs = .error (.ub "uninitialised value read") := by
  have hp' : ∀ s ∈ subs, HasProc z.clearSetPoints.clearRPMCeilings s := by
    intro s hs
    cases s with
    | setPoint n v => exact hp n v hs
    | ceiling v => trivial
  unfold arbitrate
  rw [submitAll_eq hp', ok_bind, determine_eq, if_pos ho]
  simp only [ZoneData.setpointPath]
  rw [hg]
  rfl

/-- C36: with tuning off the files have no influence on arbitration. -/
theorem C36_off {o : Opts} (ho : o.tuningEnabled = false) (w w' : World) (ids : List String) (z : ZoneData)
    (subs : List Submission) : arbitrate o w ids z subs = arbitrate o w' ids z subs := by
  unfold arbitrate
  simp only [determine_eq, ho, Bool.false_eq_true, if_false]

end

/-! ## Concrete cases -/

section
attribute [local instance] binary64
open Ex

/-- result of a round: set point and requester -/
def exRound (z : ZoneData) (subs : List Submission) (o : Opts := {}) (w : World := world) : Option (Dbl × String) :=
  (arbitrate o w ["cpu_pid", "cpu_step", "cpu_ceil"] z subs).toOption.map (fun z => (z.maximumSetPoint, z.maximumSetPointName))

/-- C23, C24, C35: requests, ceilings and the minimum each decide once; all hypotheses hold -/
example : data.accumulateSetPoint = false ∧ Enabled data "cpu_pid" ∧ Enabled data "cpu_step" :=
  ⟨rfl, ⟨_, rfl, rfl⟩, ⟨_, rfl, rfl⟩⟩
example : exRound data [.setPoint "cpu_pid" 50, .setPoint "cpu_step" 70, .ceiling 90] = some (70, "cpu_step") := by
  decide +kernel
example : exRound data [.setPoint "cpu_step" 70, .ceiling 90, .setPoint "cpu_pid" 50] = some (70, "cpu_step") := by
  decide +kernel
example : exRound data [.setPoint "cpu_pid" 50, .setPoint "cpu_step" 70, .ceiling 60] = some (60, "Ceiling") := by
  decide +kernel
example : exRound data [.setPoint "cpu_pid" 10, .ceiling 60] = some (30, "Minimum") := by decide +kernel
example : exRound { data with minThermalOutputSetPt := -1 } [] = some (0, "") := by decide +kernel

/-- C23_cycle, C24_cycle: the controllers of the example zone are ready after a poll -/
theorem ex_polled_ready : ∃ d, zone.d.updateSensors world = .ok d ∧ d.accumulateSetPoint = false ∧
    ∀ c ∈ zone.thermals, CtlReady d c := by
  obtain ⟨d, h1, h2⟩ := ok_of_any (x := zone.d.updateSensors world)
    (P := fun d => !d.accumulateSetPoint && zone.thermals.all (readyB d)) (by decide +kernel)
  simp only [Bool.and_eq_true, List.all_eq_true, Bool.not_eq_true'] at h2
  exact ⟨d, h1, h2.1, fun c hc => ready_of_readyB (h2.2 c hc)⟩

/-- set point after a thermal cycle -/
def exCycle (z : Zone) : Option Dbl := (z.processThermals {} world).toOption.map (·.d.maximumSetPoint)

example : exCycle zone = some 80 := by decide +kernel
example : exCycle { zone with thermals := zone.thermals.reverse } = some 80 := by decide +kernel
/-- C26_cycle: with the stepwise loop disabled the PID loop decides -/
example : exCycle { zone with
    d := { zone.d with procs := zone.d.procs.insert "cpu_step" ⟨false, 0, "", "", 0, 0⟩ } } = some 40 ∧
    exCycle { zone with thermals := [.pid thermal, .stepwise ceil] } = some 40 := by decide +kernel

/-- an accumulating zone with three loops in two profiles -/
def accData : ZoneData :=
  let on : ProcObj := ⟨true, 0, "", "", 0, 0⟩
  { data with
    accumulateSetPoint := true, minThermalOutputSetPt := -1,
    procs := (((({} : OMap String ProcObj).insert "PID_X" on).insert "Stepwise_X" on).insert "PID_Y" on) }
example : exRound accData [.setPoint "PID_X" 50, .setPoint "PID_Y" 60, .setPoint "Stepwise_X" 20] = some (70, "") := by
  decide +kernel
example : (arbitrate {} world ["PID_X", "Stepwise_X", "PID_Y"] accData
    [.setPoint "PID_X" 50, .setPoint "PID_Y" 60, .setPoint "Stepwise_X" 20]).toOption.map (·.maximumSetPointName) =
    some "PID_X + Stepwise_X" := by decide +kernel

/-- C35, a disagreement: when a ceiling caps an accumulating zone, the requester shown is empty instead of "Ceiling", since
no loop has that word in its name. -/
theorem C35_ceiling_unnamed : ∃ z' : ZoneData, accData.accumulateSetPoint = true ∧
    arbitrate {} world ["PID_X", "Stepwise_X", "PID_Y"] accData
      [.setPoint "PID_X" 50, .setPoint "PID_Y" 60, .setPoint "Stepwise_X" 20, .ceiling 40] = .ok z' ∧
    z'.maximumSetPoint = 40 ∧ z'.maximumSetPointName = "" := by
  obtain ⟨a, h1, h2⟩ := ok_of_any (x := arbitrate {} world ["PID_X", "Stepwise_X", "PID_Y"] accData
      [.setPoint "PID_X" 50, .setPoint "PID_Y" 60, .setPoint "Stepwise_X" 20, .ceiling 40])
    (P := fun a => decide (a.maximumSetPoint = 40 ∧ a.maximumSetPointName = "")) (by decide +kernel)
  exact ⟨a, rfl, h1, of_decide_eq_true h2⟩

/-- C25, a disagreement: the request is the largest running sum, not the largest final sum, so with a negative
contribution the set point depends on the order in which the loops of one profile run. -/
theorem C25_order_dependent :
    ∃ (z a b : ZoneData) (s t : Submission), z.accumulateSetPoint = true ∧
      arbitrate {} world [] z [s, t] = .ok a ∧ arbitrate {} world [] z [t, s] = .ok b ∧
      a.maximumSetPoint ≠ b.maximumSetPoint := by
  obtain ⟨a, h1, h2⟩ := ok_of_any (x := arbitrate {} world [] accData [.setPoint "PID_X" 50, .setPoint "Stepwise_X" (-20)])
    (P := fun a => decide (a.maximumSetPoint = 50)) (by decide +kernel)
  obtain ⟨b, h3, h4⟩ := ok_of_any (x := arbitrate {} world [] accData [.setPoint "Stepwise_X" (-20), .setPoint "PID_X" 50])
    (P := fun a => decide (a.maximumSetPoint = 30)) (by decide +kernel)
  refine ⟨accData, a, b, _, _, rfl, h1, h3, ?_⟩
  rw [of_decide_eq_true h2, of_decide_eq_true h4]
  decide +kernel

/-- C26, a disagreement: a disabled ceiling loop still caps the zone; removing it changes the set point. -/
theorem C26_ceiling_not_disabled :
    ∃ (z z' y' : Zone) (c : ThermalCtl) (rest : List ThermalCtl), z.thermals = c :: rest ∧ ¬ Enabled z.d c.id ∧
      z.processThermals {} world = .ok z' ∧ Zone.processThermals {} world { z with thermals := rest } = .ok y' ∧
      z'.d.maximumSetPoint ≠ y'.d.maximumSetPoint := by
  let low : StepwiseCtl := { ceil with info := { table with isCeiling := true, output := fun _ => 50 } }
  let d : ZoneData := { zone.d with procs := zone.d.procs.insert "cpu_ceil" ⟨false, 0, "", "", 0, 0⟩ }
  let y : Zone := { zone with d := d, thermals := [.stepwise low, .stepwise step] }
  obtain ⟨a, h1, h2⟩ := ok_of_any (x := y.processThermals {} world)
    (P := fun a => decide (a.d.maximumSetPoint = 50)) (by decide +kernel)
  obtain ⟨b, h3, h4⟩ := ok_of_any (x := Zone.processThermals {} world { y with thermals := [.stepwise step] })
    (P := fun a => decide (a.d.maximumSetPoint = 80)) (by decide +kernel)
  refine ⟨y, a, b, .stepwise low, [.stepwise step], rfl, ?_, h1, h3, ?_⟩
  · rintro ⟨p, hp, he⟩
    have hf : (y.d.procs.find? "cpu_ceil").map (·.enabled) = some false := by decide +kernel
    change y.d.procs.find? "cpu_ceil" = some p at hp
    rw [hp] at hf
    simp [he] at hf
  · rw [of_decide_eq_true h2, of_decide_eq_true h4]
    decide +kernel

/-- C34, the disagreement on a concrete round: the rule of C23 asks for 60, the code gives 70 -/
theorem C34_violated : ∃ (z z' : ZoneData) (subs : List Submission), z.accumulateSetPoint = false ∧
    arbitrate {} world [] z subs = .ok z' ∧ ¬ ArbitratedTo z subs z'.maximumSetPoint := by
  obtain ⟨a, h1, h2⟩ := ok_of_any (x := arbitrate {} world [] data [.setPoint "cpu_pid" 70, .ceiling nan, .ceiling 60])
    (P := fun a => decide (a.maximumSetPoint = 70)) (by decide +kernel)
  refine ⟨data, a, _, rfl, h1, ?_⟩
  rw [of_decide_eq_true h2]
  rintro ⟨req, cap, _, hc, hm⟩
  have h3 : cap ≤ 60 := hc.2 60 (.inr ⟨by decide +kernel, by simp [CeilingOf]⟩)
  rcases hm.1 with h4 | ⟨_, h4⟩
  · rw [← h4] at h3
    exact absurd h3 (by decide +kernel)
  · exact absurd h4 (by decide +kernel)

/-- C34_nan_ignored_partial: a NaN ceiling after a number does no harm -/
example : exRound data [.setPoint "cpu_pid" 70, .ceiling 60, .ceiling nan] = some (60, "Ceiling") := by decide +kernel

/-- C27: the example zone with leftovers gives the same set point -/
example : exCycle { zone with d := { zone.d with maximumSetPoint := 9000, rpmCeilings := [1] } } = exCycle zone := by
  decide +kernel

/-- C36: the files of the example world, the zone is number 1 -/
def exFiles (g zf : FileContent) : World :=
  { world with files := fun f => if f = "/etc/thermal.d/setpoint" then g else if f = "/etc/thermal.d/setpoint.zone1" then zf else .missing }
example : exRound data [.setPoint "cpu_pid" 50] { tuningEnabled := true } (exFiles (.number 3000) (.number 4000)) =
    some (4000, "cpu_pid") := by decide +kernel
example : exRound data [.setPoint "cpu_pid" 50] { tuningEnabled := true } (exFiles (.number 3000) (.number 100)) =
    some (3000, "cpu_pid") := by decide +kernel
example : exRound data [.setPoint "cpu_pid" 50] { tuningEnabled := true } (exFiles .missing .nonNumber) =
    some (50, "cpu_pid") := by decide +kernel
example : exRound data [.setPoint "cpu_pid" 50] { tuningEnabled := true } (exFiles .blank (.number 4000)) = none := by
  decide +kernel
example : exRound data [.setPoint "cpu_pid" 50] {} (exFiles (.number 3000) (.number 4000)) = some (50, "cpu_pid") := by
  decide +kernel

end
end Verif
