import Verif.Lemmas.Hist
import Verif.Spec.Example

/-! # Failsafe mode and failsafe percentages: C28 to C33 -/

namespace Verif
open Dbl
section
variable [F : FloatModel]

/-! ## C28 -/

/-- C28: after a polling pass, a polled sensor that may not be missing is listed as failed exactly when it reported
failure or its last update was too old; sensors outside the pass keep their entry. -/
theorem C28_membership {w : World} {now : Int} {names : List String} {z z' : ZoneData}
    (h : z.processSensorInputs w now names = .ok z') :
    (∀ n ∈ names, n ∉ z.missingAcceptable → (Failed z' n ↔ FailsAt w now n)) ∧
    (∀ n, n ∉ names → z'.failSafeSensors.find? n = z.failSafeSensors.find? n) := by
  have a := pollAll_spec h
  refine ⟨fun n hn hm => ⟨fun hf => ?_, fun hF => ?_⟩, fun n hn => (a.other n hn).1⟩
  · by_contra hF
    obtain ⟨e, he⟩ := hf
    rw [a.works n hn hF] at he; cases he
  · obtain ⟨r, h1, _⟩ := a.fails n hn hF hm
    exact ⟨_, h1⟩

/-- C28 for the two polling passes of the control loop: each covers its own inputs. -/
theorem C28_passes {w : World} {z z' : ZoneData} :
    (z.updateFanTelemetry w = .ok z' →
      (∀ n ∈ z.fanInputs, n ∉ z.missingAcceptable → (Failed z' n ↔ FailsAt w w.nowFans n)) ∧
      (∀ n, n ∉ z.fanInputs → (Failed z' n ↔ Failed z n))) ∧
    (z.updateSensors w = .ok z' →
      (∀ n ∈ z.thermalInputs, n ∉ z.missingAcceptable → (Failed z' n ↔ FailsAt w w.nowThermals n)) ∧
      (∀ n, n ∉ z.thermalInputs → (Failed z' n ↔ Failed z n))) := by
  refine ⟨fun h => ⟨(C28_membership h).1, fun n hn => ?_⟩, fun h => ⟨(C28_membership h).1, fun n hn => ?_⟩⟩ <;>
  · unfold Failed
    rw [(C28_membership h).2 n hn]

/-- C28: the entry of a failed sensor holds the sensor's own failure reason, or "Sensor timeout" when it only was too
old, and the failsafe percentage the sensor stands for. -/
theorem C28_entry {w : World} {now : Int} {names : List String} {z z' : ZoneData}
    (h : z.processSensorInputs w now names = .ok z') {n : String} (hn : n ∈ names) (hm : n ∉ z.missingAcceptable)
    (hf : Failed z' n) :
    ∃ s reason, w.sensors.find? n = some s ∧ z'.failSafeSensors.find? n = some (reason, percentOf z n) ∧
      (s.getFailed w = .ok true → s.getFailReason = .ok reason) ∧
      (s.getFailed w = .ok false → reason = "Sensor timeout") := by
  obtain ⟨r, h1, s, h2, h3⟩ := (pollAll_spec h).fails n hn (((C28_membership h).1 n hn hm).1 hf) hm
  refine ⟨s, r, h2, h1, fun hg => ?_, fun hg => ?_⟩
  · rcases h3 with h3 | h3
    · exact h3.2
    · rw [h3.1] at hg; cases hg
  · rcases h3 with h3 | h3
    · rw [h3.1] at hg; cases hg
    · exact h3.2

/-- C28: the zone's cache then holds what the sensors returned in this pass. -/
theorem C28_cached {w : World} {now : Int} {names : List String} {z z' : ZoneData}
    (h : z.processSensorInputs w now names = .ok z') :
    (∀ n ∈ names, ∃ s r, w.sensors.find? n = some s ∧ s.read w now = .ok r ∧
      Reads z' n r.value ∧ ReadsRaw z' n r.unscaled) ∧
    (∀ n, n ∉ names → z'.cachedValuesByName.find? n = z.cachedValuesByName.find? n) := by
  have a := pollAll_spec h
  refine ⟨fun n hn => ?_, fun n hn => (a.other n hn).2⟩
  obtain ⟨s, r, f, h1, h2, _, h3⟩ := a.sensor n hn
  exact ⟨s, r, h1, h2, ⟨_, h3, rfl⟩, ⟨_, h3, rfl⟩⟩

/-- C28: a polling pass succeeds when every name is a known sensor that can be read. -/
theorem C28_total {w : World} {now : Int} : ∀ {names : List String} (z : ZoneData),
    (∀ n ∈ names, ∃ s r, w.sensors.find? n = some s ∧ s.read w now = .ok r) →
    ∃ z', z.processSensorInputs w now names = .ok z'
  | [], z, _ => ⟨z, rfl⟩
  | n :: names, z, h => by
    obtain ⟨s, r, h1, h2⟩ := h n List.mem_cons_self
    have hg : ∃ f, s.getFailed w = .ok f := by
      unfold Sensor.getFailed
      unfold Sensor.read at h2
      split at h2
      all_goals first
        | exact ⟨_, rfl⟩
        | cases h2
    have hr : ∃ reason, s.getFailReason = .ok reason := by
      unfold Sensor.read at h2
      unfold Sensor.getFailReason
      cases hi : s.impl with
      | host v u => exact ⟨_, rfl⟩
      | pluggable rd wr =>
        cases rd with
        | null => rw [hi] at h2; cases h2
        | _ => exact ⟨_, rfl⟩
    obtain ⟨f, hf⟩ := hg
    obtain ⟨reason, hr⟩ := hr
    have h3 : ∃ z1, z.processSensorInput w now n = .ok z1 := by
      unfold ZoneData.processSensorInput World.getSensor
      simp only [OMap.atKey_of_find? h1, ok_bind, h2, hf, hr]
      cases f with
      | true => exact ⟨_, rfl⟩
      | false =>
        simp only [Bool.false_eq_true, if_false]
        split
        · exact ⟨_, rfl⟩
        · exact ⟨_, rfl⟩
    obtain ⟨z1, h3⟩ := h3
    obtain ⟨z2, h4⟩ := C28_total z1 (fun m hm => h m (List.mem_cons_of_mem _ hm))
    exact ⟨z2, by simp only [ZoneData.processSensorInputs, h3, ok_bind, h4]⟩

/-! ## C29 -/

/-- C29: over any history, exactly those inputs that may not be missing are listed as failed that failed at their most
recent poll or were never polled. -/
theorem C29_members {o : Opts} {d0 : ZoneData} {z : Zone} {cnt : Nat} {log : List Poll} (h : Hist o d0 z cnt log)
    (n : String) : Failed z.d n ↔ Required d0 n ∧ ∀ p, lastPoll log n = some p → FailsAt p.w p.now n := h.inv.failed n

/-- C29: the zone reports failsafe mode exactly when at least one of its inputs that may not be missing failed at its
most recent poll or was never polled. -/
theorem C29_mode {o : Opts} {d0 : ZoneData} {z : Zone} {cnt : Nat} {log : List Poll} (h : Hist o d0 z cnt log) :
    z.d.getFailSafeMode = true ↔
      ∃ n, Required d0 n ∧ ∀ p, lastPoll log n = some p → FailsAt p.w p.now n := by
  unfold ZoneData.getFailSafeMode
  rw [Bool.not_eq_true', OMap.isEmpty_false_iff]
  exact ⟨fun ⟨n, e, he⟩ => ⟨n, (h.inv.failed n).1 ⟨e, he⟩⟩, fun ⟨n, hn⟩ => ⟨n, (h.inv.failed n).2 hn⟩⟩

/-! ## C30 -/

/-- C30: after initialisation, before anything has been polled, every input that may not be missing is listed as failed,
a zone with such an input is in failsafe mode, and every cached reading is NaN. -/
theorem C30_start {d : ZoneData} (hb : Built d) :
    (∀ n, Failed d.initializeCache n ↔ Required d n) ∧
    (d.initializeCache.getFailSafeMode = true ↔ ∃ n, Required d n) ∧
    (∀ n, n ∈ d.fanInputs ∨ n ∈ d.thermalInputs →
      Reads d.initializeCache n nan ∧ ReadsRaw d.initializeCache n nan) := by
  have a := initializeCache_spec d
  have h1 : ∀ n, Failed d.initializeCache n ↔ Required d n := by
    intro n
    simp only [Failed, a.failed, built_failed hb, Required, List.mem_append]
    constructor
    · rintro ⟨e, he⟩
      split_ifs at he with h1
      · exact h1
      · cases he
    · intro h1
      exact ⟨_, by rw [if_pos h1]⟩
  refine ⟨h1, ?_, fun n hn => ?_⟩
  · unfold ZoneData.getFailSafeMode
    rw [Bool.not_eq_true', OMap.isEmpty_false_iff]
    exact ⟨fun ⟨n, e, he⟩ => ⟨n, (h1 n).1 ⟨e, he⟩⟩, fun ⟨n, hn⟩ => ⟨n, (h1 n).2 hn⟩⟩
  · have hc := a.cache n
    rw [if_pos (List.mem_append.2 hn)] at hc
    exact ⟨⟨_, hc, rfl⟩, ⟨_, hc, rfl⟩⟩

/-- C30: a zone with a fan that may not be missing stays in failsafe mode until its first automatic tick, whatever the
thermal sensors report at start-up. -/
theorem C30_until_first_tick {o : Opts} {z z' : Zone} {w : World} (hb : Built z.d) (hs : z.start o w = .ok z')
    {f : String} (hf : f ∈ z.d.fanInputs) (ht : f ∉ z.d.thermalInputs) (hm : f ∉ z.d.missingAcceptable) :
    z'.d.getFailSafeMode = true ∧ Failed z'.d f := by
  have h := Hist.start w hb rfl hs
  have hl : lastPoll [⟨w, w.nowThermals, z.d.thermalInputs⟩] f = none := by
    have := lastPoll_append [] ⟨w, w.nowThermals, z.d.thermalInputs⟩ f
    simpa [ht, lastPoll_nil] using this
  have hr : Required z.d f ∧ ∀ p, lastPoll [⟨w, w.nowThermals, z.d.thermalInputs⟩] f = some p → FailsAt p.w p.now f :=
    ⟨⟨.inl hf, hm⟩, fun p hp => by rw [hl] at hp; cases hp⟩
  exact ⟨(C29_mode h).2 ⟨f, hr⟩, (C29_members h f).2 hr⟩

/-! ## C31 -/

/-- C31: over any history, a sensor marked as acceptably missing is never listed as failed. -/
theorem C31_never_failed {o : Opts} {d0 : ZoneData} {z : Zone} {cnt : Nat} {log : List Poll} (h : Hist o d0 z cnt log)
    {n : String} (hn : n ∈ d0.missingAcceptable) : ¬ Failed z.d n :=
  fun hf => (((h.inv.failed n).1 hf).1).2 hn

/-- C31: a zone all of whose inputs are acceptably missing never enters failsafe mode. -/
theorem C31_never_failsafe {o : Opts} {d0 : ZoneData} {z : Zone} {cnt : Nat} {log : List Poll} (h : Hist o d0 z cnt log)
    (ha : ∀ n, n ∈ d0.fanInputs ∨ n ∈ d0.thermalInputs → n ∈ d0.missingAcceptable) : z.d.getFailSafeMode = false := by
  rw [← Bool.not_eq_true, C29_mode h]
  rintro ⟨n, ⟨h1, h2⟩, _⟩
  exact h2 (ha n h1)

/-- C31: an input is acceptably missing as soon as one of the calls that added it said so, and stays so. -/
theorem C31_marking (z : ZoneData) (n : String) :
    (n ∈ (z.addFanInput n true).missingAcceptable) ∧ (n ∈ (z.addThermalInput n true).missingAcceptable) ∧
    (n ∈ z.missingAcceptable → ∀ m b, n ∈ (z.addFanInput m b).missingAcceptable ∧
      n ∈ (z.addThermalInput m b).missingAcceptable) ∧
    (n ∉ z.missingAcceptable → n ∉ (z.addFanInput n false).missingAcceptable ∧
      n ∉ (z.addThermalInput n false).missingAcceptable) := by
  refine ⟨by simp [ZoneData.addFanInput], by simp [ZoneData.addThermalInput], fun h m b => ?_, fun h => ?_⟩
  · cases b <;> simp [ZoneData.addFanInput, ZoneData.addThermalInput, h]
  · simp [ZoneData.addFanInput, ZoneData.addThermalInput, h]

/-! ## C32 -/

/-- C32: with no failed sensor the failsafe percentage is the zone's own. -/
theorem C32_none {z : ZoneData} (h : z.getFailSafeMode = false) : z.getFailSafePercent = z.zoneFailSafePercent := by
  unfold ZoneData.getFailSafeMode OMap.isEmpty at h
  have he : z.failSafeSensors.entries = [] := by simpa using h
  simp [ZoneData.getFailSafePercent, he]

theorem HistInv.selection {d0 z : ZoneData} {log : List Poll} (hi : HistInv d0 z log)
    (hn : ∀ n, Failed z n → percentOf d0 n ≠ nan) (hf : z.getFailSafeMode = true) :
    Largest (fun x => ∃ n, Failed z n ∧ x = percentOf d0 n) z.getFailSafePercent := by
  have hmem : ∀ n e, (n, e) ∈ z.failSafeSensors.entries ↔ z.failSafeSensors.find? n = some e :=
    fun n e => OMap.mem_entries_iff hi.wf n e
  have hset : ∀ x, (∃ n, Failed z n ∧ x = percentOf d0 n) ↔ ∃ e ∈ z.failSafeSensors.entries, x = e.2.2 := by
    intro x
    constructor
    · rintro ⟨n, ⟨e, he⟩, rfl⟩
      exact ⟨(n, e), (hmem n e).2 he, (hi.entries n e he).symm⟩
    · rintro ⟨⟨n, e⟩, he, rfl⟩
      have he := (hmem n e).1 he
      exact ⟨n, ⟨e, he⟩, hi.entries n e he⟩
  have hnum : ∀ e ∈ z.failSafeSensors.entries, e.2.2 ≠ nan := by
    intro e he
    obtain ⟨n, h1, h2⟩ := (hset e.2.2).2 ⟨e, he, rfl⟩
    rw [h2]; exact hn n h1
  unfold ZoneData.getFailSafePercent
  cases hE : z.failSafeSensors.entries with
  | nil =>
    simp only [ZoneData.getFailSafeMode, OMap.isEmpty, hE] at hf
    cases hf
  | cons e es =>
    rw [hE] at hset hnum
    have hL := foldl_cmax_largest (es.map (fun e => e.2.2)) (hnum e List.mem_cons_self)
    have hL' : Largest (fun x => ∃ n, Failed z n ∧ x = percentOf d0 n)
        (ZoneData.maxElement e.2.2 (es.map (fun e => e.2.2))) := by
      rw [maxElement_eq]
      refine hL.congr (fun x => ?_)
      rw [hset]
      constructor
      · rintro (rfl | ⟨h1, _⟩)
        · exact ⟨e, List.mem_cons_self, rfl⟩
        · obtain ⟨e', h2, rfl⟩ := List.mem_map.1 h1
          exact ⟨e', List.mem_cons_of_mem _ h2, rfl⟩
      · rintro ⟨e', h1, rfl⟩
        rcases List.mem_cons.1 h1 with rfl | h2
        · exact .inl rfl
        · exact .inr ⟨List.mem_map.2 ⟨e', h2, rfl⟩, hnum e' h1⟩
    dsimp only
    split_ifs with h0
    · rw [eqb_zero] at h0
      have : z.zoneFailSafePercent = ZoneData.maxElement e.2.2 (es.map (fun e => e.2.2)) := by
        obtain ⟨n, _, h2⟩ := hL'.1
        rw [h0] at h2 ⊢
        rw [hi.same.2.2.2.2.1]
        unfold percentOf at h2
        split at h2
        · split_ifs at h2 with h3
          · exact h2.symm
          · exact absurd h2.symm h3
        · exact h2.symm
      rw [this]; exact hL'
    · exact hL'

/-- C32: over any history in which some sensor is failed, the failsafe percentage is the largest of the percentages of
the failed sensors; a sensor without its own percentage counts with the zone's. -/
theorem C32_selection {o : Opts} {d0 : ZoneData} {z : Zone} {cnt : Nat} {log : List Poll} (h : Hist o d0 z cnt log)
    (hn : ∀ n, Failed z.d n → percentOf d0 n ≠ nan) (hf : z.d.getFailSafeMode = true) :
    Largest (fun x => ∃ n, Failed z.d n ∧ x = percentOf d0 n) z.d.getFailSafePercent :=
  h.inv.selection hn hf

/-! ## C33 -/

/-- The percentages of several loops are registered one after the other. -/
def registerAll (z : ZoneData) (loops : List (List String × Dbl)) : ZoneData :=
  loops.foldl (fun z l => z.addPidFailSafePercent l.1 l.2) z

/-- the entry of `s` after registering percentage `p` for it -/
def regOne (old : Option Dbl) (p : Dbl) : Option Dbl := some (match old with | some q => cmax q p | none => p)

theorem addPercent_find (s : String) (p : Dbl) : ∀ (is : List String) (z : ZoneData),
    (z.addPidFailSafePercent is p).sensorFailSafePercent.find? s =
      (is.filter (· = s)).foldl (fun old _ => regOne old p) (z.sensorFailSafePercent.find? s)
  | [], z => rfl
  | i :: is, z => by
    unfold ZoneData.addPidFailSafePercent
    rw [addPercent_find s p is]
    by_cases h : i = s
    · subst h
      simp only [decide_true, List.filter_cons_of_pos, List.foldl_cons, OMap.find?_insert_self]
      rfl
    · rw [List.filter_cons_of_neg (by simpa using h)]
      simp only [OMap.find?_insert_ne _ (Ne.symm h)]

theorem regOne_idem {old : Option Dbl} {p : Dbl} : regOne (regOne old p) p = regOne old p := by
  cases old with
  | none => simp [regOne, cmax, Dbl.lt_irrefl]
  | some q =>
    simp only [regOne, cmax, Option.some.injEq]
    split_ifs <;> rfl

theorem addPercent_find' (s : String) (p : Dbl) (is : List String) (z : ZoneData) :
    (z.addPidFailSafePercent is p).sensorFailSafePercent.find? s =
      if s ∈ is then regOne (z.sensorFailSafePercent.find? s) p else z.sensorFailSafePercent.find? s := by
  rw [addPercent_find]
  have key : ∀ (l : List String) (old : Option Dbl), (∀ x ∈ l, x = s) →
      l.foldl (fun old _ => regOne old p) old = if l = [] then old else regOne old p := by
    intro l
    induction l with
    | nil => intros; rfl
    | cons a l ih =>
      intro old ha
      rw [List.foldl_cons, ih _ (fun x hx => ha x (List.mem_cons_of_mem _ hx))]
      simp only [reduceCtorEq, if_false]
      split_ifs
      · rfl
      · exact regOne_idem
  rw [key _ _ (by intro x hx; simpa using (List.mem_filter.1 hx).2)]
  by_cases h : s ∈ is
  · rw [if_pos h, if_neg]
    intro he
    have : s ∈ is.filter (· = s) := List.mem_filter.2 ⟨h, by simp⟩
    rw [he] at this; cases this
  · rw [if_neg h, if_pos]
    rw [List.filter_eq_nil_iff]
    intro x hx
    simp only [decide_eq_true_eq]
    rintro rfl; exact h hx

/-- C33: after registering the percentages of any list of loops (in any order, with overlapping inputs), the percentage
of a sensor is the largest over the loops that list it, and a sensor listed nowhere has none. -/
theorem C33_maximum {z : ZoneData} (hz : z.sensorFailSafePercent = {}) {loops : List (List String × Dbl)}
    (hn : ∀ l ∈ loops, l.2 ≠ nan) (s : String) :
    ((∀ l ∈ loops, s ∉ l.1) → (registerAll z loops).sensorFailSafePercent.find? s = none) ∧
    ((∃ l ∈ loops, s ∈ l.1) → ∃ m, (registerAll z loops).sensorFailSafePercent.find? s = some m ∧
      Largest (fun x => ∃ l ∈ loops, s ∈ l.1 ∧ x = l.2) m) := by
  have key : ∀ (loops : List (List String × Dbl)) (z : ZoneData), (∀ l ∈ loops, l.2 ≠ nan) →
      (∀ q, z.sensorFailSafePercent.find? s = some q → q ≠ nan) →
      match (registerAll z loops).sensorFailSafePercent.find? s with
      | none => z.sensorFailSafePercent.find? s = none ∧ ∀ l ∈ loops, s ∉ l.1
      | some m => Largest (fun x => z.sensorFailSafePercent.find? s = some x ∨ ∃ l ∈ loops, s ∈ l.1 ∧ x = l.2) m := by
    intro loops
    induction loops with
    | nil =>
      intro z _ hq
      simp only [registerAll, List.foldl_nil]
      split
      · next h => simp [h]
      · next m h =>
        refine ⟨.inl h, ?_⟩
        rintro x (hx | ⟨l, hl, _⟩)
        · rw [h] at hx; cases hx; exact Dbl.le_refl (hq _ h)
        · cases hl
    | cons l ls ih =>
      intro z hn hq
      have hl := hn l List.mem_cons_self
      have hfind := addPercent_find' s l.2 l.1 z
      have := ih (z.addPidFailSafePercent l.1 l.2) (fun x hx => hn x (List.mem_cons_of_mem _ hx)) (by
        intro q hq'
        rw [hfind] at hq'
        split_ifs at hq' with hin
        · cases ho : z.sensorFailSafePercent.find? s with
          | none => rw [ho] at hq'; cases hq'; exact hl
          | some q0 =>
            rw [ho] at hq'
            cases hq'
            simp only [cmax]
            split_ifs
            · exact hl
            · exact hq q0 ho
        · exact hq q hq')
      have e : registerAll z (l :: ls) = registerAll (z.addPidFailSafePercent l.1 l.2) ls := rfl
      rw [e]
      cases hres : (registerAll (z.addPidFailSafePercent l.1 l.2) ls).sensorFailSafePercent.find? s with
      | none =>
        rw [hres] at this
        obtain ⟨h1, h2⟩ := this
        rw [hfind] at h1
        split_ifs at h1 with hin
        · cases h1
        · refine ⟨h1, fun x hx => ?_⟩
          rcases List.mem_cons.1 hx with rfl | hx
          · exact hin
          · exact h2 x hx
      | some m =>
        rw [hres] at this
        dsimp only at this ⊢
        rw [hfind] at this
        by_cases hin : s ∈ l.1
        · rw [if_pos hin] at this
          cases ho : z.sensorFailSafePercent.find? s with
          | none =>
            rw [ho] at this
            refine this.congr (fun x => ?_)
            simp only [regOne, Option.some.injEq, reduceCtorEq, false_or, List.mem_cons, exists_eq_or_imp, hin, true_and]
            rw [@eq_comm _ l.2 x]
          | some q =>
            rw [ho] at this
            have hqn := hq q ho
            obtain ⟨t1, t2⟩ := this
            have hc : regOne (some q) l.2 = some (cmax q l.2) := rfl
            rw [hc] at t1 t2
            refine ⟨?_, ?_⟩
            · rcases t1 with t1 | ⟨l', hl', h2, h3⟩
              · cases t1
                simp only [cmax]
                split_ifs
                · exact .inr ⟨l, List.mem_cons_self, hin, rfl⟩
                · exact .inl rfl
              · exact .inr ⟨l', List.mem_cons_of_mem _ hl', h2, h3⟩
            · have hm := t2 _ (.inl rfl)
              rintro x (hx | ⟨l', hl', h2, rfl⟩)
              · cases hx
                refine Dbl.le_trans ?_ hm
                simp only [cmax]
                split_ifs with hlt
                · exact Dbl.le_of_lt hlt
                · exact Dbl.le_refl hqn
              · rcases List.mem_cons.1 hl' with rfl | hl'
                · refine Dbl.le_trans ?_ hm
                  simp only [cmax]
                  split_ifs with hlt
                  · exact Dbl.le_refl hl
                  · exact Dbl.le_of_not_lt hl hqn hlt
                · exact t2 _ (.inr ⟨l', hl', h2, rfl⟩)
        · rw [if_neg hin] at this
          refine this.congr (fun x => ?_)
          simp only [List.mem_cons, exists_eq_or_imp, hin, false_and, false_or]
  have hz' : z.sensorFailSafePercent.find? s = none := by rw [hz]; rfl
  have := key loops z hn (by rw [hz']; simp)
  constructor
  · intro hno
    cases hres : (registerAll z loops).sensorFailSafePercent.find? s with
    | none => rfl
    | some m =>
      rw [hres] at this
      rcases this.1 with h1 | ⟨l, hl, h2, _⟩
      · rw [hz'] at h1; cases h1
      · exact absurd h2 (hno l hl)
  · rintro ⟨l, hl, h1⟩
    cases hres : (registerAll z loops).sensorFailSafePercent.find? s with
    | none =>
      rw [hres] at this
      exact absurd h1 (this.2 l hl)
    | some m =>
      rw [hres] at this
      refine ⟨m, rfl, this.congr (fun x => ?_)⟩
      rw [hz']; simp

/-- C33: the order in which the loops are registered does not matter. -/
theorem C33_order {z : ZoneData} (hz : z.sensorFailSafePercent = {}) {loops loops' : List (List String × Dbl)}
    (hn : ∀ l ∈ loops, l.2 ≠ nan) (hp : loops.Perm loops') (s : String) :
    (registerAll z loops).sensorFailSafePercent.find? s = (registerAll z loops').sensorFailSafePercent.find? s := by
  have hn' : ∀ l ∈ loops', l.2 ≠ nan := fun l hl => hn l (hp.mem_iff.2 hl)
  obtain ⟨a1, a2⟩ := C33_maximum hz hn s
  obtain ⟨b1, b2⟩ := C33_maximum hz hn' s
  by_cases h : ∃ l ∈ loops, s ∈ l.1
  · obtain ⟨m, h1, h2⟩ := a2 h
    obtain ⟨m', h3, h4⟩ := b2 (by obtain ⟨l, hl, h⟩ := h; exact ⟨l, hp.mem_iff.1 hl, h⟩)
    rw [h1, h3]
    refine congrArg some (h2.unique (h4.congr (fun x => ?_)))
    simp only [hp.mem_iff]
  · have h' : ∀ l ∈ loops, s ∉ l.1 := fun l hl hs => h ⟨l, hl, hs⟩
    rw [a1 h', b1 (fun l hl => h' l (hp.mem_iff.2 hl))]

/-! ## C78 -/

/-- The sensor is read from a sysfs file. -/
def SysfsFan (s : Sensor) (path : String) : Prop := ∃ wr, s.impl = .pluggable (.sysfs path) wr

/-- C78: a sensor that is read from a file is never failed after a polling pass over it, however old everything else
is; with a number in the file, the number is its reading. -/
theorem C78_sysfs_fresh {w : World} {now : Int} {names : List String} {z z' : ZoneData}
    (h : z.processSensorInputs w now names = .ok z') {n : String} (hn : n ∈ names) {s : Sensor} {path : String}
    (hs : w.sensors.find? n = some s) (hp : SysfsFan s path) (ht : 0 ≤ s.timeout) :
    (n ∉ z.missingAcceptable → ¬ Failed z' n) ∧
    (∀ v, w.files path = .number v → -(2 ^ 63) ≤ v → v < 2 ^ 63 → Reads z' n (Dbl.ofInt v) ∧ ReadsRaw z' n (Dbl.ofInt v)) := by
  obtain ⟨wr, hi⟩ := hp
  constructor
  · intro hm hf
    obtain ⟨s', h1, h2⟩ := ((C28_membership h).1 n hn hm).1 hf
    rw [hs] at h1; cases h1
    rcases h2 with h2 | ⟨r, h2, h3⟩
    · unfold Sensor.getFailed at h2
      rw [hi] at h2
      cases h2
    · have hu : r.updated = now := by
        unfold Sensor.read sysfsRead at h2
        rw [hi] at h2
        dsimp only at h2
        split at h2 <;> cases h2 <;> rfl
      rw [hu] at h3
      rcases h3 with ⟨h3, h4⟩ | ⟨h3, -⟩
      · omega
      · omega
  · intro v hv h1 h2
    obtain ⟨s', r, h3, h4, h5, h6⟩ := (C28_cached h).1 n hn
    rw [hs] at h3; cases h3
    have hr : r = ⟨Dbl.ofInt v, now, Dbl.ofInt v⟩ := by
      unfold Sensor.read sysfsRead at h4
      rw [hi] at h4
      dsimp only at h4
      rw [hv] at h4
      have e : Max.max (-(2 ^ 63)) (Min.min v (2 ^ 63 - 1)) = v := by omega
      dsimp only at h4
      rw [e] at h4
      cases h4; rfl
    rw [hr] at h5 h6
    exact ⟨h5, h6⟩

/-- C78 (finding): text that is no number counts as a reading of 0, and the fan is not failed. -/
theorem C78_text_is_zero {w : World} {now : Int} {s : Sensor} {path : String} (hp : SysfsFan s path)
    (hf : w.files path = .nonNumber) : s.read w now = .ok ⟨Dbl.ofInt 0, now, Dbl.ofInt 0⟩ ∧ s.getFailed w = .ok false := by
  obtain ⟨wr, hi⟩ := hp
  unfold Sensor.read Sensor.getFailed sysfsRead
  rw [hi]
  dsimp only
  rw [hf]
  exact ⟨rfl, rfl⟩

/-- C78 (finding): a file that is missing or empty makes the code use a value that was never set. -/
theorem C78_missing_undefined {w : World} {now : Int} {s : Sensor} {path : String} (hp : SysfsFan s path)
    (hf : w.files path = .missing ∨ w.files path = .blank) : ∃ m, s.read w now = .error (.ub m) := by
  obtain ⟨wr, hi⟩ := hp
  unfold Sensor.read sysfsRead
  rw [hi]
  dsimp only
  rcases hf with hf | hf
  · rw [hf]; exact ⟨_, rfl⟩
  · rw [hf]; exact ⟨_, rfl⟩

end

section
attribute [local instance] binary64
open Ex

theorem ex_built : Built data0 :=
  .process _ _ _ (.process _ _ _ (.thermalInput _ _ (.thermalInput _ _ (.fanInput _ _ (.fanInput _ _ (.ctor _ _ _ _ _))))))

/-- a world in which the CPU sensor stopped being updated -/
def staleWorld : World := { world with nowFans := 6900000000, nowThermals := 7000000000 }

/-- C28: a working sensor, a sensor whose update is exactly its timeout old, and a failing one that may be missing -/
example : ∃ z', data0.processSensorInputs world 6000000000 ["cpu", "dimm"] = .ok z' ∧
    decide (z'.failSafeSensors.entries = []) = true := ok_of_any (by decide +kernel)
example : ∃ z', data0.processSensorInputs world 7000000000 ["cpu", "dimm"] = .ok z' ∧
    decide (z'.failSafeSensors.entries = [("cpu", ("Sensor timeout", 75))]) = true := ok_of_any (by decide +kernel)
example : ∃ z', data0.processSensorInputs world 6999999999 ["cpu", "dimm"] = .ok z' ∧
    decide (z'.failSafeSensors.entries = []) = true := ok_of_any (by decide +kernel)
example : ∃ z', ({ data0 with missingAcceptable := [] } : ZoneData).processSensorInputs world 6000000000 ["cpu", "dimm"] = .ok z' ∧
    decide (z'.failSafeSensors.entries = [("dimm", ("Sensor reading bad", 75))]) = true := ok_of_any (by decide +kernel)

/-- C29, C30: after the start the fans are still unpolled and the zone is in failsafe mode; after the first tick it is
not -/
theorem ex_start : ∃ z, zone.start {} world = .ok z ∧ decide (z.d.getFailSafeMode = true ∧
    z.d.failSafeSensors.entries = [("fan0", ("", 75)), ("fan1", ("", 75))] ∧ z.d.manualMode = false ∧
    z.d.fanInputs = ["fan0", "fan1"] ∧ z.d.cycleTime = {}) = true :=
  ok_of_any (by decide +kernel)

theorem ex_tick : ∃ a, (do (← zone.start {} world).tick {} world 0) = .ok a ∧
    decide (a.2.1.d.failSafeSensors.entries = [] ∧ a.2.2 = 100) = true := ok_of_any (by decide +kernel)

theorem ex_hist : ∃ z log, Hist {} data0 z 100 log ∧ z.d.getFailSafeMode = false ∧ log.length = 2 := by
  obtain ⟨⟨w', z', cnt'⟩, h1, h2⟩ := ex_tick
  obtain ⟨z, h3, h4⟩ := bind_eq_ok.1 h1
  obtain ⟨zs, h5, h6⟩ := ex_start
  rw [h3] at h5; cases h5
  simp only [decide_eq_true_eq] at h2 h6
  have hh := Hist.tick world (Hist.start (d0 := data0) world ex_built rfl h3) h4
  rw [h2.2] at hh
  refine ⟨z', _, hh, by simp [ZoneData.getFailSafeMode, OMap.isEmpty, h2.1], ?_⟩
  simp [tickPolls, h6.2.2.1, h6.2.2.2.2]

/-- C32: failed sensors with percentages 0 (the zone's 75 counts), 90 and 40 -/
example : ({ ({ ZoneData.ctor 1 30 75 {} false with
      sensorFailSafePercent := (({} : OMap String Dbl).insert "a" 90).insert "b" 40 } : ZoneData) with
    failSafeSensors := {} }.markSensorMissing "a" "" |>.markSensorMissing "b" "" |>.markSensorMissing "c" "").getFailSafePercent
    = 90 := by decide +kernel
example : ((ZoneData.ctor 1 30 75 {} false).markSensorMissing "c" "").getFailSafePercent = 75 := by decide +kernel

/-- C33: overlapping loops in two orders -/
example : (registerAll (ZoneData.ctor 1 30 75 {} false) [(["a", "b"], 50), (["b", "c"], 80)]).sensorFailSafePercent.find? "b"
    = some 80 := by decide +kernel
example : (registerAll (ZoneData.ctor 1 30 75 {} false) [(["b", "c"], 80), (["a", "b"], 50)]).sensorFailSafePercent.find? "b"
    = some 80 := by decide +kernel

/-- C78: a fan read from a file, polled an hour after anything else happened -/
def fileWorld : World :=
  { world with
    sensors := world.sensors.insert "tach" ⟨"tach", 2, false, .pluggable (.sysfs "/sys/tach") .readOnlyNoExcept⟩
    files := fun _ => .number 4200 }
example : ∃ z', data0.processSensorInputs fileWorld 3600000000000 ["tach"] = .ok z' ∧
    decide (z'.failSafeSensors.find? "tach" = none ∧ (z'.cachedValuesByName.find? "tach").map (·.scaled) = some 4200) = true :=
  ok_of_any (by decide +kernel)

end
end Verif
