import Verif.Spec.Build
import Verif.Lemmas.OMap
import Verif.Lemmas.Fold
import Verif.Props.Json
import Verif.Props.EndToEnd

/-!
# C64 and C79

Zones built from a configuration.
-/

namespace Verif
open Dbl

section
variable [F : FloatModel]

/-! ## C64 -/

theorem addFanInputs_eq : ∀ (is : List SensorInput) (z : ZoneData), z.addFanInputs is =
    { z with fanInputs := z.fanInputs ++ is.map SensorInput.name,
             missingAcceptable := z.missingAcceptable ++ (is.filter SensorInput.missingIsAcceptable).map SensorInput.name }
  | [], z => by simp [ZoneData.addFanInputs]
  | i :: is, z => by
    have := addFanInputs_eq is (z.addFanInput i.name i.missingIsAcceptable)
    rw [ZoneData.addFanInputs] at this ⊢
    rw [List.foldl_cons, this]
    cases h : i.missingIsAcceptable <;> simp [ZoneData.addFanInput, h]

/-- adding a name unless it is there -/
def addOnce (l : List String) (n : String) : List String := if l.contains n then l else l ++ [n]

theorem addThermalInputs_eq : ∀ (is : List SensorInput) (z : ZoneData), z.addThermalInputs is =
    { z with thermalInputs := (is.map SensorInput.name).foldl addOnce z.thermalInputs,
             missingAcceptable := z.missingAcceptable ++ (is.filter SensorInput.missingIsAcceptable).map SensorInput.name }
  | [], z => by simp [ZoneData.addThermalInputs]
  | i :: is, z => by
    have := addThermalInputs_eq is (z.addThermalInput i.name i.missingIsAcceptable)
    rw [ZoneData.addThermalInputs] at this ⊢
    rw [List.foldl_cons, this]
    cases h : i.missingIsAcceptable <;> simp [ZoneData.addThermalInput, h, addOnce]

/-- recording a percentage for a sensor -/
def notePercent (m : OMap String Dbl) (p : String × Dbl) : OMap String Dbl :=
  m.insert p.1 (match m.find? p.1 with
    | some old => Dbl.cmax old p.2
    | none => p.2)

theorem addPidFailSafePercent_eq (p : Dbl) : ∀ (ns : List String) (z : ZoneData), z.addPidFailSafePercent ns p =
    { z with sensorFailSafePercent := (ns.map (fun n => (n, p))).foldl notePercent z.sensorFailSafePercent }
  | [], z => by simp [ZoneData.addPidFailSafePercent]
  | n :: ns, z => by
    rw [ZoneData.addPidFailSafePercent, addPidFailSafePercent_eq p ns]
    rfl

/-- the names of the inputs -/
def inputNames (e : Entry) : List String := e.2.inputs.map SensorInput.name
/-- the names of the inputs that may be missing -/
def lenientNames (e : Entry) : List String := (e.2.inputs.filter SensorInput.missingIsAcceptable).map SensorInput.name
/-- the percentages for the inputs -/
def inputPercents (e : Entry) : List (String × Dbl) := e.2.inputs.map (fun i => (i.name, e.2.failSafePercent))
/-- the control process -/
def processOf (e : Entry) : ProcObj := ⟨true, e.2.setpoint, className e.2.type, "", 0, 0⟩

/-- what an entry adds to the data of a zone -/
def stepData (d : ZoneData) (e : Entry) : ZoneData :=
  { d with
    fanInputs := if IsFan e then d.fanInputs ++ inputNames e else d.fanInputs,
    thermalInputs := if IsHeat e then (inputNames e).foldl addOnce d.thermalInputs else d.thermalInputs,
    missingAcceptable := if IsFan e ∨ IsHeat e then d.missingAcceptable ++ lenientNames e else d.missingAcceptable,
    procs := if IsHeat e then d.procs.insert e.1 (processOf e) else d.procs,
    sensorFailSafePercent := if IsFan e ∨ IsHeat e then (inputPercents e).foldl notePercent d.sensorFailSafePercent
      else d.sensorFailSafePercent }

/-- the loop of an entry that computes a set point -/
def heatOf (e : Entry) : ThermalCtl :=
  if e.2.type = "stepwise" then .stepwise ⟨e.1, inputNames e, e.2.stepwiseInfo, ⟨nan, nan⟩⟩
  else .pid ⟨e.1, e.2.inputs,
    if e.2.type = "margin" then .margin else if e.2.type = "powersum" then .summation else .absolute, e.2.setpoint,
    ⟨⟨e.2.pidInfo, false, 0, 0, 0⟩, nan⟩⟩

theorem heatLoop_heatOf {e : Entry} (h : IsHeat e) : HeatLoop e (heatOf e) := by
  simp only [IsHeat, List.mem_cons, List.not_mem_nil, or_false] at h
  unfold heatOf
  rcases h with h | h | h | h | h
  · have := HeatLoop.absolute (.inl h); simpa [h] using this
  · have := HeatLoop.margin h; simpa [h] using this
  · have := HeatLoop.absolute (.inr h); simpa [h] using this
  · have := HeatLoop.summation h; simpa [h] using this
  · have := HeatLoop.stepwise h; simpa [h, inputNames] using this

theorem not_fan_of_heat {e : Entry} (h : IsHeat e) : ¬ IsFan e := by
  simp only [IsHeat, List.mem_cons, List.not_mem_nil, or_false] at h
  unfold IsFan
  rcases h with h | h | h | h | h <;> rw [h] <;> decide

theorem proc_eq (d : ZoneData) {e : Entry} (h : IsHeat e) :
    d.addPidControlProcess e.1 e.2.type e.2.setpoint = { d with procs := d.procs.insert e.1 (processOf e) } := by
  simp only [IsHeat, List.mem_cons, List.not_mem_nil, or_false] at h
  unfold ZoneData.addPidControlProcess processOf
  rcases h with h | h | h | h | h <;> simp [h, className]

/-- the zone after adding an entry -/
def stepZone (z : Zone) (e : Entry) : Zone :=
  { d := stepData z.d e,
    fans := if IsFan e then z.fans ++ [fanOf e] else z.fans,
    thermals := if IsHeat e then z.thermals ++ [heatOf e] else z.thermals }

theorem createFanPid_eq (e : Entry) : createFanPid e.1 (splitNames e.2.inputs) e.2.pidInfo = fanOf e := by
  unfold createFanPid fanOf
  simp only [splitNames, List.length_map, List.length_eq_zero_iff]
  rfl

theorem percents_eq (e : Entry) : (splitNames e.2.inputs).map (fun n => (n, e.2.failSafePercent)) = inputPercents e := by
  simp [splitNames, inputPercents, Function.comp_def]

theorem addLoop_eq (z : Zone) (e : Entry) :
    (z.addLoop e.1 e.2 = .ok (stepZone z e) ∧ (IsHeat e → e.2.inputs ≠ [])) ∨
      (IsHeat e ∧ e.2.inputs = [] ∧ ∃ s, z.addLoop e.1 e.2 = .error (.exc s)) := by
  by_cases hf : IsFan e
  · left
    have hh : ¬ IsHeat e := fun h => not_fan_of_heat h hf
    have hf' : e.2.type = "fan" := hf
    refine ⟨?_, fun h => absurd h hh⟩
    unfold Zone.addLoop stepZone stepData
    have ho : IsFan e ∨ IsHeat e := .inl hf
    simp only [if_pos hf, if_neg hh, if_pos hf', if_pos ho, addFanInputs_eq, addPidFailSafePercent_eq,
      createFanPid_eq, percents_eq]
    rfl
  · by_cases hh : IsHeat e
    · have hfsp := percents_eq e
      by_cases hi : e.2.inputs = []
      · right
        refine ⟨hh, hi, ?_⟩
        unfold Zone.addLoop
        simp only [IsHeat, List.mem_cons, List.not_mem_nil, or_false] at hh
        rcases hh with h | h | h | h | h <;>
          simp [h, hi, isThermalType, getThermalType, createThermalPid, createStepwiseController, splitNames]
      · left
        refine ⟨?_, fun _ => hi⟩
        have hp := fun d => proc_eq d hh
        unfold Zone.addLoop stepZone stepData
        have ho : IsFan e ∨ IsHeat e := .inr hh
        simp only [if_neg hf, if_pos hh, if_pos ho, addThermalInputs_eq, addPidFailSafePercent_eq, percents_eq, hp]
        have hf' : ¬ e.2.type = "fan" := hf
        simp only [IsHeat, List.mem_cons, List.not_mem_nil, or_false] at hh
        rcases hh with h | h | h | h | h <;>
          simp [h, hi, isThermalType, getThermalType, createThermalPid, createStepwiseController, splitNames, heatOf,
            inputNames, lenientNames, PidCtl.fresh, initializePIDStruct, StepState.init]
    · left
      refine ⟨?_, fun h => absurd h hh⟩
      unfold Zone.addLoop stepZone stepData
      have hf' : ¬ e.2.type = "fan" := hf
      have h1 : isThermalType e.2.type = false := by
        simp only [IsHeat, List.mem_cons, List.not_mem_nil, or_false, not_or] at hh
        simp [isThermalType, hh]
      have h2 : ¬ e.2.type = "stepwise" := by
        simp only [IsHeat, List.mem_cons, List.not_mem_nil, or_false, not_or] at hh
        exact hh.2.2.2.2
      have ho : ¬ (IsFan e ∨ IsHeat e) := by rintro (h | h); exacts [hf h, hh h]
      simp only [if_neg hf, if_neg hf', if_neg hh, h1, if_neg h2, if_neg ho, if_false, Bool.false_eq_true]

theorem addLoops_ok : ∀ {l : List Entry} {z z' : Zone}, Zone.addLoops z l = .ok z' →
    z' = l.foldl stepZone z ∧ ∀ e ∈ l, IsHeat e → e.2.inputs ≠ []
  | [], z, z', h => by injection h with h; exact ⟨h.symm, by simp⟩
  | e :: l, z, z', h => by
    obtain ⟨z1, h1, h⟩ := bind_eq_ok.1 h
    rcases addLoop_eq z e with ⟨h2, h3⟩ | ⟨-, -, s, h2⟩
    · have : z1 = stepZone z e := by rw [h2] at h1; injection h1 with h1; exact h1.symm
      subst this
      obtain ⟨h4, h5⟩ := addLoops_ok h
      exact ⟨h4, List.forall_mem_cons.2 ⟨h3, h5⟩⟩
    · rw [h2] at h1; cases h1

theorem addLoops_total : ∀ {l : List Entry} {z : Zone}, (∀ e ∈ l, IsHeat e → e.2.inputs ≠ []) →
    Zone.addLoops z l = .ok (l.foldl stepZone z)
  | [], z, _ => rfl
  | e :: l, z, h => by
    obtain ⟨h1, h2⟩ := List.forall_mem_cons.1 h
    rw [Zone.addLoops]
    rcases addLoop_eq z e with ⟨h3, -⟩ | ⟨h3, h4, -⟩
    · rw [h3, ok_bind]; exact addLoops_total h2
    · exact absurd h4 (h1 h3)

theorem addLoops_exc {s : String} : ∀ {l : List Entry} {z : Zone}, Zone.addLoops z l ≠ .error (.ub s)
  | [], z => by simp [Zone.addLoops]
  | e :: l, z => by
    intro h
    rcases bind_eq_err.1 h with h | ⟨z', -, h⟩
    · rcases addLoop_eq z e with ⟨h1, -⟩ | ⟨-, -, s', h1⟩ <;> rw [h1] at h <;> cases h
    · exact addLoops_exc h

/-! The fields of a zone after a list of entries -/

theorem fold_fans : ∀ (l : List Entry) (z : Zone), (l.foldl stepZone z).fans = z.fans ++ (l.filter IsFan).map fanOf
  | [], z => by simp
  | e :: l, z => by
    rw [List.foldl_cons, fold_fans l]
    by_cases h : IsFan e <;> simp [stepZone, h]

theorem fold_thermals : ∀ (l : List Entry) (z : Zone),
    (l.foldl stepZone z).thermals = z.thermals ++ (l.filter IsHeat).map heatOf
  | [], z => by simp
  | e :: l, z => by
    rw [List.foldl_cons, fold_thermals l]
    by_cases h : IsHeat e <;> simp [stepZone, h]

theorem fold_d : ∀ (l : List Entry) (z : Zone), (l.foldl stepZone z).d = l.foldl stepData z.d
  | [], z => rfl
  | e :: l, z => by rw [List.foldl_cons, fold_d l]; rfl

theorem fold_frame : ∀ (l : List Entry) (d : ZoneData), ∃ f t m p s, l.foldl stepData d =
    { d with fanInputs := f, thermalInputs := t, missingAcceptable := m, procs := p, sensorFailSafePercent := s }
  | [], d => ⟨_, _, _, _, _, rfl⟩
  | e :: l, d => by
    obtain ⟨f, t, m, p, s, h⟩ := fold_frame l (stepData d e)
    exact ⟨f, t, m, p, s, by rw [List.foldl_cons, h]; rfl⟩

theorem fold_fanInputs : ∀ (l : List Entry) (d : ZoneData),
    (l.foldl stepData d).fanInputs = d.fanInputs ++ (l.filter IsFan).flatMap inputNames
  | [], d => by simp
  | e :: l, d => by
    rw [List.foldl_cons, fold_fanInputs l]
    by_cases h : IsFan e <;> simp [stepData, h]

theorem fold_missing : ∀ (l : List Entry) (d : ZoneData), (l.foldl stepData d).missingAcceptable =
    d.missingAcceptable ++ (l.filter (fun e => IsFan e ∨ IsHeat e)).flatMap lenientNames
  | [], d => by simp
  | e :: l, d => by
    rw [List.foldl_cons, fold_missing l]
    by_cases h : IsFan e ∨ IsHeat e <;> simp [stepData, h]

theorem fold_thermalInputs : ∀ (l : List Entry) (d : ZoneData), (l.foldl stepData d).thermalInputs =
    ((l.filter IsHeat).flatMap inputNames).foldl addOnce d.thermalInputs
  | [], d => by simp
  | e :: l, d => by
    rw [List.foldl_cons, fold_thermalInputs l]
    by_cases h : IsHeat e <;> simp [stepData, h, List.foldl_append]

theorem fold_percents : ∀ (l : List Entry) (d : ZoneData), (l.foldl stepData d).sensorFailSafePercent =
    ((l.filter (fun e => IsFan e ∨ IsHeat e)).flatMap inputPercents).foldl notePercent d.sensorFailSafePercent
  | [], d => by simp
  | e :: l, d => by
    rw [List.foldl_cons, fold_percents l]
    by_cases h : IsFan e ∨ IsHeat e <;> simp [stepData, h, List.foldl_append]

theorem addOnce_eraseDups (l : List String) : ∀ ns : List String,
    ns.foldl addOnce l.eraseDups = (l ++ ns).eraseDups := by
  intro ns
  induction ns generalizing l with
  | nil => simp
  | cons n ns ih =>
    have : addOnce l.eraseDups n = (l ++ [n]).eraseDups := by
      rw [List.eraseDups_append, addOnce]
      by_cases h : n ∈ l
      · have h2 : ([n] : List String).removeAll l = [] := by simp [List.removeAll, h]
        rw [if_pos (by simpa using h), h2]
        simp
      · have h2 : ([n] : List String).removeAll l = [n] := by simp [List.removeAll, h]
        rw [if_neg (by simpa using h), h2]
        simp [List.eraseDups_cons]
    rw [List.foldl_cons, this, ih, List.append_assoc, List.singleton_append]

theorem nodup_addOnce : ∀ (ns l : List String), l.Nodup → (ns.foldl addOnce l).Nodup
  | [], l, h => h
  | n :: ns, l, h => by
    rw [List.foldl_cons]
    apply nodup_addOnce
    unfold addOnce
    by_cases hn : n ∈ l
    · rwa [if_pos (by simpa using hn)]
    · rw [if_neg (by simpa using hn)]
      exact List.nodup_append.2 ⟨h, List.nodup_singleton n, by simpa using fun a ha (e : a = n) => hn (e ▸ ha)⟩

theorem nodup_eraseDups (l : List String) : l.eraseDups.Nodup := by
  have := addOnce_eraseDups [] l
  rw [List.nil_append] at this
  rw [← this]
  exact nodup_addOnce l _ (by simp)

theorem notePercent_find? (s : String) : ∀ (ps : List (String × Dbl)) (m : OMap String Dbl),
    (ps.foldl notePercent m).find? s =
      match m.find? s, (ps.filter (fun p => p.1 = s)).map Prod.snd with
      | some o, l => some (l.foldl Dbl.cmax o)
      | none, [] => none
      | none, p :: l => some (l.foldl Dbl.cmax p)
  | [], m => by cases h : m.find? s <;> simp [h]
  | (n, p) :: ps, m => by
    rw [List.foldl_cons, notePercent_find? s ps]
    unfold notePercent
    by_cases h : s = n
    · subst h
      rw [OMap.find?_insert, if_pos rfl]
      cases hm : m.find? s <;> simp [hm]
    · rw [OMap.find?_insert_ne _ h, List.filter_cons_of_neg (by simpa using fun e => h e.symm)]

theorem fold_procs_of_notMem : ∀ (l : List Entry) (d : ZoneData) (n : String), (∀ e ∈ l, e.1 ≠ n) →
    (l.foldl stepData d).procs.find? n = d.procs.find? n
  | [], d, n, _ => rfl
  | e :: l, d, n, h => by
    obtain ⟨h1, h2⟩ := List.forall_mem_cons.1 h
    rw [List.foldl_cons, fold_procs_of_notMem l _ n h2]
    unfold stepData
    by_cases hh : IsHeat e
    · simp only [if_pos hh]; exact OMap.find?_insert_ne _ (fun e => h1 e.symm) _
    · simp only [if_neg hh]

theorem fold_procs : ∀ (l : List Entry) (d : ZoneData), (l.map Prod.fst).Nodup → ∀ n p,
    (l.foldl stepData d).procs.find? n = some p ↔
      (∃ e ∈ l, IsHeat e ∧ e.1 = n ∧ p = processOf e) ∨
      ((∀ e ∈ l, IsHeat e → e.1 ≠ n) ∧ d.procs.find? n = some p)
  | [], d, _, n, p => by simp
  | e :: l, d, hn, n, p => by
    obtain ⟨h1, h2⟩ := List.nodup_cons.1 hn
    rw [List.foldl_cons, fold_procs l _ h2]
    have hne : e.1 = n → ∀ e' ∈ l, e'.1 ≠ n := by
      rintro rfl e' he' h
      exact h1 (h ▸ List.mem_map_of_mem he')
    simp only [List.exists_mem_cons_iff, List.forall_mem_cons]
    have hp : (stepData d e).procs = if IsHeat e then d.procs.insert e.1 (processOf e) else d.procs := rfl
    rw [hp]
    by_cases hh : IsHeat e
    · rw [if_pos hh, OMap.find?_insert]
      by_cases he : n = e.1
      · subst he
        have hne := hne rfl
        rw [if_pos rfl]
        constructor
        · rintro (⟨e', he', -, h, -⟩ | ⟨-, h⟩)
          · exact absurd h (hne e' he')
          · injection h with h
            exact .inl (.inl ⟨hh, rfl, h.symm⟩)
        · rintro ((⟨-, -, h⟩ | ⟨e', he', -, h, -⟩) | ⟨⟨h, -⟩, -⟩)
          · exact .inr ⟨fun e' he' _ => hne e' he', by rw [h]⟩
          · exact absurd h (hne e' he')
          · exact absurd rfl (h hh)
      · rw [if_neg he]
        have : ¬ e.1 = n := fun h => he h.symm
        simp [hh, this]
    · rw [if_neg hh]
      simp [hh]

/-- **C64.** A zone is built exactly as configured: its settings, the supported loops in name order with their own
inputs and settings, a control process for every loop that computes a set point, every thermal input once. -/
theorem C64_zone {configs : OMap Int ZoneConfig} {id : Int} {conf : PIDConf} {z : Zone} (hw : conf.WF)
    (h : buildZone configs id conf = .ok z) : ∃ c, configs.find? id = some c ∧ NewZone id c conf.entries z := by
  unfold buildZone at h
  cases hc : configs.find? id with
  | none => rw [hc] at h; cases h
  | some c =>
    simp only [hc] at h
    refine ⟨c, rfl, ?_⟩
    obtain ⟨rfl, hin⟩ := addLoops_ok h
    have hnd : (conf.entries.map Prod.fst).Nodup := OMap.wf_nodup hw
    obtain ⟨f, t, m, p, s, hfr⟩ := fold_frame conf.entries
      (ZoneData.ctor id c.minThermalOutput c.failsafePercent c.cycleTime c.accumulateSetPoint)
    have hth : (conf.entries.foldl stepData
        (ZoneData.ctor id c.minThermalOutput c.failsafePercent c.cycleTime c.accumulateSetPoint)).thermalInputs =
        ((conf.entries.filter IsHeat).flatMap inputNames).eraseDups := by
      rw [fold_thermalInputs]
      have := addOnce_eraseDups [] ((conf.entries.filter IsHeat).flatMap inputNames)
      simpa [ZoneData.ctor] using this
    have hmem : ∀ n, n ∈ ((conf.entries.filter IsHeat).flatMap inputNames).eraseDups ↔
        ∃ e ∈ conf.entries, IsHeat e ∧ ∃ i ∈ e.2.inputs, i.name = n := by
      intro n
      simp [inputNames, and_assoc]
    constructor
    all_goals first
      | (rw [fold_d, hfr]; first | rfl | exact ⟨rfl, rfl, rfl⟩)
      | skip
    · rw [fold_fans]; rfl
    · rw [fold_thermals]
      simp only [List.nil_append, List.forall₂_map_right_iff]
      exact List.forall₂_same.2 fun e he => heatLoop_heatOf (by simpa using (List.mem_filter.1 he).2)
    · rw [fold_d, fold_fanInputs]; rfl
    · rw [fold_d, hth]; exact nodup_eraseDups _
    · intro n; rw [fold_d, hth]; exact hmem n
    · rw [fold_d, hth]; rfl
    · intro n
      rw [fold_d, fold_missing]
      simp [ZoneData.ctor, lenientNames, and_assoc, and_left_comm, and_comm]
    · intro n q
      rw [fold_d, fold_procs _ _ hnd]
      simp [ZoneData.ctor, OMap.find?_empty, processOf]
    · intro n
      rw [fold_d, fold_percents, notePercent_find?]
      have hp : ((conf.entries.filter (fun e => IsFan e ∨ IsHeat e)).flatMap inputPercents |>.filter
        (fun p => p.1 = n)).map Prod.snd = percentsFor n conf.entries := rfl
      rw [hp]
      simp only [ZoneData.ctor, OMap.find?_empty]
      cases percentsFor n conf.entries <;> rfl

theorem buildZone_total {configs : OMap Int ZoneConfig} {id : Int} {conf : PIDConf} :
    (∃ z, buildZone configs id conf = .ok z) ↔
      (∃ c, configs.find? id = some c) ∧ ∀ e ∈ conf.entries, IsHeat e → e.2.inputs ≠ [] := by
  unfold buildZone
  cases hc : configs.find? id with
  | none => simp
  | some c =>
    simp only [Option.some.injEq, exists_eq', true_and]
    exact ⟨fun ⟨z, h⟩ => (addLoops_ok h).2, fun h => ⟨_, addLoops_total h⟩⟩

theorem buildZone_exc {configs : OMap Int ZoneConfig} {id : Int} {conf : PIDConf} {s : String} :
    buildZone configs id conf ≠ .error (.ub s) := by
  unfold buildZone
  cases hc : configs.find? id with
  | none => simp
  | some c => exact addLoops_exc

theorem buildZoneList_find? {configs : OMap Int ZoneConfig} : ∀ {l : List (Int × PIDConf)} {zs zs' : OMap Int Zone},
    (l.map Prod.fst).Nodup → buildZoneList configs zs l = .ok zs' → ∀ id,
      (∀ conf, (id, conf) ∈ l → ∃ z, zs'.find? id = some z ∧ buildZone configs id conf = .ok z) ∧
      ((∀ e ∈ l, e.1 ≠ id) → zs'.find? id = zs.find? id)
  | [], zs, zs', _, h, id => by
    injection h with h
    subst h
    simp
  | (id0, conf0) :: l, zs, zs', hn, h, id => by
    obtain ⟨h1, h2⟩ := List.nodup_cons.1 hn
    obtain ⟨z, hz, h⟩ := bind_eq_ok.1 h
    obtain ⟨a, b⟩ := buildZoneList_find? h2 h id
    refine ⟨fun conf hm => ?_, fun hne => ?_⟩
    · rcases List.mem_cons.1 hm with he | hm
      · obtain ⟨rfl, rfl⟩ := Prod.mk.inj he
        refine ⟨z, ?_, hz⟩
        rw [b (fun e he heq => h1 (List.mem_map.2 ⟨e, he, heq⟩)), OMap.find?_insert, if_pos rfl]
      · exact a conf hm
    · obtain ⟨h3, h4⟩ := List.forall_mem_cons.1 hne
      rw [b h4, OMap.find?_insert_ne _ (fun e => h3 e.symm)]

theorem buildZoneList_total {configs : OMap Int ZoneConfig} : ∀ {l : List (Int × PIDConf)} {zs : OMap Int Zone},
    (∃ zs', buildZoneList configs zs l = .ok zs') ↔ ∀ e ∈ l, ∃ z, buildZone configs e.1 e.2 = .ok z
  | [], zs => by simp [buildZoneList]
  | (id0, conf0) :: l, zs => by
    rw [List.forall_mem_cons]
    constructor
    · rintro ⟨zs', h⟩
      obtain ⟨z, hz, h⟩ := bind_eq_ok.1 h
      exact ⟨⟨z, hz⟩, buildZoneList_total.1 ⟨_, h⟩⟩
    · rintro ⟨⟨z, hz⟩, h⟩
      rw [buildZoneList, hz, ok_bind]
      exact buildZoneList_total.2 h

/-- **C64.** There is one zone for every configured number, built from its own loops and details. -/
theorem C64_zones {pids : OMap Int PIDConf} {configs : OMap Int ZoneConfig} {zones : OMap Int Zone} (hw : pids.WF)
    (hc : ∀ e ∈ pids.entries, OMap.WF e.2) (h : buildZones pids configs = .ok zones) (id : Int) :
    (∀ conf, pids.find? id = some conf → ∃ z c, zones.find? id = some z ∧ configs.find? id = some c ∧
      NewZone id c conf.entries z) ∧
    (pids.find? id = none → zones.find? id = none) := by
  obtain ⟨h1, h2⟩ := buildZoneList_find? (OMap.wf_nodup hw) h id
  refine ⟨fun conf hf => ?_, fun hf => ?_⟩
  · have hm := (OMap.mem_entries_iff hw id conf).2 hf
    obtain ⟨z, hz, hb⟩ := h1 conf hm
    obtain ⟨c, hc1, hn⟩ := C64_zone (hc _ hm) hb
    exact ⟨z, c, hz, hc1, hn⟩
  · rw [h2 ((OMap.lookupL_none_iff _ _).1 hf), OMap.find?_empty]

/-- **C64.** Zones are built exactly if all have their details and all loops that compute set points have inputs; otherwise
the error is an exception. -/
theorem C64_builds (pids : OMap Int PIDConf) (configs : OMap Int ZoneConfig) :
    ((∃ zones, buildZones pids configs = .ok zones) ↔ ∀ e ∈ pids.entries,
      (∃ c, configs.find? e.1 = some c) ∧ ∀ l ∈ e.2.entries, IsHeat l → l.2.inputs ≠ []) ∧
    ∀ s, buildZones pids configs ≠ .error (.ub s) := by
  constructor
  · rw [buildZones, buildZoneList_total]
    simp only [buildZone_total]
  · intro s
    unfold buildZones
    generalize ({} : OMap Int Zone) = zs
    induction pids.entries generalizing zs with
    | nil => simp [buildZoneList]
    | cons e l ih =>
      intro h
      rcases bind_eq_err.1 h with h | ⟨z, -, h⟩
      · exact buildZone_exc h
      · exact ih _ h

/-- **C64, finding.** A loop of any other type (a misspelt one, for example) is dropped without an error. -/
theorem C64_unknown_dropped {e : Entry} (h1 : ¬ IsFan e) (h2 : ¬ IsHeat e) (before after : List Entry) (z : Zone) :
    z.addLoops (before ++ e :: after) = z.addLoops (before ++ after) := by
  have hs : ∀ z, stepZone z e = z := fun z => by simp [stepZone, stepData, h1, h2]
  induction before generalizing z with
  | nil =>
    rw [List.nil_append, List.nil_append, Zone.addLoops]
    rcases addLoop_eq z e with ⟨h, -⟩ | ⟨h, -⟩
    · rw [h, ok_bind, hs]
    · exact absurd h h2
  | cons b before ih =>
    rw [List.cons_append, List.cons_append, Zone.addLoops, Zone.addLoops]
    cases z.addLoop b.1 b.2 with
    | error => rfl
    | ok z => exact ih z

theorem gather_all {α κ : Type} [LT κ] [DecidableEq κ] [DecidableLT κ] [OMap.StrictOrd κ] {g : Json → Res (κ × α)} {P : α → Prop}
    (hg : ∀ e r, g e = .ok r → P r.2) : ∀ {es : List Json} {m m' : OMap κ α}, (∀ e ∈ m.entries, P e.2) →
    gather g m es = .ok m' → ∀ e ∈ m'.entries, P e.2
  | [], m, m', hm, h => by injection h with h; exact h ▸ hm
  | e :: es, m, m', hm, h => by
    obtain ⟨r, hr, h⟩ := bind_eq_ok.1 h
    refine gather_all hg (fun e he => ?_) h
    rcases OMap.mem_insertL he with rfl | he
    · exact hg _ _ hr
    · exact hm e he

theorem buildPIDs_wf {data : Json} {pids : OMap Int PIDConf} {configs : OMap Int ZoneConfig}
    (h : buildPIDsFromJson data = .ok (pids, configs)) : pids.WF ∧ ∀ e ∈ pids.entries, OMap.WF e.2 := by
  obtain ⟨z, hz, h⟩ := bind_eq_ok.1 h
  obtain ⟨h1, -, -⟩ := zonesFromList_gather h
  refine ⟨gather_wf OMap.wf_empty h1, gather_all (P := fun c => OMap.WF c) (fun e r hr => ?_) (fun e he => by cases he) h1⟩
  obtain ⟨⟨n, conf, c⟩, hr', rfl⟩ := map_ok.1 hr
  exact loopsOf_wf (zoneFromJson_iff.1 hr').2.2

/-- **C64.** From a configuration file: every zone entry (the last one, if a number is repeated) gets its zone. -/
theorem C64_from_json {data : Json} {pids : OMap Int PIDConf} {configs : OMap Int ZoneConfig} {zones : OMap Int Zone}
    (h1 : buildPIDsFromJson data = .ok (pids, configs)) (h2 : buildZones pids configs = .ok zones) :
    ∃ j es, Member data "zones" j ∧ Entries j es ∧
      (∀ id z, zones.find? id = some z → ∃ c conf, LastNamed Numbering ZoneEntry es id c ∧
        LastNamed Numbering LoopsEntry es id conf ∧ conf.WF ∧ NewZone id c conf.entries z) ∧
      ∀ id, (∃ e ∈ es, Numbering e id) → ∃ z, zones.find? id = some z := by
  obtain ⟨hw, hws⟩ := buildPIDs_wf h1
  obtain ⟨j, es, hj, he, hz, hp, hpz⟩ := C62_zones h1
  refine ⟨j, es, hj, he, fun id z hf => ?_, fun id ⟨e, hm, hn⟩ => ?_⟩
  · obtain ⟨a, b⟩ := C64_zones hw hws h2 id
    cases hc : pids.find? id with
    | none => rw [b hc] at hf; cases hf
    | some conf =>
      obtain ⟨z', c, hz', hc', hn⟩ := a conf hc
      rw [hf] at hz'
      injection hz' with hz'
      subst hz'
      exact ⟨c, conf, (hz id c).1 hc', hp id conf hc, hws _ ((OMap.mem_entries_iff hw id conf).2 hc), hn⟩
  · obtain ⟨z0, hz0, h1⟩ := bind_eq_ok.1 h1
    obtain ⟨-, -, h3⟩ := zonesFromList_gather h1
    have hje : es = z0.elems := by
      rw [member_unique hj (index_iff.1 hz0)] at he
      exact (entries_iff.1 he).symm
    have key : ∃ c, LastNamed Numbering ZoneEntry es id c := by
      rw [← hje] at h3
      clear hz hp hpz hje he
      induction es generalizing e with
      | nil => cases hm
      | cons a es ih =>
        by_cases hl : ∃ e ∈ es, Numbering e id
        · obtain ⟨e', hm', hn'⟩ := (show _ from hl)
          obtain ⟨c, pre, x, post, rfl, h⟩ := ih hl e' hm' hn' (fun e he => h3 e (List.mem_cons_of_mem _ he))
          exact ⟨c, a :: pre, x, post, rfl, h⟩
        · have ha : e = a := by
            rcases List.mem_cons.1 hm with h | h
            · exact h
            · exact absurd ⟨e, h, hn⟩ hl
          subst ha
          obtain ⟨⟨n, conf, c⟩, hr⟩ := h3 e List.mem_cons_self
          obtain ⟨-, h5, -⟩ := zoneFromJson_iff.1 hr
          exact ⟨c, [], e, es, rfl, hn, h5, fun e' he' hn' => hl ⟨e', he', hn'⟩⟩
    obtain ⟨c, hc⟩ := key
    obtain ⟨conf, hconf⟩ := (hpz id).2 ⟨c, (hz id c).2 hc⟩
    obtain ⟨z, -, hz, -⟩ := (C64_zones hw hws h2 id).1 conf hconf
    exact ⟨z, hz⟩

/-! ## C79 -/

theorem newZone_ok {id : Int} {c : ZoneConfig} {conf : List Entry} {z : Zone} (h : NewZone id c conf z)
    (hr : Runnable conf) (hi : ∀ e ∈ conf, IsHeat e → e.2.inputs ≠ []) : ZoneOk z := by
  have hth : ∀ t ∈ z.thermals, ∃ e ∈ conf, IsHeat e ∧ HeatLoop e t := by
    intro t ht
    obtain ⟨e, he, hl⟩ : ∃ e ∈ conf.filter IsHeat, HeatLoop e t := by
      have h3 := h.thermals
      clear h hr hi
      generalize z.thermals = ts at h3 ht
      generalize conf.filter (fun b => decide (IsHeat b)) = es at h3
      induction h3 with
      | nil => cases ht
      | cons hab _ ih =>
        rcases List.mem_cons.1 ht with rfl | ht
        · exact ⟨_, List.mem_cons_self, hab⟩
        · obtain ⟨e, he, hl⟩ := ih ht
          exact ⟨e, List.mem_cons_of_mem _ he, hl⟩
    obtain ⟨h1, h2⟩ := List.mem_filter.1 he
    exact ⟨e, h1, by simpa using h2, hl⟩
  have hin : ∀ e ∈ conf, IsHeat e → ∀ i ∈ e.2.inputs, i.name ∈ z.d.thermalInputs :=
    fun e he hh i hi => (h.thermalInputs_mem _).2 ⟨e, he, hh, i, hi, rfl⟩
  have hpr : ∀ e ∈ conf, IsHeat e → ∃ p, z.d.procs.find? e.1 = some p :=
    fun e he hh => ⟨_, (h.processes _ _).2 ⟨e, he, hh, rfl, rfl⟩⟩
  constructor
  · intro f hf
    rw [h.fans] at hf
    obtain ⟨e, he, rfl⟩ := List.mem_map.1 hf
    obtain ⟨h1, h2⟩ := List.mem_filter.1 he
    have h2 : IsFan e := by simpa using h2
    unfold fanOf
    rw [if_neg (hr.1 e h1 h2)]
    refine ⟨_, rfl, fun n hn => ?_⟩
    rw [h.fanInputs]
    exact List.mem_flatMap.2 ⟨e, he, hn⟩
  · intro p hp
    obtain ⟨e, he, hh, hl⟩ := hth _ hp
    have fin : ∀ t, p = ⟨e.1, e.2.inputs, t, e.2.setpoint, ⟨⟨e.2.pidInfo, false, 0, 0, 0⟩, nan⟩⟩ →
        (t = .margin → e.2.type = "margin") → p.inputs ≠ [] ∧
        (∀ i ∈ p.inputs, i.name ∈ z.d.fanInputs ∨ i.name ∈ z.d.thermalInputs) ∧
        (∃ q, z.d.procs.find? p.id = some q) ∧
        (p.type = .margin → ∀ i ∈ p.inputs, i.convertTempToMargin = true → i.convertMarginZero.isFinite = true) := by
      rintro t rfl ht
      exact ⟨hi e he hh, fun i hi => .inr (hin e he hh i hi), hpr e he hh, fun h => hr.2 e he (ht h)⟩
    cases hl with
    | margin h => exact fin _ rfl fun _ => h
    | absolute h => exact fin _ rfl fun h => by cases h
    | summation h => exact fin _ rfl fun h => by cases h
  · intro p hp
    obtain ⟨e, he, hh, hl⟩ := hth _ hp
    cases hl with
    | stepwise h =>
      refine ⟨fun n hn => ?_, fun _ => hpr e he hh⟩
      obtain ⟨i, hi, rfl⟩ := List.mem_map.1 hn
      exact .inr (hin e he hh i hi)

/-- **C79.** A zone built from a runnable configuration starts in every usable world, and afterwards every tick in a usable
world completes, whatever happened before, up to the conversion of a fan command to an integer. -/
theorem C79_runs {pids : OMap Int PIDConf} {configs : OMap Int ZoneConfig} {zones : OMap Int Zone} (hw : pids.WF)
    (hc : ∀ e ∈ pids.entries, OMap.WF e.2) (h : buildZones pids configs = .ok zones) {id : Int} {conf : PIDConf} {z : Zone}
    (hp : pids.find? id = some conf) (hz : zones.find? id = some z) (hr : Runnable conf.entries) {o : Opts} {w0 : World}
    (hw0 : WorldOk o w0 z) :
    ∃ z0, z.start o w0 = .ok z0 ∧ ∀ z1, OkTicks o z0 z1 → ∀ w, WorldOk o w z1 → ∀ cnt,
      (∃ r, z1.tick o w cnt = .ok r) ∨
        ∃ e, (e = .ub "cast to int64_t" ∨ e = .ub "cast to uint64_t") ∧ z1.tick o w cnt = .error e := by
  obtain ⟨z', c, hz', hc', hn⟩ := (C64_zones hw hc h id).1 conf hp
  rw [hz] at hz'
  injection hz' with hz'
  subst hz'
  have hm := (OMap.mem_entries_iff hw id conf).2 hp
  have hi := ((C64_builds pids configs).1.1 ⟨zones, h⟩ _ hm).2
  obtain ⟨z0, h0, hok⟩ := C43_start (newZone_ok hn hr hi) hw0
  exact ⟨z0, h0, fun z1 h1 w hw cnt => C43_run hok h1 hw cnt⟩

theorem processFanList_null {o : Opts} {fs : List (Option FanPid)} {w : World} {d : ZoneData} (h : none ∈ fs) :
    ∀ r, processFanList o w d fs ≠ .ok r := by
  induction fs generalizing w d with
  | nil => cases h
  | cons f fs ih =>
    intro r he
    cases f with
    | none => cases he
    | some f =>
      obtain ⟨x, -, he⟩ := bind_eq_ok.1 he
      obtain ⟨y, hy, -⟩ := bind_eq_ok.1 he
      exact ih (by simpa using h) _ hy

/-- **C79, finding.** A fan loop without fans is built without an error, but then no tick of the zone completes (outside
manual mode): the null pointer kept for the loop is used. -/
theorem C79_empty_fan_loop {id : Int} {c : ZoneConfig} {conf : List Entry} {z : Zone} (hn : NewZone id c conf z)
    {e : Entry} (he : e ∈ conf) (hf : IsFan e) (hi : e.2.inputs = []) :
    none ∈ z.fans ∧ ∀ (z1 : Zone) (o : Opts) (w : World) (cnt : Nat), none ∈ z1.fans → z1.d.manualMode = false →
      ∀ r, z1.tick o w cnt ≠ .ok r := by
  constructor
  · rw [hn.fans]
    refine List.mem_map.2 ⟨e, List.mem_filter.2 ⟨he, by simpa using hf⟩, ?_⟩
    rw [fanOf, if_pos hi]
  · intro z1 o w cnt hnull hm r h
    obtain ⟨w', z', cnt'⟩ := r
    have key : ∀ {z2 : Zone}, none ∈ z2.fans → ∀ r, z2.processFans o w ≠ .ok r := by
      intro z2 h2 r h
      obtain ⟨x, hx, -⟩ := bind_eq_ok.1 h
      exact processFanList_null h2 _ hx
    obtain ⟨d, hd, ⟨-, zt, h3, h4, -⟩ | ⟨-, h3, -⟩⟩ := tick_auto hm h
    · exact key ((thermalTick_flags h3).2.2 ▸ hnull) _ h4
    · exact key (z2 := { z1 with d := d }) hnull _ h3

/-! ## C80 -/

theorem foldl_built {α : Type} {f : ZoneData → α → ZoneData} (hf : ∀ d a, Built d → Built (f d a)) :
    ∀ (l : List α) {d : ZoneData}, Built d → Built (l.foldl f d)
  | [], _, h => h
  | a :: l, _, h => foldl_built hf l (hf _ a h)

theorem addLoop_built {z z' : Zone} {n : String} {i : ControllerInfo} (hb : Built z.d) (h : z.addLoop n i = .ok z') :
    Built z'.d := by
  unfold Zone.addLoop at h
  split_ifs at h
  · injection h with h
    subst h
    exact .failSafePercent _ _ (foldl_built (fun _ _ h => .fanInput _ _ h) _ hb)
  · obtain ⟨t, -, h⟩ := bind_eq_ok.1 h
    obtain ⟨p, -, h⟩ := bind_eq_ok.1 h
    injection h with h
    subst h
    exact .failSafePercent _ _ (.process _ _ _ (foldl_built (fun _ _ h => .thermalInput _ _ h) _ hb))
  · obtain ⟨p, -, h⟩ := bind_eq_ok.1 h
    injection h with h
    subst h
    exact .failSafePercent _ _ (.process _ _ _ (foldl_built (fun _ _ h => .thermalInput _ _ h) _ hb))
  · injection h with h
    exact h ▸ hb

theorem addLoops_built : ∀ {l : List Entry} {z z' : Zone}, Built z.d → z.addLoops l = .ok z' → Built z'.d
  | [], z, z', hb, h => by injection h with h; exact h ▸ hb
  | e :: l, z, z', hb, h => by
    obtain ⟨z1, h1, h⟩ := bind_eq_ok.1 h
    exact addLoops_built (addLoop_built hb h1) h

theorem buildZone_built {configs : OMap Int ZoneConfig} {id : Int} {conf : PIDConf} {z : Zone}
    (h : buildZone configs id conf = .ok z) : Built z.d := by
  unfold buildZone at h
  split at h
  · cases h
  · exact addLoops_built (.ctor _ _ _ _ _) h

theorem percentOf_of {id : Int} {c : ZoneConfig} {conf : List Entry} {z : Zone} (hn : NewZone id c conf z) {s : String}
    (hp : ∀ p ∈ percentsFor s conf, p ≠ nan) : PercentFor c conf s (percentOf z.d s) := by
  have h := hn.percents s
  unfold percentOf
  rw [hn.failsafePercent]
  cases hl : percentsFor s conf with
  | nil =>
    rw [hl] at h
    rw [h]
    exact .zone hl
  | cons p ps =>
    rw [hl] at h hp
    rw [h]
    have hL : Largest (· ∈ percentsFor s conf) (ps.foldl cmax p) := by
      rw [hl]
      obtain ⟨h1, h2⟩ := foldl_cmax_largest ps (hp p List.mem_cons_self)
      refine ⟨?_, fun x hx => h2 x ?_⟩
      · rcases h1 with h1 | ⟨h1, -⟩
        · rw [h1]; exact List.mem_cons_self
        · exact List.mem_cons_of_mem _ h1
      · rcases List.mem_cons.1 hx with hx' | hx'
        · exact .inl hx'
        · exact .inr ⟨hx', hp x hx⟩
    dsimp only
    split_ifs with h0
    · exact .zero (h0 ▸ hL)
    · exact .own hL h0

theorem percentFor_unique {c : ZoneConfig} {conf : List Entry} {s : String} {p q : Dbl} (hp : PercentFor c conf s p)
    (hq : PercentFor c conf s q) : p = q := by
  have anti : ∀ {P : Dbl → Prop} {x y : Dbl}, Largest P x → Largest P y → x = y :=
    fun h1 h2 => Dbl.le_antisymm (h2.2 _ h1.1) (h1.2 _ h2.1)
  have nil : ∀ {x : Dbl}, percentsFor s conf = [] → Largest (· ∈ percentsFor s conf) x → False := by
    intro x h1 h2
    rw [h1] at h2
    cases h2.1
  cases hp with
  | own h1 h2 => cases hq with
    | own h3 _ => exact anti h1 h3
    | zero h3 => exact absurd (anti h1 h3) h2
    | zone h3 => exact (nil h3 h1).elim
  | zero h1 => cases hq with
    | own h3 h4 => exact absurd (anti h3 h1) h4
    | zero => rfl
    | zone => rfl
  | zone h1 => cases hq with
    | own h3 h4 => exact (nil h1 h3).elim
    | zero => rfl
    | zone => rfl

/-- **C80.** Failsafe as configured: in a zone built from a configuration, when a thermal input that has to be there fails
in every tick from some point on, then after ceil(T/F) automatic ticks every further automatic tick commands every fan it
can write at least the percentage the configuration sets for that input. (No tuning; percentages are numbers.) -/
theorem C80_failsafe {pids : OMap Int PIDConf} {configs : OMap Int ZoneConfig} {zones : OMap Int Zone} (hw : pids.WF)
    (hc : ∀ e ∈ pids.entries, OMap.WF e.2) (h : buildZones pids configs = .ok zones) {id : Int} {conf : PIDConf}
    {c : ZoneConfig} {zb : Zone} (hp : pids.find? id = some conf) (hcc : configs.find? id = some c)
    (hz : zones.find? id = some zb) {s : String} (hs : MustRead conf.entries s)
    (hnum : ∀ e ∈ conf.entries, e.2.failSafePercent ≠ nan) (hzn : c.failsafePercent ≠ nan)
    (hF : 1 ≤ c.cycleTime.cycleIntervalTimeMS) {o : Opts} (ho : o.tuningEnabled = false)
    {z0 z z' : Zone} {cnt0 n cnt cnt' : Nat} {log : List Poll} {w w' : World} (h0 : Hist o zb.d z0 cnt0 log)
    (hfl : Failing o s z0 cnt0 n z cnt)
    (hn : (c.cycleTime.updateThermalsTimeMS + c.cycleTime.cycleIntervalTimeMS - 1) / c.cycleTime.cycleIntervalTimeMS ≤ n)
    (hm : z.d.manualMode = false) (hf : FailsAt w w.nowFans s) (hft : FailsAt w w.nowThermals s)
    (ht : z.tick o w cnt = .ok (w', z', cnt')) :
    ∃ p, PercentFor c conf.entries s p ∧
      ∃ (l : List (FanPid × Dbl)) (b : Bool), z.fans = l.map (fun x => some x.1) ∧ Drives b w l w' ∧
        ∀ x ∈ l, (∃ m ∈ x.1.inputs, targetOf w m ≠ none) → p / 100 ≤ x.2 := by
  obtain ⟨z1, c1, hz1, hc1, hN⟩ := (C64_zones hw hc h id).1 conf hp
  rw [hz] at hz1
  injection hz1 with hz1
  subst hz1
  rw [hcc] at hc1
  injection hc1 with hc1
  subst hc1
  have hpn : ∀ m, ∀ p ∈ percentsFor m conf.entries, p ≠ nan := by
    intro m p hp
    obtain ⟨⟨a, b⟩, hab, rfl⟩ := List.mem_map.1 hp
    obtain ⟨e, he, hx⟩ := List.mem_flatMap.1 (List.mem_filter.1 hab).1
    obtain ⟨i, -, hx⟩ := List.mem_map.1 hx
    obtain ⟨-, rfl⟩ := Prod.mk.inj hx
    exact hnum e (List.mem_filter.1 he).1
  have hne : ∀ m, percentOf zb.d m ≠ nan := by
    intro m
    have := percentOf_of hN (hpn m)
    generalize percentOf zb.d m = q at this
    cases this with
    | own h1 _ => exact hpn m _ h1.1
    | zero _ => exact hzn
    | zone _ => exact hzn
  have hq : s ∉ zb.d.missingAcceptable := by
    intro hmem
    obtain ⟨e, he, -, i, hi, h1, h2⟩ := (hN.missing s).1 hmem
    rw [hs.2 e he i hi h1] at h2
    cases h2
  refine ⟨_, percentOf_of hN (hpn s), ?_⟩
  obtain ⟨l, b, h1, h2, h3⟩ := C42_failing_sensor ho h0 hfl ((hN.thermalInputs_mem s).2 hs.1) hq (fun m _ => hne m)
    (by rw [hN.cycleTime]; exact hF) (by rw [hN.cycleTime]; exact hn) hm hf hft ht
  refine ⟨l, b, h1, h2, fun x hx hex => ?_⟩
  obtain ⟨_, _, _, h4⟩ := h3 x hx hex
  exact h4

/-- **C80.** Such histories exist for every built zone: they begin when the zone starts. -/
theorem C80_hist {pids : OMap Int PIDConf} {configs : OMap Int ZoneConfig} {zones : OMap Int Zone} (hw : pids.WF)
    (h : buildZones pids configs = .ok zones) {id : Int} {z z0 : Zone} (hz : zones.find? id = some z) {o : Opts}
    {w : World} (hs : z.start o w = .ok z0) : Hist o z.d z0 0 [⟨w, w.nowThermals, z.d.thermalInputs⟩] := by
  obtain ⟨h1, h2⟩ := buildZoneList_find? (OMap.wf_nodup hw) h id
  have hb : Built z.d := by
    cases hp : pids.find? id with
    | none =>
      have := h2 ((OMap.lookupL_none_iff _ _).1 hp)
      rw [hz, OMap.find?_empty] at this
      cases this
    | some conf =>
      obtain ⟨z', hz', hb⟩ := h1 conf ((OMap.mem_entries_iff hw id conf).2 hp)
      rw [hz] at hz'
      injection hz' with hz'
      subst hz'
      exact buildZone_built hb
  exact .start w hb rfl hs

end

namespace Ex
section
attribute [local instance] binary64

/-- a fan loop -/
def jsonFanLoop (inputs : List Json) : Json := .obj [("inputs", .arr inputs), ("name", .str "fans"),
  ("pid", .obj [("feedFwdGainCoeff", .int 1), ("feedFwdOffsetCoeff", .int 0), ("integralCoeff", .int 0),
    ("integralLimit_max", .int 0), ("integralLimit_min", .int 0), ("outLim_max", .int 100), ("outLim_min", .int 30),
    ("proportionalCoeff", .int 0), ("samplePeriod", .int 1), ("slewNeg", .int 0), ("slewPos", .int 0)]),
  ("setpoint", .int 0), ("type", .str "fan")]

/-- a loop that heats up the fans with the temperature -/
def jsonHeatLoop (type : String) : Json := .obj [("inputs", .arr [.str "cpu", .str "dimm"]),
  ("missingIsAcceptable", .arr [.str "dimm"]), ("name", .str "temps"),
  ("pid", .obj [("feedFwdGainCoeff", .int 0), ("feedFwdOffsetCoeff", .int 0), ("integralCoeff", .int 0),
    ("integralLimit_max", .int 0), ("integralLimit_min", .int 0), ("outLim_max", .int 100), ("outLim_min", .int 30),
    ("proportionalCoeff", .int (-2)), ("samplePeriod", .int 1), ("slewNeg", .int 0), ("slewPos", .int 0)]),
  ("setpoint", .int 20), ("type", .str type)]

/-- a configuration file with one zone -/
def jsonSystem (pids : List Json) : Json := .obj [("sensors", .arr [jsonFan]), ("zones", .arr [
  .obj [("cycleIntervalTimeMS", .int 100), ("failsafePercent", .int 75), ("id", .int 1), ("minThermalOutput", .int 20),
    ("pids", .arr pids), ("updateThermalsTimeMS", .int 100)]])]

def zonesOf (pids : List Json) : Res (OMap Int Zone) := do
  let (p, c) ← buildPIDsFromJson (jsonSystem pids)
  buildZones p c

def goodLoops : List Json := [jsonFanLoop [.str "fan0", .str "fan1"], jsonHeatLoop "temp", jsonStep]

/-- C64: the zone of this file -/
example : ∃ zs, zonesOf goodLoops = .ok zs ∧ (zs.find? 1).any (fun z =>
    decide (z.d.fanInputs = ["fan0", "fan1"] ∧ z.d.thermalInputs = ["cpu", "dimm"] ∧ z.d.missingAcceptable = ["dimm"] ∧
      z.fans.length = 1 ∧ z.thermals.length = 2 ∧ z.d.sensorFailSafePercent.find? "cpu" = some 80 ∧
      z.d.sensorFailSafePercent.find? "dimm" = some 0)) = true :=
  ok_of_any (P := fun zs : OMap Int Zone => (zs.find? 1).any (fun z =>
    decide (z.d.fanInputs = ["fan0", "fan1"] ∧ z.d.thermalInputs = ["cpu", "dimm"] ∧ z.d.missingAcceptable = ["dimm"] ∧
      z.fans.length = 1 ∧ z.thermals.length = 2 ∧ z.d.sensorFailSafePercent.find? "cpu" = some 80 ∧
      z.d.sensorFailSafePercent.find? "dimm" = some 0))) (by decide +kernel)

/-- C64: with the type misspelt the loop is gone -/
example : ∃ zs, zonesOf [jsonFanLoop [.str "fan0"], jsonHeatLoop "Temp"] = .ok zs ∧
    (zs.find? 1).any (fun z => decide (z.thermals = [] ∧ z.d.thermalInputs = [])) = true :=
  ok_of_any (P := fun zs : OMap Int Zone => (zs.find? 1).any (fun z => decide (z.thermals = [] ∧ z.d.thermalInputs = [])))
    (by decide +kernel)

/-- the zone runs: start and `n` ticks -/
def runOf (pids : List Json) (w : World) (n : Nat) : Res (World × Zone × Nat) := do
  let zs ← zonesOf pids
  match zs.find? 1 with
  | none => .error (.exc "no zone")
  | some z => do
    let z ← z.start {} w
    (List.range n).foldlM (fun (s : World × Zone × Nat) _ => s.2.1.tick {} w s.2.2) (w, z, 0)

/-- C79: the zone starts and runs -/
example : (runOf goodLoops world 3).toOption.isSome = true := by decide +kernel
/-- C79: with a fan loop without fans it starts, but the first tick crashes -/
example : (runOf [jsonFanLoop [], jsonHeatLoop "temp"] world 0).toOption.isSome = true := by decide +kernel
example : (runOf [jsonFanLoop [], jsonHeatLoop "temp"] world 1).toOption.isSome = false := by decide +kernel

/-- C80: while the CPU sensor is out, the fans get the 80 percent the stepwise loop sets for it -/
example : ∃ r, runOf goodLoops deadCpu 3 = .ok r ∧
    decide (r.2.1.d.getFailSafeMode = true ∧ r.2.1.d.getFailSafePercent = 80) = true :=
  ok_of_any (P := fun r : World × Zone × Nat => decide (r.2.1.d.getFailSafeMode = true ∧ r.2.1.d.getFailSafePercent = 80))
    (by decide +kernel)
/-- C80: all settings are those of the specification -/
example : ∃ r, buildPIDsFromJson (jsonSystem goodLoops) = .ok r ∧ (r.1.find? 1).any (fun conf =>
    decide (percentsFor "cpu" conf.entries = [80, 0] ∧ percentsFor "dimm" conf.entries = [0])) = true :=
  ok_of_any (P := fun r : OMap Int PIDConf × OMap Int ZoneConfig => (r.1.find? 1).any (fun conf =>
    decide (percentsFor "cpu" conf.entries = [80, 0] ∧ percentsFor "dimm" conf.entries = [0]))) (by decide +kernel)

end
end Ex
end Verif
