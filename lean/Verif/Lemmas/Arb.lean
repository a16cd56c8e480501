import Verif.Lemmas.Controllers

/-! # Helper lemmas about set point arbitration -/

namespace Verif
variable [F : FloatModel]
open Dbl

/-- is the loop's control process present and enabled -/
def enabledB (z : ZoneData) (n : String) : Bool := ((z.procs.find? n).map (·.enabled)).getD false

theorem enabledB_iff (z : ZoneData) (n : String) : enabledB z n = true ↔ Enabled z n := by
  unfold enabledB Enabled
  cases z.procs.find? n <;> simp

/-- pure version of `submit` for an existing control process -/
def sub1 (z : ZoneData) : Submission → ZoneData
  | .setPoint n v =>
    if enabledB z n then withRequest z (reqKey z.accumulateSetPoint n) (reqNew z v n) else z
  | .ceiling v => z.addRPMCeiling v

/-- the loop of a submission has its D-Bus object -/
def HasProc (z : ZoneData) : Submission → Prop
  | .setPoint n _ => ∃ p, z.procs.find? n = some p
  | .ceiling _ => True

theorem submit_eq {z : ZoneData} {s : Submission} (h : HasProc z s) : submit z s = .ok (sub1 z s) := by
  cases s with
  | setPoint n v =>
    obtain ⟨p, hp⟩ := h
    simp only [submit, sub1, addSetPoint_eq hp, enabledB, hp, Option.map_some, Option.getD_some]
  | ceiling v => rfl

theorem submit_ok {z z' : ZoneData} {s : Submission} (h : submit z s = .ok z') : HasProc z s ∧ z' = sub1 z s := by
  cases s with
  | setPoint n v =>
    obtain ⟨p, hp, _⟩ := addSetPoint_ok h
    have hh : HasProc z (.setPoint n v) := ⟨p, hp⟩
    rw [submit_eq hh] at h
    cases h
    exact ⟨hh, rfl⟩
  | ceiling v => cases h; exact ⟨trivial, rfl⟩

/-- the parts of a zone that submissions leave alone -/
structure SameRest (z z' : ZoneData) : Prop where
  eq : z' = { z with setPoints := z'.setPoints, rpmCeilings := z'.rpmCeilings, maximumSetPoint := z'.maximumSetPoint,
                     maximumSetPointName := z'.maximumSetPointName }

theorem SameRest.refl (z : ZoneData) : SameRest z z := ⟨rfl⟩

theorem SameRest.trans {a b c : ZoneData} (h : SameRest a b) (h' : SameRest b c) : SameRest a c := by
  refine ⟨?_⟩
  have e1 := h.eq
  have e2 := h'.eq
  rw [e2, e1]

theorem SameRest.procs {z z' : ZoneData} (h : SameRest z z') : z'.procs = z.procs := by rw [h.eq]
theorem SameRest.acc {z z' : ZoneData} (h : SameRest z z') : z'.accumulateSetPoint = z.accumulateSetPoint := by rw [h.eq]
theorem SameRest.minT {z z' : ZoneData} (h : SameRest z z') : z'.minThermalOutputSetPt = z.minThermalOutputSetPt := by
  rw [h.eq]
theorem SameRest.failSafe {z z' : ZoneData} (h : SameRest z z') : z'.failSafeSensors = z.failSafeSensors := by rw [h.eq]
theorem SameRest.zoneId {z z' : ZoneData} (h : SameRest z z') : z'.zoneId = z.zoneId := by rw [h.eq]

theorem sub1_same (z : ZoneData) (s : Submission) : SameRest z (sub1 z s) := by
  cases s with
  | setPoint n v =>
    simp only [sub1]
    split_ifs
    · exact ⟨rfl⟩
    · exact .refl z
  | ceiling v => exact ⟨rfl⟩

theorem HasProc.congr {z z' : ZoneData} (h : z'.procs = z.procs) {s : Submission} : HasProc z' s ↔ HasProc z s := by
  cases s <;> simp [HasProc, h]

theorem submitAll_ok : ∀ {subs : List Submission} {z z' : ZoneData}, submitAll z subs = .ok z' →
    (∀ s ∈ subs, HasProc z s) ∧ z' = subs.foldl sub1 z
  | [], z, z', h => by cases h; simp
  | s :: ss, z, z', h => by
    simp only [submitAll] at h
    obtain ⟨z1, h1, h⟩ := bind_eq_ok.1 h
    obtain ⟨hp, rfl⟩ := submit_ok h1
    obtain ⟨h2, h3⟩ := submitAll_ok h
    refine ⟨?_, h3⟩
    intro t ht
    rcases List.mem_cons.1 ht with rfl | ht
    · exact hp
    · exact (HasProc.congr (sub1_same z s).procs).1 (h2 t ht)

theorem submitAll_eq : ∀ {subs : List Submission} {z : ZoneData}, (∀ s ∈ subs, HasProc z s) →
    submitAll z subs = .ok (subs.foldl sub1 z)
  | [], _, _ => rfl
  | s :: ss, z, h => by
    simp only [submitAll, submit_eq (h s List.mem_cons_self), ok_bind, List.foldl_cons]
    exact submitAll_eq (fun t ht => (HasProc.congr (sub1_same z s).procs).2 (h t (List.mem_cons_of_mem _ ht)))

theorem foldl_sub1_same (subs : List Submission) : ∀ z : ZoneData, SameRest z (subs.foldl sub1 z) := by
  induction subs with
  | nil => exact fun z => .refl z
  | cons s ss ih => exact fun z => (sub1_same z s).trans (ih _)

theorem enabledB_congr {z z' : ZoneData} (h : z'.procs = z.procs) (n : String) : enabledB z' n = enabledB z n := by
  simp [enabledB, h]

/-- submitted ceilings in order -/
def ceilings : List Submission → List Dbl
  | [] => []
  | .ceiling v :: ss => v :: ceilings ss
  | .setPoint _ _ :: ss => ceilings ss

theorem mem_ceilings (subs : List Submission) (x : Dbl) : x ∈ ceilings subs ↔ CeilingOf subs x := by
  induction subs with
  | nil => simp [ceilings, CeilingOf]
  | cons s ss ih =>
    cases s <;> simp only [CeilingOf] at ih ⊢ <;> simp [ceilings, ih]

theorem foldl_sub1_ceilings (subs : List Submission) : ∀ z : ZoneData,
    (subs.foldl sub1 z).rpmCeilings = z.rpmCeilings ++ ceilings subs := by
  induction subs with
  | nil => simp [ceilings]
  | cons s ss ih =>
    intro z
    rw [List.foldl_cons, ih]
    cases s with
    | setPoint n v =>
      simp only [sub1, ceilings]
      split_ifs <;> rfl
    | ceiling v => simp [sub1, ZoneData.addRPMCeiling, ceilings]

/-- invariant: the running maximum bounds every stored request -/
def MaxInv (z : ZoneData) : Prop :=
  z.maximumSetPoint ≠ nan ∧ 0 ≤ z.maximumSetPoint ∧
    ∀ k v, z.setPoints.find? k = some v → v = nan ∨ v ≤ z.maximumSetPoint

theorem withRequest_max (z : ZoneData) (k : String) (v : Dbl) :
    (withRequest z k v).maximumSetPoint = cmax z.maximumSetPoint v := rfl

theorem cmax_ne_nan {a b : Dbl} (ha : a ≠ nan) : cmax a b ≠ nan := by
  unfold cmax
  split_ifs with h
  · exact ne_nan_of_lt_right h
  · exact ha

theorem MaxInv.withRequest {z : ZoneData} (h : MaxInv z) (k : String) (v : Dbl) : MaxInv (withRequest z k v) := by
  obtain ⟨h1, h2, h3⟩ := h
  have hle : z.maximumSetPoint ≤ cmax z.maximumSetPoint v := cmax_ge_left h1
  refine ⟨cmax_ne_nan h1, Dbl.le_trans h2 hle, ?_⟩
  intro j x hx
  simp only [Verif.withRequest, OMap.find?_insert] at hx
  split_ifs at hx with hj
  · cases hx
    by_cases hv : v = nan
    · exact .inl hv
    · exact .inr (cmax_ge_right h1 hv)
  · rcases h3 j x hx with h4 | h4
    · exact .inl h4
    · exact .inr (Dbl.le_trans h4 hle)

theorem MaxInv.sub1 {z : ZoneData} (h : MaxInv z) (s : Submission) : MaxInv (sub1 z s) := by
  cases s with
  | setPoint n v =>
    simp only [Verif.sub1]
    split_ifs
    · exact h.withRequest _ _
    · exact h
  | ceiling v => exact h

theorem reqNew_nonacc {z : ZoneData} (hacc : z.accumulateSetPoint = false) (v : Dbl) (n : String) :
    reqNew z v n = cmax ((z.setPoints.find? n).getD 0) v := by
  simp [reqNew, reqKey, hacc, cmax]

/-- invariant of a non-accumulating zone: no NaN is stored and the running maximum bounds every stored request -/
def NonAccInv (z : ZoneData) : Prop :=
  z.accumulateSetPoint = false ∧ z.maximumSetPoint ≠ nan ∧ 0 ≤ z.maximumSetPoint ∧
    ∀ k v, z.setPoints.find? k = some v → v ≤ z.maximumSetPoint

/-- In a non-accumulating zone the running maximum after an enabled request is the maximum with the request. -/
theorem sub1_max_nonacc {z : ZoneData} (h : NonAccInv z) (n : String) (v : Dbl) :
    (sub1 z (.setPoint n v)).maximumSetPoint = if enabledB z n then cmax z.maximumSetPoint v else z.maximumSetPoint := by
  obtain ⟨hacc, h1, h2, h3⟩ := h
  simp only [sub1]
  split_ifs with he
  · rw [withRequest_max, reqNew_nonacc hacc]
    have h4 : (z.setPoints.find? n).getD 0 ≤ z.maximumSetPoint := by
      cases hf : z.setPoints.find? n with
      | none => exact h2
      | some x => exact h3 n x hf
    by_cases hlt : (z.setPoints.find? n).getD 0 < v
    · simp [cmax, hlt]
    · have e : cmax ((z.setPoints.find? n).getD 0) v = (z.setPoints.find? n).getD 0 := by simp [cmax, hlt]
      rw [e]
      have h5 : ¬ z.maximumSetPoint < (z.setPoints.find? n).getD 0 := not_lt_of_le h4
      have h6 : ¬ z.maximumSetPoint < v := by
        intro h6
        exact hlt (Dbl.lt_of_le_of_lt h4 h6)
      simp [cmax, h5, h6]
  · rfl

theorem NonAccInv.sub1 {z : ZoneData} (h : NonAccInv z) (s : Submission) : NonAccInv (sub1 z s) := by
  obtain ⟨hacc, h1, h2, h3⟩ := h
  cases s with
  | setPoint n v =>
    simp only [Verif.sub1]
    split_ifs with he
    · have hle : z.maximumSetPoint ≤ cmax z.maximumSetPoint (reqNew z v n) := cmax_ge_left h1
      refine ⟨hacc, cmax_ne_nan h1, Dbl.le_trans h2 hle, ?_⟩
      intro j x hx
      simp only [Verif.withRequest, OMap.find?_insert] at hx
      split_ifs at hx with hj
      · cases hx
        rw [withRequest_max]
        refine cmax_ge_right h1 ?_
        rw [reqNew_nonacc hacc]
        refine cmax_ne_nan ?_
        cases hf : z.setPoints.find? n with
        | none => exact Dbl.zero_ne_nan
        | some x => exact ne_nan_of_le_left (h3 n x hf)
      · exact Dbl.le_trans (h3 j x hx) hle
    · exact ⟨hacc, h1, h2, h3⟩
  | ceiling v => exact ⟨hacc, h1, h2, h3⟩

/-- values of the enabled requests in order -/
def requests (z : ZoneData) : List Submission → List Dbl
  | [] => []
  | .setPoint n v :: ss => if enabledB z n then v :: requests z ss else requests z ss
  | .ceiling _ :: ss => requests z ss

theorem requests_congr {z z' : ZoneData} (h : z'.procs = z.procs) (ss : List Submission) :
    requests z' ss = requests z ss := by
  induction ss with
  | nil => rfl
  | cons s ss ih => cases s <;> simp [requests, ih, enabledB_congr h]

theorem mem_requests (z : ZoneData) (subs : List Submission) (x : Dbl) : x ∈ requests z subs ↔ Requested z subs x := by
  induction subs with
  | nil => simp [requests, Requested]
  | cons s ss ih =>
    cases s with
    | ceiling v => simp only [requests, ih, Requested]; simp
    | setPoint n v =>
      simp only [requests]
      split_ifs with he
      · rw [List.mem_cons, ih]
        simp only [Requested, List.mem_cons]
        constructor
        · rintro (rfl | ⟨m, h1, h2⟩)
          · exact ⟨n, .inl rfl, (enabledB_iff z n).1 he⟩
          · exact ⟨m, .inr h1, h2⟩
        · rintro ⟨m, h1 | h1, h2⟩
          · cases h1; exact .inl rfl
          · exact .inr ⟨m, h1, h2⟩
      · rw [ih]
        simp only [Requested, List.mem_cons]
        constructor
        · rintro ⟨m, h1, h2⟩; exact ⟨m, .inr h1, h2⟩
        · rintro ⟨m, h1 | h1, h2⟩
          · cases h1; exact absurd ((enabledB_iff z n).2 h2) he
          · exact ⟨m, h1, h2⟩

theorem foldl_sub1_max (subs : List Submission) : ∀ z : ZoneData, NonAccInv z →
    (subs.foldl sub1 z).maximumSetPoint = (requests z subs).foldl cmax z.maximumSetPoint := by
  induction subs with
  | nil => intros; rfl
  | cons s ss ih =>
    intro z h
    rw [List.foldl_cons, ih _ (h.sub1 s), requests_congr (sub1_same z s).procs]
    cases s with
    | ceiling v => rfl
    | setPoint n v =>
      rw [sub1_max_nonacc h]
      simp only [requests]
      split_ifs <;> rfl

theorem nonAccInv_clear {z : ZoneData} (hacc : z.accumulateSetPoint = false) :
    NonAccInv z.clearSetPoints.clearRPMCeilings := by
  refine ⟨hacc, Dbl.zero_ne_nan, Dbl.le_refl Dbl.zero_ne_nan, ?_⟩
  intro k v h
  simp [ZoneData.clearSetPoints, ZoneData.clearRPMCeilings, OMap.find?_empty] at h

/-! ## The final step -/

/-- the cap by the ceilings -/
def capBy (m : Dbl) : List Dbl → Dbl
  | [] => m
  | c :: cs => cmin m (cs.foldl cmin c)

/-- the floor by the minimum thermal output -/
def floorBy (min m : Dbl) : Dbl := if m ≤ min then min else m

/-- requester name after the ceilings -/
def capName (z : ZoneData) : String :=
  match z.rpmCeilings with
  | [] => z.maximumSetPointName
  | c :: cs => if cs.foldl cmin c < z.maximumSetPoint then "Ceiling" else z.maximumSetPointName

/-- requester name after the join of profiles -/
def joinedName (ids : List String) (z : ZoneData) : String :=
  if z.accumulateSetPoint then ZoneData.joinIds (capName z) "" ids else capName z

/-- the zone before the tuning override -/
def settled (ids : List String) (z : ZoneData) : ZoneData :=
  { z with
    maximumSetPoint := floorBy z.minThermalOutputSetPt (capBy z.maximumSetPoint z.rpmCeilings)
    maximumSetPointName :=
      if capBy z.maximumSetPoint z.rpmCeilings ≤ z.minThermalOutputSetPt then "Minimum" else joinedName ids z
    maximumSetPointNamePrev :=
      if capBy z.maximumSetPoint z.rpmCeilings ≤ z.minThermalOutputSetPt then z.maximumSetPointNamePrev
      else joinedName ids z }

/-- the ceiling stage -/
def stCeil (z : ZoneData) : ZoneData :=
  match z.rpmCeilings with
  | [] => z
  | c :: cs =>
    if minElement c cs < z.maximumSetPoint then { z with maximumSetPoint := minElement c cs, maximumSetPointName := "Ceiling" }
    else z

/-- the naming stage -/
def stJoin (ids : List String) (z : ZoneData) : ZoneData :=
  if z.accumulateSetPoint then { z with maximumSetPointName := ZoneData.joinIds z.maximumSetPointName "" ids } else z

/-- the minimum stage -/
def stMin (z : ZoneData) : ZoneData :=
  if z.maximumSetPoint ≤ z.minThermalOutputSetPt then
    { z with maximumSetPoint := z.minThermalOutputSetPt, maximumSetPointName := "Minimum" }
  else if z.maximumSetPointName ≠ z.maximumSetPointNamePrev then
    { z with maximumSetPointNamePrev := z.maximumSetPointName }
  else z

theorem stCeil_eq (z : ZoneData) :
    stCeil z = { z with maximumSetPoint := capBy z.maximumSetPoint z.rpmCeilings, maximumSetPointName := capName z } := by
  obtain ⟨_, m, n, _, _, _, _, _, _, _, _, _, _, cs, _, _, _, _, _, _⟩ := z
  cases cs with
  | nil => rfl
  | cons c cs =>
    by_cases hl : cs.foldl cmin c < m
    · simp [stCeil, capName, capBy, minElement_eq, hl, (show cmin m (cs.foldl cmin c) = cs.foldl cmin c by simp [cmin, hl])]
    · simp [stCeil, capName, capBy, minElement_eq, hl, (show cmin m (cs.foldl cmin c) = m by simp [cmin, hl])]

theorem stMin_eq (z : ZoneData) : stMin z =
    { z with
      maximumSetPoint := floorBy z.minThermalOutputSetPt z.maximumSetPoint
      maximumSetPointName := if z.maximumSetPoint ≤ z.minThermalOutputSetPt then "Minimum" else z.maximumSetPointName
      maximumSetPointNamePrev :=
        if z.maximumSetPoint ≤ z.minThermalOutputSetPt then z.maximumSetPointNamePrev else z.maximumSetPointName } := by
  obtain ⟨_, m, n, np, _, _, _, mt, _, _, _, _, _, _, _, _, _, _, _, _⟩ := z
  unfold floorBy stMin
  by_cases h1 : m ≤ mt
  · simp [h1]
  · by_cases h2 : n = np
    · simp [h1, h2]
    · simp [h1, h2]

theorem settled_eq (ids : List String) (z : ZoneData) : settled ids z = stMin (stJoin ids (stCeil z)) := by
  rw [stMin_eq, stCeil_eq]
  unfold stJoin settled joinedName
  cases h : z.accumulateSetPoint <;> simp [h]

theorem determine_eq (o : Opts) (w : World) (ids : List String) (z : ZoneData) :
    z.determineMaxSetPointRequest o w ids =
      if o.tuningEnabled then do
        let rpm ← ZoneData.fileParseRpm (w.files ZoneData.setpointPath) (settled ids z).maximumSetPoint
        let rpm ← ZoneData.fileParseRpm (w.files (ZoneData.setpointPath ++ ".zone" ++ toString z.zoneId)) rpm
        .ok { settled ids z with maximumSetPoint := rpm }
      else .ok (settled ids z) := by
  have hz : z.zoneId = (settled ids z).zoneId := rfl
  rw [hz, settled_eq]
  rfl

end Verif
