import Verif.Lemmas.BusOrder
import Verif.Lemmas.Json
import Verif.Spec.AsFile

/-!
# Reading back a configuration that was written as a file
-/

namespace Verif
open Dbl

section
variable [F : FloatModel]

omit F in
theorem insertL_last {K V : Type} [DecidableEq K] [LT K] [DecidableLT K] [OMap.StrictOrd K] (k : K) (v : V) :
    ∀ {l : List (K × V)}, (∀ e ∈ l, e.1 < k) → OMap.insertL k v l = l ++ [(k, v)]
  | [], _ => rfl
  | (k', v') :: t, h => by
    have h1 : k' < k := h (k', v') (by simp)
    have ne : k ≠ k' := fun e => OMap.StrictOrd.irrefl k (by rw [e] at h1 ⊢; exact h1)
    have nl : ¬ k < k' := fun e => OMap.StrictOrd.irrefl _ (OMap.StrictOrd.trans h1 e)
    simp only [OMap.insertL, if_neg ne, if_neg nl, List.cons_append]
    rw [insertL_last k v (fun e he => h e (by simp [he]))]

omit F in
theorem insert_last {K V : Type} [DecidableEq K] [LT K] [DecidableLT K] [OMap.StrictOrd K] {done : List (K × V)} {k : K} {v : V}
    {rest : List (K × V)} (h : (done ++ (k, v) :: rest).Pairwise (fun a b => a.1 < b.1)) :
    (OMap.mk done).insert k v = ⟨done ++ [(k, v)]⟩ := by
  unfold OMap.insert
  rw [insertL_last k v]
  intro e he
  exact (List.pairwise_append.1 h).2.2 e he (k, v) (by simp)

theorem getI64_fits {i : Int} (h : Fits64 i) : (Json.int i).getI64 = .ok i := by
  obtain ⟨h1, h2⟩ := h
  have : (i + 2 ^ 63) % 2 ^ 64 = i + 2 ^ 63 := Int.emod_eq_of_lt (by omega) (by omega)
  simp only [Json.getI64, this, add_sub_cancel_right]

theorem getU64_fits {n : Nat} (h : n < 2 ^ 64) : (Json.int n).getU64 = .ok n := by
  have : ((n : Int) % 2 ^ 64) = n := Int.emod_eq_of_lt (by omega) (by exact_mod_cast h)
  simp only [Json.getU64, this, Int.toNat_natCast]

theorem getI32_fits {i : Int} (h1 : -(2 ^ 31) ≤ i) (h2 : i < 2 ^ 31) : (Json.float (Dbl.ofInt i)).getI32 = .ok i := by
  have e := @ofInt_eq F i (by omega) (by omega)
  have ht : truncQ (i : Rat) = i := by
    unfold truncQ
    split_ifs
    · exact Int.floor_intCast i
    · exact Int.ceil_intCast i
  simp only [Json.getI32, Dbl.toI32, e, castInt, ht, castOr]
  rw [if_pos (by constructor <;> omega)]

theorem sensorFromJson_back {n : String} {s : SensorConfig} (h : s.Expressible) : sensorFromJson (s.asJson n) = .ok s := by
  obtain ⟨type, readPath, writePath, min, max, timeout, a, b, c⟩ := s
  have h1 := getI64_fits h.min
  have h2 := getI64_fits h.max
  have h3 := getI64_fits h.timeout
  have h4 := h.limits
  dsimp only at h1 h2 h3 h4
  by_cases ht : type = "fan"
  · simp [sensorFromJson, SensorConfig.asJson, Json.req, Json.opt, Json.atKey, Json.find?, findMember, Json.fanOnly, ht,
      Json.getStr, Json.getBool, h1, h2, h3, ok_bind]
  · obtain ⟨rfl, rfl⟩ := h4 ht
    simp [sensorFromJson, SensorConfig.asJson, Json.req, Json.opt, Json.atKey, Json.find?, findMember, Json.fanOnly, ht,
      Json.getStr, Json.getBool, h3, ok_bind]

theorem sensorsFromList_back : ∀ {rest done : List (String × SensorConfig)}, (done ++ rest).Pairwise (fun a b => a.1 < b.1) →
    (∀ e ∈ rest, e.2.Expressible) →
    sensorsFromList ⟨done⟩ (rest.map (fun e => e.2.asJson e.1)) = .ok ⟨done ++ rest⟩
  | [], done, _, _ => by simp [sensorsFromList]
  | (n, s) :: rest, done, hp, hx => by
    have h1 := sensorFromJson_back (n := n) (hx (n, s) (by simp))
    simp only [List.map_cons, sensorsFromList]
    rw [h1, ok_bind]
    have h2 : (s.asJson n).index "name" = .ok (.str n) := by simp [SensorConfig.asJson, Json.index, findMember]
    rw [h2, ok_bind]
    simp only [Json.getStr, ok_bind]
    rw [insert_last hp, sensorsFromList_back (by simpa using hp) (fun e he => hx e (by simp [he]))]
    simp

theorem pidConf_back {p : PidConf} : (do let o ← optionalFromJson p.asJson; pidConfFromJson p.asJson o) = .ok p := by
  obtain ⟨c, ts, a1, a2, a3, a4, a5, ⟨l1, l2⟩, ⟨m1, m2⟩, b1, b2, b3, b4⟩ := p
  simp [optionalFromJson, pidConfFromJson, PidConf.asJson, Json.req, Json.opt, Json.atKey, Json.find?, findMember,
    Json.getBool, Json.getDbl, ok_bind]

omit F in
theorem point_inj : ∀ i j : Fin maxStepwisePoints, toString i.val = toString j.val → i = j := by decide +kernel

theorem findMember_points (f : Fin maxStepwisePoints → Dbl) (i : Fin maxStepwisePoints) : ∀ l : List (Fin maxStepwisePoints),
    findMember (toString i.val) (l.map (fun i => (toString i.val, Json.float (f i)))) =
      if i ∈ l then some (.float (f i)) else none
  | [] => by simp [findMember]
  | j :: l => by
    simp only [List.map_cons, findMember]
    by_cases e : i = j
    · subst e; simp
    · rw [if_neg (fun h => e (point_inj i j h)), findMember_points f i l]
      simp [e]

omit F in
theorem mem_pointOrder : ∀ i : Fin maxStepwisePoints, i ∈ pointOrder := by decide

theorem find_points (f : Fin maxStepwisePoints → Dbl) (i : Fin maxStepwisePoints) :
    (pointsAsJson f).find? (toString i.val) = if (f i).isNaN then none else some (.float (f i)) := by
  simp only [pointsAsJson, Json.find?]
  rw [findMember_points]
  simp only [List.mem_filter, mem_pointOrder, true_and]
  cases (f i).isNaN <;> simp

theorem pointLoop_back (f : Fin maxStepwisePoints → Dbl) : ∀ (l : List (Fin maxStepwisePoints)) (g : Fin maxStepwisePoints → Dbl),
    (∀ i, g i = f i ∨ (i ∈ l ∧ g i = .nan)) → pointLoop (pointsAsJson f) l g = .ok f
  | [], g, h => by
    have : g = f := funext fun i => by simpa using h i
    rw [this]; rfl
  | i :: l, g, h => by
    unfold pointLoop
    rw [find_points]
    cases hn : (f i).isNaN with
    | true =>
      simp only [if_true]
      have hf : f i = .nan := by cases e : f i <;> simp_all [isNaN]
      refine pointLoop_back f l g fun k => ?_
      rcases h k with hk | ⟨hm, hk⟩
      · exact .inl hk
      · rcases List.mem_cons.1 hm with rfl | hm
        · exact .inl (by rw [hk, hf])
        · exact .inr ⟨hm, hk⟩
    | false =>
      simp only [Bool.false_eq_true, if_false, Json.getDbl, ok_bind]
      refine pointLoop_back f l _ fun k => ?_
      by_cases e : k = i
      · subst e; simp
      · simp only [if_neg e]
        rcases h k with h | ⟨hm, h⟩
        · exact .inl h
        · rcases List.mem_cons.1 hm with rfl | hm
          · exact absurd rfl e
          · exact .inr ⟨hm, h⟩

theorem stepwise_back {s : StepwiseInfo} (p : Json) (hp : p = s.asJson) :
    (do let o ← optionalFromJson p; stepwiseFromJson p o) = .ok s := by
  have hl : ∀ f : Fin maxStepwisePoints → Dbl,
      pointLoop (pointsAsJson f) (List.finRange maxStepwisePoints) (fun _ => .nan) = .ok f :=
    fun f => pointLoop_back f _ _ (fun i => .inr ⟨List.mem_finRange i, rfl⟩)
  subst hp
  obtain ⟨ts, r, o, a, b, c⟩ := s
  simp [optionalFromJson, stepwiseFromJson, StepwiseInfo.asJson, Json.req, Json.opt, Json.atKey, Json.find?, findMember,
    Json.getBool, Json.getDbl, ok_bind, pointsFromJson, hl]

theorem getAll_strs {α : Type} (g : α → String) : ∀ l : List α, Json.getAll Json.getStr (l.map (fun i => .str (g i))) = .ok (l.map g)
  | [] => rfl
  | a :: l => by simp [Json.getAll, Json.getStr, ok_bind, getAll_strs g l]

theorem getAll_floats {α : Type} (g : α → Dbl) : ∀ l : List α, Json.getAll Json.getDbl (l.map (fun i => .float (g i))) = .ok (l.map g)
  | [] => rfl
  | a :: l => by simp [Json.getAll, Json.getDbl, ok_bind, getAll_floats g l]

/-- the inputs without what may be missing -/
theorem margins_back : ∀ {l : List SensorInput}, MarginsFirst l →
    spliceMargins (l.map (fun i => (⟨i.name, .nan, false, false⟩ : SensorInput)))
      ((l.filter SensorInput.convertTempToMargin).map SensorInput.convertMarginZero) =
      l.map (fun i => { i with missingIsAcceptable := false })
  | [], _ => rfl
  | i :: l, h => by
    rcases h with ⟨h1, -, h2⟩ | h
    · have := margins_back h2
      simp only [List.map_cons, List.filter_cons, h1, if_true]
      simp only [spliceMargins, this]
    · have h0 : (i :: l).filter SensorInput.convertTempToMargin = [] := by
        rw [List.filter_eq_nil_iff]
        intro j hj; rw [(h j hj).1]; simp
      rw [h0]
      simp only [List.map_nil]
      rw [show ∀ rs : List SensorInput, spliceMargins rs [] = rs from fun rs => by cases rs <;> rfl]
      refine List.map_congr_left fun j hj => ?_
      obtain ⟨h1, h2⟩ := h j hj
      obtain ⟨n, z, c, m⟩ := j
      simp only at h1 h2
      subst h1 h2
      rfl

theorem inputs_back {l : List SensorInput} (h : MarginsFirst l)
    (hm : ∀ i ∈ l, ∀ j ∈ l, i.name = j.name → i.missingIsAcceptable = j.missingIsAcceptable) :
    spliceInputs (l.map SensorInput.name) ((l.filter SensorInput.convertTempToMargin).map SensorInput.convertMarginZero)
      ((l.filter SensorInput.missingIsAcceptable).map SensorInput.name) = l := by
  unfold spliceInputs
  simp only [List.map_map]
  have := margins_back h
  simp only [Function.comp_def] at this ⊢
  rw [this, List.map_map]
  conv_rhs => rw [← List.map_id l]
  refine List.map_congr_left fun j hj => ?_
  simp only [Function.comp_def, id_eq]
  cases hjm : j.missingIsAcceptable with
  | true =>
    rw [if_pos]
    · obtain ⟨n, z, c, m⟩ := j; cases hjm; rfl
    · rw [List.contains_iff_mem, List.mem_map]
      exact ⟨j, List.mem_filter.2 ⟨hj, hjm⟩, rfl⟩
  | false =>
    rw [if_neg]
    · obtain ⟨n, z, c, m⟩ := j; cases hjm; rfl
    · rw [List.contains_iff_mem, List.mem_map]
      rintro ⟨i, hi, he⟩
      obtain ⟨hi, hi'⟩ := List.mem_filter.1 hi
      have := hm i hi j hj he
      rw [hi', hjm] at this
      cases this

theorem req_found {α : Type} {j v : Json} {k : String} {get : Json → Res α} (h : j.find? k = some v) : j.req k get = get v := by
  cases j <;> simp only [Json.find?, reduceCtorEq] at h
  simp only [Json.req, Json.atKey, h, ok_bind]

theorem opt_found {α : Type} {j v : Json} {k : String} {d : α} {get : Json → Res α} (h : j.find? k = some v) :
    j.opt k d get = get v := by
  simp only [Json.opt, h]

theorem atKey_found {j v : Json} {k : String} (h : j.find? k = some v) : j.atKey k = .ok v := by
  cases j <;> simp only [Json.find?, reduceCtorEq] at h
  simp only [Json.atKey, h]

theorem index_found {j v : Json} {k : String} (h : j.find? k = some v) : j.index k = .ok v := by
  cases j <;> simp only [Json.find?, reduceCtorEq] at h
  simp only [Json.index, h]

theorem findMember_here {k : String} {v : Json} {l : List (String × Json)} : findMember k ((k, v) :: l) = some v := by
  simp [findMember]

theorem findMember_past {k k' : String} {v : Json} {l : List (String × Json)} (h : k ≠ k') :
    findMember k ((k', v) :: l) = findMember k l := by
  simp [findMember, h]

theorem controller_back {n : String} {c : ControllerInfo} (h : c.Expressible) : controllerFromJson (c.asJson n) = .ok c := by
  obtain ⟨i, hi1, hi2, hp⟩ := h.percent
  have h1 := getI32_fits hi1 hi2
  rw [← hp] at h1
  have hin := inputs_back h.margins h.missing
  have g1 := getAll_strs SensorInput.name c.inputs
  have g2 := getAll_strs SensorInput.name (c.inputs.filter SensorInput.missingIsAcceptable)
  have g3 := getAll_floats SensorInput.convertMarginZero (c.inputs.filter SensorInput.convertTempToMargin)
  generalize hj : c.asJson n = j
  have m1 : j.find? "type" = some (.str c.type) := by
    rw [← hj]; simp only [ControllerInfo.asJson, Json.find?]; repeat rw [findMember_past (by decide)]
    exact findMember_here
  have m2 : j.find? "inputs" = some (.arr (c.inputs.map (fun i => .str i.name))) := by
    rw [← hj]; simp only [ControllerInfo.asJson, Json.find?]; repeat rw [findMember_past (by decide)]
    exact findMember_here
  have m3 : j.find? "setpoint" = some (.float c.setpoint) := by
    rw [← hj]; simp only [ControllerInfo.asJson, Json.find?]; repeat rw [findMember_past (by decide)]
    exact findMember_here
  have m4 : j.find? "tempToMargin" =
      some (.arr ((c.inputs.filter SensorInput.convertTempToMargin).map (fun i => .float i.convertMarginZero))) := by
    rw [← hj]; simp only [ControllerInfo.asJson, Json.find?]; repeat rw [findMember_past (by decide)]
    exact findMember_here
  have m5 : j.find? "missingIsAcceptable" =
      some (.arr ((c.inputs.filter SensorInput.missingIsAcceptable).map (fun i => .str i.name))) := by
    rw [← hj]; simp only [ControllerInfo.asJson, Json.find?]; repeat rw [findMember_past (by decide)]
    exact findMember_here
  have m6 : j.find? "pid" = some (if c.type = "stepwise" then c.stepwiseInfo.asJson else c.pidInfo.asJson) := by
    rw [← hj]; simp only [ControllerInfo.asJson, Json.find?]; repeat rw [findMember_past (by decide)]
    exact findMember_here
  have m7 : j.find? "FailSafePercent" = some (.float c.failSafePercent) := by
    rw [← hj]; exact findMember_here
  have hset : (Json.float c.setpoint).getDbl = .ok c.setpoint := rfl
  have hstr : (Json.str c.type).getStr = .ok c.type := rfl
  unfold controllerFromJson
  rw [req_found m1, hstr, ok_bind, req_found m2]
  simp only [Json.getVec]
  rw [g1, ok_bind, req_found m3, hset, ok_bind, opt_found m4]
  simp only [Json.getVec]
  rw [g3, ok_bind, opt_found m5]
  simp only [Json.getVec]
  rw [g2, ok_bind, atKey_found m6, ok_bind]
  clear hj m1 m2 m3 m4 m5 m6 g1 g2 g3
  by_cases ht : c.type = "stepwise"
  · obtain ⟨-, h0⟩ := h.stepwise ht
    have hb := stepwise_back (s := c.stepwiseInfo) _ rfl
    obtain ⟨o, ho, hb⟩ := bind_eq_ok.1 hb
    rw [if_pos ht, ho, ok_bind, opt_found m7, h1, ok_bind, if_neg (by simp [ht]), hb, ok_bind, hin, ← hp]
    obtain ⟨type, inputs, setpoint, pid, stepwise, percent⟩ := c
    simp only at ht h0
    subst ht h0
    rfl
  · obtain ⟨-, h0⟩ := h.pid ht
    have hb := pidConf_back (p := c.pidInfo)
    obtain ⟨o, ho, hb⟩ := bind_eq_ok.1 hb
    rw [if_neg ht, ho, ok_bind, opt_found m7, h1, ok_bind, if_pos ht, hb, ok_bind, hin, ← hp]
    obtain ⟨type, inputs, setpoint, pid, stepwise, percent⟩ := c
    simp only at ht h0
    subst h0
    rfl

theorem pidsFromList_back : ∀ {rest done : List (String × ControllerInfo)}, (done ++ rest).Pairwise (fun a b => a.1 < b.1) →
    (∀ e ∈ rest, e.2.Expressible) →
    pidsFromList ⟨done⟩ (rest.map (fun e => e.2.asJson e.1)) = .ok ⟨done ++ rest⟩
  | [], done, _, _ => by simp [pidsFromList]
  | (n, s) :: rest, done, hp, hx => by
    have h1 := controller_back (n := n) (hx (n, s) (by simp))
    simp only [List.map_cons, pidsFromList]
    have h2 : (s.asJson n).index "name" = .ok (.str n) := by simp [ControllerInfo.asJson, Json.index, findMember]
    rw [h2, ok_bind, h1, ok_bind]
    simp only [Json.getStr, ok_bind]
    rw [insert_last hp, pidsFromList_back (by simpa using hp) (fun e he => hx e (by simp [he]))]
    simp

theorem zone_back {i : Int} {p : PIDConf} {z : ZoneConfig} (hi : Fits64 i) (hw : p.WF) (hl : ∀ e ∈ p.entries, e.2.Expressible)
    (hz : z.Expressible) : zoneFromJson (z.asJson i p) = .ok (i, p, z) := by
  have h1 := getI64_fits hi
  have h2 := getU64_fits hz.cycle.2
  have h3 := getU64_fits hz.thermals.2
  have h4 : pidsFromList {} (p.entries.map (fun e => e.2.asJson e.1)) = .ok p := pidsFromList_back (done := []) hw hl
  generalize hj : z.asJson i p = j
  have m1 : j.find? "id" = some (.int i) := by
    rw [← hj]; simp only [ZoneConfig.asJson, Json.find?]; repeat rw [findMember_past (by decide)]
    exact findMember_here
  have m2 : j.find? "minThermalOutput" = some (.float z.minThermalOutput) := by
    rw [← hj]; simp only [ZoneConfig.asJson, Json.find?]; repeat rw [findMember_past (by decide)]
    exact findMember_here
  have m3 : j.find? "failsafePercent" = some (.float z.failsafePercent) := by
    rw [← hj]; simp only [ZoneConfig.asJson, Json.find?]; repeat rw [findMember_past (by decide)]
    exact findMember_here
  have m4 : j.find? "cycleIntervalTimeMS" = some (.int z.cycleTime.cycleIntervalTimeMS) := by
    rw [← hj]; simp only [ZoneConfig.asJson, Json.find?]; repeat rw [findMember_past (by decide)]
    exact findMember_here
  have m5 : j.find? "updateThermalsTimeMS" = some (.int z.cycleTime.updateThermalsTimeMS) := by
    rw [← hj]; simp only [ZoneConfig.asJson, Json.find?]; repeat rw [findMember_past (by decide)]
    exact findMember_here
  have m6 : j.find? "accumulateSetPoint" = some (.bool z.accumulateSetPoint) := by
    rw [← hj]; exact findMember_here
  have m7 : j.find? "pids" = some (.arr (p.entries.map (fun e => e.2.asJson e.1))) := by
    rw [← hj]; simp only [ZoneConfig.asJson, Json.find?]; repeat rw [findMember_past (by decide)]
    exact findMember_here
  have e1 : (Json.float z.minThermalOutput).getDbl = .ok z.minThermalOutput := rfl
  have e2 : (Json.float z.failsafePercent).getDbl = .ok z.failsafePercent := rfl
  have e3 : (Json.bool z.accumulateSetPoint).getBool = .ok z.accumulateSetPoint := rfl
  have c1 : cycleTimeFromJson j "cycleIntervalTimeMS" 100 = .ok z.cycleTime.cycleIntervalTimeMS := by
    unfold cycleTimeFromJson
    rw [m4]; dsimp only
    rw [h2, ok_bind, if_pos hz.cycle.1]
  have c2 : cycleTimeFromJson j "updateThermalsTimeMS" 1000 = .ok z.cycleTime.updateThermalsTimeMS := by
    unfold cycleTimeFromJson
    rw [m5]; dsimp only
    rw [h3, ok_bind, if_pos hz.thermals.1]
  unfold zoneFromJson
  rw [index_found m1, ok_bind, h1, ok_bind, index_found m2, ok_bind, e1, ok_bind, index_found m3, ok_bind, e2, ok_bind, c1, ok_bind,
    c2, ok_bind, opt_found m6, e3, ok_bind, index_found m7, ok_bind]
  simp only [Json.elems]
  rw [h4, ok_bind]

theorem zonesFromList_back (f : Int → ZoneConfig) : ∀ {rest done : List (Int × PIDConf)},
    (done ++ rest).Pairwise (fun a b => a.1 < b.1) →
    (∀ e ∈ rest, Fits64 e.1 ∧ e.2.WF ∧ (∀ l ∈ e.2.entries, l.2.Expressible) ∧ (f e.1).Expressible) →
    zonesFromList ⟨done⟩ ⟨done.map (fun e => (e.1, f e.1))⟩ (rest.map (fun e => (f e.1).asJson e.1 e.2)) =
      .ok (⟨done ++ rest⟩, ⟨(done ++ rest).map (fun e => (e.1, f e.1))⟩)
  | [], done, _, _ => by simp [zonesFromList]
  | (i, p) :: rest, done, hp, hx => by
    obtain ⟨g1, g2, g3, g4⟩ := hx (i, p) (by simp)
    simp only [List.map_cons, zonesFromList]
    rw [zone_back g1 g2 g3 g4, ok_bind]
    simp only
    have hp' : (done.map (fun e => (e.1, f e.1)) ++ (i, f i) :: rest.map (fun e => (e.1, f e.1))).Pairwise
        (fun a b => a.1 < b.1) := by
      have : done.map (fun e => (e.1, f e.1)) ++ (i, f i) :: rest.map (fun e => (e.1, f e.1)) =
          (done ++ (i, p) :: rest).map (fun e => (e.1, f e.1)) := by simp
      rw [this, List.pairwise_map]
      exact hp
    rw [insert_last hp, insert_last hp']
    have := zonesFromList_back f (rest := rest) (done := done ++ [(i, p)]) (by simpa using hp) (fun e he => hx e (by simp [he]))
    simp only [List.map_append, List.map_cons, List.map_nil] at this
    rw [this]
    simp

/-- the settings of the zones that have loops -/
def Config.usedZones (c : Config) : OMap Int ZoneConfig :=
  ⟨c.pids.entries.map (fun e => (e.1, (c.zones.find? e.1).getD ⟨0, 0, ⟨100, 1000⟩, false⟩))⟩

theorem validateZones_back (f : Int → ZoneConfig) : ∀ {l : List (Int × PIDConf)}, (∀ e ∈ l, e.2.entries ≠ []) →
    validateZones (l.map (fun e => (f e.1).asJson e.1 e.2)) = .ok ()
  | [], _ => rfl
  | (i, p) :: l, h => by
    have h0 := h (i, p) (by simp)
    have h1 := validateZones_back f (l := l) (fun e he => h e (by simp [he]))
    have m : ((f i).asJson i p).find? "pids" = some (.arr (p.entries.map (fun e => e.2.asJson e.1))) := by
      simp only [ZoneConfig.asJson, Json.find?]; repeat rw [findMember_past (by decide)]
      exact findMember_here
    rw [List.map_cons]
    unfold validateZones
    rw [if_neg (by simp [Json.count, m]), index_found m, ok_bind, if_neg (by simpa [Json.size] using h0), h1]

theorem asFile_back {c : Config} (hc : c.Expressible) {f : StartFiles} {path : String} (hf : f.json path = some c.asFile) :
    configFromFile f path = .ok ⟨c.sensors, c.pids, c.usedZones⟩ := by
  obtain ⟨w1, w2, w3⟩ := hc.tables
  have hs : sensorsFromList {} (c.sensors.entries.map (fun e => e.2.asJson e.1)) = .ok c.sensors :=
    sensorsFromList_back (done := []) w1 (fun e he => hc.sensor e.1 e.2 ((OMap.mem_entries_iff w1 _ _).1 he))
  have hzone : ∀ e ∈ c.pids.entries, Fits64 e.1 ∧ e.2.WF ∧ e.2.entries ≠ [] ∧ (∀ l ∈ e.2.entries, l.2.Expressible) ∧
      ((c.zones.find? e.1).getD ⟨0, 0, ⟨100, 1000⟩, false⟩).Expressible := by
    intro e he
    have hm := (OMap.mem_entries_iff w2 _ _).1 he
    obtain ⟨g1, g2, g3, z, g4, g5⟩ := hc.zone e.1 e.2 hm
    refine ⟨g1, g2, g3, fun l hl => hc.loop _ _ hm l.1 l.2 ((OMap.mem_entries_iff g2 _ _).1 hl), ?_⟩
    rw [g4]; exact g5
  have hz := zonesFromList_back (fun i => (c.zones.find? i).getD ⟨0, 0, ⟨100, 1000⟩, false⟩) (rest := c.pids.entries) (done := [])
    w2 (fun e he => ⟨(hzone e he).1, (hzone e he).2.1, (hzone e he).2.2.2.1, (hzone e he).2.2.2.2⟩)
  have hv := validateZones_back (fun i => (c.zones.find? i).getD ⟨0, 0, ⟨100, 1000⟩, false⟩) (l := c.pids.entries)
    (fun e he => (hzone e he).2.2.1)
  have hval : validateJson c.asFile = .ok () := by
    simp only [validateJson, Config.asFile, Json.count, Json.index, Json.find?, findMember, String.reduceEq, if_true, if_false,
      Option.isSome_some, ne_eq, not_true_eq_false, ok_bind, Json.size, List.length_map, Json.elems]
    rw [if_neg (by simpa using hc.any)]
    exact hv
  have e1 : buildSensorsFromJson c.asFile = .ok c.sensors := by
    simp only [buildSensorsFromJson, Config.asFile, Json.index, findMember, String.reduceEq, if_true, if_false, ok_bind, Json.elems]
    exact hs
  have e2 : buildPIDsFromJson c.asFile = .ok (c.pids, c.usedZones) := by
    simp only [buildPIDsFromJson, Config.asFile, Json.index, findMember, String.reduceEq, if_true, if_false, ok_bind, Json.elems]
    exact hz
  simp only [configFromFile, parseValidateJson, hf, hval, ok_bind, e1, e2]

theorem usedZones_find (c : Config) (i : Int) (hx : ∀ p, c.pids.find? i = some p → ∃ z, c.zones.find? i = some z) :
    c.usedZones.find? i = if (c.pids.find? i).isSome then c.zones.find? i else none := by
  have key : ∀ l : List (Int × PIDConf), (OMap.mk (l.map (fun e => (e.1, (c.zones.find? e.1).getD ⟨0, 0, ⟨100, 1000⟩, false⟩))) :
      OMap Int ZoneConfig).find? i =
      if ((OMap.mk l).find? i).isSome then some ((c.zones.find? i).getD ⟨0, 0, ⟨100, 1000⟩, false⟩) else none := by
    intro l
    induction l with
    | nil => rfl
    | cons e l ih =>
      simp only [OMap.find?, List.map_cons, OMap.lookupL] at ih ⊢
      by_cases h : i = e.1
      · subst h; simp
      · simp only [if_neg h]; exact ih
  have := key c.pids.entries
  refine this.trans ?_
  cases h : c.pids.find? i with
  | none =>
    have h' : ((OMap.mk c.pids.entries).find? i) = none := h
    simp [h']
  | some p =>
    have h' : ((OMap.mk c.pids.entries).find? i) = some p := h
    obtain ⟨z, hz⟩ := hx p h
    simp [h', hz]

theorem buildZoneList_same {zc zc' : OMap Int ZoneConfig} : ∀ {l : List (Int × PIDConf)} {zs : OMap Int Zone},
    (∀ e ∈ l, zc.find? e.1 = zc'.find? e.1) → buildZoneList zc zs l = buildZoneList zc' zs l
  | [], _, _ => rfl
  | (i, p) :: l, zs, h => by
    have h1 : buildZone zc i p = buildZone zc' i p := by unfold buildZone; rw [h (i, p) (by simp)]
    simp only [buildZoneList]
    rw [h1]
    cases buildZone zc' i p with
    | error e => rfl
    | ok z => simp only [ok_bind]; exact buildZoneList_same (fun e he => h e (by simp [he]))

theorem launched_used {o : Opts} {bus : BuildBus} {now : Int} {w : World} {c : Config} (hc : c.Expressible) :
    launched o bus now w ⟨c.sensors, c.pids, c.usedZones⟩ = launched o bus now w c := by
  have : buildZones c.pids c.usedZones = buildZones c.pids c.zones := by
    unfold buildZones
    refine buildZoneList_same fun e he => ?_
    have hm := (OMap.mem_entries_iff hc.tables.2.1 _ _).1 he
    rw [usedZones_find c e.1 (fun p hp => by obtain ⟨-, -, -, z, hz, -⟩ := hc.zone _ _ hp; exact ⟨z, hz⟩), hm]
    rfl
  unfold launched
  simp only [this]

/-! ## The file is one that can be written -/

theorem real_obj {l : List (String × Json)} (ks : List String) (hk : l.map Prod.fst = ks) (hs : ks.Pairwise (· < ·))
    (h : l.Forall (fun m => m.2.Real)) : (Json.obj l).Real := by
  refine .obj (List.forall_iff_forall_mem.1 h) ?_
  subst hk
  exact List.pairwise_map.1 hs

theorem Fits64.real {i : Int} (h : Fits64 i) : (Json.int i).Real := .int h.1 (by have := h.2; omega)

theorem SensorConfig.Expressible.real {s : SensorConfig} (h : s.Expressible) (n : String) : (s.asJson n).Real := by
  refine real_obj _ rfl (by simp only [List.map_cons, List.map_nil]; decide +kernel) ?_
  simp only [List.Forall]
  exact ⟨.bool _, .bool _, h.max.real, h.min.real, .str _, .str _, h.timeout.real, .str _, .bool _, .str _⟩

theorem PidConf.Expressible.real {p : PidConf} (h : p.Expressible) : p.asJson.Real := by
  refine real_obj _ rfl (by simp only [List.map_cons, List.map_nil]; decide +kernel) ?_
  simp only [List.Forall]
  exact ⟨.bool _, .float h.derivativeCoeff, .float h.feedFwdGain, .float h.feedFwdOffset, .float h.integralCoeff, .float h.imax,
    .float h.imin, .float h.negativeHysteresis, .float h.omax, .float h.omin, .float h.positiveHysteresis,
    .float h.proportionalCoeff, .float h.ts, .float h.slewNeg, .float h.slewPos⟩

omit F in
theorem pointOrder_sorted : pointOrder.Pairwise (fun i j => toString i.val < toString j.val) := by decide +kernel

theorem points_real {f : Fin maxStepwisePoints → Dbl} (h : ∀ i, f i = .nan ∨ (f i).isFinite = true) : (pointsAsJson f).Real := by
  refine .obj ?_ ?_
  · intro m hm
    obtain ⟨i, hi, rfl⟩ := List.mem_map.1 hm
    have := (List.mem_filter.1 hi).2
    rcases h i with h | h
    · rw [h] at this; simp [isNaN] at this
    · exact .float h
  · rw [List.pairwise_map]
    exact pointOrder_sorted.sublist List.filter_sublist

theorem StepwiseInfo.Expressible.real {s : StepwiseInfo} (h : s.Expressible) : s.asJson.Real := by
  refine real_obj _ rfl (by simp only [List.map_cons, List.map_nil]; decide +kernel) ?_
  simp only [List.Forall]
  exact ⟨.bool _, .float h.negativeHysteresis, points_real h.output, .float h.positiveHysteresis, points_real h.reading,
    .float h.ts⟩

theorem MarginsFirst.finite : ∀ {l : List SensorInput}, MarginsFirst l → ∀ i ∈ l, i.convertTempToMargin = true →
    i.convertMarginZero.isFinite = true
  | [], _, _, hi, _ => by cases hi
  | j :: l, h, i, hi, hc => by
    rcases h with ⟨-, h1, h2⟩ | h
    · rcases List.mem_cons.1 hi with rfl | hi
      · exact h1
      · exact MarginsFirst.finite h2 i hi hc
    · rw [(h i hi).1] at hc; cases hc

theorem ofInt_finite32 {i : Int} (h1 : -(2 ^ 31) ≤ i) (h2 : i < 2 ^ 31) : (Dbl.ofInt i).isFinite = true := by
  rw [@ofInt_eq F i (by omega) (by omega)]; rfl

theorem ControllerInfo.Expressible.real {c : ControllerInfo} (h : c.Expressible) (n : String) : (c.asJson n).Real := by
  refine real_obj _ rfl (by simp only [List.map_cons, List.map_nil]; decide +kernel) ?_
  simp only [List.Forall]
  obtain ⟨i, hi1, hi2, hp⟩ := h.percent
  refine ⟨.float (by rw [hp]; exact ofInt_finite32 hi1 hi2), .arr ?_, .arr ?_, .str _, ?_, .float h.setpoint, .arr ?_, .str _⟩
  · intro x hx; obtain ⟨a, -, rfl⟩ := List.mem_map.1 hx; exact .str _
  · intro x hx; obtain ⟨a, -, rfl⟩ := List.mem_map.1 hx; exact .str _
  · split_ifs with ht
    · exact (h.stepwise ht).1.real
    · exact (h.pid ht).1.real
  · intro x hx
    obtain ⟨a, ha, rfl⟩ := List.mem_map.1 hx
    obtain ⟨ha, hc⟩ := List.mem_filter.1 ha
    exact .float (h.margins.finite a ha hc)

theorem ZoneConfig.Expressible.real {z : ZoneConfig} (h : z.Expressible) {i : Int} (hi : Fits64 i) {p : PIDConf}
    (hp : ∀ e ∈ p.entries, e.2.Expressible) : (z.asJson i p).Real := by
  refine real_obj _ rfl (by simp only [List.map_cons, List.map_nil]; decide +kernel) ?_
  simp only [List.Forall]
  refine ⟨.bool _, .int (by omega) (by exact_mod_cast h.cycle.2), .float h.failsafePercent, hi.real, .float h.minThermalOutput,
    .arr ?_, .int (by omega) (by exact_mod_cast h.thermals.2)⟩
  intro x hx
  obtain ⟨e, he, rfl⟩ := List.mem_map.1 hx
  exact (hp e he).real _

theorem Config.Expressible.real {c : Config} (hc : c.Expressible) : c.asFile.Real := by
  obtain ⟨w1, w2, w3⟩ := hc.tables
  refine real_obj _ rfl (by simp only [List.map_cons, List.map_nil]; decide +kernel) ?_
  simp only [List.Forall]
  refine ⟨.arr ?_, .arr ?_⟩
  · intro x hx
    obtain ⟨e, he, rfl⟩ := List.mem_map.1 hx
    exact (hc.sensor e.1 e.2 ((OMap.mem_entries_iff w1 _ _).1 he)).real _
  · intro x hx
    obtain ⟨e, he, rfl⟩ := List.mem_map.1 hx
    have hm := (OMap.mem_entries_iff w2 _ _).1 he
    obtain ⟨g1, g2, g3, z, g4, g5⟩ := hc.zone e.1 e.2 hm
    rw [g4]
    exact ZoneConfig.Expressible.real g5 g1
      (fun l hl => hc.loop _ _ hm l.1 l.2 ((OMap.mem_entries_iff g2 _ _).1 hl))

end
end Verif
