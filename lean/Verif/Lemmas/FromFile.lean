import Verif.Lemmas.AsFile
import Verif.Props.Writers

/-!
# What a configuration read from a file looks like
-/

namespace Verif
open Dbl

section
variable [F : FloatModel]

/-- Numbers of 64 bits are not too large to be doubles (as they are not in binary64). -/
def HoldsInts [F : FloatModel] : Prop := ∀ i : Int, -(2 ^ 63) ≤ i → i < 2 ^ 64 → (Dbl.ofInt i).isFinite = true

theorem findMember_mem {k : String} {v : Json} : ∀ {l : List (String × Json)}, findMember k l = some v → ∃ m ∈ l, m.2 = v
  | [], h => by cases h
  | (k', v') :: l, h => by
    simp only [findMember] at h
    split_ifs at h with hk
    · cases h; exact ⟨(k', v), by simp, rfl⟩
    · obtain ⟨m, hm, e⟩ := findMember_mem h
      exact ⟨m, by simp [hm], e⟩

theorem find_real {j v : Json} {k : String} (h : j.Real) (hf : j.find? k = some v) : v.Real := by
  cases h with
  | obj h hs =>
    obtain ⟨m, hm, rfl⟩ := findMember_mem hf
    exact h m hm
  | _ => cases hf

theorem atKey_real {j v : Json} {k : String} (h : j.Real) (hf : j.atKey k = .ok v) : v.Real := by
  refine find_real h (k := k) ?_
  cases j with
  | obj l =>
    simp only [Json.atKey, Json.find?] at hf ⊢
    cases hm : findMember k l with
    | none => rw [hm] at hf; cases hf
    | some v' => rw [hm] at hf; cases hf; rfl
  | _ => cases hf

theorem index_real {j v : Json} {k : String} (h : j.Real) (hf : j.index k = .ok v) : v.Real := by
  refine find_real h (k := k) ?_
  cases j with
  | obj l =>
    simp only [Json.index, Json.find?] at hf ⊢
    cases hm : findMember k l with
    | none => rw [hm] at hf; cases hf
    | some v' => rw [hm] at hf; cases hf; rfl
  | _ => cases hf

theorem elems_real {j : Json} (h : j.Real) : ∀ x ∈ j.elems, x.Real := by
  intro x hx
  cases h with
  | null => cases hx
  | arr h => exact h x hx
  | obj h hs =>
    obtain ⟨m, hm, rfl⟩ := List.mem_map.1 hx
    exact h m hm
  | bool b => simp only [Json.elems, List.mem_singleton] at hx; subst hx; exact .bool b
  | int a b => simp only [Json.elems, List.mem_singleton] at hx; subst hx; exact .int a b
  | float a => simp only [Json.elems, List.mem_singleton] at hx; subst hx; exact .float a
  | str s => simp only [Json.elems, List.mem_singleton] at hx; subst hx; exact .str s

theorem getDbl_finite (hF : HoldsInts) {j : Json} (h : j.Real) {d : Dbl} (hd : j.getDbl = .ok d) : d.isFinite = true := by
  cases h with
  | int a b => cases hd; exact hF _ a b
  | float a => cases hd; exact a
  | _ => cases hd

theorem req_finite (hF : HoldsInts) {j : Json} (h : j.Real) {k : String} {d : Dbl} (hd : j.req k Json.getDbl = .ok d) :
    d.isFinite = true := by
  obtain ⟨v, h1, h2⟩ := bind_eq_ok.1 hd
  exact getDbl_finite hF (atKey_real h h1) h2

theorem zero_finite : (0 : Dbl).isFinite = true := by
  rw [zero_eq]; rfl

theorem opt_finite (hF : HoldsInts) {j : Json} (h : j.Real) {k : String} {d : Dbl} (hd : j.opt k 0 Json.getDbl = .ok d) :
    d.isFinite = true := by
  unfold Json.opt at hd
  cases hf : j.find? k with
  | none => rw [hf] at hd; cases hd; exact zero_finite
  | some v => rw [hf] at hd; exact getDbl_finite hF (find_real h hf) hd

theorem getI64_range {j : Json} {i : Int} (h : j.getI64 = .ok i) : Fits64 i := by
  cases j with
  | int a =>
    simp only [Json.getI64, Except.ok.injEq] at h
    have h1 := Int.emod_nonneg (a + 2 ^ 63) (show (2 ^ 64 : Int) ≠ 0 by norm_num)
    have h2 := Int.emod_lt_of_pos (a + 2 ^ 63) (show (0 : Int) < 2 ^ 64 by norm_num)
    unfold Fits64
    omega
  | float d =>
    obtain ⟨q, hq, -, -, h1, h2⟩ := castOr_castInt.1 h
    unfold Fits64
    omega
  | _ => cases h

theorem getU64_range {j : Json} {n : Nat} (h : j.getU64 = .ok n) : n < 2 ^ 64 := by
  cases j with
  | int a =>
    simp only [Json.getU64, Except.ok.injEq] at h
    have h2 := Int.emod_lt_of_pos a (show (0 : Int) < 2 ^ 64 by norm_num)
    omega
  | float d =>
    obtain ⟨i, h1, h2⟩ := bind_eq_ok.1 h
    obtain ⟨q, hq, -, -, h3, h4⟩ := castOr_castInt.1 h1
    simp only [Except.ok.injEq] at h2
    omega
  | _ => cases h

theorem getI32_range {j : Json} {i : Int} (h : j.getI32 = .ok i) : -(2 ^ 31) ≤ i ∧ i < 2 ^ 31 := by
  cases j with
  | int a =>
    simp only [Json.getI32, Except.ok.injEq] at h
    have h1 := Int.emod_nonneg (a + 2 ^ 31) (show (2 ^ 32 : Int) ≠ 0 by norm_num)
    have h2 := Int.emod_lt_of_pos (a + 2 ^ 31) (show (0 : Int) < 2 ^ 32 by norm_num)
    omega
  | float d =>
    obtain ⟨q, hq, -, -, h1, h2⟩ := castOr_castInt.1 h
    omega
  | bool b =>
    simp only [Json.getI32, Except.ok.injEq] at h
    cases b <;> simp at h <;> omega
  | _ => cases h

theorem opt_cases {α : Type} {j : Json} {k : String} {d x : α} {get : Json → Res α} (h : j.opt k d get = .ok x) :
    x = d ∨ ∃ v, j.find? k = some v ∧ get v = .ok x := by
  unfold Json.opt at h
  cases hf : j.find? k with
  | none => rw [hf] at h; cases h; exact .inl rfl
  | some v => rw [hf] at h; exact .inr ⟨v, rfl, h⟩

omit F in
theorem fits_small {i : Int} (h1 : 0 ≤ i) (h2 : i ≤ 2) : Fits64 i := by unfold Fits64; omega

theorem sensor_expressible {j : Json} {s : SensorConfig} (h : sensorFromJson j = .ok s) : s.Expressible := by
  unfold sensorFromJson at h
  obtain ⟨type, -, h⟩ := bind_eq_ok.1 h
  obtain ⟨_, -, h⟩ := bind_eq_ok.1 h
  obtain ⟨_, -, h⟩ := bind_eq_ok.1 h
  obtain ⟨_, -, h⟩ := bind_eq_ok.1 h
  obtain ⟨_, -, h⟩ := bind_eq_ok.1 h
  obtain ⟨_, -, h⟩ := bind_eq_ok.1 h
  obtain ⟨mn, h1, h⟩ := bind_eq_ok.1 h
  obtain ⟨mx, h2, h⟩ := bind_eq_ok.1 h
  obtain ⟨t, h3, h⟩ := bind_eq_ok.1 h
  cases h
  have key : ∀ {k : String} {x : Int}, j.fanOnly type k = .ok x → Fits64 x ∧ (type ≠ "fan" → x = 0) := by
    intro k x hx
    unfold Json.fanOnly at hx
    by_cases ht : type = "fan"
    · rw [if_pos ht] at hx
      refine ⟨?_, fun h => absurd ht h⟩
      rcases opt_cases hx with rfl | ⟨v, -, hv⟩
      · exact fits_small le_rfl (by norm_num)
      · exact getI64_range hv
    · rw [if_neg ht] at hx
      cases hx
      exact ⟨fits_small le_rfl (by norm_num), fun _ => rfl⟩
  refine ⟨(key h1).1, (key h2).1, ?_, fun ht => ⟨(key h1).2 ht, (key h2).2 ht⟩⟩
  rcases opt_cases h3 with rfl | ⟨v, -, hv⟩
  · show Fits64 (getDefaultTimeout type)
    unfold getDefaultTimeout
    split_ifs
    · exact fits_small le_rfl (by norm_num)
    · exact fits_small (by norm_num) le_rfl
  · exact getI64_range hv

theorem sensorsFromList_expressible : ∀ {l : List Json} {m m' : OMap String SensorConfig}, m.WF →
    (∀ n s, m.find? n = some s → s.Expressible) → sensorsFromList m l = .ok m' →
    m'.WF ∧ (∀ n s, m'.find? n = some s → s.Expressible) ∧ (m.entries ≠ [] ∨ l ≠ [] → m'.entries ≠ [])
  | [], m, m', hw, he, h => by
    cases h; exact ⟨hw, he, fun h => h.elim id (fun h => absurd rfl h)⟩
  | j :: l, m, m', hw, he, h => by
    unfold sensorsFromList at h
    obtain ⟨c, h1, h⟩ := bind_eq_ok.1 h
    obtain ⟨_, -, h⟩ := bind_eq_ok.1 h
    obtain ⟨name, -, h⟩ := bind_eq_ok.1 h
    obtain ⟨g1, g2, g3⟩ := sensorsFromList_expressible (OMap.wf_insert hw name c) (fun n s hs => by
      rw [OMap.find?_insert] at hs
      split_ifs at hs with e
      · cases hs; exact sensor_expressible h1
      · exact he n s hs) h
    refine ⟨g1, g2, fun _ => g3 (.inl ?_)⟩
    intro e
    have := OMap.find?_insert_self m name c
    simp only [OMap.find?, e, OMap.lookupL] at this
    cases this

theorem pidConf_expressible (hF : HoldsInts) {p : Json} (hp : p.Real) {o : OptionalPid} {c : PidConf}
    (ho : optionalFromJson p = .ok o) (h : pidConfFromJson p o = .ok c) : c.Expressible := by
  unfold optionalFromJson at ho
  obtain ⟨_, -, ho⟩ := bind_eq_ok.1 ho
  obtain ⟨_, o1, ho⟩ := bind_eq_ok.1 ho
  obtain ⟨_, o2, ho⟩ := bind_eq_ok.1 ho
  obtain ⟨_, o3, ho⟩ := bind_eq_ok.1 ho
  cases ho
  unfold pidConfFromJson at h
  obtain ⟨_, a1, h⟩ := bind_eq_ok.1 h
  obtain ⟨_, a2, h⟩ := bind_eq_ok.1 h
  obtain ⟨_, a3, h⟩ := bind_eq_ok.1 h
  obtain ⟨_, a4, h⟩ := bind_eq_ok.1 h
  obtain ⟨_, a5, h⟩ := bind_eq_ok.1 h
  obtain ⟨_, a6, h⟩ := bind_eq_ok.1 h
  obtain ⟨_, a7, h⟩ := bind_eq_ok.1 h
  obtain ⟨_, a8, h⟩ := bind_eq_ok.1 h
  obtain ⟨_, a9, h⟩ := bind_eq_ok.1 h
  obtain ⟨_, a10, h⟩ := bind_eq_ok.1 h
  obtain ⟨_, a11, h⟩ := bind_eq_ok.1 h
  cases h
  exact ⟨req_finite hF hp a1, req_finite hF hp a2, req_finite hF hp a3, opt_finite hF hp o3, req_finite hF hp a4,
    req_finite hF hp a5, req_finite hF hp a6, req_finite hF hp a7, req_finite hF hp a8, req_finite hF hp a9,
    req_finite hF hp a10, req_finite hF hp a11, opt_finite hF hp o1, opt_finite hF hp o2⟩

theorem pointLoop_finite (hF : HoldsInts) {r : Json} (hr : r.Real) : ∀ {l : List (Fin maxStepwisePoints)}
    {f g : Fin maxStepwisePoints → Dbl}, (∀ i, f i = .nan ∨ (f i).isFinite = true) → pointLoop r l f = .ok g →
    ∀ i, g i = .nan ∨ (g i).isFinite = true
  | [], f, g, hf, h => by cases h; exact hf
  | i :: l, f, g, hf, h => by
    unfold pointLoop at h
    cases hm : r.find? (toString i.val) with
    | none => rw [hm] at h; exact pointLoop_finite hF hr hf h
    | some v =>
      rw [hm] at h
      obtain ⟨d, hd, h⟩ := bind_eq_ok.1 h
      refine pointLoop_finite hF hr (fun k => ?_) h
      by_cases e : k = i
      · rw [if_pos e]; exact .inr (getDbl_finite hF (find_real hr hm) hd)
      · rw [if_neg e]; exact hf k

theorem points_finite (hF : HoldsInts) {p : Json} (hp : p.Real) {k : String} {g : Fin maxStepwisePoints → Dbl}
    (h : pointsFromJson p k = .ok g) : ∀ i, g i = .nan ∨ (g i).isFinite = true := by
  unfold pointsFromJson at h
  cases hm : p.find? k with
  | none => rw [hm] at h; cases h; exact fun _ => .inl rfl
  | some r => rw [hm] at h; exact pointLoop_finite hF (find_real hp hm) (fun _ => .inl rfl) h

theorem stepwise_expressible (hF : HoldsInts) {p : Json} (hp : p.Real) {o : OptionalPid} {c : StepwiseInfo}
    (ho : optionalFromJson p = .ok o) (h : stepwiseFromJson p o = .ok c) : c.Expressible := by
  unfold optionalFromJson at ho
  obtain ⟨_, -, ho⟩ := bind_eq_ok.1 ho
  obtain ⟨_, o1, ho⟩ := bind_eq_ok.1 ho
  obtain ⟨_, o2, ho⟩ := bind_eq_ok.1 ho
  obtain ⟨_, o3, ho⟩ := bind_eq_ok.1 ho
  cases ho
  unfold stepwiseFromJson at h
  obtain ⟨_, a1, h⟩ := bind_eq_ok.1 h
  obtain ⟨_, -, h⟩ := bind_eq_ok.1 h
  obtain ⟨_, a3, h⟩ := bind_eq_ok.1 h
  obtain ⟨_, a4, h⟩ := bind_eq_ok.1 h
  cases h
  exact ⟨req_finite hF hp a1, points_finite hF hp a3, points_finite hF hp a4, opt_finite hF hp o1, opt_finite hF hp o2⟩

/-- the same inputs but for what may be missing -/
theorem MarginsFirst.map {f : SensorInput → SensorInput} (hf : ∀ i, (f i).convertTempToMargin = i.convertTempToMargin ∧
    (f i).convertMarginZero = i.convertMarginZero) : ∀ {l : List SensorInput}, MarginsFirst l → MarginsFirst (l.map f)
  | [], _ => trivial
  | i :: l, h => by
    rcases h with ⟨h1, h2, h3⟩ | h
    · exact .inl ⟨by rw [(hf i).1, h1], by rw [(hf i).2, h2], MarginsFirst.map hf h3⟩
    · refine .inr fun j hj => ?_
      obtain ⟨k, hk, rfl⟩ := List.mem_map.1 (show j ∈ (i :: l).map f from hj)
      rw [(hf k).1, (hf k).2]
      exact h k hk

theorem marginsFirst_splice : ∀ {l : List SensorInput} {ms : List Dbl},
    (∀ i ∈ l, i.convertTempToMargin = false ∧ i.convertMarginZero = .nan) → (∀ m ∈ ms, m.isFinite = true) →
    MarginsFirst (spliceMargins l ms)
  | [], _, _, _ => by simp [spliceMargins, MarginsFirst]
  | i :: l, [], h, _ => .inr h
  | i :: l, m :: ms, h, hm =>
    .inl ⟨rfl, hm m (by simp), marginsFirst_splice (fun j hj => h j (by simp [hj])) (fun x hx => hm x (by simp [hx]))⟩

theorem splice_flag : ∀ {l : List SensorInput} {ms : List Dbl}, (∀ i ∈ l, i.missingIsAcceptable = false) →
    ∀ i ∈ spliceMargins l ms, i.missingIsAcceptable = false
  | [], _, _, i, hi => by simp [spliceMargins] at hi
  | j :: l, [], h, i, hi => h i hi
  | j :: l, m :: ms, h, i, hi => by
    rcases List.mem_cons.1 (show i ∈ _ :: spliceMargins l ms from hi) with rfl | hi
    · exact h j (by simp)
    · exact splice_flag (fun j hj => h j (by simp [hj])) i hi

theorem splice_expressible (names : List String) {ms : List Dbl} (missing : List String) (hm : ∀ m ∈ ms, m.isFinite = true) :
    MarginsFirst (spliceInputs names ms missing) ∧
    ∀ i ∈ spliceInputs names ms missing, ∀ j ∈ spliceInputs names ms missing, i.name = j.name →
      i.missingIsAcceptable = j.missingIsAcceptable := by
  constructor
  · refine MarginsFirst.map (fun i => ?_) (marginsFirst_splice (fun i hi => ?_) hm)
    · split_ifs <;> exact ⟨rfl, rfl⟩
    · obtain ⟨n, -, rfl⟩ := List.mem_map.1 hi; exact ⟨rfl, rfl⟩
  · have key : ∀ i ∈ spliceInputs names ms missing, i.missingIsAcceptable = missing.contains i.name := by
      intro i hi
      obtain ⟨j, hj, rfl⟩ := List.mem_map.1 hi
      have := splice_flag (fun i hi => by obtain ⟨n, -, rfl⟩ := List.mem_map.1 hi; rfl) j hj
      cases hc : missing.contains j.name with
      | false => rw [if_neg (by simp), this, hc]
      | true => rw [if_pos rfl]; exact hc.symm
    intro i hi j hj e
    rw [key i hi, key j hj, e]

theorem getAll_finite (hF : HoldsInts) : ∀ {l : List Json} {ds : List Dbl}, (∀ x ∈ l, x.Real) →
    Json.getAll Json.getDbl l = .ok ds → ∀ d ∈ ds, d.isFinite = true
  | [], ds, _, h => by cases h; intro d hd; cases hd
  | x :: l, ds, hr, h => by
    obtain ⟨a, h1, h⟩ := bind_eq_ok.1 h
    obtain ⟨as, h2, h⟩ := bind_eq_ok.1 h
    cases h
    intro d hd
    rcases List.mem_cons.1 hd with rfl | hd
    · exact getDbl_finite hF (hr x (by simp)) h1
    · exact getAll_finite hF (fun y hy => hr y (by simp [hy])) h2 d hd

theorem controller_expressible (hF : HoldsInts) {j : Json} (hj : j.Real) {c : ControllerInfo}
    (h : controllerFromJson j = .ok c) : c.Expressible := by
  unfold controllerFromJson at h
  obtain ⟨type, -, h⟩ := bind_eq_ok.1 h
  obtain ⟨names, -, h⟩ := bind_eq_ok.1 h
  obtain ⟨sp, a3, h⟩ := bind_eq_ok.1 h
  obtain ⟨ms, a4, h⟩ := bind_eq_ok.1 h
  obtain ⟨missing, -, h⟩ := bind_eq_ok.1 h
  obtain ⟨p, a6, h⟩ := bind_eq_ok.1 h
  obtain ⟨o, a7, h⟩ := bind_eq_ok.1 h
  obtain ⟨fs, a8, h⟩ := bind_eq_ok.1 h
  have hp := atKey_real hj a6
  have hm : ∀ m ∈ ms, m.isFinite = true := by
    rcases opt_cases a4 with rfl | ⟨v, hv, hg⟩
    · intro m hm; cases hm
    · have hr := find_real hj hv
      cases v with
      | arr xs =>
        cases hr with
        | arr hr => exact getAll_finite hF hr hg
      | _ => cases hg
  have hfs : -(2 ^ 31) ≤ fs ∧ fs < 2 ^ 31 := by
    rcases opt_cases a8 with rfl | ⟨v, -, hg⟩
    · norm_num
    · exact getI32_range hg
  obtain ⟨s1, s2⟩ := splice_expressible names missing hm
  by_cases ht : type = "stepwise"
  · rw [if_neg (by simp [ht])] at h
    obtain ⟨info, h1, h⟩ := bind_eq_ok.1 h
    cases h
    exact ⟨req_finite hF hj a3, ⟨fs, hfs.1, hfs.2, rfl⟩, s1, s2, fun h => absurd ht h,
      fun _ => ⟨stepwise_expressible hF hp a7 h1, rfl⟩⟩
  · rw [if_pos ht] at h
    obtain ⟨info, h1, h⟩ := bind_eq_ok.1 h
    cases h
    exact ⟨req_finite hF hj a3, ⟨fs, hfs.1, hfs.2, rfl⟩, s1, s2, fun _ => ⟨pidConf_expressible hF hp a7 h1, rfl⟩,
      fun h => absurd h ht⟩

theorem pidsFromList_expressible (hF : HoldsInts) : ∀ {l : List Json} {m m' : PIDConf}, (∀ x ∈ l, x.Real) → m.WF →
    (∀ n s, m.find? n = some s → s.Expressible) → pidsFromList m l = .ok m' →
    m'.WF ∧ (∀ n s, m'.find? n = some s → s.Expressible) ∧ (m.entries ≠ [] ∨ l ≠ [] → m'.entries ≠ [])
  | [], m, m', _, hw, he, h => by
    cases h; exact ⟨hw, he, fun h => h.elim id (fun h => absurd rfl h)⟩
  | j :: l, m, m', hr, hw, he, h => by
    unfold pidsFromList at h
    obtain ⟨_, -, h⟩ := bind_eq_ok.1 h
    obtain ⟨c, h1, h⟩ := bind_eq_ok.1 h
    obtain ⟨name, -, h⟩ := bind_eq_ok.1 h
    obtain ⟨g1, g2, g3⟩ := pidsFromList_expressible hF (fun x hx => hr x (by simp [hx])) (OMap.wf_insert hw name c)
      (fun n s hs => by
        rw [OMap.find?_insert] at hs
        split_ifs at hs with e
        · cases hs; exact controller_expressible hF (hr j (by simp)) h1
        · exact he n s hs) h
    refine ⟨g1, g2, fun _ => g3 (.inl ?_)⟩
    intro e
    have := OMap.find?_insert_self m name c
    simp only [OMap.find?, e, OMap.lookupL] at this
    cases this

theorem cycle_range {zone : Json} {k : String} {n x : Nat} (hn : 1 ≤ n ∧ n < 2 ^ 64) (h : cycleTimeFromJson zone k n = .ok x) :
    1 ≤ x ∧ x < 2 ^ 64 := by
  unfold cycleTimeFromJson at h
  cases hm : zone.find? k with
  | none => rw [hm] at h; cases h; exact hn
  | some v =>
    rw [hm] at h
    obtain ⟨t, h1, h⟩ := bind_eq_ok.1 h
    split_ifs at h with ht
    · cases h; exact ⟨ht, getU64_range h1⟩
    · cases h; exact hn

theorem zone_expressible (hF : HoldsInts) {j : Json} (hj : j.Real) {i : Int} {p : PIDConf} {z : ZoneConfig}
    (h : zoneFromJson j = .ok (i, p, z)) : Fits64 i ∧ p.WF ∧ (∀ n l, p.find? n = some l → l.Expressible) ∧ z.Expressible ∧
      ∃ ps, j.index "pids" = .ok ps ∧ (ps.elems ≠ [] → p.entries ≠ []) := by
  unfold zoneFromJson at h
  obtain ⟨_, -, h⟩ := bind_eq_ok.1 h
  obtain ⟨_, a2, h⟩ := bind_eq_ok.1 h
  obtain ⟨_, a3, h⟩ := bind_eq_ok.1 h
  obtain ⟨_, a4, h⟩ := bind_eq_ok.1 h
  obtain ⟨_, a5, h⟩ := bind_eq_ok.1 h
  obtain ⟨_, a6, h⟩ := bind_eq_ok.1 h
  obtain ⟨_, a7, h⟩ := bind_eq_ok.1 h
  obtain ⟨_, a8, h⟩ := bind_eq_ok.1 h
  obtain ⟨_, -, h⟩ := bind_eq_ok.1 h
  obtain ⟨ps, a10, h⟩ := bind_eq_ok.1 h
  obtain ⟨conf, a11, h⟩ := bind_eq_ok.1 h
  cases h
  obtain ⟨g1, g2, g3⟩ := pidsFromList_expressible hF (elems_real (index_real hj a10)) OMap.wf_empty (by simp) a11
  exact ⟨getI64_range a2, g1, g2, ⟨getDbl_finite hF (index_real hj a3) a4, getDbl_finite hF (index_real hj a5) a6,
    cycle_range (by norm_num) a7, cycle_range (by norm_num) a8⟩, ps, a10, fun h => g3 (.inr h)⟩

/-- what is true of the zones read so far -/
structure ZonesSoFar (ps : OMap Int PIDConf) (zs : OMap Int ZoneConfig) : Prop where
  pids : ps.WF
  zones : zs.WF
  same : ∀ i, (zs.find? i).isSome = (ps.find? i).isSome
  zone : ∀ i p, ps.find? i = some p → Fits64 i ∧ p.WF ∧ p.entries ≠ [] ∧ (∀ n l, p.find? n = some l → l.Expressible)
  conf : ∀ i z, zs.find? i = some z → z.Expressible

omit F in
theorem elems_size [F : FloatModel] {j : Json} (h : j.size ≠ 0) : j.elems ≠ [] := by
  cases j with
  | null => simp [Json.size] at h
  | arr xs => intro e; simp only [Json.elems] at e; subst e; simp [Json.size] at h
  | obj l => intro e; simp only [Json.elems, List.map_eq_nil_iff] at e; subst e; simp [Json.size] at h
  | _ => simp [Json.elems]

theorem zonesFromList_expressible (hF : HoldsInts) : ∀ {l : List Json} {ps ps' : OMap Int PIDConf} {zs zs' : OMap Int ZoneConfig},
    (∀ x ∈ l, x.Real) → validateZones l = .ok () → ZonesSoFar ps zs → zonesFromList ps zs l = .ok (ps', zs') → ZonesSoFar ps' zs'
  | [], _, _, _, _, _, _, hs, h => by cases h; exact hs
  | j :: l, ps, ps', zs, zs', hr, hv, hs, h => by
    unfold validateZones at hv
    split_ifs at hv with hc
    obtain ⟨pj, hpj, hv⟩ := bind_eq_ok.1 hv
    split_ifs at hv with hz
    unfold zonesFromList at h
    obtain ⟨⟨i, p, z⟩, h1, h⟩ := bind_eq_ok.1 h
    obtain ⟨g1, g2, g3, g4, pj', g5, g6⟩ := zone_expressible hF (hr j (by simp)) h1
    rw [hpj] at g5
    cases g5
    refine zonesFromList_expressible hF (fun x hx => hr x (by simp [hx])) hv ?_ h
    refine ⟨OMap.wf_insert hs.pids _ _, OMap.wf_insert hs.zones _ _, fun k => ?_, fun k q hq => ?_, fun k y hy => ?_⟩
    · rw [OMap.find?_insert, OMap.find?_insert]
      split_ifs
      · rfl
      · exact hs.same k
    · rw [OMap.find?_insert] at hq
      split_ifs at hq with e
      · cases hq; subst e; exact ⟨g1, g2, g6 (elems_size hz), g3⟩
      · exact hs.zone k q hq
    · rw [OMap.find?_insert] at hy
      split_ifs at hy with e
      · cases hy; exact g4
      · exact hs.conf k y hy

theorem file_expressible (hF : HoldsInts) {f : StartFiles} {path : String} {j : Json} (hj : j.Real) (hf : f.json path = some j)
    {c : Config} (h : configFromFile f path = .ok c) : c.Expressible ∧ ∀ i, (c.zones.find? i).isSome = (c.pids.find? i).isSome := by
  unfold configFromFile at h
  obtain ⟨data, h1, h⟩ := bind_eq_ok.1 h
  unfold parseValidateJson at h1
  rw [hf] at h1
  obtain ⟨_, hv, h1⟩ := bind_eq_ok.1 h1
  cases h1
  obtain ⟨sensors, h2, h⟩ := bind_eq_ok.1 h
  obtain ⟨⟨pids, zones⟩, h3, h⟩ := bind_eq_ok.1 h
  cases h
  unfold validateJson at hv
  by_cases c1 : j.count "sensors" ≠ 1
  · rw [if_pos c1] at hv; cases hv
  rw [if_neg c1] at hv
  obtain ⟨sj, v1, hv⟩ := bind_eq_ok.1 hv
  by_cases c2 : sj.size = 0
  · rw [if_pos c2] at hv; cases hv
  rw [if_neg c2] at hv
  by_cases c3 : j.count "zones" ≠ 1
  · rw [if_pos c3] at hv; cases hv
  rw [if_neg c3] at hv
  obtain ⟨zj, v2, hv⟩ := bind_eq_ok.1 hv
  obtain ⟨sj', b1, b2⟩ := bind_eq_ok.1 h2
  rw [v1] at b1
  cases b1
  obtain ⟨zj', d1, d2⟩ := bind_eq_ok.1 h3
  rw [v2] at d1
  cases d1
  obtain ⟨s1, s2, s3⟩ := sensorsFromList_expressible OMap.wf_empty (by simp) b2
  have z := zonesFromList_expressible hF (elems_real (index_real hj v2)) hv
    ⟨OMap.wf_empty, OMap.wf_empty, fun _ => rfl, by simp, by simp⟩ d2
  refine ⟨⟨⟨s1, z.pids, z.zones⟩, s3 (.inr (elems_size c2)), s2, fun i p hp => ?_, fun i p hp n l hl => (z.zone i p hp).2.2.2 n l hl⟩,
    z.same⟩
  obtain ⟨g1, g2, g3, -⟩ := z.zone i p hp
  have hs := z.same i
  rw [hp] at hs
  obtain ⟨zc, hzc⟩ := Option.isSome_iff_exists.1 hs
  exact ⟨g1, g2, g3, zc, hzc, z.conf i zc hzc⟩

end
end Verif
