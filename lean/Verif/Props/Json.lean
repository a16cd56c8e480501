import Verif.Lemmas.Json
import Verif.Props.Util
import Verif.Model.DbusConf

/-!
# C60 to C63

Configuration files: which are accepted, what the entries for sensors, loops and zones mean, and the cycle times.
-/

namespace Verif
open Dbl

section
variable [F : FloatModel]

/-! ## C63 -/

theorem validateZones_iff : ∀ zs : List Json,
    validateZones zs = .ok () ↔ ∀ zone ∈ zs, ∃ p, Member zone "pids" p ∧ ¬ Entries p []
  | [] => by simp [validateZones]
  | zone :: rest => by
    rw [validateZones, List.forall_mem_cons, ← validateZones_iff rest]
    by_cases hc : zone.count "pids" = 1
    · rw [if_neg (by simpa using hc)]
      obtain ⟨p, hp⟩ := count_iff.1 hc
      rw [index_iff.2 hp, ok_bind]
      by_cases hs : p.size = 0
      · rw [if_pos hs]
        simp only [reduceCtorEq, false_iff, not_and]
        rintro ⟨p', hp', hn⟩
        exact absurd (size_iff.1 hs) (member_unique hp hp' ▸ hn)
      · rw [if_neg hs]
        exact ⟨fun h => ⟨⟨p, hp, fun h' => hs (size_iff.2 h')⟩, h⟩, fun h => h.2⟩
    · rw [if_pos hc]
      simp only [reduceCtorEq, false_iff, not_and]
      rintro ⟨p, hp, -⟩
      exact absurd (count_iff.2 ⟨p, hp⟩) hc

/-- **C63.** A configuration file is accepted exactly if it has the sections for sensors and zones, at least one sensor,
and at least one loop in every zone. -/
theorem C63_validate (data : Json) : validateJson data = .ok () ↔ Acceptable data := by
  unfold validateJson Acceptable
  by_cases hc : data.count "sensors" = 1
  · rw [if_neg (by simpa using hc)]
    obtain ⟨s, hs⟩ := count_iff.1 hc
    rw [index_iff.2 hs, ok_bind]
    by_cases h0 : s.size = 0
    · rw [if_pos h0]
      simp only [reduceCtorEq, false_iff, not_and]
      rintro ⟨s', hs', hn⟩
      exact absurd (size_iff.1 h0) (member_unique hs hs' ▸ hn)
    · rw [if_neg h0]
      by_cases hz : data.count "zones" = 1
      · rw [if_neg (by simpa using hz)]
        obtain ⟨z, hz⟩ := count_iff.1 hz
        rw [index_iff.2 hz, ok_bind, validateZones_iff]
        constructor
        · intro h
          refine ⟨⟨s, hs, fun h' => h0 (size_iff.2 h')⟩, z, hz, fun zs hzs => ?_⟩
          rw [← entries_iff.1 hzs]
          exact h
        · rintro ⟨-, z', hz', h⟩
          rw [member_unique hz hz']
          exact h _ (entries_iff.2 rfl)
      · rw [if_pos hz]
        simp only [reduceCtorEq, false_iff, not_and]
        rintro - ⟨z, hz', -⟩
        exact absurd (count_iff.2 ⟨z, hz'⟩) hz
  · rw [if_pos hc]
    simp only [reduceCtorEq, false_iff, not_and]
    rintro ⟨s, hs, -⟩
    exact absurd (count_iff.2 ⟨s, hs⟩) hc

/-! ## C61 -/

theorem reqText {j : Json} {k : String} {s : String} : j.req k Json.getStr = .ok s ↔ Setting j k IsText s :=
  req_iff reads_str
theorem reqNum {j : Json} {k : String} {s : Dbl} : j.req k Json.getDbl = .ok s ↔ Setting j k IsNumber s :=
  req_iff reads_dbl
theorem reqFlag {j : Json} {k : String} {s : Bool} : j.req k Json.getBool = .ok s ↔ Setting j k IsFlag s :=
  req_iff reads_bool
theorem reqTexts {j : Json} {k : String} {s : List String} :
    j.req k (Json.getVec Json.getStr) = .ok s ↔ Setting j k (IsList IsText) s := req_iff (reads_vec reads_str)
theorem optText {j : Json} {k : String} {d s : String} : j.opt k d Json.getStr = .ok s ↔ SettingOr j k IsText d s :=
  opt_iff reads_str
theorem optNum {j : Json} {k : String} {d s : Dbl} : j.opt k d Json.getDbl = .ok s ↔ SettingOr j k IsNumber d s :=
  opt_iff reads_dbl
theorem optFlag {j : Json} {k : String} {d s : Bool} : j.opt k d Json.getBool = .ok s ↔ SettingOr j k IsFlag d s :=
  opt_iff reads_bool
theorem optI64 {j : Json} {k : String} {d s : Int} : j.opt k d Json.getI64 = .ok s ↔ SettingOr j k IsInt64 d s :=
  opt_iff reads_i64
theorem optI32 {j : Json} {k : String} {d s : Int} : j.opt k d Json.getI32 = .ok s ↔ SettingOr j k IsInt32 d s :=
  opt_iff reads_i32
theorem optTexts {j : Json} {k : String} {d s : List String} :
    j.opt k d (Json.getVec Json.getStr) = .ok s ↔ SettingOr j k (IsList IsText) d s := opt_iff (reads_vec reads_str)
theorem optNums {j : Json} {k : String} {d s : List Dbl} :
    j.opt k d (Json.getVec Json.getDbl) = .ok s ↔ SettingOr j k (IsList IsNumber) d s := opt_iff (reads_vec reads_dbl)

/-- **C61.** Parsing a sensor entry succeeds exactly if the entry is well formed, and then yields the configured values
with the defaults. -/
theorem C61_entry (j : Json) (c : SensorConfig) : sensorFromJson j = .ok c ↔ SensorEntry j c := by
  unfold sensorFromJson
  constructor
  · intro h
    obtain ⟨type, h1, h⟩ := bind_eq_ok.1 h
    obtain ⟨readPath, h2, h⟩ := bind_eq_ok.1 h
    obtain ⟨writePath, h3, h⟩ := bind_eq_ok.1 h
    obtain ⟨ign, h4, h⟩ := bind_eq_ok.1 h
    obtain ⟨una, h5, h⟩ := bind_eq_ok.1 h
    obtain ⟨off, h6, h⟩ := bind_eq_ok.1 h
    obtain ⟨min, h7, h⟩ := bind_eq_ok.1 h
    obtain ⟨max, h8, h⟩ := bind_eq_ok.1 h
    obtain ⟨timeout, h9, h⟩ := bind_eq_ok.1 h
    injection h with h
    subst h
    refine ⟨reqText.1 h1, reqText.1 h2, optText.1 h3, optFlag.1 h4, optFlag.1 h5, optFlag.1 h6, ?_, ?_, optI64.1 h9⟩
    · unfold Json.fanOnly at h7
      by_cases ht : type = "fan"
      · rw [if_pos ht] at h7 ⊢; exact optI64.1 h7
      · rw [if_neg ht] at h7 ⊢; injection h7 with h7; exact h7.symm
    · unfold Json.fanOnly at h8
      by_cases ht : type = "fan"
      · rw [if_pos ht] at h8 ⊢; exact optI64.1 h8
      · rw [if_neg ht] at h8 ⊢; injection h8 with h8; exact h8.symm
  · intro h
    have h7 : j.fanOnly c.type "min" = .ok c.min := by
      have := h.min
      unfold Json.fanOnly
      by_cases ht : c.type = "fan"
      · rw [if_pos ht] at this ⊢; exact optI64.2 this
      · rw [if_neg ht] at this ⊢; rw [this]
    have h8 : j.fanOnly c.type "max" = .ok c.max := by
      have := h.max
      unfold Json.fanOnly
      by_cases ht : c.type = "fan"
      · rw [if_pos ht] at this ⊢; exact optI64.2 this
      · rw [if_neg ht] at this ⊢; rw [this]
    have h9 : j.opt "timeout" (getDefaultTimeout c.type) Json.getI64 = .ok c.timeout := optI64.2 h.timeout
    simp only [reqText.2 h.type, reqText.2 h.readPath, optText.2 h.writePath, optFlag.2 h.ignoreDbusMinMax,
      optFlag.2 h.unavailableAsFailed, optFlag.2 h.ignoreFailIfHostOff, h7, h8, h9, ok_bind]

/-! Errors -/

theorem bind_eq_err {α β : Type} {x : Res α} {f : α → Res β} {e : Err} :
    (x >>= f) = .error e ↔ x = .error e ∨ ∃ a, x = .ok a ∧ f a = .error e := by
  cases x <;> simp [bind, Except.bind]

theorem atKey_exc {j : Json} {k s : String} : j.atKey k ≠ .error (.ub s) := by
  cases j with
  | obj l => simp only [Json.atKey]; cases findMember k l <;> simp
  | _ => simp [Json.atKey]

theorem req_err {α : Type} {get : Json → Res α} {j : Json} {k : String} {s : String}
    (h : j.req k get = .error (.ub s)) : ∃ v, Member j k v ∧ get v = .error (.ub s) := by
  unfold Json.req at h
  rcases bind_eq_err.1 h with h | ⟨v, hv, h⟩
  · exact absurd h atKey_exc
  · exact ⟨v, atKey_iff.1 hv, h⟩

theorem opt_err {α : Type} {get : Json → Res α} {j : Json} {k : String} {d : α} {s : String}
    (h : j.opt k d get = .error (.ub s)) : ∃ v, Member j k v ∧ get v = .error (.ub s) := by
  unfold Json.opt at h
  simp only [member_iff]
  cases hf : j.find? k with
  | none => simp [hf] at h
  | some v => exact ⟨v, rfl, by simpa [hf] using h⟩

theorem getStr_exc {j : Json} {s : String} : j.getStr ≠ .error (.ub s) := by cases j <;> simp [Json.getStr]
theorem getBool_exc {j : Json} {s : String} : j.getBool ≠ .error (.ub s) := by cases j <;> simp [Json.getBool]
theorem getDbl_exc {j : Json} {s : String} : j.getDbl ≠ .error (.ub s) := by cases j <;> simp [Json.getDbl]

theorem getAll_exc {α : Type} {get : Json → Res α} (hg : ∀ j s, get j ≠ .error (.ub s)) {s : String} :
    ∀ xs : List Json, Json.getAll get xs ≠ .error (.ub s)
  | [] => by simp [Json.getAll]
  | x :: xs => by
    unfold Json.getAll
    intro h
    rcases bind_eq_err.1 h with h | ⟨a, -, h⟩
    · exact hg _ _ h
    · rcases bind_eq_err.1 h with h | ⟨b, -, h⟩
      · exact getAll_exc hg xs h
      · cases h

theorem getVec_exc {α : Type} {get : Json → Res α} (hg : ∀ j s, get j ≠ .error (.ub s)) {j : Json} {s : String} :
    Json.getVec get j ≠ .error (.ub s) := by
  cases j with
  | arr xs => exact getAll_exc hg xs
  | _ => simp [Json.getVec]

theorem castOr_err {α : Type} {what s : String} {o : Option α} (h : castOr what o = .error (.ub s)) : o = none := by
  cases o with
  | none => rfl
  | some a => cases h

theorem getI64_err {j : Json} {s : String} (h : j.getI64 = .error (.ub s)) : ∃ d, j = .float d ∧ d.toI64 = none := by
  cases j with
  | float d => exact ⟨d, rfl, castOr_err h⟩
  | _ => simp [Json.getI64] at h

theorem getI32_err {j : Json} {s : String} (h : j.getI32 = .error (.ub s)) : ∃ d, j = .float d ∧ d.toI32 = none := by
  cases j with
  | float d => exact ⟨d, rfl, castOr_err h⟩
  | _ => simp [Json.getI32] at h

/-- **C61.** A malformed sensor entry raises an exception; the exception to this is a number with a fraction that does
not fit into 64 bits, for which the conversion is undefined. -/
theorem C61_error {j : Json} {s : String} (h : sensorFromJson j = .error (.ub s)) :
    ∃ k ∈ ["min", "max", "timeout"], ∃ d, Member j k (.float d) ∧ d.toI64 = none := by
  unfold sensorFromJson at h
  have num : ∀ {k : String} {d : Int}, j.opt k d Json.getI64 = .error (.ub s) →
      ∃ d, Member j k (.float d) ∧ d.toI64 = none := by
    intro k d h
    obtain ⟨v, hv, h⟩ := opt_err h
    obtain ⟨d, rfl, hd⟩ := getI64_err h
    exact ⟨d, hv, hd⟩
  have fan : ∀ {k type : String}, j.fanOnly type k = .error (.ub s) → ∃ d, Member j k (.float d) ∧ d.toI64 = none := by
    intro k type h
    unfold Json.fanOnly at h
    by_cases ht : type = "fan"
    · rw [if_pos ht] at h; exact num h
    · rw [if_neg ht] at h; cases h
  rcases bind_eq_err.1 h with h | ⟨_, -, h⟩
  · obtain ⟨v, -, h⟩ := req_err h; exact absurd h getStr_exc
  rcases bind_eq_err.1 h with h | ⟨_, -, h⟩
  · obtain ⟨v, -, h⟩ := req_err h; exact absurd h getStr_exc
  rcases bind_eq_err.1 h with h | ⟨_, -, h⟩
  · obtain ⟨v, -, h⟩ := opt_err h; exact absurd h getStr_exc
  rcases bind_eq_err.1 h with h | ⟨_, -, h⟩
  · obtain ⟨v, -, h⟩ := opt_err h; exact absurd h getBool_exc
  rcases bind_eq_err.1 h with h | ⟨_, -, h⟩
  · obtain ⟨v, -, h⟩ := opt_err h; exact absurd h getBool_exc
  rcases bind_eq_err.1 h with h | ⟨_, -, h⟩
  · obtain ⟨v, -, h⟩ := opt_err h; exact absurd h getBool_exc
  rcases bind_eq_err.1 h with h | ⟨_, -, h⟩
  · exact ⟨_, by simp, fan h⟩
  rcases bind_eq_err.1 h with h | ⟨_, -, h⟩
  · exact ⟨_, by simp, fan h⟩
  rcases bind_eq_err.1 h with h | ⟨_, -, h⟩
  · exact ⟨_, by simp, num h⟩
  cases h

/-! ## Lists of named entries -/

/-- Inserting the results of `g` one after the other. -/
def gather {κ α : Type} [LT κ] [DecidableEq κ] [DecidableLT κ] (g : Json → Res (κ × α)) :
    OMap κ α → List Json → Res (OMap κ α)
  | m, [] => .ok m
  | m, e :: es => do
    let r ← g e
    gather g (m.insert r.1 r.2) es

theorem lastNamed_cons {κ α : Type} {N : Json → κ → Prop} {E : Json → α → Prop} {e : Json} {es : List Json} {n : κ}
    {c : α} : LastNamed N E (e :: es) n c ↔ LastNamed N E es n c ∨ (N e n ∧ E e c ∧ ∀ e' ∈ es, ¬ N e' n) := by
  constructor
  · rintro ⟨pre, e1, post, he, h1, h2, h3⟩
    cases pre with
    | nil =>
      simp only [List.nil_append, List.cons.injEq] at he
      obtain ⟨rfl, rfl⟩ := he
      exact .inr ⟨h1, h2, h3⟩
    | cons a pre =>
      simp only [List.cons_append, List.cons.injEq] at he
      exact .inl ⟨pre, e1, post, he.2, h1, h2, h3⟩
  · rintro (⟨pre, e1, post, rfl, h⟩ | ⟨h1, h2, h3⟩)
    · exact ⟨e :: pre, e1, post, rfl, h⟩
    · exact ⟨[], e, es, rfl, h1, h2, h3⟩

theorem LastNamed.mono {κ α β : Type} {N : Json → κ → Prop} {E : Json → α → Prop} {E' : Json → β → Prop}
    {es : List Json} {n : κ} {c : α} {c' : β} (h : LastNamed N E es n c) (hm : ∀ e, N e n → E e c → E' e c') :
    LastNamed N E' es n c' := by
  obtain ⟨pre, e, post, he, h1, h2, h3⟩ := h
  exact ⟨pre, e, post, he, h1, hm e h1 h2, h3⟩

section
variable {κ α : Type} [LT κ] [DecidableEq κ] [DecidableLT κ] {g : Json → Res (κ × α)} {N : Json → κ → Prop}
  {E : Json → α → Prop}

theorem gather_find? (hg : ∀ e n c, g e = .ok (n, c) ↔ N e n ∧ E e c) : ∀ {es : List Json} {m m' : OMap κ α},
    gather g m es = .ok m' → ∀ n c, m'.find? n = some c ↔
      LastNamed N E es n c ∨ ((∀ e ∈ es, ¬ N e n) ∧ m.find? n = some c)
  | [], m, m', h, n, c => by
    injection h with h
    subst h
    simp [LastNamed]
  | e :: es, m, m', h, n, c => by
    obtain ⟨⟨n0, c0⟩, h0, h⟩ := bind_eq_ok.1 h
    have hN : ∀ n, N e n ↔ n = n0 := fun n => ⟨fun hn => by
        have := (hg e n c0).2 ⟨hn, ((hg e n0 c0).1 h0).2⟩
        rw [h0] at this
        injection this with this
        exact (Prod.mk.inj this).1.symm, fun hn => hn ▸ ((hg e n0 c0).1 h0).1⟩
    have hE : E e c ↔ c = c0 := ⟨fun hc => by
        have := (hg e n0 c).2 ⟨((hg e n0 c0).1 h0).1, hc⟩
        rw [h0] at this
        injection this with this
        exact (Prod.mk.inj this).2.symm, fun hn => hn ▸ ((hg e n0 c0).1 h0).2⟩
    rw [gather_find? hg h n c, lastNamed_cons, OMap.find?_insert, List.forall_mem_cons, hN, hE]
    by_cases hn : n = n0
    · simp [hn, eq_comm, and_comm]
    · simp [hn]

theorem gather_total (hg : ∀ e n c, g e = .ok (n, c) ↔ N e n ∧ E e c) : ∀ {es : List Json} {m : OMap κ α},
    (∃ m', gather g m es = .ok m') ↔ ∀ e ∈ es, ∃ n c, N e n ∧ E e c
  | [], m => by simp [gather]
  | e :: es, m => by
    rw [List.forall_mem_cons]
    constructor
    · rintro ⟨m', h⟩
      obtain ⟨⟨n0, c0⟩, h0, h⟩ := bind_eq_ok.1 h
      exact ⟨⟨n0, c0, (hg _ _ _).1 h0⟩, (gather_total hg).1 ⟨m', h⟩⟩
    · rintro ⟨⟨n0, c0, h0⟩, h⟩
      rw [gather, (hg e n0 c0).2 h0, ok_bind]
      exact (gather_total hg).2 h

theorem gather_wf [OMap.StrictOrd κ] : ∀ {es : List Json} {m m' : OMap κ α}, m.WF → gather g m es = .ok m' → m'.WF
  | [], m, m', hm, h => by injection h with h; exact h ▸ hm
  | e :: es, m, m', hm, h => by
    obtain ⟨r, -, h⟩ := bind_eq_ok.1 h
    exact gather_wf (OMap.wf_insert hm _ _) h

end

/-- one step of `sensorsFromList` -/
def sensorStep (e : Json) : Res (String × SensorConfig) := do
  let c ← sensorFromJson e
  let n ← e.index "name"
  let name ← n.getStr
  .ok (name, c)

theorem sensorsFromList_eq : ∀ (es : List Json) (m : OMap String SensorConfig),
    sensorsFromList m es = gather sensorStep m es
  | [], m => rfl
  | e :: es, m => by
    rw [sensorsFromList, gather, sensorStep]
    cases sensorFromJson e with
    | error => rfl
    | ok c =>
      cases e.index "name" with
      | error => rfl
      | ok n =>
        cases hn : n.getStr with
        | error => simp [hn]
        | ok name => simp [hn, sensorsFromList_eq es]

theorem named_iff {e : Json} {n : String} : Named e n ↔ (e.index "name" >>= Json.getStr) = .ok n := by
  rw [bind_eq_ok]
  simp only [index_iff]
  constructor
  · rintro ⟨v, h1, h2⟩; exact ⟨v, h1, (reads_str _ _).2 h2⟩
  · rintro ⟨v, h1, h2⟩; exact ⟨v, h1, (reads_str _ _).1 h2⟩

theorem sensorStep_iff (e : Json) (n : String) (c : SensorConfig) :
    sensorStep e = .ok (n, c) ↔ Named e n ∧ SensorEntry e c := by
  unfold sensorStep
  rw [← C61_entry, named_iff]
  simp only [bind_eq_ok, Except.ok.injEq, Prod.mk.injEq]
  constructor
  · rintro ⟨c', hc, v, hv, n', hn, rfl, rfl⟩; exact ⟨⟨v, hv, hn⟩, hc⟩
  · rintro ⟨⟨v, hv, hn⟩, hc⟩; exact ⟨c, hc, v, hv, n, hn, rfl, rfl⟩

/-- **C61.** The sensors section: every sensor is found by its name with the settings of its (last) entry, and there are
no others. -/
theorem C61_sensors {data : Json} {m : OMap String SensorConfig} (h : buildSensorsFromJson data = .ok m) :
    ∃ s es, Member data "sensors" s ∧ Entries s es ∧
      ∀ n c, m.find? n = some c ↔ LastNamed Named SensorEntry es n c := by
  obtain ⟨s, hs, h⟩ := bind_eq_ok.1 h
  refine ⟨s, s.elems, index_iff.1 hs, entries_iff.2 rfl, fun n c => ?_⟩
  rw [sensorsFromList_eq] at h
  rw [gather_find? sensorStep_iff h]
  simp [OMap.find?_empty]

/-- **C61.** The sensors section is read without error exactly if all its entries are well formed and named. -/
theorem C61_all {data s : Json} {es : List Json} (hs : Member data "sensors" s) (he : Entries s es) :
    (∃ m, buildSensorsFromJson data = .ok m) ↔ ∀ e ∈ es, ∃ n c, Named e n ∧ SensorEntry e c := by
  rw [buildSensorsFromJson, index_iff.2 hs, ok_bind, sensorsFromList_eq, entries_iff.1 he]
  exact gather_total sensorStep_iff

/-! ## C62 -/

theorem pointLoop_iff {r : Json} : ∀ {l : List (Fin maxStepwisePoints)} {f g : Fin maxStepwisePoints → Dbl}, l.Nodup →
    (pointLoop r l f = .ok g ↔
      ∀ i, (i ∈ l → SettingOr r (toString i.val) IsNumber (f i) (g i)) ∧ (i ∉ l → g i = f i))
  | [], f, g, _ => by
    simp only [pointLoop, Except.ok.injEq, List.not_mem_nil, not_false_eq_true, forall_true_left, false_implies, true_and]
    exact ⟨fun h i => h ▸ rfl, fun h => (funext h).symm⟩
  | i :: l, f, g, hl => by
    obtain ⟨hi, hl⟩ := List.nodup_cons.1 hl
    unfold pointLoop
    cases hf : r.find? (toString i.val) with
    | none =>
      simp only
      rw [pointLoop_iff hl]
      constructor
      · intro h k
        refine ⟨fun hk => ?_, fun hk => (h k).2 (fun hm => hk (List.mem_cons_of_mem _ hm))⟩
        rcases List.mem_cons.1 hk with rfl | hk
        · exact .inr ⟨lacks_iff.2 hf, (h k).2 hi⟩
        · exact (h k).1 hk
      · intro h k
        refine ⟨fun hk => (h k).1 (List.mem_cons_of_mem _ hk), fun hk => ?_⟩
        by_cases e : k = i
        · subst e
          rcases (h k).1 List.mem_cons_self with ⟨v, hv, -⟩ | ⟨-, h⟩
          · rw [member_iff, hf] at hv; cases hv
          · exact h
        · exact (h k).2 (by simp [e, hk])
    | some v =>
      simp only [bind_eq_ok, reads_dbl v]
      constructor
      · rintro ⟨d, hd, h⟩ k
        rw [pointLoop_iff hl] at h
        have hk := h k
        by_cases e : k = i
        · subst e
          refine ⟨fun _ => .inl ⟨v, member_iff.2 hf, ?_⟩, fun h => absurd List.mem_cons_self h⟩
          rw [hk.2 hi, if_pos rfl]
          exact hd
        · rw [if_neg e] at hk
          exact ⟨fun hm => hk.1 (by simpa [e] using hm), fun hm => hk.2 (by simpa [e] using hm)⟩
      · intro h
        have hv : IsNumber v (g i) := by
          rcases (h i).1 List.mem_cons_self with ⟨v', hv', h⟩ | ⟨h, -⟩
          · rw [member_iff, hf] at hv'
            injection hv' with hv'
            exact hv' ▸ h
          · rw [lacks_iff, hf] at h; cases h
        refine ⟨g i, hv, ?_⟩
        rw [pointLoop_iff hl]
        intro k
        by_cases e : k = i
        · subst e
          exact ⟨fun h => absurd h hi, fun _ => by rw [if_pos rfl]⟩
        · rw [if_neg e]
          exact ⟨fun hm => (h k).1 (List.mem_cons_of_mem _ hm), fun hm => (h k).2 (by simp [e, hm])⟩

theorem pointsFromJson_iff {p : Json} {key : String} {g : Fin maxStepwisePoints → Dbl} :
    pointsFromJson p key = .ok g ↔ ∀ i, PointEntry p key i (g i) := by
  unfold pointsFromJson PointEntry
  simp only [lacks_iff, member_iff]
  cases hf : p.find? key with
  | none =>
    simp only [Except.ok.injEq, reduceCtorEq, false_and, exists_false, true_and, false_or]
    exact ⟨fun h i => h ▸ rfl, fun h => (funext h).symm⟩
  | some r =>
    simp only [pointLoop_iff (List.nodup_finRange _), List.mem_finRange, not_true_eq_false, false_implies, and_true,
      true_implies, Option.some.injEq, exists_eq_left', reduceCtorEq, false_and, or_false]

theorem spliceInputs_iff {names : List String} {margins : List Dbl} {missing : List String}
    {inputs : List SensorInput} : spliceInputs names margins missing = inputs ↔
      inputs.map SensorInput.name = names ∧
      ∀ i (x : SensorInput), inputs[i]? = some x →
        x.convertTempToMargin = decide (i < margins.length) ∧ x.convertMarginZero = margins.getD i nan ∧
        x.missingIsAcceptable = decide (x.name ∈ missing) := by
  constructor
  · rintro rfl
    refine ⟨C59_roundtrip _ _ _, fun i x hx => ?_⟩
    rw [C59_entries] at hx
    cases hn : names[i]? with
    | none => rw [hn] at hx; cases hx
    | some n =>
      rw [hn] at hx
      injection hx with hx
      subst hx
      exact ⟨rfl, (List.getD_eq_getElem?_getD).symm, rfl⟩
  · rintro ⟨rfl, h⟩
    apply List.ext_getElem?
    intro i
    rw [C59_entries, List.getElem?_map]
    cases hx : inputs[i]? with
    | none => rfl
    | some x =>
      obtain ⟨h1, h2, h3⟩ := h i x hx
      rw [List.getD_eq_getElem?_getD] at h2
      simp only [Option.map_some, ← h1, ← h2, ← h3]

theorem pidConfFromJson_iff {p : Json} {c : PidConf} :
    (∃ o, optionalFromJson p = .ok o ∧ pidConfFromJson p o = .ok c) ↔ PidEntry p c := by
  constructor
  · rintro ⟨o, ho, h⟩
    obtain ⟨a1, o1, ho⟩ := bind_eq_ok.1 ho
    obtain ⟨a2, o2, ho⟩ := bind_eq_ok.1 ho
    obtain ⟨a3, o3, ho⟩ := bind_eq_ok.1 ho
    obtain ⟨a4, o4, ho⟩ := bind_eq_ok.1 ho
    injection ho with ho
    subst ho
    obtain ⟨b1, h1, h⟩ := bind_eq_ok.1 h
    obtain ⟨b2, h2, h⟩ := bind_eq_ok.1 h
    obtain ⟨b3, h3, h⟩ := bind_eq_ok.1 h
    obtain ⟨b4, h4, h⟩ := bind_eq_ok.1 h
    obtain ⟨b5, h5, h⟩ := bind_eq_ok.1 h
    obtain ⟨b6, h6, h⟩ := bind_eq_ok.1 h
    obtain ⟨b7, h7, h⟩ := bind_eq_ok.1 h
    obtain ⟨b8, h8, h⟩ := bind_eq_ok.1 h
    obtain ⟨b9, h9, h⟩ := bind_eq_ok.1 h
    obtain ⟨b10, h10, h⟩ := bind_eq_ok.1 h
    obtain ⟨b11, h11, h⟩ := bind_eq_ok.1 h
    injection h with h
    subst h
    exact ⟨reqNum.1 h1, reqNum.1 h2, reqNum.1 h3, reqNum.1 h4, reqNum.1 h5, reqNum.1 h6, reqNum.1 h7, reqNum.1 h8,
      reqNum.1 h9, reqNum.1 h10, reqNum.1 h11, optNum.1 o4, optNum.1 o2, optNum.1 o3, optFlag.1 o1⟩
  · intro h
    refine ⟨⟨c.checkHysterWithSetpt, c.positiveHysteresis, c.negativeHysteresis, c.derivativeCoeff⟩, ?_, ?_⟩
    · simp only [optionalFromJson, optFlag.2 h.checkHysterWithSetpt, optNum.2 h.positiveHysteresis,
        optNum.2 h.negativeHysteresis, optNum.2 h.derivativeCoeff, ok_bind]
    · simp only [pidConfFromJson, reqNum.2 h.ts, reqNum.2 h.proportionalCoeff, reqNum.2 h.integralCoeff,
        reqNum.2 h.feedFwdOffset, reqNum.2 h.feedFwdGain, reqNum.2 h.integralMin, reqNum.2 h.integralMax,
        reqNum.2 h.outMin, reqNum.2 h.outMax, reqNum.2 h.slewNeg, reqNum.2 h.slewPos, ok_bind]

theorem stepwiseFromJson_iff {p : Json} {c : StepwiseInfo} :
    (∃ o, optionalFromJson p = .ok o ∧ stepwiseFromJson p o = .ok c) ↔ StepEntry p c := by
  constructor
  · rintro ⟨o, ho, h⟩
    obtain ⟨a1, o1, ho⟩ := bind_eq_ok.1 ho
    obtain ⟨a2, o2, ho⟩ := bind_eq_ok.1 ho
    obtain ⟨a3, o3, ho⟩ := bind_eq_ok.1 ho
    obtain ⟨a4, o4, ho⟩ := bind_eq_ok.1 ho
    injection ho with ho
    subst ho
    obtain ⟨b1, h1, h⟩ := bind_eq_ok.1 h
    obtain ⟨b2, h2, h⟩ := bind_eq_ok.1 h
    obtain ⟨b3, h3, h⟩ := bind_eq_ok.1 h
    obtain ⟨b4, h4, h⟩ := bind_eq_ok.1 h
    injection h with h
    subst h
    exact ⟨reqNum.1 h1, reqFlag.1 h2, pointsFromJson_iff.1 h3, pointsFromJson_iff.1 h4, optNum.1 o2, optNum.1 o3,
      ⟨_, optNum.1 o4⟩, ⟨_, optFlag.1 o1⟩⟩
  · intro h
    obtain ⟨d, hd⟩ := h.derivativeCoeff
    obtain ⟨b, hb⟩ := h.checkHysterWithSetpt
    refine ⟨⟨b, c.positiveHysteresis, c.negativeHysteresis, d⟩, ?_, ?_⟩
    · simp only [optionalFromJson, optFlag.2 hb, optNum.2 h.positiveHysteresis,
        optNum.2 h.negativeHysteresis, optNum.2 hd, ok_bind]
    · simp only [stepwiseFromJson, reqNum.2 h.ts, reqFlag.2 h.isCeiling, pointsFromJson_iff.2 h.reading,
        pointsFromJson_iff.2 h.output, ok_bind]

/-- **C62.** Parsing a loop entry succeeds exactly if the entry is well formed, and then yields the configured values:
every setting from its own key, the listed points of a stepwise table at their places and the others unset. -/
theorem C62_entry (j : Json) (c : ControllerInfo) : controllerFromJson j = .ok c ↔ LoopEntry j c := by
  unfold controllerFromJson
  constructor
  · intro h
    obtain ⟨type, h1, h⟩ := bind_eq_ok.1 h
    obtain ⟨names, h2, h⟩ := bind_eq_ok.1 h
    obtain ⟨sp, h3, h⟩ := bind_eq_ok.1 h
    obtain ⟨margins, h4, h⟩ := bind_eq_ok.1 h
    obtain ⟨missing, h5, h⟩ := bind_eq_ok.1 h
    obtain ⟨p, h6, h⟩ := bind_eq_ok.1 h
    obtain ⟨o, h7, h⟩ := bind_eq_ok.1 h
    obtain ⟨fs, h8, h⟩ := bind_eq_ok.1 h
    have hin : InputsEntry j (spliceInputs names margins missing) :=
      ⟨names, margins, missing, reqTexts.1 h2, optNums.1 h4, optTexts.1 h5, spliceInputs_iff.1 rfl⟩
    by_cases ht : type = "stepwise"
    · rw [if_neg (by simpa using ht)] at h
      obtain ⟨info, h9, h⟩ := bind_eq_ok.1 h
      injection h with h
      subst h
      refine ⟨reqText.1 h1, hin, reqNum.1 h3, ⟨fs, optI32.1 h8, rfl⟩, p, atKey_iff.1 h6, ?_⟩
      rw [if_pos ht]
      exact ⟨stepwiseFromJson_iff.1 ⟨o, h7, h9⟩, rfl⟩
    · rw [if_pos ht] at h
      obtain ⟨info, h9, h⟩ := bind_eq_ok.1 h
      injection h with h
      subst h
      refine ⟨reqText.1 h1, hin, reqNum.1 h3, ⟨fs, optI32.1 h8, rfl⟩, p, atKey_iff.1 h6, ?_⟩
      rw [if_neg ht]
      exact ⟨pidConfFromJson_iff.1 ⟨o, h7, h9⟩, rfl⟩
  · rintro ⟨ht, ⟨names, margins, missing, hn, hm, hs, hin⟩, hsp, ⟨fs, hfs, he⟩, p, hp, h⟩
    have hin := spliceInputs_iff.2 hin
    simp only [reqText.2 ht, reqTexts.2 hn, reqNum.2 hsp, optNums.2 hm, optTexts.2 hs, atKey_iff.2 hp, optI32.2 hfs,
      ok_bind]
    by_cases ht : c.type = "stepwise"
    · rw [if_pos ht] at h
      obtain ⟨o, ho, h1⟩ := stepwiseFromJson_iff.2 h.1
      rw [ho, ok_bind, if_neg (by simpa using ht), h1, ok_bind, hin, ← he, ← h.2]
    · rw [if_neg ht] at h
      obtain ⟨o, ho, h1⟩ := pidConfFromJson_iff.2 h.1
      rw [ho, ok_bind, if_pos ht, h1, ok_bind, hin, ← he, ← h.2]

theorem pointLoop_exc {r : Json} {s : String} : ∀ {l : List (Fin maxStepwisePoints)} {f : Fin maxStepwisePoints → Dbl},
    pointLoop r l f ≠ .error (.ub s)
  | [], f => by simp [pointLoop]
  | i :: l, f => by
    unfold pointLoop
    cases r.find? (toString i.val) with
    | none => exact pointLoop_exc
    | some v =>
      intro h
      rcases bind_eq_err.1 h with h | ⟨_, -, h⟩
      · exact getDbl_exc h
      · exact pointLoop_exc h

theorem pointsFromJson_exc {p : Json} {k s : String} : pointsFromJson p k ≠ .error (.ub s) := by
  unfold pointsFromJson
  cases p.find? k with
  | none => simp
  | some r => exact pointLoop_exc

theorem reqNum_exc {j : Json} {k s : String} : j.req k Json.getDbl ≠ .error (.ub s) := fun h => by
  obtain ⟨v, -, h⟩ := req_err h; exact getDbl_exc h
theorem reqFlag_exc {j : Json} {k s : String} : j.req k Json.getBool ≠ .error (.ub s) := fun h => by
  obtain ⟨v, -, h⟩ := req_err h; exact getBool_exc h
theorem optNum_exc {j : Json} {k s : String} {d : Dbl} : j.opt k d Json.getDbl ≠ .error (.ub s) := fun h => by
  obtain ⟨v, -, h⟩ := opt_err h; exact getDbl_exc h
theorem optFlag_exc {j : Json} {k s : String} {d : Bool} : j.opt k d Json.getBool ≠ .error (.ub s) := fun h => by
  obtain ⟨v, -, h⟩ := opt_err h; exact getBool_exc h

theorem optionalFromJson_exc {p : Json} {s : String} : optionalFromJson p ≠ .error (.ub s) := by
  intro h
  rcases bind_eq_err.1 h with h | ⟨_, -, h⟩
  · exact optFlag_exc h
  rcases bind_eq_err.1 h with h | ⟨_, -, h⟩
  · exact optNum_exc h
  rcases bind_eq_err.1 h with h | ⟨_, -, h⟩
  · exact optNum_exc h
  rcases bind_eq_err.1 h with h | ⟨_, -, h⟩
  · exact optNum_exc h
  cases h

theorem stepwiseFromJson_exc {p : Json} {o : OptionalPid} {s : String} : stepwiseFromJson p o ≠ .error (.ub s) := by
  intro h
  rcases bind_eq_err.1 h with h | ⟨_, -, h⟩
  · exact reqNum_exc h
  rcases bind_eq_err.1 h with h | ⟨_, -, h⟩
  · exact reqFlag_exc h
  rcases bind_eq_err.1 h with h | ⟨_, -, h⟩
  · exact pointsFromJson_exc h
  rcases bind_eq_err.1 h with h | ⟨_, -, h⟩
  · exact pointsFromJson_exc h
  cases h

theorem pidConfFromJson_exc {p : Json} {o : OptionalPid} {s : String} : pidConfFromJson p o ≠ .error (.ub s) := by
  intro h
  unfold pidConfFromJson at h
  iterate 11
    rcases bind_eq_err.1 h with h' | ⟨_, -, h⟩
    · exact reqNum_exc h'
    try clear h'
  cases h

/-- **C62.** A malformed loop entry raises an exception; the exception to this is a failsafe percentage with a fraction
that does not fit into 32 bits, for which the conversion is undefined. -/
theorem C62_error {j : Json} {s : String} (h : controllerFromJson j = .error (.ub s)) :
    ∃ d, Member j "FailSafePercent" (.float d) ∧ d.toI32 = none := by
  unfold controllerFromJson at h
  rcases bind_eq_err.1 h with h | ⟨type, -, h⟩
  · obtain ⟨v, -, h⟩ := req_err h; exact absurd h getStr_exc
  rcases bind_eq_err.1 h with h | ⟨_, -, h⟩
  · obtain ⟨v, -, h⟩ := req_err h; exact absurd h (getVec_exc fun _ _ => getStr_exc)
  rcases bind_eq_err.1 h with h | ⟨_, -, h⟩
  · exact absurd h reqNum_exc
  rcases bind_eq_err.1 h with h | ⟨_, -, h⟩
  · obtain ⟨v, -, h⟩ := opt_err h; exact absurd h (getVec_exc fun _ _ => getDbl_exc)
  rcases bind_eq_err.1 h with h | ⟨_, -, h⟩
  · obtain ⟨v, -, h⟩ := opt_err h; exact absurd h (getVec_exc fun _ _ => getStr_exc)
  rcases bind_eq_err.1 h with h | ⟨_, -, h⟩
  · exact absurd h atKey_exc
  rcases bind_eq_err.1 h with h | ⟨_, -, h⟩
  · exact absurd h optionalFromJson_exc
  rcases bind_eq_err.1 h with h | ⟨_, -, h⟩
  · obtain ⟨v, hv, h⟩ := opt_err h
    obtain ⟨d, rfl, hd⟩ := getI32_err h
    exact ⟨d, hv, hd⟩
  by_cases ht : type = "stepwise"
  · rw [if_neg (by simpa using ht)] at h
    rcases bind_eq_err.1 h with h | ⟨_, -, h⟩
    · exact absurd h stepwiseFromJson_exc
    · cases h
  · rw [if_pos ht] at h
    rcases bind_eq_err.1 h with h | ⟨_, -, h⟩
    · exact absurd h pidConfFromJson_exc
    · cases h

/-- one step of `pidsFromList` -/
def loopStep (e : Json) : Res (String × ControllerInfo) := do
  let n ← e.index "name"
  let item ← controllerFromJson e
  let name ← n.getStr
  .ok (name, item)

theorem pidsFromList_eq : ∀ (es : List Json) (m : PIDConf), pidsFromList m es = gather loopStep m es
  | [], m => rfl
  | e :: es, m => by
    rw [pidsFromList, gather, loopStep]
    cases e.index "name" with
    | error => rfl
    | ok n =>
      cases controllerFromJson e with
      | error => rfl
      | ok c =>
        cases hn : n.getStr with
        | error => simp [hn]
        | ok name => simp [hn, pidsFromList_eq es]

theorem loopStep_iff (e : Json) (n : String) (c : ControllerInfo) :
    loopStep e = .ok (n, c) ↔ Named e n ∧ LoopEntry e c := by
  unfold loopStep
  rw [← C62_entry, named_iff]
  simp only [bind_eq_ok, Except.ok.injEq, Prod.mk.injEq]
  constructor
  · rintro ⟨v, hv, c', hc, n', hn, rfl, rfl⟩; exact ⟨⟨v, hv, hn⟩, hc⟩
  · rintro ⟨⟨v, hv, hn⟩, hc⟩; exact ⟨v, hv, c, hc, n, hn, rfl, rfl⟩

theorem cycleTimeFromJson_iff {zone : Json} {k : String} {d n : Nat} :
    cycleTimeFromJson zone k d = .ok n ↔ CycleEntry zone k d n := by
  unfold cycleTimeFromJson CycleEntry SettingOr Setting
  simp only [lacks_iff, member_iff]
  cases hf : zone.find? k with
  | none => simp [eq_comm]
  | some v =>
    simp only [bind_eq_ok, getU64_iff, Option.some.injEq, exists_eq_left', reduceCtorEq, false_and, or_false]
    constructor
    · rintro ⟨m, hm, h⟩
      refine ⟨m, hm, ?_⟩
      by_cases h1 : 1 ≤ m
      · rw [if_pos h1] at h
        injection h with h
        rw [if_pos (by exact_mod_cast h1), ← h, Int.toNat_natCast]
      · rw [if_neg h1] at h
        injection h with h
        rw [if_neg (by exact_mod_cast h1), h]
    · rintro ⟨m, hm, h⟩
      have h0 : 0 ≤ m := hm.1
      refine ⟨m.toNat, by rwa [Int.toNat_of_nonneg h0], ?_⟩
      rw [h]
      by_cases h1 : 1 ≤ m
      · rw [if_pos h1, if_pos (by omega)]
      · rw [if_neg h1, if_neg (by omega)]

/-- the loops of a zone -/
def loopsOf (zone : Json) : Res PIDConf := do
  let pids ← zone.index "pids"
  pidsFromList {} pids.elems

theorem zoneFromJson_iff {zone : Json} {id : Int} {conf : PIDConf} {c : ZoneConfig} :
    zoneFromJson zone = .ok (id, conf, c) ↔ Numbering zone id ∧ ZoneEntry zone c ∧ loopsOf zone = .ok conf := by
  have num : ∀ {k : String} {d : Dbl}, (∃ v, zone.index k = .ok v ∧ v.getDbl = .ok d) ↔ Setting zone k IsNumber d :=
    fun {k d} => ⟨fun ⟨v, h1, h2⟩ => ⟨v, index_iff.1 h1, (reads_dbl _ _).1 h2⟩,
      fun ⟨v, h1, h2⟩ => ⟨v, index_iff.2 h1, (reads_dbl _ _).2 h2⟩⟩
  constructor
  · intro h
    obtain ⟨i1, a1, h⟩ := bind_eq_ok.1 h
    obtain ⟨i2, a2, h⟩ := bind_eq_ok.1 h
    obtain ⟨m1, a3, h⟩ := bind_eq_ok.1 h
    obtain ⟨m2, a4, h⟩ := bind_eq_ok.1 h
    obtain ⟨f1, a5, h⟩ := bind_eq_ok.1 h
    obtain ⟨f2, a6, h⟩ := bind_eq_ok.1 h
    obtain ⟨cy, a7, h⟩ := bind_eq_ok.1 h
    obtain ⟨th, a8, h⟩ := bind_eq_ok.1 h
    obtain ⟨ac, a9, h⟩ := bind_eq_ok.1 h
    obtain ⟨p, a10, h⟩ := bind_eq_ok.1 h
    obtain ⟨cf, a11, h⟩ := bind_eq_ok.1 h
    injection h with h
    obtain ⟨rfl, rfl, rfl⟩ : i2 = id ∧ cf = conf ∧ _ = c := by simpa using h
    refine ⟨⟨i1, index_iff.1 a1, (reads_i64 _ _).1 a2⟩, ⟨num.1 ⟨m1, a3, a4⟩, num.1 ⟨f1, a5, a6⟩,
      cycleTimeFromJson_iff.1 a7, cycleTimeFromJson_iff.1 a8, optFlag.1 a9⟩, ?_⟩
    rw [loopsOf, a10, ok_bind, a11]
  · rintro ⟨⟨i1, a1, a2⟩, h, hl⟩
    obtain ⟨m1, a3, a4⟩ := num.2 h.minThermalOutput
    obtain ⟨f1, a5, a6⟩ := num.2 h.failsafePercent
    obtain ⟨p, a10, a11⟩ := bind_eq_ok.1 hl
    simp only [zoneFromJson, index_iff.2 a1, (reads_i64 _ _).2 a2, a3, a4, a5, a6, cycleTimeFromJson_iff.2 h.cycle,
      cycleTimeFromJson_iff.2 h.thermals, optFlag.2 h.accumulateSetPoint, a10, a11, ok_bind]

theorem loopsOf_entry {zone : Json} {conf : PIDConf} (h : loopsOf zone = .ok conf) : LoopsEntry zone conf := by
  obtain ⟨p, hp, h⟩ := bind_eq_ok.1 h
  rw [pidsFromList_eq] at h
  refine ⟨p, p.elems, index_iff.1 hp, entries_iff.2 rfl, (gather_total loopStep_iff).1 ⟨conf, h⟩, fun n c => ?_⟩
  rw [gather_find? loopStep_iff h]
  simp [OMap.find?_empty]

theorem loopsOf_wf {zone : Json} {conf : PIDConf} (h : loopsOf zone = .ok conf) : conf.WF := by
  obtain ⟨p, hp, h⟩ := bind_eq_ok.1 h
  rw [pidsFromList_eq] at h
  exact gather_wf OMap.wf_empty h

/-- **C62.** A zone entry that is read without error is well formed and yields its number, its settings and its loops. -/
theorem C62_zone {zone : Json} {id : Int} {conf : PIDConf} {c : ZoneConfig} (h : zoneFromJson zone = .ok (id, conf, c)) :
    Numbering zone id ∧ ZoneEntry zone c ∧ LoopsEntry zone conf := by
  obtain ⟨h1, h2, h3⟩ := zoneFromJson_iff.1 h
  exact ⟨h1, h2, loopsOf_entry h3⟩

/-- **C62.** A well formed zone entry is read without error. -/
theorem C62_zone_total {zone : Json} {id : Int} {c : ZoneConfig} {p : Json} {es : List Json} (hi : Numbering zone id)
    (hz : ZoneEntry zone c) (hp : Member zone "pids" p) (he : Entries p es)
    (hl : ∀ e ∈ es, ∃ n c, Named e n ∧ LoopEntry e c) : ∃ conf, zoneFromJson zone = .ok (id, conf, c) := by
  obtain ⟨conf, h⟩ := (gather_total (m := {}) loopStep_iff).2 hl
  refine ⟨conf, zoneFromJson_iff.2 ⟨hi, hz, ?_⟩⟩
  rw [loopsOf, index_iff.2 hp, ok_bind, pidsFromList_eq, entries_iff.1 he, h]

theorem zonesFromList_gather : ∀ {es : List Json} {p p' : OMap Int PIDConf} {z z' : OMap Int ZoneConfig},
    zonesFromList p z es = .ok (p', z') →
    gather (fun e => (zoneFromJson e).map (fun r => (r.1, r.2.1))) p es = .ok p' ∧
    gather (fun e => (zoneFromJson e).map (fun r => (r.1, r.2.2))) z es = .ok z' ∧
    ∀ e ∈ es, ∃ r, zoneFromJson e = .ok r
  | [], p, p', z, z', h => by
    injection h with h
    obtain ⟨rfl, rfl⟩ := Prod.mk.inj h
    exact ⟨rfl, rfl, by simp⟩
  | e :: es, p, p', z, z', h => by
    obtain ⟨r, hr, h⟩ := bind_eq_ok.1 h
    obtain ⟨h1, h2, h3⟩ := zonesFromList_gather h
    rw [gather, gather, hr]
    exact ⟨h1, h2, List.forall_mem_cons.2 ⟨⟨r, hr⟩, h3⟩⟩

theorem map_ok {α β : Type} {x : Res α} {f : α → β} {b : β} : x.map f = .ok b ↔ ∃ a, x = .ok a ∧ f a = b := by
  cases x <;> simp [Except.map]

theorem numbering_unique {e : Json} {r : Int × PIDConf × ZoneConfig} {n : Int} (hr : zoneFromJson e = .ok r)
    (hn : Numbering e n) : n = r.1 := by
  obtain ⟨id, conf, c⟩ := r
  obtain ⟨h1, h2, h3⟩ := zoneFromJson_iff.1 hr
  have := zoneFromJson_iff.2 ⟨hn, h2, h3⟩
  rw [hr] at this
  injection this with this
  exact (Prod.mk.inj this).1.symm

/-- **C62.** The zones section: every zone is found by its number with the settings and loops of its (last) entry, and
there are no others. -/
theorem C62_zones {data : Json} {pids : OMap Int PIDConf} {zones : OMap Int ZoneConfig}
    (h : buildPIDsFromJson data = .ok (pids, zones)) :
    ∃ z es, Member data "zones" z ∧ Entries z es ∧
      (∀ id c, zones.find? id = some c ↔ LastNamed Numbering ZoneEntry es id c) ∧
      (∀ id conf, pids.find? id = some conf → LastNamed Numbering LoopsEntry es id conf) ∧
      (∀ id, (∃ conf, pids.find? id = some conf) ↔ ∃ c, zones.find? id = some c) := by
  obtain ⟨z, hz, h⟩ := bind_eq_ok.1 h
  obtain ⟨h1, h2, h3⟩ := zonesFromList_gather h
  have g1 : ∀ e n (c : PIDConf), (zoneFromJson e).map (fun r => (r.1, r.2.1)) = .ok (n, c) ↔
      Numbering e n ∧ ∃ r, zoneFromJson e = .ok r ∧ r.2.1 = c := by
    intro e n c
    rw [map_ok]
    constructor
    · rintro ⟨r, hr, he⟩
      obtain ⟨rfl, rfl⟩ := Prod.mk.inj he
      exact ⟨(zoneFromJson_iff.1 hr).1, r, hr, rfl⟩
    · rintro ⟨hn, r, hr, rfl⟩
      exact ⟨r, hr, by rw [numbering_unique hr hn]⟩
  have g2 : ∀ e n (c : ZoneConfig), (zoneFromJson e).map (fun r => (r.1, r.2.2)) = .ok (n, c) ↔
      Numbering e n ∧ ∃ r, zoneFromJson e = .ok r ∧ r.2.2 = c := by
    intro e n c
    rw [map_ok]
    constructor
    · rintro ⟨r, hr, he⟩
      obtain ⟨rfl, rfl⟩ := Prod.mk.inj he
      exact ⟨(zoneFromJson_iff.1 hr).1, r, hr, rfl⟩
    · rintro ⟨hn, r, hr, rfl⟩
      exact ⟨r, hr, by rw [numbering_unique hr hn]⟩
  have f1 := gather_find? g1 h1
  have f2 := gather_find? g2 h2
  simp only [OMap.find?_empty, reduceCtorEq, and_false, or_false] at f1 f2
  refine ⟨z, z.elems, index_iff.1 hz, entries_iff.2 rfl, fun id c => ?_, fun id conf => ?_, fun id => ?_⟩
  · rw [f2]
    constructor
    · exact fun h => h.mono fun e _ ⟨r, hr, he⟩ => he ▸ (zoneFromJson_iff.1 hr).2.1
    · rintro ⟨pre, e, post, he, hn, hc, hp⟩
      obtain ⟨⟨id', conf, c'⟩, hr⟩ := h3 e (by rw [he]; simp)
      refine ⟨pre, e, post, he, hn, ⟨_, hr, ?_⟩, hp⟩
      have := zoneFromJson_iff.2 ⟨hn, hc, (zoneFromJson_iff.1 hr).2.2⟩
      rw [hr] at this
      injection this with this
      exact (Prod.mk.inj (Prod.mk.inj this).2).2
  · rw [f1]
    exact fun h => h.mono fun e _ ⟨r, hr, he⟩ => he ▸ loopsOf_entry (zoneFromJson_iff.1 hr).2.2
  · constructor
    · rintro ⟨conf, h⟩
      obtain ⟨pre, e, post, he, hn, ⟨r, hr, -⟩, hp⟩ := (f1 _ _).1 h
      exact ⟨r.2.2, (f2 _ _).2 ⟨pre, e, post, he, hn, ⟨r, hr, rfl⟩, hp⟩⟩
    · rintro ⟨conf, h⟩
      obtain ⟨pre, e, post, he, hn, ⟨r, hr, -⟩, hp⟩ := (f2 _ _).1 h
      exact ⟨r.2.1, (f1 _ _).2 ⟨pre, e, post, he, hn, ⟨r, hr, rfl⟩, hp⟩⟩

/-- **C62, finding.** A zone without number, and a loop or sensor without name, is not reported: the value is looked up in
a way that is undefined for a missing key. -/
theorem C62_missing_name {members : List (String × Json)} :
    (Lacks (.obj members) "id" → ∃ s, zoneFromJson (.obj members) = .error (.ub s)) ∧
    (Lacks (.obj members) "name" → ∀ conf rest, ∃ s, pidsFromList conf (.obj members :: rest) = .error (.ub s)) ∧
    (Lacks (.obj members) "name" → ∀ c conf rest, SensorEntry (.obj members) c →
      ∃ s, sensorsFromList conf (.obj members :: rest) = .error (.ub s)) := by
  have key : ∀ {k}, Lacks (.obj members) k →
      (Json.obj members).index k = .error (.ub "json operator[] without the key") := by
    intro k h
    rw [lacks_iff] at h
    simp only [Json.find?] at h
    simp [Json.index, h]
  refine ⟨fun h => ?_, fun h conf rest => ?_, fun h c conf rest hc => ?_⟩
  · rw [zoneFromJson, key h, error_bind]; exact ⟨_, rfl⟩
  · rw [pidsFromList, key h, error_bind]; exact ⟨_, rfl⟩
  · rw [sensorsFromList, (C61_entry _ _).2 hc, ok_bind, key h, error_bind]; exact ⟨_, rfl⟩

/-! ## C60 -/

theorem CycleEntry.pos {zone : Json} {k : String} {d n : Nat} (h : CycleEntry zone k d n) (hd : 1 ≤ d) : 1 ≤ n := by
  obtain ⟨m, -, rfl⟩ := h
  by_cases h1 : 1 ≤ m
  · rw [if_pos h1]; omega
  · rw [if_neg h1]; exact hd

/-- **C60.** Whatever the configuration file contains, the cycle times in effect are at least one. -/
theorem C60_json {data : Json} {pids : OMap Int PIDConf} {zones : OMap Int ZoneConfig}
    (h : buildPIDsFromJson data = .ok (pids, zones)) {id : Int} {c : ZoneConfig} (hc : zones.find? id = some c) :
    1 ≤ c.cycleTime.cycleIntervalTimeMS ∧ 1 ≤ c.cycleTime.updateThermalsTimeMS := by
  obtain ⟨z, es, -, -, h1, -⟩ := C62_zones h
  obtain ⟨pre, e, post, -, -, he, -⟩ := (h1 id c).1 hc
  exact ⟨he.cycle.pos (by norm_num), he.thermals.pos (by norm_num)⟩

/-- **C60.** A whole number of at least one in a configuration file is used as given. -/
theorem C60_json_given {zone : Json} {k : String} {d n : Nat} {i : Int} (h : cycleTimeFromJson zone k d = .ok n)
    (hm : Member zone k (.int i)) (h1 : 1 ≤ i) (h2 : i < 2 ^ 64) : (n : Int) = i := by
  obtain ⟨m, hs | ⟨hl, -⟩, rfl⟩ := cycleTimeFromJson_iff.1 h
  · obtain ⟨v, hv, hw⟩ := hs
    have hv := member_unique hm hv
    subst hv
    obtain ⟨h3, h4, ⟨i', he, hd⟩ | ⟨q, hq, he, -⟩⟩ := hw
    · injection he with he
      subst he
      obtain ⟨c, hc⟩ := hd
      have : c = 0 := by omega
      subst this
      rw [if_pos (by omega)]
      omega
    · cases he
  · exact absurd hm (hl _)

/-- **C60.** A missing cycle time, or zero, gives the default. -/
theorem C60_json_default {zone : Json} {k : String} {d : Nat} (h : Lacks zone k ∨ Member zone k (.int 0)) :
    cycleTimeFromJson zone k d = .ok d := by
  rw [cycleTimeFromJson_iff]
  rcases h with h | h
  · exact ⟨0, .inr ⟨h, rfl⟩, by simp⟩
  · exact ⟨0, .inl ⟨_, h, by norm_num, by norm_num, .inl ⟨0, rfl, by simp⟩⟩, by simp⟩

/-- **C60, finding.** A negative cycle time in a configuration file is not rejected but taken modulo 2 ^ 64: -1 stands for
the longest interval there is. -/
theorem C60_negative {zone : Json} {k : String} {d : Nat} {i : Int} (hm : Member zone k (.int i)) (h1 : -(2 ^ 63) ≤ i)
    (h2 : i < 0) : cycleTimeFromJson zone k d = .ok (2 ^ 64 + i).toNat := by
  rw [cycleTimeFromJson_iff]
  refine ⟨2 ^ 64 + i, .inl ⟨_, hm, by omega, by omega, .inl ⟨i, rfl, ⟨-1, by ring⟩⟩⟩, ?_⟩
  rw [if_pos (by omega)]

/-- **C60.** Whatever the configuration on the bus contains, the cycle time in effect is at least one. -/
theorem C60_dbus {zone : OMap String ConfVariant} {k : String} {d n : Nat} (h : cycleTimeFromDbus zone k d = .ok n)
    (hd : 1 ≤ d) : 1 ≤ n := by
  unfold cycleTimeFromDbus at h
  cases hf : zone.find? k with
  | none =>
    simp only [hf] at h
    injection h with h
    omega
  | some v =>
    simp only [hf] at h
    obtain ⟨x, -, h⟩ := bind_eq_ok.1 h
    by_cases h1 : (1 : Dbl) ≤ x
    · rw [if_pos h1] at h
      obtain ⟨i, hi, h⟩ := bind_eq_ok.1 h
      injection h with h
      subst h
      obtain ⟨q, hq, rfl, ht, h2, h3⟩ := castOr_castInt.1 hi
      have h1' : (1 : Rat) ≤ q := by rwa [one_eq, fin_le_fin] at h1
      have ht := truncates_iff.1 ht
      have : 1 ≤ i := by
        rw [← ht, truncQ, if_pos (by linarith)]
        exact Int.le_floor.2 (by exact_mod_cast h1')
      omega
    · rw [if_neg h1] at h
      injection h with h
      omega

/-- **C60.** A whole number of at least one on the bus (up to 2 ^ 53, where doubles are exact) is used as given. -/
theorem C60_dbus_given {zone : OMap String ConfVariant} {k : String} {i : Int} (d : Nat)
    (hv : zone.find? k = some (.int i) ∨ zone.find? k = some (.dbl (Dbl.ofInt i))) (h1 : 1 ≤ i) (h2 : i ≤ 2 ^ 53) :
    cycleTimeFromDbus zone k d = .ok i.toNat := by
  have he := ofInt_eq (by omega : -(2 ^ 53) ≤ i) h2
  have ht : truncQ (i : Rat) = i := by
    rw [truncQ, if_pos (by exact_mod_cast (by omega : 0 ≤ i)), Int.floor_intCast]
  have key : (do
      let i ← castOr "cast to uint64_t" (Dbl.ofInt i).toU64
      .ok i.toNat) = (Except.ok i.toNat : Res Nat) := by
    rw [he, toU64, castInt, ht, if_pos ⟨by omega, by omega⟩]
    rfl
  have hle : (1 : Dbl) ≤ Dbl.ofInt i := by
    rw [he, one_eq, fin_le_fin]
    exact_mod_cast h1
  unfold cycleTimeFromDbus
  rcases hv with hv | hv <;> simp only [hv, ConfVariant.toDbl, ok_bind] <;> rw [if_pos hle, key]

/-- **C60.** A missing cycle time, or a number that is not at least one (NaN too), gives the default. -/
theorem C60_dbus_default {zone : OMap String ConfVariant} {k : String} {d : Nat}
    (h : zone.find? k = none ∨ ∃ v x, zone.find? k = some v ∧ v.toDbl = .ok x ∧ ¬ (1 : Dbl) ≤ x) :
    cycleTimeFromDbus zone k d = .ok d := by
  unfold cycleTimeFromDbus
  rcases h with h | ⟨v, x, h, hx, h1⟩
  · simp only [h]
  · simp only [h, hx, ok_bind]
    rw [if_neg h1]

/-- **C60, finding.** A cycle time of 2 ^ 64 or more on the bus (infinity too) is cast to an integer too small for it. -/
theorem C60_dbus_undefined {zone : OMap String ConfVariant} {k : String} {x : Dbl}
    (hv : zone.find? k = some (.dbl x)) (hx : x = pinf ∨ ∃ q h, x = fin q h ∧ 2 ^ 64 ≤ q) (d : Nat) :
    ∃ s, cycleTimeFromDbus zone k d = .error (.ub s) := by
  unfold cycleTimeFromDbus
  simp only [hv, ConfVariant.toDbl, ok_bind]
  rcases hx with rfl | ⟨q, h, rfl, hq⟩
  · rw [if_pos (by rw [one_eq]; trivial)]
    exact ⟨_, rfl⟩
  · have h1 : (1 : Rat) ≤ q := le_trans (by norm_num) hq
    rw [if_pos (by rwa [one_eq, fin_le_fin]), toU64, castInt, if_neg]
    · exact ⟨_, rfl⟩
    · rw [truncQ, if_pos (by linarith)]
      intro h2
      have : (2 ^ 64 : Int) ≤ ⌊q⌋ := Int.le_floor.2 (by exact_mod_cast hq)
      omega

/-! Further findings -/

/-- **C63, finding.** A file without any zone is accepted, and so is one with a zone that has no number, whose reading
is then undefined. -/
theorem C63_accepts_undefined (sensor loop : Json) :
    validateJson (.obj [("sensors", .arr [sensor]), ("zones", .null)]) = .ok () ∧
    ∃ data s, Member data "sensors" (.arr [sensor]) ∧ Member data "zones" (.arr [.obj [("pids", .arr [loop])]]) ∧
      validateJson data = .ok () ∧ buildPIDsFromJson data = .error (.ub s) :=
  ⟨rfl, .obj [("sensors", .arr [sensor]), ("zones", .arr [.obj [("pids", .arr [loop])]])], _,
    member_iff.2 rfl, member_iff.2 rfl, rfl, rfl⟩

/-- **C62, finding.** A stepwise table given as a list is silently ignored: no point is set. -/
theorem C62_list_ignored {j p : Json} {c : ControllerInfo} (h : LoopEntry j c) (ht : c.type = "stepwise")
    (hp : Member j "pid" p) {xs : List Json} (hr : Member p "reading" (.arr xs)) (i : Fin maxStepwisePoints) :
    c.stepwiseInfo.reading i = nan := by
  obtain ⟨p', hp', h⟩ := h.pid
  rw [if_pos ht] at h
  have hp' := member_unique hp hp'
  subst hp'
  rcases h.1.reading i with ⟨r, hr', h⟩ | ⟨h, -⟩
  · have hr' := member_unique hr hr'
    subst hr'
    rcases h with ⟨v, hv, -⟩ | ⟨-, h⟩
    · rw [member_iff] at hv; cases hv
    · exact h
  · exact absurd hr (h _)

/-- **C62, finding.** The fraction of a loop's failsafe percentage is dropped. -/
theorem C62_fraction_dropped {j : Json} {c : ControllerInfo} (h : LoopEntry j c) {q : Rat} {hq : F.rep q}
    (hm : Member j "FailSafePercent" (.float (.fin q hq))) :
    ∃ n, c.failSafePercent = Dbl.ofInt n ∧ Truncates q n := by
  obtain ⟨n, hs | ⟨hl, -⟩, he⟩ := h.failSafePercent
  · obtain ⟨v, hv, hn⟩ := hs
    have hv := member_unique hm hv
    subst hv
    refine ⟨n, he, ?_⟩
    rcases hn with ⟨-, -, ⟨i, he, -⟩ | ⟨q', h', he, ht⟩⟩ | ⟨he, -⟩ | ⟨he, -⟩
    · cases he
    · injection he with he
      injection he with he
      exact he ▸ ht
    · cases he
    · cases he
  · exact absurd hm (hl _)

end

/-! ## Examples -/

namespace Ex
section
attribute [local instance] binary64

/-- a sensor entry of a fan -/
def jsonFan : Json := .obj [("max", .int 255), ("min", .int 0), ("name", .str "fan1"), ("readPath", .str "/fan1"),
  ("type", .str "fan"), ("writePath", .str "/pwm1")]

/-- a stepwise loop with two points -/
def jsonStep : Json := .obj [("FailSafePercent", .int 80), ("inputs", .arr [.str "cpu"]), ("name", .str "step"),
  ("pid", .obj [("isCeiling", .bool false), ("output", .obj [("0", .int 10), ("1", .int 20)]),
    ("reading", .obj [("0", .int 30), ("1", .int 40)]), ("samplePeriod", .int 1)]),
  ("setpoint", .int 0), ("type", .str "stepwise")]

/-- a thermal loop -/
def jsonPid : Json := .obj [("inputs", .arr [.str "cpu", .str "gpu"]), ("missingIsAcceptable", .arr [.str "gpu"]),
  ("name", .str "temp"),
  ("pid", .obj [("feedFwdGainCoeff", .int 0), ("feedFwdOffsetCoeff", .int 0), ("integralCoeff", .int 1),
    ("integralLimit_max", .int 100), ("integralLimit_min", .int 0), ("outLim_max", .int 90), ("outLim_min", .int 10),
    ("proportionalCoeff", .int 2), ("samplePeriod", .int 1), ("slewNeg", .int 0), ("slewPos", .int 0)]),
  ("setpoint", .int 70), ("tempToMargin", .arr [.int 95]), ("type", .str "temp")]

/-- a zone with these loops -/
def jsonZone : Json := .obj [("cycleIntervalTimeMS", .int 50), ("failsafePercent", .int 75), ("id", .int 3),
  ("minThermalOutput", .int 20), ("pids", .arr [jsonPid, jsonStep]), ("updateThermalsTimeMS", .int (-1))]

def jsonConfig : Json := .obj [("sensors", .arr [jsonFan]), ("zones", .arr [jsonZone])]

example : validateJson jsonConfig = .ok () := rfl
/-- without sensors it is rejected -/
example : ∃ s, validateJson (.obj [("sensors", .arr []), ("zones", .arr [jsonZone])]) = .error (.exc s) := ⟨_, rfl⟩
example : ∃ m, buildSensorsFromJson jsonConfig = .ok m ∧
    (m.find? "fan1").any (fun c => decide (c.max = 255 ∧ c.timeout = 0 ∧ c.writePath = "/pwm1")) = true :=
  ok_of_any (P := fun m : OMap String SensorConfig =>
    (m.find? "fan1").any (fun c => decide (c.max = 255 ∧ c.timeout = 0 ∧ c.writePath = "/pwm1"))) (by decide +kernel)

example : ∃ c, controllerFromJson jsonStep = .ok c ∧
    decide (c.stepwiseInfo.reading 1 = 40 ∧ c.stepwiseInfo.output 1 = 20 ∧ c.stepwiseInfo.reading 2 = nan ∧
      c.failSafePercent = 80) = true :=
  ok_of_any (P := fun c : ControllerInfo => decide (c.stepwiseInfo.reading 1 = 40 ∧ c.stepwiseInfo.output 1 = 20 ∧
    c.stepwiseInfo.reading 2 = nan ∧ c.failSafePercent = 80)) (by decide +kernel)

example : ∃ r, buildPIDsFromJson jsonConfig = .ok r ∧
    ((r.1.find? 3).any (fun l => (l.find? "temp").any (fun c => decide (c.pidInfo.outLim.max = 90 ∧
      c.inputs.map SensorInput.missingIsAcceptable = [false, true])))) = true :=
  ok_of_any (P := fun r : OMap Int PIDConf × OMap Int ZoneConfig => ((r.1.find? 3).any (fun l => (l.find? "temp").any (fun c => decide (c.pidInfo.outLim.max = 90 ∧
      c.inputs.map SensorInput.missingIsAcceptable = [false, true]))))) (by decide +kernel)

example : ∃ r, zoneFromJson jsonZone = .ok r ∧
    decide (r.2.2.cycleTime.cycleIntervalTimeMS = 50 ∧ r.2.2.cycleTime.updateThermalsTimeMS = 2 ^ 64 - 1) = true :=
  ok_of_any (P := fun r : Int × PIDConf × ZoneConfig => decide (r.2.2.cycleTime.cycleIntervalTimeMS = 50 ∧
    r.2.2.cycleTime.updateThermalsTimeMS = 2 ^ 64 - 1)) (by decide +kernel)

example : cycleTimeFromDbus ((({} : OMap String ConfVariant)).insert "CycleIntervalTimeMS" (.dbl 250))
    "CycleIntervalTimeMS" 100 = .ok 250 := C60_dbus_given (i := 250) 100 (.inr (OMap.find?_insert_self ..)) (by norm_num) (by norm_num)

end
end Ex
end Verif
