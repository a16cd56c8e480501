import Verif.Spec.DbusInit
import Verif.Props.Build
import Verif.Props.Util

/-!
# C81 to C88

The configuration read over D-Bus.
-/

namespace Verif
open Dbl

section
variable [F : FloatModel]

theorem OMap.insertL_insertL {K V : Type} [DecidableEq K] [LT K] [DecidableLT K] (k : K) (v v' : V) (l : List (K × V)) :
    insertL k v' (insertL k v l) = insertL k v' l := by
  induction l with
  | nil => simp [insertL]
  | cons e t ih =>
    obtain ⟨k', w⟩ := e
    by_cases h1 : k = k'
    · simp [insertL, h1]
    · by_cases h2 : k < k' <;> simp [insertL, h1, h2, ih]

theorem OMap.insert_insert {K V : Type} [DecidableEq K] [LT K] [DecidableLT K] (m : OMap K V) (k : K) (v v' : V) :
    (m.insert k v).insert k v' = m.insert k v' := congrArg OMap.mk (insertL_insertL k v v' m.entries)

/-! ## Attributes -/

theorem confReq_iff {α : Type} {get : ConfVariant → Res α} {R : ConfVariant → α → Prop} (h : ∀ v x, get v = .ok x ↔ R v x)
    {p : ConfProps} {k : String} {x : α} : p.req k get = .ok x ↔ Attr p k R x := by
  unfold ConfProps.req Attr
  cases hf : p.find? k with
  | none => simp
  | some v => simp [h]

theorem confOpt_iff {α : Type} {get : ConfVariant → Res α} {R : ConfVariant → α → Prop} (h : ∀ v x, get v = .ok x ↔ R v x)
    {p : ConfProps} {k : String} {d x : α} : p.opt k d get = .ok x ↔ AttrOr p k R d x := by
  unfold ConfProps.opt AttrOr Attr
  cases hf : p.find? k with
  | none => simp [eq_comm]
  | some v => simp [h]

theorem getStr_iff (v : ConfVariant) (s : String) : v.getStr = .ok s ↔ TextValue v s := by
  cases v <;> simp [ConfVariant.getStr, TextValue]
theorem getBool_iff (v : ConfVariant) (b : Bool) : v.getBool = .ok b ↔ FlagValue v b := by
  cases v <;> simp [ConfVariant.getBool, FlagValue]
theorem getStrs_iff (v : ConfVariant) (l : List String) : v.getStrs = .ok l ↔ NamesValue v l := by
  cases v <;> simp [ConfVariant.getStrs, NamesValue]
theorem getDbls_iff (v : ConfVariant) (l : List Dbl) : v.getDbls = .ok l ↔ NumbersValue v l := by
  cases v <;> simp [ConfVariant.getDbls, NumbersValue]
theorem toDbl_iff (v : ConfVariant) (d : Dbl) : v.toDbl = .ok d ↔ NumberValue v d := by
  cases v <;> simp [ConfVariant.toDbl, NumberValue, eq_comm]
theorem getPercent_iff (v : ConfVariant) (d : Dbl) : v.getPercent = .ok d ↔ PercentValue v d := by
  unfold ConfVariant.getPercent PercentValue
  rw [bind_eq_ok]
  constructor
  · rintro ⟨x, h1, h⟩
    obtain ⟨n, h2, h'⟩ := bind_eq_ok.1 h
    obtain ⟨q, hq, rfl, h3, h4, h5⟩ := castOr_castInt.1 h2
    injection h' with h'
    exact ⟨q, hq, n, (toDbl_iff _ _).1 h1, h3, h4, h5, h'.symm⟩
  · rintro ⟨q, hq, n, h1, h3, h4, h5, rfl⟩
    refine ⟨_, (toDbl_iff _ _).2 h1, ?_⟩
    rw [show castOr "cast to int" (Dbl.fin q hq).toI32 = .ok n from castOr_castInt.2 ⟨q, hq, rfl, h3, h4, h5⟩]
    rfl

theorem attr_unique {α : Type} {R : ConfVariant → α → Prop} (hR : ∀ v x y, R v x → R v y → x = y) {p : ConfProps} {k : String}
    {x y : α} (h1 : Attr p k R x) (h2 : Attr p k R y) : x = y := by
  obtain ⟨v, hv, h1⟩ := h1
  obtain ⟨v', hv', h2⟩ := h2
  rw [hv] at hv'
  injection hv' with e
  exact hR v x y h1 (e ▸ h2)

theorem attrOr_unique {α : Type} {R : ConfVariant → α → Prop} (hR : ∀ v x y, R v x → R v y → x = y) {p : ConfProps}
    {k : String} {d x y : α} (h1 : AttrOr p k R d x) (h2 : AttrOr p k R d y) : x = y := by
  rcases h1 with h1 | ⟨h1, rfl⟩ <;> rcases h2 with h2 | ⟨h2, rfl⟩
  · exact attr_unique hR h1 h2
  · obtain ⟨v, hv, -⟩ := h1; rw [h2] at hv; cases hv
  · obtain ⟨v, hv, -⟩ := h2; rw [h1] at hv; cases hv
  · rfl

theorem text_unique (v : ConfVariant) (x y : String) (h1 : TextValue v x) (h2 : TextValue v y) : x = y := by
  unfold TextValue at h1 h2; rw [h1] at h2; injection h2
theorem names_unique (v : ConfVariant) (x y : List String) (h1 : NamesValue v x) (h2 : NamesValue v y) : x = y := by
  unfold NamesValue at h1 h2; rw [h1] at h2; injection h2
theorem numbers_unique (v : ConfVariant) (x y : List Dbl) (h1 : NumbersValue v x) (h2 : NumbersValue v y) : x = y := by
  unfold NumbersValue at h1 h2; rw [h1] at h2; injection h2

/-! ## C81 -/

/-- the interfaces that apply -/
noncomputable def keptEntries (sel : List String) (l : List (String × ConfProps)) : List (String × ConfProps) :=
  open scoped Classical in l.filter (fun e => decide (Selected sel e.2))

theorem keeps_iff {sel : List String} (hs : sel ≠ []) {p : ConfProps} {k : Bool} (h : keepsInterface sel p = .ok k) :
    k = true ↔ Selected sel p := by
  unfold keepsInterface at h
  unfold Selected
  cases hf : p.find? "Profiles" with
  | none =>
    rw [hf] at h
    injection h with h
    simp [← h]
  | some v =>
    rw [hf] at h
    obtain ⟨l, h1, h⟩ := bind_eq_ok.1 h
    have h1 := (getStrs_iff _ _).1 h1
    have hA : ∀ l', Attr p "Profiles" NamesValue l' ↔ l' = l := fun l' =>
      ⟨fun ⟨v', hv', h'⟩ => by rw [hf] at hv'; injection hv' with e; subst e; exact names_unique _ _ _ h' h1,
        fun e => e ▸ ⟨v, hf, h1⟩⟩
    simp only [hA, hs, false_or, reduceCtorEq, exists_eq_left]
    by_cases he : l = []
    · rw [if_pos (by simpa using he)] at h
      injection h with h
      simp [← h, he]
    · rw [if_neg (by simpa using he)] at h
      injection h with h
      rw [← h]
      simp [he]

theorem filterInterfaces_ok {sel : List String} (hs : sel ≠ []) : ∀ {l l' : List (String × ConfProps)},
    filterInterfaces sel l = .ok l' → l' = keptEntries sel l
  | [], l', h => by injection h with h; simp [← h, keptEntries]
  | (k, p) :: l, l', h => by
    obtain ⟨b, hb, h⟩ := bind_eq_ok.1 h
    obtain ⟨l1, h1, h⟩ := bind_eq_ok.1 h
    injection h with h
    rw [← h, filterInterfaces_ok hs h1]
    have := keeps_iff hs hb
    unfold keptEntries
    by_cases hS : Selected sel p
    · rw [if_pos (this.2 hS), List.filter_cons_of_pos (by simpa using hS)]
    · have hb : b = false := by simpa using fun e => hS (this.1 e)
      rw [List.filter_cons_of_neg (by simpa using hS)]
      simp [hb]

theorem filterObjects_ok {sel : List String} (hs : sel ≠ []) : ∀ {l l' : List ConfObj}, filterObjects sel l = .ok l' →
    l' = (l.map (fun o => (⟨keptEntries sel o.entries⟩ : ConfObj))).filter (fun o => !o.entries.isEmpty)
  | [], l', h => by injection h with h; simp [← h]
  | o :: l, l', h => by
    obtain ⟨es, h1, h⟩ := bind_eq_ok.1 h
    obtain ⟨l1, h2, h⟩ := bind_eq_ok.1 h
    injection h with h
    rw [← h, filterObjects_ok hs h2, filterInterfaces_ok hs h1, List.map_cons]
    by_cases he : (keptEntries sel o.entries).isEmpty = true
    · rw [if_pos he, List.filter_cons_of_neg (by simpa using he)]
    · rw [if_neg he, List.filter_cons_of_pos (by simpa using he)]

theorem kept_find? {sel : List String} {o : ConfObj} (hw : o.WF) (k : String) (p : ConfProps) :
    (⟨keptEntries sel o.entries⟩ : ConfObj).find? k = some p ↔ o.find? k = some p ∧ Selected sel p := by
  have hw' : (⟨keptEntries sel o.entries⟩ : ConfObj).WF := List.Pairwise.sublist List.filter_sublist hw
  rw [← OMap.mem_entries_iff hw', ← OMap.mem_entries_iff hw]
  simp [keptEntries]

/-- **C81.** After the selection of profiles exactly the configurations remain that apply. -/
theorem C81_profiles {sel : List String} {objs objs' : List ConfObj} (hw : ∀ o ∈ objs, OMap.WF o)
    (h : applyProfiles sel objs = .ok objs') (interface : String) (p : ConfProps) :
    (∃ o ∈ objs', o.find? interface = some p) ↔ Active sel objs interface p := by
  unfold applyProfiles at h
  by_cases hs : sel = []
  · rw [if_pos (by simpa using hs)] at h
    injection h with h
    subst h
    simp [Active, Selected, hs]
  · rw [if_neg (by simpa using hs)] at h
    rw [filterObjects_ok hs h]
    unfold Active
    constructor
    · rintro ⟨o', ho', hf⟩
      obtain ⟨ho', -⟩ := List.mem_filter.1 ho'
      obtain ⟨o, ho, rfl⟩ := List.mem_map.1 ho'
      exact ⟨o, ho, (kept_find? (hw o ho) _ _).1 hf⟩
    · rintro ⟨o, ho, hf⟩
      have hf := (kept_find? (hw o ho) _ _).2 hf
      refine ⟨_, List.mem_filter.2 ⟨List.mem_map_of_mem ho, ?_⟩, hf⟩
      have : (keptEntries sel o.entries) ≠ [] := by
        intro e
        rw [e] at hf
        cases hf
      simpa using this

/-- **C81.** The selection fails only for profiles that are no list of names. -/
theorem C81_total (sel : List String) (objs : List ConfObj) :
    (∃ objs', applyProfiles sel objs = .ok objs') ↔
      sel = [] ∨ ∀ o ∈ objs, ∀ e ∈ o.entries, e.2.find? "Profiles" = none ∨ ∃ l, Attr e.2 "Profiles" NamesValue l := by
  have h1 : ∀ p : ConfProps, (∃ b, keepsInterface sel p = .ok b) ↔
      p.find? "Profiles" = none ∨ ∃ l, Attr p "Profiles" NamesValue l := by
    intro p
    unfold keepsInterface Attr
    cases hf : p.find? "Profiles" with
    | none => simp
    | some v =>
      cases v with
      | strs l => 
        simp only [ConfVariant.getStrs, ok_bind]
        constructor
        · intro _; exact .inr ⟨l, _, rfl, rfl⟩
        · intro _
          split
          · exact ⟨_, rfl⟩
          · exact ⟨_, rfl⟩
      | _ => simp [ConfVariant.getStrs, NamesValue, bind, Except.bind]
  have h2 : ∀ l : List (String × ConfProps), (∃ l', filterInterfaces sel l = .ok l') ↔
      ∀ e ∈ l, ∃ b, keepsInterface sel e.2 = .ok b := by
    intro l
    induction l with
    | nil => simp [filterInterfaces]
    | cons e l ih =>
      rw [List.forall_mem_cons, ← ih]
      constructor
      · rintro ⟨l', h⟩
        obtain ⟨b, hb, h⟩ := bind_eq_ok.1 h
        obtain ⟨l1, h1, h⟩ := bind_eq_ok.1 h
        exact ⟨⟨b, hb⟩, ⟨l1, h1⟩⟩
      · rintro ⟨⟨b, hb⟩, ⟨l1, h1⟩⟩
        rw [filterInterfaces, hb, ok_bind, h1, ok_bind]
        exact ⟨_, rfl⟩
  have h3 : ∀ l : List ConfObj, (∃ l', filterObjects sel l = .ok l') ↔
      ∀ o ∈ l, ∃ l', filterInterfaces sel o.entries = .ok l' := by
    intro l
    induction l with
    | nil => simp [filterObjects]
    | cons o l ih =>
      rw [List.forall_mem_cons, ← ih]
      constructor
      · rintro ⟨l', h⟩
        obtain ⟨b, hb, h⟩ := bind_eq_ok.1 h
        obtain ⟨l1, h1, h⟩ := bind_eq_ok.1 h
        exact ⟨⟨b, hb⟩, ⟨l1, h1⟩⟩
      · rintro ⟨⟨b, hb⟩, ⟨l1, h1⟩⟩
        rw [filterObjects, hb, ok_bind, h1, ok_bind]
        exact ⟨_, rfl⟩
  unfold applyProfiles
  by_cases hs : sel = []
  · simp [hs]
  · rw [if_neg (by simpa using hs), h3]
    simp only [h2, h1, hs, false_or]

/-! ## Sensors of a loop -/

theorem bfind_ok {b : BusView} {n : String} {l : List (String × String)} (h : b.find (sensorNameToDbusName n) = .ok l) :
    l = Matching b n := by
  unfold BusView.find at h
  unfold Matching
  cases hr : b.regex ("/" ++ sensorNameToDbusName n ++ "$") with
  | none => rw [hr] at h; cases h
  | some p => rw [hr] at h; injection h with h; exact h.symm

theorem findAll_ok {b : BusView} : ∀ {ns : List String} {l : List (String × String)}, b.findAll ns = .ok l →
    l = ns.flatMap (Matching b)
  | [], l, h => by injection h with h; simp [← h]
  | n :: ns, l, h => by
    obtain ⟨f, h1, h⟩ := bind_eq_ok.1 h
    obtain ⟨r, h2, h⟩ := bind_eq_ok.1 h
    injection h with h
    rw [← h, bfind_ok h1, findAll_ok h2, List.flatMap_cons]

theorem matching_mem {b : BusView} {n : String} {s : String × String} (h : s ∈ Matching b n) : s ∈ b.sensors := by
  unfold Matching at h
  split at h
  · exact (List.mem_filter.1 h).1
  · cases h

theorem flatMatching_mem {b : BusView} {ns : List String} {s : String × String} (h : s ∈ ns.flatMap (Matching b)) :
    s ∈ b.sensors := by
  obtain ⟨n, -, h⟩ := List.mem_flatMap.1 h
  exact matching_mem h

/-- all settings fit -/
def AllFit (b : BusView) (m : OMap String SensorConfig) : Prop := ∀ n c, m.find? n = some c → SensorFits b n c

theorem timeout_zero {b : BusView} {n : String} {c : SensorConfig} (h : SensorFits b n c) : c.timeout = 0 := by
  cases h <;> assumption

theorem AllFit.insert {b : BusView} {m : OMap String SensorConfig} (h : AllFit b m) {n : String} {c : SensorConfig}
    (hc : SensorFits b n c) : AllFit b (m.insert n c) := by
  intro n' c' h'
  by_cases e : n' = n
  · subst e
    rw [OMap.find?_insert_self] at h'
    injection h' with h'
    exact h' ▸ hc
  · rw [OMap.find?_insert_ne m e] at h'
    exact h n' c' h'

/-- every entry of `m` is in `m'` too, with any value -/
def Keys {α K : Type} [DecidableEq K] [LT K] [DecidableLT K] (m m' : OMap K α) : Prop :=
  ∀ n, m.find? n ≠ none → m'.find? n ≠ none

section
variable {α K : Type} [DecidableEq K] [LT K] [DecidableLT K]

theorem Keys.refl (m : OMap K α) : Keys m m := fun _ h => h
theorem Keys.trans {m m' m'' : OMap K α} (h : Keys m m') (h' : Keys m' m'') : Keys m m'' := fun n hn => h' n (h n hn)

theorem Keys.insert (m : OMap K α) (k : K) (v : α) : Keys m (m.insert k v) := by
  intro n hn
  rw [OMap.find?_insert]
  split
  · simp
  · exact hn

end

theorem noteInput_found {b : BusView} {m : OMap String SensorConfig} (h : AllFit b m) {type path i : String}
    (ht : type ≠ "fan") (hm : (path, i) ∈ b.sensors) (f : InputFlags) :
    AllFit b (noteInput m (sensorNameFromPath path) type path f) :=
  h.insert (.found i hm rfl ht rfl rfl)

omit F in
theorem awaited_at (type n : String) : AwaitedAt type n (getSensorPath type n) := by
  unfold getSensorPath
  dsimp only
  split_ifs with h1 h2 h3 h4 h5
  · subst h1; exact ⟨_, .fan, by simp [← String.toList_inj]⟩
  · subst h2; exact ⟨_, .temp, by simp [← String.toList_inj]⟩
  · subst h3; exact ⟨_, .margin, by simp [← String.toList_inj]⟩
  · subst h4; exact ⟨_, .power, by simp [← String.toList_inj]⟩
  · subst h5; exact ⟨_, .powersum, by simp [← String.toList_inj]⟩
  · exact ⟨_, .other type (by simp [*]), by simp [← String.toList_inj]⟩

theorem noteInput_missing {b : BusView} {m : OMap String SensorConfig} (h : AllFit b m) {type : String}
    (ht : type ≠ "fan") (hh : b.handleMissing = true) (n : String) (f : InputFlags) :
    AllFit b (noteInput m n type (getSensorPath type n) f) :=
  h.insert (.missing hh (awaited_at type n) ht rfl rfl)

theorem noteInput_keys (m : OMap String SensorConfig) (n type path : String) (f : InputFlags) :
    Keys m (noteInput m n type path f) := Keys.insert _ _ _

theorem noteInput_has (m : OMap String SensorConfig) (n type path : String) (f : InputFlags) :
    (noteInput m n type path f).find? n ≠ none := by
  rw [noteInput, OMap.find?_insert_self]
  simp

/-- names are noted with settings, nothing noted is lost -/
structure Notes (b : BusView) (a : List String) (m : OMap String SensorConfig) (a' : List String)
    (m' : OMap String SensorConfig) : Prop where
  fit : AllFit b m → AllFit b m'
  keys : Keys m m'
  names : ∀ n ∈ a', n ∈ a ∨ m'.find? n ≠ none

theorem Notes.refl (b : BusView) (a : List String) (m : OMap String SensorConfig) : Notes b a m a m :=
  ⟨id, Keys.refl _, fun _ h => .inl h⟩

theorem Notes.trans {b : BusView} {a a' a'' : List String} {m m' m'' : OMap String SensorConfig} (h : Notes b a m a' m')
    (h' : Notes b a' m' a'' m'') : Notes b a m a'' m'' :=
  ⟨fun x => h'.fit (h.fit x), h.keys.trans h'.keys, fun n hn => by
    rcases h'.names n hn with hn | hn
    · rcases h.names n hn with hn | hn
      · exact .inl hn
      · exact .inr (h'.keys n hn)
    · exact .inr hn⟩

theorem notes_one {b : BusView} {a : List String} {m m' : OMap String SensorConfig} {n : String}
    (hf : AllFit b m → AllFit b m') (hk : Keys m m') (hn : m'.find? n ≠ none) : Notes b a m (a ++ [n]) m' :=
  ⟨hf, hk, fun n' h' => by
    rcases List.mem_append.1 h' with h' | h'
    · exact .inl h'
    · rw [List.mem_singleton.1 h']; exact .inr hn⟩

theorem findInput_ok {b : BusView} {cls : String} {acc : List String} {f : InputFlags} {s s' : InputState} {n : String}
    (h : findInput b cls acc f s n = .ok s') :
    s'.found = s.found ++ Matching b n ∧ s'.archived = s.archived ++ (if cls = "fan" then [] else missingNames b acc [n]) ∧
      Notes b s.archived s.sensors s'.archived s'.sensors := by
  obtain ⟨l, h1, h⟩ := bind_eq_ok.1 h
  have h1 := bfind_ok h1
  subst h1
  by_cases hc : (!b.handleMissing) = true ∨ Matching b n ≠ []
  · rw [if_pos hc] at h
    injection h with h
    subst h
    have : missingNames b acc [n] = [] := by
      unfold missingNames
      rcases hc with hc | hc
      · simp only [Bool.not_eq_true'] at hc; simp [hc]
      · simp [hc]
    exact ⟨rfl, by simp [this], Notes.refl _ _ _⟩
  · rw [if_neg hc] at h
    rw [not_or, not_not] at hc
    have hh : b.handleMissing = true := by simpa using hc.1
    by_cases ha : cls = "fan" ∨ n ∈ acc
    · rw [if_pos ha] at h
      injection h with h
      subst h
      refine ⟨by simp [hc.2], ?_, Notes.refl _ _ _⟩
      rcases ha with ha | ha
      · simp [ha]
      · simp [missingNames, ha]
    · rw [if_neg ha] at h
      injection h with h
      subst h
      rw [not_or] at ha
      refine ⟨by simp [hc.2], ?_, notes_one (fun x => noteInput_missing x ha.1 hh _ _) (noteInput_keys _ _ _ _ _)
        (noteInput_has _ _ _ _ _)⟩
      simp [missingNames, ha.1, ha.2, hc.2, hh]

theorem missingNames_cons (b : BusView) (acc : List String) (n : String) (ns : List String) :
    missingNames b acc (n :: ns) = missingNames b acc [n] ++ missingNames b acc ns := by
  unfold missingNames
  split
  · rw [← List.map_append, ← List.filter_append]; rfl
  · rfl

theorem findInputs_ok {b : BusView} {cls : String} {acc : List String} {f : InputFlags} : ∀ {ns : List String}
    {s s' : InputState}, findInputs b cls acc f s ns = .ok s' →
    s'.found = s.found ++ ns.flatMap (Matching b) ∧
      s'.archived = s.archived ++ (if cls = "fan" then [] else missingNames b acc ns) ∧
      Notes b s.archived s.sensors s'.archived s'.sensors
  | [], s, s', h => by
    injection h with h
    subst h
    exact ⟨by simp, by simp [missingNames], Notes.refl _ _ _⟩
  | n :: ns, s, s', h => by
    obtain ⟨s1, h1, h⟩ := bind_eq_ok.1 h
    obtain ⟨f1, a1, n1⟩ := findInput_ok h1
    obtain ⟨f2, a2, n2⟩ := findInputs_ok h
    refine ⟨by rw [f2, f1, List.flatMap_cons, List.append_assoc], ?_, n1.trans n2⟩
    rw [a2, a1, missingNames_cons b acc n ns]
    split <;> simp

theorem noteFound_ok {b : BusView} {cls : String} {f : InputFlags} : ∀ {l : List (String × String)} {s s' : InputState},
    noteFound cls f s l = .ok s' → (∀ x ∈ l, x ∈ b.sensors) →
    s'.found = s.found ∧
      s'.archived = s.archived ++ (if isThermalType cls then l.map (fun x => sensorNameFromPath x.1) else []) ∧
      (∀ x ∈ l, x.2 = valueInterface) ∧ Notes b s.archived s.sensors s'.archived s'.sensors
  | [], s, s', h, _ => by
    injection h with h
    subst h
    exact ⟨rfl, by simp, by simp, Notes.refl _ _ _⟩
  | (path, i) :: l, s, s', h, hm => by
    rw [noteFound] at h
    dsimp only at h
    by_cases hi : i = valueInterface
    · rw [if_neg (not_not.2 hi)] at h
      obtain ⟨f2, a2, i2, n2⟩ := noteFound_ok h (fun x hx => hm x (List.mem_cons_of_mem _ hx))
      have hfan : isThermalType cls = true → cls ≠ "fan" := by
        rintro ht rfl
        exact absurd ht (by decide)
      have n1 : Notes b s.archived s.sensors
          (if isThermalType cls then
            ({ s with archived := s.archived ++ [sensorNameFromPath path],
                      sensors := noteInput s.sensors (sensorNameFromPath path) cls path f } : InputState) else s).archived
          (if isThermalType cls then
            ({ s with archived := s.archived ++ [sensorNameFromPath path],
                      sensors := noteInput s.sensors (sensorNameFromPath path) cls path f } : InputState) else s).sensors := by
        by_cases ht : isThermalType cls = true
        · rw [if_pos ht]
          exact notes_one (fun x => noteInput_found x (hfan ht) (hm _ List.mem_cons_self) _) (noteInput_keys _ _ _ _ _)
            (noteInput_has _ _ _ _ _)
        · rw [if_neg ht]
          exact Notes.refl _ _ _
      refine ⟨?_, ?_, ?_, n1.trans n2⟩
      · rw [f2]; split <;> rfl
      · rw [a2]; split <;> simp
      · exact List.forall_mem_cons.2 ⟨hi, i2⟩
    · rw [if_pos hi] at h
      cases h

theorem acceptableNames_ok : ∀ {l : List (String × String)} {r : List String}, acceptableNames l = .ok r →
    r = l.map (fun x => sensorNameFromPath x.1)
  | [], r, h => by injection h with h; simp [← h]
  | (path, i) :: l, r, h => by
    rw [acceptableNames] at h
    split at h
    · cases h
    · obtain ⟨r', h1, h⟩ := bind_eq_ok.1 h
      injection h with h
      rw [← h, acceptableNames_ok h1, List.map_cons]

theorem pairFans_ok {fs ps : List (String × String)} {pairs} (h : pairFans fs ps = .ok pairs) : Pairs fs ps pairs := by
  unfold pairFans at h
  split at h
  · injection h with h
    exact h ▸ .one fs _
  · split at h
    · rename_i hl
      injection h with h
      exact h ▸ .each hl
    · cases h

theorem pairs_mem {α β : Type} {fs : List α} {ps : List β} {pairs : List (α × β)} (h : Pairs fs ps pairs) :
    ∀ x ∈ pairs, x.1 ∈ fs ∧ x.2 ∈ ps := by
  cases h with
  | one p =>
    intro x hx
    obtain ⟨f, hf, rfl⟩ := List.mem_map.1 hx
    exact ⟨hf, List.mem_singleton_self _⟩
  | each _ =>
    rintro ⟨f, p⟩ hx
    exact List.of_mem_zip hx

theorem noteFans_ok {b : BusView} : ∀ {l : List ((String × String) × (String × String))} {s s' : InputState},
    noteFans s l = .ok s' → (∀ x ∈ l, (x.1.1, valueInterface) ∈ b.sensors ∧ x.2 ∈ b.sensors) →
    AllFit b s.sensors →
    s'.archived = s.archived ++ l.map (fun p => sensorNameFromPath p.1.1 ++ sensorNameFromPath p.2.1) ∧
      Notes b s.archived s.sensors s'.archived s'.sensors
  | [], s, s', h, _, _ => by
    injection h with h
    subst h
    exact ⟨by simp, Notes.refl _ _ _⟩
  | ((fp, fi), (pp, pi)) :: l, s, s', h, hm, ha => by
    rw [noteFans] at h
    by_cases hi : pi = pwmInterface
    · rw [if_neg (not_not.2 hi)] at h
      subst hi
      obtain ⟨m1, m2⟩ := hm _ List.mem_cons_self
      have ht : ((s.sensors.find? (sensorNameFromPath fp ++ sensorNameFromPath pp)).getD SensorConfig.zero).timeout = 0 := by
        cases hf : s.sensors.find? (sensorNameFromPath fp ++ sensorNameFromPath pp) with
        | none => rfl
        | some c => exact timeout_zero (ha _ _ hf)
      have hfit := ha.insert (n := sensorNameFromPath fp ++ sensorNameFromPath pp)
        (c := { (s.sensors.find? (sensorNameFromPath fp ++ sensorNameFromPath pp)).getD SensorConfig.zero with
          type := "fan", readPath := fp, writePath := pp, max := 255, min := 0 })
        (.fan m1 m2 rfl rfl rfl rfl ht)
      obtain ⟨a2, n2⟩ := noteFans_ok h (fun x hx => hm x (List.mem_cons_of_mem _ hx)) hfit
      refine ⟨by rw [a2]; simp, .trans (notes_one (fun _ => hfit) (Keys.insert _ _ _) ?_) n2⟩
      rw [OMap.find?_insert_self]
      simp
    · rw [if_pos hi] at h
      cases h

theorem isThermal_iff (cls : String) : isThermalType cls = true ↔ cls ∈ ["temp", "margin", "power", "powersum"] := by
  simp [isThermalType]

theorem pidInputs_ok {b : BusView} {sensors sensors' : OMap String SensorConfig} {base : ConfProps} {cls : String}
    {archived missing : List String} (hc : Attr base "Class" TextValue cls)
    (h : pidInputs b sensors base cls = .ok (archived, missing, sensors')) (hfit : AllFit b sensors) :
    PidNames b base archived ∧ (∃ acceptable, AttrOr base "MissingIsAcceptable" NamesValue [] acceptable ∧
      missing = foundNames b acceptable) ∧ Notes b [] sensors archived sensors' := by
  obtain ⟨inputs, hi, h⟩ := bind_eq_ok.1 h
  obtain ⟨acc, hacc, h⟩ := bind_eq_ok.1 h
  obtain ⟨outs, ho, h⟩ := bind_eq_ok.1 h
  obtain ⟨f, -, h⟩ := bind_eq_ok.1 h
  obtain ⟨s1, h1, h⟩ := bind_eq_ok.1 h
  obtain ⟨outs', h2, h⟩ := bind_eq_ok.1 h
  obtain ⟨miss, h3, h⟩ := bind_eq_ok.1 h
  obtain ⟨s2, h4, h⟩ := bind_eq_ok.1 h
  obtain ⟨miss', h5, h⟩ := bind_eq_ok.1 h
  obtain ⟨s3, h6, h⟩ := bind_eq_ok.1 h
  injection h with h
  simp only [Prod.mk.injEq] at h
  obtain ⟨rfl, rfl, rfl⟩ := h
  have hi := (confReq_iff getStrs_iff).1 hi
  have hacc := (confOpt_iff getStrs_iff).1 hacc
  obtain ⟨f1, a1, n1⟩ := findInputs_ok h1
  simp only [List.nil_append] at f1 a1
  have hmem : ∀ x ∈ s1.found, x ∈ b.sensors := fun x hx => by rw [f1] at hx; exact flatMatching_mem hx
  obtain ⟨f2, a2, i2, n2⟩ := noteFound_ok h4 hmem
  have hmiss : miss' = foundNames b acc := by rw [acceptableNames_ok h5, findAll_ok h3]; rfl
  have n12 := n1.trans n2
  unfold fanInputs at h6
  by_cases hfan : cls = "fan"
  · subst hfan
    rw [if_pos rfl] at h6
    obtain ⟨pairs, hp, h6⟩ := bind_eq_ok.1 h6
    rw [outputNames, if_pos rfl] at ho
    have ho := (confReq_iff getStrs_iff).1 ho
    rw [f2, f1, findAll_ok h2] at hp
    have hp := pairFans_ok hp
    have hpm : ∀ x ∈ pairs, (x.1.1, valueInterface) ∈ b.sensors ∧ x.2 ∈ b.sensors := by
      intro x hx
      obtain ⟨m1, m2⟩ := pairs_mem hp x hx
      refine ⟨?_, flatMatching_mem m2⟩
      rw [← f1] at m1
      have := hmem _ m1
      rw [← i2 _ m1]
      exact this
    obtain ⟨a3, n3⟩ := noteFans_ok h6 hpm (n12.fit hfit)
    refine ⟨?_, ⟨acc, hacc, hmiss⟩, n12.trans n3⟩
    rw [a3, a2, a1, if_pos rfl, if_neg (by decide), List.nil_append, List.nil_append]
    exact .fan hc hi ho hp
  · rw [if_neg hfan] at h6
    injection h6 with h6
    subst h6
    refine ⟨?_, ⟨acc, hacc, hmiss⟩, n12⟩
    rw [a2, a1, if_neg hfan, f1]
    by_cases ht : isThermalType cls = true
    · rw [if_pos ht]
      exact .heat hc ((isThermal_iff _).1 ht) hi hacc
    · rw [if_neg ht, List.append_nil]
      refine .other hc ?_ hi hacc
      intro hm
      rcases List.mem_cons.1 hm with hm | hm
      · exact hfan hm
      · exact ht ((isThermal_iff _).2 hm)

/-! ## Settings of a PID loop -/

theorem setpoint_ok {base : ConfProps} {cls : String} (hc : Attr base "Class" TextValue cls) {x : Dbl}
    (h : pidSetpoint base cls = .ok x) : SetPointAttr base x := by
  unfold pidSetpoint at h
  by_cases hf : cls = "fan"
  · rw [if_pos hf] at h
    injection h with h
    exact .inl ⟨hf ▸ hc, h.symm⟩
  · rw [if_neg hf] at h
    exact .inr ⟨cls, hc, hf, (confReq_iff toDbl_iff).1 h⟩

theorem populatePid_ok {b : BusView} {base : ConfProps} {info info' : ControllerInfo} {off : Option String}
    {sensors : OMap String SensorConfig} (h : populatePidInfo b base info off sensors = .ok info') :
    PidSettings base info' ∧ info'.inputs = info.inputs ∧ (off = none → SetPointAttr base info'.setpoint) ∧
      ∀ t, off = some t → ∃ x y j c, SetPointAttr base x ∧ info.inputs.head? = some j ∧ sensors.find? j.name = some c ∧
        b.threshold (thresholdInterface t) c.readPath t = .ok y ∧ info'.setpoint = x + y := by
  obtain ⟨cls, hc, h⟩ := bind_eq_ok.1 h
  obtain ⟨sp, hs, h⟩ := bind_eq_ok.1 h
  obtain ⟨fs, hfs, h⟩ := bind_eq_ok.1 h
  obtain ⟨sp', hs', h⟩ := bind_eq_ok.1 h
  obtain ⟨pid, hp, h⟩ := bind_eq_ok.1 h
  injection h with h
  have hc := (confReq_iff getStr_iff).1 hc
  have hs := setpoint_ok hc hs
  obtain ⟨p, h1, hp⟩ := bind_eq_ok.1 hp
  obtain ⟨i, h2, hp⟩ := bind_eq_ok.1 hp
  obtain ⟨ffo, h3, hp⟩ := bind_eq_ok.1 hp
  obtain ⟨ffg, h4, hp⟩ := bind_eq_ok.1 hp
  obtain ⟨imax, h5, hp⟩ := bind_eq_ok.1 hp
  obtain ⟨imin, h6, hp⟩ := bind_eq_ok.1 hp
  obtain ⟨omax, h7, hp⟩ := bind_eq_ok.1 hp
  obtain ⟨omin, h8, hp⟩ := bind_eq_ok.1 hp
  obtain ⟨sn, h9, hp⟩ := bind_eq_ok.1 hp
  obtain ⟨spos, h10, hp⟩ := bind_eq_ok.1 hp
  obtain ⟨chk, h11, hp⟩ := bind_eq_ok.1 hp
  obtain ⟨neg, h12, hp⟩ := bind_eq_ok.1 hp
  obtain ⟨pos, h13, hp⟩ := bind_eq_ok.1 hp
  obtain ⟨d, h14, hp⟩ := bind_eq_ok.1 hp
  injection hp with hp
  subst hp
  subst h
  refine ⟨?_, rfl, ?_, ?_⟩
  · exact
      { type := hc
        failSafePercent := (confOpt_iff getPercent_iff).1 hfs
        ts := rfl
        proportionalCoeff := (confReq_iff toDbl_iff).1 h1
        integralCoeff := (confReq_iff toDbl_iff).1 h2
        feedFwdOffset := (confReq_iff toDbl_iff).1 h3
        feedFwdGain := (confReq_iff toDbl_iff).1 h4
        integralMax := (confReq_iff toDbl_iff).1 h5
        integralMin := (confReq_iff toDbl_iff).1 h6
        outMax := (confReq_iff toDbl_iff).1 h7
        outMin := (confReq_iff toDbl_iff).1 h8
        slewNeg := (confReq_iff toDbl_iff).1 h9
        slewPos := (confReq_iff toDbl_iff).1 h10
        checkHysterWithSetpt := (confOpt_iff getBool_iff).1 h11
        negativeHysteresis := (confOpt_iff toDbl_iff).1 h12
        positiveHysteresis := (confOpt_iff toDbl_iff).1 h13
        derivativeCoeff := (confOpt_iff toDbl_iff).1 h14 }
  · rintro rfl
    injection hs' with hs'
    exact hs' ▸ hs
  · rintro t rfl
    cases hin : info.inputs with
    | nil => rw [hin] at hs'; cases hs'
    | cons j rest =>
      rw [hin] at hs'
      obtain ⟨c, hcf, hs'⟩ := bind_eq_ok.1 hs'
      obtain ⟨y, hy, hs'⟩ := bind_eq_ok.1 hs'
      injection hs' with hs'
      refine ⟨sp, y, j, c, hs, rfl, (OMap.atKey_ok_iff _ _ _).1 hcf, ?_, hs'.symm⟩
      exact hy

theorem spliced (names : List String) (margins : List Dbl) (lenient : List String) :
    Spliced (spliceInputs names margins lenient) names margins lenient := by
  refine ⟨C59_roundtrip names margins lenient, fun i x hx => ?_⟩
  rw [C59_entries] at hx
  cases hn : names[i]? with
  | none => rw [hn] at hx; cases hx
  | some n =>
    rw [hn] at hx
    injection hx with hx
    subst hx
    simp [List.getD_eq_getElem?_getD]

theorem splice_name {names : List String} {margins : List Dbl} {lenient : List String} {x : SensorInput}
    (hx : x ∈ spliceInputs names margins lenient) : x.name ∈ names := by
  have := C59_roundtrip names margins lenient
  rw [← this]
  exact List.mem_map_of_mem hx

theorem splice_ne {names : List String} {margins : List Dbl} {lenient : List String} (h : names ≠ []) :
    spliceInputs names margins lenient ≠ [] := by
  intro e
  have := C59_roundtrip names margins lenient
  rw [e] at this
  exact h this.symm

/-! ## Numbers of zones -/

/-- zones keep their numbers -/
def Extends (m m' : OMap String Int) : Prop := ∀ n k, m.find? n = some k → m'.find? n = some k

theorem getZone_ok {zone : String} {m m' : OMap String Int} {i : Int} (h : getZoneIndex zone m = .ok (i, m')) :
    m'.find? zone = some i ∧ Extends m m' ∧ ((∃ h, Numbered h m) → ∃ h, Numbered h m') := by
  refine ⟨?_, ?_, fun ⟨l, hl⟩ => ⟨_, .get zone hl h⟩⟩
  · rw [getZone_eq] at h
    rcases setZone_cases h with ⟨h1, rfl⟩ | ⟨-, -, rfl⟩
    · exact h1
    · simp
  · rw [getZone_eq] at h
    rcases setZone_cases h with ⟨-, rfl⟩ | ⟨h1, -, rfl⟩
    · exact fun _ _ h => h
    · intro n k hn
      rw [OMap.find?_insert_ne m (by rintro rfl; rw [h1] at hn; cases hn)]
      exact hn

theorem numbered_inj {m : OMap String Int} (h : ∃ h, Numbered h m) {n n' : String} {i : Int} (h1 : m.find? n = some i)
    (h2 : m.find? n' = some i) : n = n' := by
  obtain ⟨l, hl⟩ := h
  obtain ⟨q, hq, rfl, rfl⟩ := (hl.inv.2 _ _).1 h1
  obtain ⟨q', hq', rfl, he⟩ := (hl.inv.2 _ _).1 h2
  exact (C58_distinct hl q hq q' hq').1 he.symm

/-! ## Loops -/

/-- a margin from a configuration that applies -/
def MarginFrom (sel : List String) (objs : List ConfObj) (d : Dbl) : Prop :=
  ∃ base l, (Active sel objs pidInterface base ∨ Active sel objs stepwiseInterface base) ∧
    Attr base "TempToMargin" NumbersValue l ∧ d ∈ l

theorem splice_margin {names : List String} {margins : List Dbl} {lenient : List String} {x : SensorInput}
    (hx : x ∈ spliceInputs names margins lenient) (hc : x.convertTempToMargin = true) : x.convertMarginZero ∈ margins := by
  obtain ⟨i, hi⟩ := List.mem_iff_getElem?.1 hx
  obtain ⟨h1, h2, -⟩ := (spliced names margins lenient).2 i x hi
  rw [h1, decide_eq_true_iff] at hc
  rw [h2, List.getD_eq_getElem?_getD, List.getElem?_eq_getElem hc]
  exact List.getElem_mem hc

theorem margin_from {sel : List String} {objs : List ConfObj} {base : ConfProps} {names : List String}
    {margins : List Dbl} {lenient : List String}
    (hA : Active sel objs pidInterface base ∨ Active sel objs stepwiseInterface base)
    (hm : AttrOr base "TempToMargin" NumbersValue [] margins) :
    ∀ x ∈ spliceInputs names margins lenient, x.convertTempToMargin = true → MarginFrom sel objs x.convertMarginZero := by
  intro x hx hc
  have := splice_margin hx hc
  rcases hm with hm | ⟨-, rfl⟩
  · exact ⟨base, margins, hA, hm, this⟩
  · cases this

/-- the loop `n` of zone `zone` comes from a PID configuration that applies -/
def PidSource (b : BusView) (sel : List String) (objs : List ConfObj) (zone n : String) (info : ControllerInfo) : Prop :=
  ∃ base zones, Active sel objs pidInterface base ∧ Attr base "Zones" NamesValue zones ∧ zone ∈ zones ∧ PidLoop b base n info

/-- a loop with its inputs, and where its percentage comes from -/
structure LoopOk (b : BusView) (sel : List String) (objs : List ConfObj) (zone : String) (m : OMap String SensorConfig)
    (n : String) (info : ControllerInfo) : Prop where
  source : LoopSource b sel objs zone n info
  inputs : info.inputs ≠ []
  sensors : ∀ x ∈ info.inputs, m.find? x.name ≠ none
  margins : ∀ x ∈ info.inputs, x.convertTempToMargin = true → MarginFrom sel objs x.convertMarginZero
  percent : info.failSafePercent = 0 ∨
    ∃ info', PidSource b sel objs zone n info' ∧ info'.failSafePercent = info.failSafePercent

theorem LoopOk.mono {b : BusView} {sel : List String} {objs : List ConfObj} {zone : String}
    {m m' : OMap String SensorConfig} {n : String} {info : ControllerInfo} (h : LoopOk b sel objs zone m n info)
    (hk : Keys m m') : LoopOk b sel objs zone m' n info :=
  ⟨h.source, h.inputs, fun x hx => hk _ (h.sensors x hx), h.margins, h.percent⟩

/-- the loops of a zone -/
def ConfOk (b : BusView) (sel : List String) (objs : List ConfObj) (zone : String) (m : OMap String SensorConfig)
    (conf : PIDConf) : Prop := OMap.WF conf ∧ ∀ n info, conf.find? n = some info → LoopOk b sel objs zone m n info

theorem ConfOk.insert {b : BusView} {sel : List String} {objs : List ConfObj} {zone : String}
    {m : OMap String SensorConfig} {conf : PIDConf} (h : ConfOk b sel objs zone m conf) {n : String} {info : ControllerInfo}
    (hi : LoopOk b sel objs zone m n info) : ConfOk b sel objs zone m (conf.insert n info) := by
  refine ⟨OMap.wf_insert h.1 _ _, fun n' info' h' => ?_⟩
  by_cases e : n' = n
  · subst e
    rw [OMap.find?_insert_self] at h'
    injection h' with h'
    exact h' ▸ hi
  · rw [OMap.find?_insert_ne conf e] at h'
    exact h.2 n' info' h'

theorem ConfOk.mono {b : BusView} {sel : List String} {objs : List ConfObj} {zone : String}
    {m m' : OMap String SensorConfig} {conf : PIDConf} (h : ConfOk b sel objs zone m conf) (hk : Keys m m') :
    ConfOk b sel objs zone m' conf := ⟨h.1, fun n info hi => (h.2 n info hi).mono hk⟩

theorem confOk_empty (b : BusView) (sel : List String) (objs : List ConfObj) (zone : String)
    (m : OMap String SensorConfig) : ConfOk b sel objs zone m {} := ⟨OMap.wf_empty, fun n info h => by simp at h⟩

/-- a configuration that adds loops to zones -/
def Mentions (sel : List String) (objs : List ConfObj) (zone : String) : Prop :=
  ∃ base zones, (Active sel objs pidInterface base ∨ Active sel objs stepwiseInterface base) ∧
    Attr base "Zones" NamesValue zones ∧ zone ∈ zones

/-- the configuration read so far -/
structure CfgOk (b : BusView) (sel : List String) (objs : List ConfObj) (c : DbusCfg) : Prop where
  fit : AllFit b c.sensors
  numbered : ∃ h, Numbered h c.numbers
  wf : OMap.WF c.pids
  loops : ∀ i conf, c.pids.find? i = some conf → ∃ zone, c.numbers.find? zone = some i ∧ Mentions sel objs zone ∧
    ConfOk b sel objs zone c.sensors conf

/-- nothing read is lost -/
structure Grows (c c' : DbusCfg) : Prop where
  numbers : Extends c.numbers c'.numbers
  loops : ∀ i conf, c.pids.find? i = some conf → ∃ conf', c'.pids.find? i = some conf' ∧ Keys conf conf'

theorem Grows.refl (c : DbusCfg) : Grows c c := ⟨fun _ _ h => h, fun _ conf h => ⟨conf, h, Keys.refl _⟩⟩
theorem Grows.trans {c c' c'' : DbusCfg} (h : Grows c c') (h' : Grows c' c'') : Grows c c'' :=
  ⟨fun n k hn => h'.numbers n k (h.numbers n k hn), fun i conf hc => by
    obtain ⟨conf', h1, k1⟩ := h.loops i conf hc
    obtain ⟨conf'', h2, k2⟩ := h'.loops i conf' h1
    exact ⟨conf'', h2, k1.trans k2⟩⟩

/-- the entry of the zone with its number -/
theorem openZone {b : BusView} {sel : List String} {objs : List ConfObj} {c : DbusCfg} (h : CfgOk b sel objs c)
    {zone : String} (hm : Mentions sel objs zone) {i : Int} {numbers' : OMap String Int}
    (hg : getZoneIndex zone c.numbers = .ok (i, numbers')) {sensors' : OMap String SensorConfig}
    (hf : AllFit b sensors') (hk : Keys c.sensors sensors') {conf : PIDConf}
    (hc : ConfOk b sel objs zone sensors' conf) (hkc : Keys ((c.pids.find? i).getD {}) conf) :
    CfgOk b sel objs { c with numbers := numbers', pids := c.pids.insert i conf, sensors := sensors' } ∧
      Grows c { c with numbers := numbers', pids := c.pids.insert i conf, sensors := sensors' } := by
  obtain ⟨g1, g2, g3⟩ := getZone_ok hg
  refine ⟨⟨hf, g3 h.numbered, OMap.wf_insert h.wf _ _, ?_⟩, g2, ?_⟩
  · intro i' conf' h'
    dsimp only at h'
    by_cases e : i' = i
    · subst e
      rw [OMap.find?_insert_self] at h'
      injection h' with h'
      subst h'
      exact ⟨zone, g1, hm, hc⟩
    · rw [OMap.find?_insert_ne c.pids e] at h'
      obtain ⟨z, h1, h2, h3⟩ := h.loops i' conf' h'
      exact ⟨z, g2 _ _ h1, h2, h3.mono hk⟩
  · intro i' conf' h'
    dsimp only
    by_cases e : i' = i
    · subst e
      rw [OMap.find?_insert_self]
      rw [h'] at hkc
      exact ⟨conf, rfl, hkc⟩
    · rw [OMap.find?_insert_ne c.pids e]
      exact ⟨conf', h', Keys.refl _⟩

theorem openConf {b : BusView} {sel : List String} {objs : List ConfObj} {c : DbusCfg} (h : CfgOk b sel objs c)
    {zone : String} {i : Int} {numbers' : OMap String Int} (hg : getZoneIndex zone c.numbers = .ok (i, numbers')) :
    ConfOk b sel objs zone c.sensors ((c.pids.find? i).getD {}) := by
  cases hf : c.pids.find? i with
  | none => exact confOk_empty _ _ _ _ _
  | some conf =>
    obtain ⟨z, h1, -, h3⟩ := h.loops i conf hf
    obtain ⟨g1, g2, g3⟩ := getZone_ok hg
    have := numbered_inj (g3 h.numbered) (g2 _ _ h1) g1
    subst this
    exact h3

theorem addOffsetLoops_ok {b : BusView} {sel : List String} {objs : List ConfObj} {base : ConfProps} {t zone : String}
    {sensors : OMap String SensorConfig} {all : List SensorInput} (hfit : AllFit b sensors)
    (ht : Attr base "SetPointOffset" TextValue t)
    (ht' : t ∈ ["CriticalLow", "CriticalHigh", "WarningLow", "WarningHigh"]) (hall : PidInputs b base all)
    (hs : ∀ x ∈ all, sensors.find? x.name ≠ none)
    (hmg : ∀ x ∈ all, x.convertTempToMargin = true → MarginFrom sel objs x.convertMarginZero)
    (hsrc : ∀ n info, PidLoop b base n info → PidSource b sel objs zone n info) :
    ∀ {rest : List SensorInput} {conf conf' : PIDConf}, addOffsetLoops b base t sensors conf rest = .ok conf' →
    (∀ x ∈ rest, x ∈ all) → ConfOk b sel objs zone sensors conf →
    ConfOk b sel objs zone sensors conf' ∧ Keys conf conf' ∧ ∀ x ∈ rest, conf'.find? x.name ≠ none
  | [], conf, conf', h, _, hc => by
    injection h with h
    subst h
    exact ⟨hc, Keys.refl _, by simp⟩
  | i :: rest, conf, conf', h, hr, hc => by
    obtain ⟨info, h1, h⟩ := bind_eq_ok.1 h
    obtain ⟨p1, p2, -, p4⟩ := populatePid_ok h1
    dsimp only at p2 p4
    have hi := hr i List.mem_cons_self
    obtain ⟨x, y, j, c, q1, q2, q3, q4, q5⟩ := p4 t rfl
    have hin : ∀ x ∈ info.inputs, sensors.find? x.name ≠ none := by
      intro x hx
      rw [p2] at hx
      rcases List.mem_append.1 hx with hx | hx
      · cases hf : conf.find? i.name with
        | none => rw [hf] at hx; simp [ControllerInfo.zero] at hx
        | some old =>
          rw [hf] at hx
          exact (hc.2 _ _ hf).sensors x hx
      · rw [List.mem_singleton.1 hx]
        exact hs i hi
    have hmar : ∀ x ∈ info.inputs, x.convertTempToMargin = true → MarginFrom sel objs x.convertMarginZero := by
      intro x hx
      rw [p2] at hx
      rcases List.mem_append.1 hx with hx | hx
      · cases hf : conf.find? i.name with
        | none => rw [hf] at hx; simp [ControllerInfo.zero] at hx
        | some old =>
          rw [hf] at hx
          exact (hc.2 _ _ hf).margins x hx
      · rw [List.mem_singleton.1 hx]
        exact hmg i hi
    have hmem : i ∈ info.inputs := by rw [p2]; simp
    have hl : LoopOk b sel objs zone sensors i.name info :=
      have hps := hsrc _ _ (.offset t x y all i j c ht ht' p1 q1 (p2 ▸ q2) (hfit _ _ q3) q4 q5 hall hi rfl hmem)
      ⟨.inl hps, fun e => (by rw [e] at hmem; cases hmem), hin, hmar, .inr ⟨info, hps, rfl⟩⟩
    obtain ⟨r1, r2, r3⟩ := addOffsetLoops_ok hfit ht ht' hall hs hmg hsrc h (fun x hx => hr x (List.mem_cons_of_mem _ hx))
      (hc.insert hl)
    refine ⟨r1, (Keys.insert _ _ _).trans r2, List.forall_mem_cons.2 ⟨r2 _ ?_, r3⟩⟩
    rw [OMap.find?_insert_self]
    simp

/-- the loops a PID configuration with inputs of these names stands for -/
def PidLoopName (base : ConfProps) (names : List String) (n : String) : Prop :=
  (base.find? "SetPointOffset" = none ∧ names ≠ [] ∧ ∃ name, Attr base "Name" TextValue name ∧ n = sensorNameToDbusName name) ∨
  (base.find? "SetPointOffset" ≠ none ∧ n ∈ names)

theorem offsetType_ok {base : ConfProps} {off : Option String} (h : offsetType base = .ok off) :
    (off = none ∧ base.find? "SetPointOffset" = none) ∨
      ∃ t, off = some t ∧ Attr base "SetPointOffset" TextValue t ∧
        t ∈ ["CriticalLow", "CriticalHigh", "WarningLow", "WarningHigh"] := by
  unfold offsetType at h
  cases hf : base.find? "SetPointOffset" with
  | none =>
    rw [hf] at h
    injection h with h
    exact .inl ⟨h.symm, rfl⟩
  | some v =>
    rw [hf] at h
    obtain ⟨t, h1, h⟩ := bind_eq_ok.1 h
    by_cases ht : t ∈ thresholdTypes
    · rw [if_pos ht] at h
      injection h with h
      exact .inr ⟨t, h.symm, ⟨v, hf, (getStr_iff _ _).1 h1⟩, ht⟩
    · rw [if_neg ht] at h
      cases h

/-- the loops a configuration stands for are in its zone -/
def Present (c : DbusCfg) (zone : String) (P : String → Prop) : Prop :=
  ∃ i conf, c.numbers.find? zone = some i ∧ c.pids.find? i = some conf ∧ ∀ n, P n → conf.find? n ≠ none

theorem Present.mono {c c' : DbusCfg} {zone : String} {P : String → Prop} (h : Present c zone P) (hg : Grows c c') :
    Present c' zone P := by
  obtain ⟨i, conf, h1, h2, h3⟩ := h
  obtain ⟨conf', h4, h5⟩ := hg.loops i conf h2
  exact ⟨i, conf', hg.numbers _ _ h1, h4, fun n hn => h5 n (h3 n hn)⟩

theorem addPid_ok {b : BusView} {sel : List String} {objs : List ConfObj} {c c' : DbusCfg} {base : ConfProps}
    {name cls zone : String} (hname : Attr base "Name" TextValue name) (hcls : Attr base "Class" TextValue cls)
    (hA : Active sel objs pidInterface base)
    (hm : Mentions sel objs zone) (hsrc : ∀ n info, PidLoop b base n info → PidSource b sel objs zone n info)
    (h : addPid b base (sensorNameToDbusName name) cls c zone = .ok c') (hc : CfgOk b sel objs c) :
    CfgOk b sel objs c' ∧ Grows c c' ∧ ∃ names, PidNames b base names ∧ Present c' zone (PidLoopName base names) := by
  obtain ⟨⟨i, numbers'⟩, hg, h⟩ := bind_eq_ok.1 h
  obtain ⟨⟨archived, missing, sensors'⟩, hp, h⟩ := bind_eq_ok.1 h
  dsimp only at h
  obtain ⟨hn, ⟨acc, hacc, hmiss⟩, notes⟩ := pidInputs_ok hcls hp hc.fit
  have hconf := (openConf hc hg).mono notes.keys
  obtain ⟨g1, g2, g3⟩ := getZone_ok hg
  unfold finishPid at h
  by_cases ha : archived = []
  · rw [if_pos ha] at h
    injection h with h
    subst h
    obtain ⟨r1, r2⟩ := openZone hc hm hg (notes.fit hc.fit) notes.keys hconf (Keys.refl _)
    refine ⟨r1, r2, archived, hn, i, _, g1, OMap.find?_insert_self _ _ _, ?_⟩
    rintro n (⟨-, h1, -⟩ | ⟨-, h1⟩)
    · exact absurd ha h1
    · rw [ha] at h1; cases h1
  · rw [if_neg ha] at h
    obtain ⟨off, ho, h⟩ := bind_eq_ok.1 h
    obtain ⟨margins, hmg, h⟩ := bind_eq_ok.1 h
    obtain ⟨conf', hl, h⟩ := bind_eq_ok.1 h
    injection h with h
    dsimp only at hl h
    have hmg := (confOpt_iff getDbls_iff).1 hmg
    have hin : PidInputs b base (spliceInputs archived margins missing) :=
      ⟨archived, margins, acc, hn, hmg, hacc, hmiss ▸ spliced _ _ _⟩
    have hs : ∀ x ∈ spliceInputs archived margins missing, sensors'.find? x.name ≠ none := by
      intro x hx
      rcases notes.names _ (splice_name hx) with h | h
      · cases h
      · exact h
    have key : ConfOk b sel objs zone sensors' conf' ∧ Keys ((c.pids.find? i).getD {}) conf' ∧
        ∀ n, PidLoopName base archived n → conf'.find? n ≠ none := by
      rcases offsetType_ok ho with ⟨rfl, hnone⟩ | ⟨t, rfl, ht, ht'⟩
      · obtain ⟨info, h1, hl⟩ := bind_eq_ok.1 hl
        injection hl with hl
        obtain ⟨p1, p2, p3, -⟩ := populatePid_ok h1
        dsimp only at p2
        rw [← hl]
        have hps := hsrc _ _ (.plain name hname rfl hnone p1 (p3 rfl) (p2 ▸ hin))
        refine ⟨hconf.insert ⟨.inl hps, ?_, ?_, ?_, .inr ⟨info, hps, rfl⟩⟩, Keys.insert _ _ _, ?_⟩
        · rw [p2]; exact splice_ne ha
        · rw [p2]; exact hs
        · rw [p2]; exact margin_from (.inl hA) hmg
        · rintro n (⟨-, -, name', hn', rfl⟩ | ⟨h1, -⟩)
          · rw [attr_unique text_unique hn' hname, OMap.find?_insert_self]
            simp
          · exact absurd hnone h1
      · obtain ⟨r1, r2, r3⟩ := addOffsetLoops_ok (notes.fit hc.fit) ht ht' hin hs (margin_from (.inl hA) hmg) hsrc hl (fun _ h => h) hconf
        refine ⟨r1, r2, ?_⟩
        rintro n (⟨h1, -, -⟩ | ⟨-, h1⟩)
        · obtain ⟨v, hv, -⟩ := ht
          rw [h1] at hv
          cases hv
        · rw [← C59_roundtrip archived margins missing] at h1
          obtain ⟨x, hx, rfl⟩ := List.mem_map.1 h1
          exact r3 x hx
    obtain ⟨k1, k2, k3⟩ := key
    have hii : ((c.pids.insert i ((c.pids.find? i).getD {})).insert i conf') = c.pids.insert i conf' := by
      exact OMap.insert_insert _ _ _ _
    rw [hii] at h
    subst h
    obtain ⟨r1, r2⟩ := openZone hc hm hg (notes.fit hc.fit) notes.keys k1 k2
    exact ⟨r1, r2, archived, hn, i, conf', g1, OMap.find?_insert_self _ _ _, k3⟩

/-! ## Stepwise loops -/

theorem noteStepInputs_ok {b : BusView} (f : InputFlags) : ∀ {l : List (String × String)}
    {s : List String × OMap String SensorConfig}, (∀ x ∈ l, x ∈ b.sensors) →
    (noteStepInputs f s l).1 = s.1 ++ l.map (fun x => sensorNameFromPath x.1) ∧
      Notes b s.1 s.2 (noteStepInputs f s l).1 (noteStepInputs f s l).2
  | [], s, _ => ⟨by simp [noteStepInputs], Notes.refl _ _ _⟩
  | (path, i) :: l, s, hm => by
    have n1 : Notes b s.1 s.2 (s.1 ++ [sensorNameFromPath path])
        (noteInput s.2 (sensorNameFromPath path) "temp" path f) :=
      notes_one (fun x => noteInput_found x (by decide) (hm _ List.mem_cons_self) _) (noteInput_keys _ _ _ _ _)
        (noteInput_has _ _ _ _ _)
    obtain ⟨a2, n2⟩ := noteStepInputs_ok f
      (s := (s.1 ++ [sensorNameFromPath path], noteInput s.2 (sensorNameFromPath path) "temp" path f))
      (fun x hx => hm x (List.mem_cons_of_mem _ hx))
    exact ⟨by rw [noteStepInputs, a2]; simp, n1.trans n2⟩

theorem foundNames_cons (b : BusView) (n : String) (ns : List String) :
    foundNames b (n :: ns) = (Matching b n).map (fun s => sensorNameFromPath s.1) ++ foundNames b ns := by
  simp [foundNames]

theorem stepNames_found {b : BusView} {n : String} (h : Matching b n ≠ []) (acc ns : List String) :
    stepNames b acc (n :: ns) = (Matching b n).map (fun s => sensorNameFromPath s.1) ++ stepNames b acc ns := by
  unfold stepNames
  by_cases hh : b.handleMissing = true
  · rw [if_pos hh, if_pos hh, List.flatMap_cons, if_neg h]
    simp [foundNames]
  · rw [if_neg hh, if_neg hh, List.takeWhile_cons_of_pos (by simpa using h), foundNames_cons]

theorem stepInputs_ok {b : BusView} {acc : List String} {f : InputFlags} : ∀ {ns : List String}
    {s s' : List String × OMap String SensorConfig}, stepInputs b acc f s ns = .ok s' →
    s'.1 = s.1 ++ stepNames b acc ns ∧ Notes b s.1 s.2 s'.1 s'.2
  | [], s, s', h => by
    injection h with h
    subst h
    exact ⟨by simp [stepNames, foundNames], Notes.refl _ _ _⟩
  | n :: ns, s, s', h => by
    obtain ⟨l, h1, h⟩ := bind_eq_ok.1 h
    have h1 := bfind_ok h1
    subst h1
    by_cases hm : Matching b n = []
    · rw [if_neg (not_not.2 hm)] at h
      by_cases hh : b.handleMissing = true
      · rw [if_neg (by simpa using hh)] at h
        by_cases ha : n ∈ acc
        · rw [if_pos ha] at h
          obtain ⟨a2, n2⟩ := stepInputs_ok h
          refine ⟨?_, n2⟩
          rw [a2, stepNames, stepNames, if_pos hh, if_pos hh, List.flatMap_cons, if_pos hm, if_pos ha, List.nil_append]
        · rw [if_neg ha] at h
          obtain ⟨a2, n2⟩ := stepInputs_ok h
          refine ⟨?_, .trans (notes_one (fun x => noteInput_missing x (by decide) hh _ _) (noteInput_keys _ _ _ _ _)
            (noteInput_has _ _ _ _ _)) n2⟩
          rw [a2, stepNames, stepNames, if_pos hh, if_pos hh, List.flatMap_cons, if_pos hm, if_neg ha, List.append_assoc]
      · rw [if_pos (by simpa using hh)] at h
        injection h with h
        subst h
        refine ⟨?_, Notes.refl _ _ _⟩
        rw [stepNames, if_neg hh, List.takeWhile_cons_of_neg (by simpa using hm)]
        simp [foundNames]
    · rw [if_pos hm] at h
      obtain ⟨a1, n1⟩ := noteStepInputs_ok (b := b) f (s := s) (l := Matching b n) (fun x hx => matching_mem hx)
      obtain ⟨a2, n2⟩ := stepInputs_ok h
      refine ⟨?_, n1.trans n2⟩
      rw [a2, a1, stepNames_found hm, List.append_assoc]

theorem stepAcceptable_ok {b : BusView} : ∀ {ns r : List String}, stepAcceptable b ns = .ok r → r = stepLenient b ns
  | [], r, h => by injection h with h; simp [← h, stepLenient, foundNames]
  | n :: ns, r, h => by
    obtain ⟨l, h1, h⟩ := bind_eq_ok.1 h
    have h1 := bfind_ok h1
    subst h1
    by_cases hc : Matching b n = [] ∧ (!b.handleMissing) = true
    · rw [if_pos hc] at h
      injection h with h
      have hh : ¬ b.handleMissing = true := by simpa using hc.2
      rw [← h, stepLenient, if_neg hh, List.takeWhile_cons_of_neg (by simpa using hc.1)]
      rfl
    · rw [if_neg hc] at h
      obtain ⟨r', h2, h⟩ := bind_eq_ok.1 h
      injection h with h
      rw [← h, stepAcceptable_ok h2]
      unfold stepLenient
      by_cases hh : b.handleMissing = true
      · rw [if_pos hh, if_pos hh, foundNames_cons]
      · have hm : Matching b n ≠ [] := fun e => hc ⟨e, by simpa using hh⟩
        rw [if_neg hh, if_neg hh, List.takeWhile_cons_of_pos (by simpa using hm), foundNames_cons]

theorem fillTable_ok (table : Fin maxStepwisePoints → Dbl) (l : List Dbl) : TableOf (fillTable table l) l := by
  constructor
  · intro k hk
    simp [fillTable, hk]
  · intro k hk
    simp [fillTable, hk]

theorem stepTables_ok {base : ConfProps} {s s' : StepwiseInfo} (h : stepTables base s = .ok s') :
    (∃ rs os, Attr base "Reading" NumbersValue rs ∧ Attr base "Output" NumbersValue os ∧ 1 ≤ rs.length ∧
      rs.length ≤ 20 ∧ rs.length = os.length ∧ TableOf s'.reading rs ∧ TableOf s'.output os) ∧
    s'.ts = s.ts ∧ s'.positiveHysteresis = s.positiveHysteresis ∧ s'.negativeHysteresis = s.negativeHysteresis ∧
      s'.isCeiling = s.isCeiling := by
  obtain ⟨rs, h1, h⟩ := bind_eq_ok.1 h
  have h1 := (confReq_iff getDbls_iff).1 h1
  split at h
  · cases h
  · rename_i hl
    split at h
    · cases h
    · rename_i hne
      obtain ⟨os, h2, h⟩ := bind_eq_ok.1 h
      have h2 := (confReq_iff getDbls_iff).1 h2
      split at h
      · cases h
      · rename_i he
        injection h with h
        subst h
        refine ⟨⟨rs, os, h1, h2, ?_, ?_, not_not.1 he, fillTable_ok _ _, fillTable_ok _ _⟩, rfl, rfl, rfl, rfl⟩
        · exact List.length_pos_iff.2 hne
        · simpa [maxStepwisePoints] using hl

/-- the loop a stepwise configuration stands for -/
def StepLoopName (b : BusView) (base : ConfProps) (n : String) : Prop :=
  ∃ name names acceptable, Attr base "Name" TextValue name ∧ n = sensorNameToDbusName name ∧
    Attr base "Inputs" NamesValue names ∧ AttrOr base "MissingIsAcceptable" NamesValue [] acceptable ∧
    stepNames b acceptable names ≠ []

theorem addStepwise_ok {b : BusView} {sel : List String} {objs : List ConfObj} {c c' : DbusCfg} {base : ConfProps}
    {name zone : String} (hname : Attr base "Name" TextValue name)
    (hA : Active sel objs stepwiseInterface base)
    (hm : Mentions sel objs zone) (hsrc : ∀ n info, StepLoop b base n info → LoopSource b sel objs zone n info)
    (h : addStepwise b base (sensorNameToDbusName name) c zone = .ok c') (hc : CfgOk b sel objs c) :
    CfgOk b sel objs c' ∧ Grows c c' ∧ Present c' zone (StepLoopName b base) := by
  obtain ⟨⟨i, numbers'⟩, hg, h⟩ := bind_eq_ok.1 h
  obtain ⟨names, hin, h⟩ := bind_eq_ok.1 h
  obtain ⟨acc, hacc, h⟩ := bind_eq_ok.1 h
  obtain ⟨f, -, h⟩ := bind_eq_ok.1 h
  obtain ⟨⟨inputs, sensors'⟩, hs, h⟩ := bind_eq_ok.1 h
  dsimp only at h
  have hin := (confReq_iff getStrs_iff).1 hin
  have hacc := (confOpt_iff getStrs_iff).1 hacc
  obtain ⟨a1, notes⟩ := stepInputs_ok hs
  dsimp only at a1 notes
  rw [List.nil_append] at a1
  have hconf := (openConf hc hg).mono notes.keys
  obtain ⟨g1, g2, g3⟩ := getZone_ok hg
  have hname' : ∀ n, StepLoopName b base n → n = sensorNameToDbusName name ∧ inputs ≠ [] := by
    rintro n ⟨name', names', acc', h1, rfl, h2, h3, h4⟩
    rw [attr_unique text_unique h1 hname]
    rw [attr_unique names_unique h2 hin, attrOr_unique names_unique h3 hacc] at h4
    exact ⟨rfl, a1 ▸ h4⟩
  unfold finishStepwise at h
  by_cases ha : inputs = []
  · rw [if_pos ha] at h
    injection h with h
    subst h
    obtain ⟨r1, r2⟩ := openZone hc hm hg (notes.fit hc.fit) notes.keys hconf (Keys.refl _)
    refine ⟨r1, r2, i, _, g1, OMap.find?_insert_self _ _ _, ?_⟩
    intro n hn
    exact absurd ha (hname' n hn).2
  · rw [if_neg ha] at h
    obtain ⟨missing, hmi, h⟩ := bind_eq_ok.1 h
    obtain ⟨info, hp, h⟩ := bind_eq_ok.1 h
    injection h with h
    dsimp only at h
    rw [OMap.insert_insert] at h
    obtain ⟨margins, hmg, hp⟩ := bind_eq_ok.1 hp
    obtain ⟨cls, hcl, hp⟩ := bind_eq_ok.1 hp
    obtain ⟨pos, hpos, hp⟩ := bind_eq_ok.1 hp
    obtain ⟨neg, hneg, hp⟩ := bind_eq_ok.1 hp
    obtain ⟨s, hst, hp⟩ := bind_eq_ok.1 hp
    injection hp with hp
    obtain ⟨t1, t2, t3, t4, t5⟩ := stepTables_ok hst
    have hloop : StepLoop b base (sensorNameToDbusName name) info := by
      rw [← hp]
      exact
        { name := ⟨name, hname, rfl⟩
          type := rfl
          ts := t2
          isCeiling := ⟨cls, (confReq_iff getStr_iff).1 hcl, t5⟩
          positiveHysteresis := t3 ▸ (confOpt_iff toDbl_iff).1 hpos
          negativeHysteresis := t4 ▸ (confOpt_iff toDbl_iff).1 hneg
          tables := t1
          inputs := ⟨names, margins, acc, hin, (confOpt_iff getDbls_iff).1 hmg, hacc, by
            rw [← a1, ← stepAcceptable_ok hmi]; exact spliced _ _ _⟩ }
    have hok : LoopOk b sel objs zone sensors' (sensorNameToDbusName name) info := by
      refine ⟨hsrc _ _ hloop, ?_, ?_, ?_, ?_⟩
      · rw [← hp]; exact splice_ne ha
      · intro x hx
        rw [← hp] at hx
        rcases notes.names _ (splice_name hx) with h | h
        · cases h
        · exact h
      · rw [← hp]; exact margin_from (.inr hA) ((confOpt_iff getDbls_iff).1 hmg)
      · rw [← hp]
        dsimp only
        cases ho : ((c.pids.find? i).getD {}).find? (sensorNameToDbusName name) with
        | none => exact .inl rfl
        | some old => exact (hconf.2 _ _ ho).percent
    subst h
    obtain ⟨r1, r2⟩ := openZone hc hm hg (notes.fit hc.fit) notes.keys (hconf.insert hok) (Keys.insert _ _ _)
    refine ⟨r1, r2, i, _, g1, OMap.find?_insert_self _ _ _, ?_⟩
    intro n hn
    rw [(hname' n hn).1, OMap.find?_insert_self]
    simp

/-! ## All objects -/

theorem overZones_ok {step : DbusCfg → String → Res DbusCfg} {I : DbusCfg → Prop} {Q : DbusCfg → String → Prop}
    (hmono : ∀ c c' z, Q c z → Grows c c' → Q c' z) : ∀ {zs : List String} {c c' : DbusCfg},
    (∀ z ∈ zs, ∀ c c', step c z = .ok c' → I c → I c' ∧ Grows c c' ∧ Q c' z) →
    overZones step c zs = .ok c' → I c → I c' ∧ Grows c c' ∧ ∀ z ∈ zs, Q c' z
  | [], c, c', _, h, hI => by
    injection h with h
    subst h
    exact ⟨hI, Grows.refl _, by simp⟩
  | z :: zs, c, c', hs, h, hI => by
    obtain ⟨c1, h1, h⟩ := bind_eq_ok.1 h
    obtain ⟨i1, g1, q1⟩ := hs z List.mem_cons_self _ _ h1 hI
    obtain ⟨i2, g2, q2⟩ := overZones_ok hmono (fun z hz => hs z (List.mem_cons_of_mem _ hz)) h i1
    exact ⟨i2, g1.trans g2, List.forall_mem_cons.2 ⟨hmono _ _ _ q1 g2, q2⟩⟩

/-- the loops of the PID configuration `base` are there -/
def PidPresent (b : BusView) (base : ConfProps) (c : DbusCfg) : Prop :=
  ∃ zones, Attr base "Zones" NamesValue zones ∧
    ∀ zone ∈ zones, ∃ names, PidNames b base names ∧ Present c zone (PidLoopName base names)

/-- the loop of the stepwise configuration `base` is there -/
def StepPresent (b : BusView) (base : ConfProps) (c : DbusCfg) : Prop :=
  ∃ zones, Attr base "Zones" NamesValue zones ∧ ∀ zone ∈ zones, Present c zone (StepLoopName b base)

theorem PidPresent.mono {b : BusView} {base : ConfProps} {c c' : DbusCfg} (h : PidPresent b base c) (hg : Grows c c') :
    PidPresent b base c' := by
  obtain ⟨zones, h1, h2⟩ := h
  refine ⟨zones, h1, fun zone hz => ?_⟩
  obtain ⟨names, h3, h4⟩ := h2 zone hz
  exact ⟨names, h3, h4.mono hg⟩

theorem StepPresent.mono {b : BusView} {base : ConfProps} {c c' : DbusCfg} (h : StepPresent b base c) (hg : Grows c c') :
    StepPresent b base c' := by
  obtain ⟨zones, h1, h2⟩ := h
  exact ⟨zones, h1, fun zone hz => (h2 zone hz).mono hg⟩

theorem addPidObject_ok {b : BusView} {sel : List String} {objs : List ConfObj} {c c' : DbusCfg} {base : ConfProps}
    (hA : Active sel objs pidInterface base) (h : addPidObject b c base = .ok c') (hc : CfgOk b sel objs c) :
    CfgOk b sel objs c' ∧ Grows c c' ∧ PidPresent b base c' := by
  obtain ⟨name, h1, h⟩ := bind_eq_ok.1 h
  obtain ⟨cls, h2, h⟩ := bind_eq_ok.1 h
  obtain ⟨zones, h3, h⟩ := bind_eq_ok.1 h
  have h1 := (confReq_iff getStr_iff).1 h1
  have h2 := (confReq_iff getStr_iff).1 h2
  have h3 := (confReq_iff getStrs_iff).1 h3
  obtain ⟨r1, r2, r3⟩ := overZones_ok (I := CfgOk b sel objs)
    (Q := fun c z => ∃ names, PidNames b base names ∧ Present c z (PidLoopName base names))
    (fun c c' z ⟨names, h4, h5⟩ hg => ⟨names, h4, h5.mono hg⟩)
    (fun z hz c c' hs hI => addPid_ok h1 h2 hA ⟨base, zones, .inl hA, h3, hz⟩
      (fun n info hl => ⟨base, zones, hA, h3, hz, hl⟩) hs hI) h hc
  exact ⟨r1, r2, zones, h3, r3⟩

theorem addStepwiseObject_ok {b : BusView} {sel : List String} {objs : List ConfObj} {c c' : DbusCfg} {base : ConfProps}
    (hA : Active sel objs stepwiseInterface base) (h : addStepwiseObject b c base = .ok c') (hc : CfgOk b sel objs c) :
    CfgOk b sel objs c' ∧ Grows c c' ∧ StepPresent b base c' := by
  obtain ⟨name, h1, h⟩ := bind_eq_ok.1 h
  obtain ⟨zones, h3, h⟩ := bind_eq_ok.1 h
  have h1 := (confReq_iff getStr_iff).1 h1
  have h3 := (confReq_iff getStrs_iff).1 h3
  obtain ⟨r1, r2, r3⟩ := overZones_ok (I := CfgOk b sel objs)
    (Q := fun c z => Present c z (StepLoopName b base)) (fun c c' z h5 hg => h5.mono hg)
    (fun z hz c c' hs hI => addStepwise_ok h1 hA ⟨base, zones, .inr hA, h3, hz⟩
      (fun n info hl => .inr ⟨base, zones, hA, h3, hz, hl⟩) hs hI) h hc
  exact ⟨r1, r2, zones, h3, r3⟩

theorem addZone_grows {b : BusView} {sel : List String} {objs : List ConfObj} {c c' : DbusCfg} {zone : ConfProps}
    (h : addZone c zone = .ok c') (hc : CfgOk b sel objs c) : CfgOk b sel objs c' ∧ Grows c c' := by
  obtain ⟨name, -, h⟩ := bind_eq_ok.1 h
  obtain ⟨⟨i, numbers'⟩, hg, h⟩ := bind_eq_ok.1 h
  obtain ⟨d, -, h⟩ := bind_eq_ok.1 h
  injection h with h
  subst h
  obtain ⟨g1, g2, g3⟩ := getZone_ok hg
  refine ⟨⟨hc.fit, g3 hc.numbered, hc.wf, fun i conf hf => ?_⟩, g2, fun i conf hf => ⟨conf, hf, Keys.refl _⟩⟩
  obtain ⟨z, h1, h2⟩ := hc.loops i conf hf
  exact ⟨z, g2 _ _ h1, h2⟩

theorem withInterface_ok {I : DbusCfg → Prop} {Q : ConfProps → DbusCfg → Prop} {obj : ConfObj} {interface : String}
    {f : DbusCfg → ConfProps → Res DbusCfg} {c c' : DbusCfg}
    (hf : ∀ p, obj.find? interface = some p → ∀ c c', f c p = .ok c' → I c → I c' ∧ Grows c c' ∧ Q p c')
    (h : withInterface obj interface f c = .ok c') (hI : I c) :
    I c' ∧ Grows c c' ∧ ∀ p, obj.find? interface = some p → Q p c' := by
  unfold withInterface at h
  cases hp : obj.find? interface with
  | none =>
    rw [hp] at h
    injection h with h
    subst h
    exact ⟨hI, Grows.refl _, by simp⟩
  | some p =>
    rw [hp] at h
    obtain ⟨r1, r2, r3⟩ := hf p hp _ _ h hI
    exact ⟨r1, r2, fun p' hp' => by injection hp' with e; exact e ▸ r3⟩

theorem addObjects_ok {b : BusView} {sel : List String} {objs : List ConfObj} : ∀ {os : List ConfObj} {c c' : DbusCfg},
    (∀ o ∈ os, ∀ interface p, o.find? interface = some p → Active sel objs interface p) →
    addObjects b c os = .ok c' → CfgOk b sel objs c →
    CfgOk b sel objs c' ∧ Grows c c' ∧ ∀ o ∈ os, (∀ p, o.find? pidInterface = some p → PidPresent b p c') ∧
      ∀ p, o.find? stepwiseInterface = some p → StepPresent b p c'
  | [], c, c', _, h, hc => by
    injection h with h
    subst h
    exact ⟨hc, Grows.refl _, by simp⟩
  | o :: os, c, c', hA, h, hc => by
    obtain ⟨c3, h1, h⟩ := bind_eq_ok.1 h
    obtain ⟨c1, h2, h1⟩ := bind_eq_ok.1 h1
    obtain ⟨c2, h3, h4⟩ := bind_eq_ok.1 h1
    obtain ⟨i1, g1, -⟩ := withInterface_ok (I := CfgOk b sel objs) (Q := fun _ _ => True)
      (fun p _ c c' hf hI => ⟨(addZone_grows hf hI).1, (addZone_grows hf hI).2, trivial⟩) h2 hc
    obtain ⟨i2, g2, q2⟩ := withInterface_ok (I := CfgOk b sel objs) (Q := fun p c => PidPresent b p c)
      (fun p hp c c' hf hI => addPidObject_ok (hA o List.mem_cons_self _ _ hp) hf hI) h3 i1
    obtain ⟨i3, g3, q3⟩ := withInterface_ok (I := CfgOk b sel objs) (Q := fun p c => StepPresent b p c)
      (fun p hp c c' hf hI => addStepwiseObject_ok (hA o List.mem_cons_self _ _ hp) hf hI) h4 i2
    obtain ⟨i4, g4, q4⟩ := addObjects_ok (fun o ho => hA o (List.mem_cons_of_mem _ ho)) h i3
    exact ⟨i4, ((g1.trans g2).trans g3).trans g4, List.forall_mem_cons.2
      ⟨⟨fun p hp => (q2 p hp).mono (g3.trans g4), fun p hp => (q3 p hp).mono g4⟩, q4⟩⟩

theorem presetZones_numbered : ∀ {os : List ConfObj} {m m' : OMap String Int}, presetZones m os = .ok m' →
    (∃ h, Numbered h m) → ∃ h, Numbered h m'
  | [], m, m', h, hn => by injection h with h; exact h ▸ hn
  | o :: os, m, m', h, hn => by
    obtain ⟨m1, h1, h⟩ := bind_eq_ok.1 h
    refine presetZones_numbered h ?_
    unfold presetZone at h1
    split at h1
    · injection h1 with h1
      exact h1 ▸ hn
    · obtain ⟨name, -, h1⟩ := bind_eq_ok.1 h1
      split at h1
      · obtain ⟨d, -, h1⟩ := bind_eq_ok.1 h1
        obtain ⟨⟨r, m2⟩, h2, h1⟩ := bind_eq_ok.1 h1
        injection h1 with h1
        obtain ⟨l, hl⟩ := hn
        exact ⟨_, .set name d hl (h1 ▸ h2)⟩
      · injection h1 with h1
        exact h1 ▸ hn

theorem dbusInit_ok {b : BusView} {sel : List String} {objs : List ConfObj} (hw : ∀ o ∈ objs, OMap.WF o) {r : Bool}
    {c : DbusCfg} (h : dbusInit b sel objs = .ok (r, c)) :
    CfgOk b sel objs c ∧ r = !(c.pids.isEmpty || c.zones.isEmpty) ∧
      (∀ p, Active sel objs pidInterface p → PidPresent b p c) ∧
      ∀ p, Active sel objs stepwiseInterface p → StepPresent b p c := by
  obtain ⟨os, h1, h⟩ := bind_eq_ok.1 h
  obtain ⟨numbers, h2, h⟩ := bind_eq_ok.1 h
  obtain ⟨c1, h3, h⟩ := bind_eq_ok.1 h
  injection h with h
  injection h with hr hc
  subst hc
  have hA := fun interface p => C81_profiles hw h1 interface p
  have h0 : CfgOk b sel objs { numbers := numbers } :=
    ⟨fun n s hs => by simp at hs, presetZones_numbered h2 ⟨[], .start⟩, OMap.wf_empty, fun i conf hf => by simp at hf⟩
  obtain ⟨r1, -, r3⟩ := addObjects_ok (fun o ho i p hp => (hA i p).1 ⟨o, ho, hp⟩) h3 h0
  refine ⟨r1, hr.symm, fun p hp => ?_, fun p hp => ?_⟩
  · obtain ⟨o, ho, hf⟩ := (hA _ _).2 hp
    exact (r3 o ho).1 p hf
  · obtain ⟨o, ho, hf⟩ := (hA _ _).2 hp
    exact (r3 o ho).2 p hf

/-! ## C82 -/

theorem cycle_ok {zone : ConfProps} {k : String} {d n : Nat} (h : cycleTimeFromDbus zone k d = .ok n) :
    CycleAttr zone k d n := by
  unfold cycleTimeFromDbus at h
  cases hf : zone.find? k with
  | none =>
    rw [hf] at h
    injection h with h
    exact .inr ⟨h.symm, .inl hf⟩
  | some v =>
    rw [hf] at h
    obtain ⟨x, h1, h⟩ := bind_eq_ok.1 h
    have h1 := (toDbl_iff _ _).1 h1
    by_cases hx : (1 : Dbl) ≤ x
    · rw [if_pos hx] at h
      obtain ⟨i, h2, h⟩ := bind_eq_ok.1 h
      injection h with hn
      obtain ⟨q, hq, rfl, t1, t2, t3⟩ := castOr_castInt.1 h2
      refine .inl ⟨q, hq, ⟨v, hf, h1⟩, ?_, ?_, ?_⟩
      · rw [one_eq, fin_le_fin] at hx
        exact hx
      · rw [← hn, Int.toNat_of_nonneg t2]
        exact t1
      · omega
    · rw [if_neg hx] at h
      injection h with h
      exact .inr ⟨h.symm, .inr ⟨x, ⟨v, hf, h1⟩, hx⟩⟩

theorem zoneDetails_ok {zone : ConfProps} {d : ZoneConfig} (h : zoneDetails zone ZoneConfig.zero = .ok d) :
    ZoneSettings zone d := by
  obtain ⟨x1, h1, h⟩ := bind_eq_ok.1 h
  obtain ⟨x2, h2, h⟩ := bind_eq_ok.1 h
  obtain ⟨x3, h3, h⟩ := bind_eq_ok.1 h
  obtain ⟨x4, h4, h⟩ := bind_eq_ok.1 h
  obtain ⟨x5, h5, h⟩ := bind_eq_ok.1 h
  injection h with h
  subst h
  exact ⟨(confReq_iff toDbl_iff).1 h1, (confOpt_iff getPercent_iff).1 h2, cycle_ok h3, cycle_ok h4,
    (confOpt_iff getBool_iff).1 h5⟩

/-- the details of the zones in `zs` and no others -/
structure ZonesOk (zs : List ConfProps) (c : DbusCfg) : Prop where
  numbered : ∃ h, Numbered h c.numbers
  only : ∀ i d, c.zones.find? i = some d → ∃ z ∈ zs, ∃ n, Attr z "Name" TextValue n ∧ c.numbers.find? n = some i ∧
    ZoneSettings z d
  all : ∀ z ∈ zs, ∃ n i d, Attr z "Name" TextValue n ∧ c.numbers.find? n = some i ∧ c.zones.find? i = some d ∧
    ZoneSettings z d

theorem ZonesOk.mono {zs : List ConfProps} {c c' : DbusCfg} (h : ZonesOk zs c) (hz : c'.zones = c.zones)
    (he : Extends c.numbers c'.numbers) (hn : ∃ h, Numbered h c'.numbers) : ZonesOk zs c' := by
  refine ⟨hn, fun i d hd => ?_, fun z hz' => ?_⟩
  · rw [hz] at hd
    obtain ⟨z, h1, n, h2, h3, h4⟩ := h.only i d hd
    exact ⟨z, h1, n, h2, he _ _ h3, h4⟩
  · obtain ⟨n, i, d, h1, h2, h3, h4⟩ := h.all z hz'
    exact ⟨n, i, d, h1, he _ _ h2, hz ▸ h3, h4⟩

/-- what does not touch the zones' details -/
structure KeepsZones (c c' : DbusCfg) : Prop where
  zones : c'.zones = c.zones
  numbers : Extends c.numbers c'.numbers
  numbered : (∃ h, Numbered h c.numbers) → ∃ h, Numbered h c'.numbers

theorem KeepsZones.refl (c : DbusCfg) : KeepsZones c c := ⟨rfl, fun _ _ h => h, id⟩
theorem KeepsZones.trans {c c' c'' : DbusCfg} (h : KeepsZones c c') (h' : KeepsZones c' c'') : KeepsZones c c'' :=
  ⟨h'.zones.trans h.zones, fun n k hn => h'.numbers n k (h.numbers n k hn), fun x => h'.numbered (h.numbered x)⟩

theorem addPid_keeps {b : BusView} {base : ConfProps} {name cls zone : String} {c c' : DbusCfg}
    (h : addPid b base name cls c zone = .ok c') : KeepsZones c c' := by
  obtain ⟨⟨i, numbers'⟩, hg, h⟩ := bind_eq_ok.1 h
  obtain ⟨⟨archived, missing, sensors'⟩, hp, h⟩ := bind_eq_ok.1 h
  obtain ⟨g1, g2, g3⟩ := getZone_ok hg
  dsimp only at h
  unfold finishPid at h
  split at h
  · injection h with h
    subst h
    exact ⟨rfl, g2, g3⟩
  · obtain ⟨off, -, h⟩ := bind_eq_ok.1 h
    obtain ⟨margins, -, h⟩ := bind_eq_ok.1 h
    obtain ⟨conf', -, h⟩ := bind_eq_ok.1 h
    injection h with h
    subst h
    exact ⟨rfl, g2, g3⟩

theorem addStepwise_keeps {b : BusView} {base : ConfProps} {name zone : String} {c c' : DbusCfg}
    (h : addStepwise b base name c zone = .ok c') : KeepsZones c c' := by
  obtain ⟨⟨i, numbers'⟩, hg, h⟩ := bind_eq_ok.1 h
  obtain ⟨_, -, h⟩ := bind_eq_ok.1 h
  obtain ⟨_, -, h⟩ := bind_eq_ok.1 h
  obtain ⟨_, -, h⟩ := bind_eq_ok.1 h
  obtain ⟨⟨inputs, sensors'⟩, hp, h⟩ := bind_eq_ok.1 h
  obtain ⟨g1, g2, g3⟩ := getZone_ok hg
  dsimp only at h
  unfold finishStepwise at h
  split at h
  · injection h with h
    subst h
    exact ⟨rfl, g2, g3⟩
  · obtain ⟨_, -, h⟩ := bind_eq_ok.1 h
    obtain ⟨_, -, h⟩ := bind_eq_ok.1 h
    injection h with h
    subst h
    exact ⟨rfl, g2, g3⟩

theorem overZones_keeps {step : DbusCfg → String → Res DbusCfg} (hs : ∀ c c' z, step c z = .ok c' → KeepsZones c c') :
    ∀ {zs : List String} {c c' : DbusCfg}, overZones step c zs = .ok c' → KeepsZones c c'
  | [], c, c', h => by injection h with h; exact h ▸ KeepsZones.refl _
  | z :: zs, c, c', h => by
    obtain ⟨c1, h1, h⟩ := bind_eq_ok.1 h
    exact (hs _ _ _ h1).trans (overZones_keeps hs h)

theorem addPidObject_keeps {b : BusView} {base : ConfProps} {c c' : DbusCfg} (h : addPidObject b c base = .ok c') :
    KeepsZones c c' := by
  obtain ⟨_, -, h⟩ := bind_eq_ok.1 h
  obtain ⟨_, -, h⟩ := bind_eq_ok.1 h
  obtain ⟨_, -, h⟩ := bind_eq_ok.1 h
  exact overZones_keeps (fun _ _ _ h => addPid_keeps h) h

theorem addStepwiseObject_keeps {b : BusView} {base : ConfProps} {c c' : DbusCfg}
    (h : addStepwiseObject b c base = .ok c') : KeepsZones c c' := by
  obtain ⟨_, -, h⟩ := bind_eq_ok.1 h
  obtain ⟨_, -, h⟩ := bind_eq_ok.1 h
  exact overZones_keeps (fun _ _ _ h => addStepwise_keeps h) h

theorem withInterface_keeps {obj : ConfObj} {interface : String} {f : DbusCfg → ConfProps → Res DbusCfg} {c c' : DbusCfg}
    (hf : ∀ c c' p, f c p = .ok c' → KeepsZones c c') (h : withInterface obj interface f c = .ok c') : KeepsZones c c' := by
  unfold withInterface at h
  split at h
  · injection h with h; exact h ▸ KeepsZones.refl _
  · exact hf _ _ _ h

theorem addZone_ok {zs : List ConfProps} {c c' : DbusCfg} {zone : ConfProps} (h : addZone c zone = .ok c')
    (hc : ZonesOk zs c) (hd : ∀ z ∈ zs, ∀ n, Attr z "Name" TextValue n → ¬ Attr zone "Name" TextValue n) :
    ZonesOk (zs ++ [zone]) c' ∧ Extends c.numbers c'.numbers := by
  obtain ⟨name, hn, h⟩ := bind_eq_ok.1 h
  obtain ⟨⟨i, numbers'⟩, hg, h⟩ := bind_eq_ok.1 h
  obtain ⟨d, hdet, h⟩ := bind_eq_ok.1 h
  injection h with h
  subst h
  have hn := (confReq_iff getStr_iff).1 hn
  obtain ⟨g1, g2, g3⟩ := getZone_ok hg
  have hnone : c.zones.find? i = none := by
    cases hf : c.zones.find? i with
    | none => rfl
    | some d0 =>
      obtain ⟨z, h1, n, h2, h3, -⟩ := hc.only i d0 hf
      have := numbered_inj (g3 hc.numbered) (g2 _ _ h3) g1
      subst this
      exact absurd hn (hd z h1 _ h2)
  rw [hnone] at hdet
  have hset := zoneDetails_ok hdet
  refine ⟨⟨g3 hc.numbered, fun j e hj => ?_, fun z hz => ?_⟩, g2⟩
  · dsimp only at hj ⊢
    by_cases he : j = i
    · subst he
      rw [OMap.find?_insert_self] at hj
      injection hj with hj
      exact ⟨zone, by simp, name, hn, g1, hj ▸ hset⟩
    · rw [OMap.find?_insert_ne c.zones he] at hj
      obtain ⟨z, h1, n, h2, h3, h4⟩ := hc.only j e hj
      exact ⟨z, by simp [h1], n, h2, g2 _ _ h3, h4⟩
  · dsimp only
    rcases List.mem_append.1 hz with hz | hz
    · obtain ⟨n, j, e, h1, h2, h3, h4⟩ := hc.all z hz
      refine ⟨n, j, e, h1, g2 _ _ h2, ?_, h4⟩
      rw [OMap.find?_insert_ne c.zones (by rintro rfl; rw [hnone] at h3; cases h3)]
      exact h3
    · rw [List.mem_singleton.1 hz]
      exact ⟨name, i, d, hn, g1, OMap.find?_insert_self _ _ _, hset⟩

/-- the zone configurations of objects -/
def zoneConfs (os : List ConfObj) : List ConfProps := os.filterMap (fun o => o.find? zoneInterface)

theorem addObjects_zones {b : BusView} : ∀ {os : List ConfObj} {c c' : DbusCfg} {zs : List ConfProps},
    addObjects b c os = .ok c' → ZonesOk zs c →
    (zs ++ zoneConfs os).Pairwise (fun z z' => ∀ n, Attr z "Name" TextValue n → ¬ Attr z' "Name" TextValue n) →
    ZonesOk (zs ++ zoneConfs os) c' ∧ Extends c.numbers c'.numbers
  | [], c, c', zs, h, hc, _ => by
    injection h with h
    subst h
    simpa [zoneConfs] using ⟨hc, fun _ _ h => h⟩
  | o :: os, c, c', zs, h, hc, hd => by
    obtain ⟨c3, h1, h⟩ := bind_eq_ok.1 h
    obtain ⟨c1, h2, h1⟩ := bind_eq_ok.1 h1
    obtain ⟨c2, h3, h4⟩ := bind_eq_ok.1 h1
    have k2 := withInterface_keeps (fun _ _ _ h => addPidObject_keeps h) h3
    have k3 := withInterface_keeps (fun _ _ _ h => addStepwiseObject_keeps h) h4
    have k := k2.trans k3
    unfold withInterface at h2
    cases hp : o.find? zoneInterface with
    | none =>
      rw [hp] at h2
      injection h2 with h2
      subst h2
      have hz : zoneConfs (o :: os) = zoneConfs os := by simp [zoneConfs, hp]
      rw [hz] at hd ⊢
      obtain ⟨r1, r2⟩ := addObjects_zones h (hc.mono k.zones k.numbers (k.numbered hc.numbered)) hd
      exact ⟨r1, fun n i hn => r2 _ _ (k.numbers _ _ hn)⟩
    | some z =>
      rw [hp] at h2
      have hz : zoneConfs (o :: os) = z :: zoneConfs os := by simp [zoneConfs, hp]
      rw [hz] at hd ⊢
      have hd' := List.pairwise_append.1 hd
      obtain ⟨a1, a2⟩ := addZone_ok h2 hc (fun z' hz' n => hd'.2.2 z' hz' z List.mem_cons_self n)
      rw [show zs ++ z :: zoneConfs os = (zs ++ [z]) ++ zoneConfs os by simp] at hd ⊢
      obtain ⟨r1, r2⟩ := addObjects_zones h (a1.mono k.zones k.numbers (k.numbered a1.numbered)) hd
      exact ⟨r1, fun n i hn => r2 _ _ (k.numbers _ _ (a2 _ _ hn))⟩

theorem distinct_applied {sel : List String} {objs os : List ConfObj} (hw : ∀ o ∈ objs, OMap.WF o)
    (hd : DistinctZones sel objs) (h : applyProfiles sel objs = .ok os) :
    (zoneConfs os).Pairwise (fun z z' => ∀ n, Attr z "Name" TextValue n → ¬ Attr z' "Name" TextValue n) := by
  unfold zoneConfs
  refine List.pairwise_filterMap.2 ?_
  unfold applyProfiles at h
  by_cases hs : sel = []
  · rw [if_pos (by simpa using hs)] at h
    injection h with h
    subst h
    refine hd.imp (fun {o o'} hoo z hz z' hz' n h1 h2 => hoo z z' n hz (.inl hs) hz' (.inl hs) h1 h2)
  · rw [if_neg (by simpa using hs)] at h
    rw [filterObjects_ok hs h]
    refine List.Pairwise.filter _ (List.pairwise_map.2 ?_)
    refine List.pairwise_iff_forall_sublist.2 ?_
    intro o o' hsub z hz z' hz' n h1 h2
    have ho := hsub.subset (List.mem_cons_self)
    have ho' := hsub.subset (List.mem_cons_of_mem _ List.mem_cons_self)
    obtain ⟨z1, z2⟩ := (kept_find? (hw o ho) _ _).1 hz
    obtain ⟨z3, z4⟩ := (kept_find? (hw o' ho') _ _).1 hz'
    exact List.pairwise_iff_forall_sublist.1 hd hsub z z' n z1 z2 z3 z4 h1 h2

theorem dbusInit_zones {b : BusView} {sel : List String} {objs : List ConfObj} (hw : ∀ o ∈ objs, OMap.WF o)
    (hd : DistinctZones sel objs) {r : Bool} {c : DbusCfg} (h : dbusInit b sel objs = .ok (r, c)) :
    ∃ os numbers, applyProfiles sel objs = .ok os ∧ presetZones {} os = .ok numbers ∧ Extends numbers c.numbers ∧
      ZonesOk (zoneConfs os) c := by
  obtain ⟨os, h1, h⟩ := bind_eq_ok.1 h
  obtain ⟨numbers, h2, h⟩ := bind_eq_ok.1 h
  obtain ⟨c1, h3, h⟩ := bind_eq_ok.1 h
  injection h with h
  injection h with hr hc
  subst hc
  have h0 : ZonesOk [] { numbers := numbers } :=
    ⟨presetZones_numbered h2 ⟨[], .start⟩, fun i d hd => by simp at hd, by simp⟩
  obtain ⟨r1, r2⟩ := addObjects_zones h3 h0 (by simpa using distinct_applied hw hd h1)
  exact ⟨os, numbers, h1, h2, r2, by simpa using r1⟩

theorem zoneConfs_iff {sel : List String} {objs os : List ConfObj} (hw : ∀ o ∈ objs, OMap.WF o)
    (h : applyProfiles sel objs = .ok os) (z : ConfProps) : z ∈ zoneConfs os ↔ Active sel objs zoneInterface z := by
  rw [← C81_profiles hw h]
  simp [zoneConfs]

/-- **C82.** Zones that have different names have different numbers. -/
theorem C82_distinct {b : BusView} {sel : List String} {objs : List ConfObj} (hw : ∀ o ∈ objs, OMap.WF o) {r : Bool}
    {c : DbusCfg} (h : dbusInit b sel objs = .ok (r, c)) {n n' : String} {i : Int} (h1 : c.numbers.find? n = some i)
    (h2 : c.numbers.find? n' = some i) : n = n' := numbered_inj (dbusInit_ok hw h).1.numbered h1 h2

/-- **C82.** The settings of the zones are those of the zone configurations that apply: each of them has a number under which
its settings are, and there are no others. -/
theorem C82_settings {b : BusView} {sel : List String} {objs : List ConfObj} (hw : ∀ o ∈ objs, OMap.WF o)
    (hd : DistinctZones sel objs) {r : Bool} {c : DbusCfg} (h : dbusInit b sel objs = .ok (r, c)) :
    (∀ i d, c.zones.find? i = some d → ∃ z n, Active sel objs zoneInterface z ∧ Attr z "Name" TextValue n ∧
      c.numbers.find? n = some i ∧ ZoneSettings z d) ∧
    ∀ z, Active sel objs zoneInterface z → ∃ n i d, Attr z "Name" TextValue n ∧ c.numbers.find? n = some i ∧
      c.zones.find? i = some d ∧ ZoneSettings z d := by
  obtain ⟨os, numbers, h1, -, -, hz⟩ := dbusInit_zones hw hd h
  refine ⟨fun i d hi => ?_, fun z hA => hz.all z ((zoneConfs_iff hw h1 z).2 hA)⟩
  obtain ⟨z, m, n, h2⟩ := hz.only i d hi
  exact ⟨z, n, (zoneConfs_iff hw h1 z).1 m, h2⟩

theorem freeIndex_unused {used : List Int} {i : Int} (h : i ∉ used) : freeIndex used i = .ok i := by
  rw [freeIndex, dif_neg h]

/-- requests found in the list of configurations -/
def Requests (zs : List ConfProps) (n : String) (k : Int) : Prop :=
  ∃ zone ∈ zs, ∃ q h, Attr zone "Name" TextValue n ∧ zone.find? "ZoneIndex" = some (.dbl (.fin q h)) ∧ Truncates q k

theorem presetZones_granted : ∀ {os : List ConfObj} {all : List ConfProps} {m m' : OMap String Int},
    presetZones m os = .ok m' → (∀ z ∈ zoneConfs os, z ∈ all) →
    (∀ n k n' k', Requests all n k → Requests all n' k' → (n = n' ↔ k = k')) → m.WF →
    (∀ n k, m.find? n = some k → Requests all n k) →
    Extends m m' ∧ ∀ n k, Requests (zoneConfs os) n k → m'.find? n = some k
  | [], all, m, m', h, _, _, _, _ => by
    injection h with h
    subst h
    exact ⟨fun _ _ h => h, fun n k ⟨z, hz, _⟩ => by simp [zoneConfs] at hz⟩
  | o :: os, all, m, m', h0, hs, hu, hw, hm => by
    obtain ⟨m1, h1, h⟩ := bind_eq_ok.1 h0
    have hall : ∀ z ∈ zoneConfs os, z ∈ all := by
      intro z hz
      apply hs
      simp only [zoneConfs, List.mem_filterMap] at hz ⊢
      obtain ⟨o', h2, h3⟩ := hz
      exact ⟨o', List.mem_cons_of_mem _ h2, h3⟩
    unfold presetZone at h1
    cases hf : o.find? zoneInterface with
    | none =>
      rw [hf] at h1
      injection h1 with h1
      subst h1
      have hz : zoneConfs (o :: os) = zoneConfs os := by simp [zoneConfs, hf]
      rw [hz]
      exact presetZones_granted h hall hu hw hm
    | some z =>
      rw [hf] at h1
      have hz : zoneConfs (o :: os) = z :: zoneConfs os := by simp [zoneConfs, hf]
      rw [hz] at hs ⊢
      obtain ⟨name, hn, h1⟩ := bind_eq_ok.1 h1
      have hn := (confReq_iff getStr_iff).1 hn
      -- a configuration without a number changes nothing
      have other : m1 = m → (∀ q h, z.find? "ZoneIndex" ≠ some (.dbl (.fin q h))) →
          Extends m m' ∧ ∀ n k, Requests (z :: zoneConfs os) n k → m'.find? n = some k := by
        rintro rfl hno
        obtain ⟨r1, r2⟩ := presetZones_granted h hall hu hw hm
        refine ⟨r1, ?_⟩
        rintro n k ⟨z', hz', q, hq, a1, a2, a3⟩
        rcases List.mem_cons.1 hz' with rfl | hz'
        · exact absurd a2 (hno q hq)
        · exact r2 n k ⟨z', hz', q, hq, a1, a2, a3⟩
      split at h1
      · rename_i d hzi
        obtain ⟨k, hk, h1⟩ := bind_eq_ok.1 h1
        obtain ⟨⟨r, m2⟩, h2, h1⟩ := bind_eq_ok.1 h1
        injection h1 with h1
        subst h1
        obtain ⟨q, hq, rfl, t1, -, -⟩ := castOr_castInt.1 hk
        have hreq : Requests all name k := ⟨z, hs z List.mem_cons_self, q, hq, hn, hzi, t1⟩
        have key : m2.find? name = some k ∧ Extends m m2 ∧ m2.WF ∧ ∀ n k, m2.find? n = some k → Requests all n k := by
          rcases setZone_cases h2 with ⟨h3, rfl⟩ | ⟨h3, h4, rfl⟩
          · have := (hu _ _ _ _ hreq (hm _ _ h3)).1 rfl
            exact ⟨this ▸ h3, fun _ _ h => h, hw, hm⟩
          · have hfree : k ∉ m.entries.map Prod.snd := by
              intro hmem
              obtain ⟨⟨n', k'⟩, he, rfl⟩ := List.mem_map.1 hmem
              have he := (OMap.mem_entries_iff hw _ _).1 he
              have := (hu _ _ _ _ hreq (hm _ _ he)).2 rfl
              subst this
              rw [h3] at he
              cases he
            rw [freeIndex_unused hfree] at h4
            injection h4 with h4
            subst h4
            refine ⟨OMap.find?_insert_self _ _ _, ?_, OMap.wf_insert hw _ _, ?_⟩
            · intro n j hj
              rw [OMap.find?_insert_ne m (by rintro rfl; rw [h3] at hj; cases hj)]
              exact hj
            · intro n j hj
              by_cases e : n = name
              · subst e
                rw [OMap.find?_insert_self] at hj
                injection hj with hj
                exact hj ▸ hreq
              · rw [OMap.find?_insert_ne m e] at hj
                exact hm n j hj
        obtain ⟨k1, k2, k3, k4⟩ := key
        obtain ⟨r1, r2⟩ := presetZones_granted h hall hu k3 k4
        refine ⟨fun n j hj => r1 _ _ (k2 _ _ hj), ?_⟩
        rintro n j ⟨z', hz', q', hq', a1, a2, a3⟩
        rcases List.mem_cons.1 hz' with rfl | hz'
        · have e := (hu n j name k ⟨z', hs _ List.mem_cons_self, q', hq', a1, a2, a3⟩ hreq).1 (attr_unique text_unique a1 hn)
          rw [attr_unique text_unique a1 hn, e]
          exact r1 _ _ k1
        · exact r2 n j ⟨z', hz', q', hq', a1, a2, a3⟩
      · rename_i hno
        injection h1 with h1
        exact other h1.symm (fun q hq e => hno _ e)

theorem addObject_numbers {b : BusView} {c c' : DbusCfg} {o : ConfObj} (h : addObject b c o = .ok c') :
    Extends c.numbers c'.numbers := by
  obtain ⟨c1, h2, h1⟩ := bind_eq_ok.1 h
  obtain ⟨c2, h3, h4⟩ := bind_eq_ok.1 h1
  have k2 := withInterface_keeps (fun _ _ _ h => addPidObject_keeps h) h3
  have k3 := withInterface_keeps (fun _ _ _ h => addStepwiseObject_keeps h) h4
  have k1 : Extends c.numbers c1.numbers := by
    unfold withInterface at h2
    split at h2
    · injection h2 with h2
      exact h2 ▸ fun _ _ h => h
    · obtain ⟨name, -, h2⟩ := bind_eq_ok.1 h2
      obtain ⟨⟨i, numbers'⟩, hg, h2⟩ := bind_eq_ok.1 h2
      obtain ⟨d, -, h2⟩ := bind_eq_ok.1 h2
      injection h2 with h2
      subst h2
      exact (getZone_ok hg).2.1
  exact fun n k hn => (k2.trans k3).numbers _ _ (k1 _ _ hn)

theorem addObjects_numbers {b : BusView} : ∀ {os : List ConfObj} {c c' : DbusCfg}, addObjects b c os = .ok c' →
    Extends c.numbers c'.numbers
  | [], c, c', h => by injection h with h; exact h ▸ fun _ _ h => h
  | o :: os, c, c', h => by
    obtain ⟨c1, h1, h⟩ := bind_eq_ok.1 h
    exact fun n k hn => addObjects_numbers h _ _ (addObject_numbers h1 _ _ hn)

/-- **C82.** If the configured zone numbers do not conflict, every zone gets the one configured for it. -/
theorem C82_index {b : BusView} {sel : List String} {objs : List ConfObj} (hw : ∀ o ∈ objs, OMap.WF o) {r : Bool}
    {c : DbusCfg} (h : dbusInit b sel objs = .ok (r, c))
    (hu : ∀ n k n' k', WantsIndex sel objs n k → WantsIndex sel objs n' k' → (n = n' ↔ k = k')) {n : String} {k : Int}
    (hn : WantsIndex sel objs n k) : c.numbers.find? n = some k := by
  obtain ⟨os, h1, h⟩ := bind_eq_ok.1 h
  obtain ⟨numbers, h2, h⟩ := bind_eq_ok.1 h
  obtain ⟨c1, h3, h⟩ := bind_eq_ok.1 h
  injection h with h
  injection h with hr hc
  subst hc
  have hR : ∀ n k, Requests (zoneConfs os) n k ↔ WantsIndex sel objs n k := by
    intro n k
    constructor
    · rintro ⟨z, hz, q, hq, a⟩
      exact ⟨z, q, hq, (zoneConfs_iff hw h1 z).1 hz, a⟩
    · rintro ⟨z, q, hq, hz, a⟩
      exact ⟨z, (zoneConfs_iff hw h1 z).2 hz, q, hq, a⟩
  refine addObjects_numbers h3 _ _ ((presetZones_granted h2 (fun _ h => h) ?_ OMap.wf_empty (by simp)).2 n k ((hR n k).2 hn))
  intro n k n' k' a b
  exact hu n k n' k' ((hR _ _).1 a) ((hR _ _).1 b)

/-! ## C83, C84 -/

/-- **C83.** Every loop of a zone comes from a configuration that applies and names the zone. -/
theorem C83_loops {b : BusView} {sel : List String} {objs : List ConfObj} (hw : ∀ o ∈ objs, OMap.WF o) {r : Bool}
    {c : DbusCfg} (h : dbusInit b sel objs = .ok (r, c)) {i : Int} {conf : PIDConf} (hp : c.pids.find? i = some conf) :
    ∃ zone, c.numbers.find? zone = some i ∧ ∀ n info, conf.find? n = some info → LoopSource b sel objs zone n info := by
  obtain ⟨z, h1, -, h3⟩ := (dbusInit_ok hw h).1.loops i conf hp
  exact ⟨z, h1, fun n info hf => (h3.2 n info hf).source⟩

/-- **C83.** Every PID configuration that applies gives its loops in every zone it names: one under its own name, or one for
each input if the set point follows a threshold. Without inputs there are none. -/
theorem C83_present {b : BusView} {sel : List String} {objs : List ConfObj} (hw : ∀ o ∈ objs, OMap.WF o) {r : Bool}
    {c : DbusCfg} (h : dbusInit b sel objs = .ok (r, c)) {base : ConfProps} {zones : List String} {zone : String}
    (hA : Active sel objs pidInterface base) (hz : Attr base "Zones" NamesValue zones) (hm : zone ∈ zones) :
    ∃ names i conf, PidNames b base names ∧ c.numbers.find? zone = some i ∧ c.pids.find? i = some conf ∧
      (base.find? "SetPointOffset" = none → names ≠ [] → ∀ name, Attr base "Name" TextValue name →
        ∃ info, conf.find? (sensorNameToDbusName name) = some info) ∧
      (base.find? "SetPointOffset" ≠ none → ∀ n ∈ names, ∃ info, conf.find? n = some info) := by
  obtain ⟨zones', hz', hp⟩ := (dbusInit_ok hw h).2.2.1 base hA
  rw [attr_unique names_unique hz' hz] at hp
  obtain ⟨names, hn, i, conf, h1, h2, h3⟩ := hp zone hm
  refine ⟨names, i, conf, hn, h1, h2, fun ho hne name hname => ?_, fun ho n hmem => ?_⟩
  · exact Option.ne_none_iff_exists'.1 (h3 _ (.inl ⟨ho, hne, name, hname, rfl⟩))
  · exact Option.ne_none_iff_exists'.1 (h3 _ (.inr ⟨ho, hmem⟩))

/-- **C83.** If no other configuration in its zone can have given the loop found under a name, the loop is that of the PID
configuration. -/
theorem C83_loop {b : BusView} {sel : List String} {objs : List ConfObj} (hw : ∀ o ∈ objs, OMap.WF o) {r : Bool}
    {c : DbusCfg} (h : dbusInit b sel objs = .ok (r, c)) {base : ConfProps} {i : Int} {conf : PIDConf} {zone n : String}
    {info : ControllerInfo} (hi : c.numbers.find? zone = some i) (hp : c.pids.find? i = some conf)
    (hf : conf.find? n = some info)
    (hstep : ∀ base' zones, Active sel objs stepwiseInterface base' → Attr base' "Zones" NamesValue zones → zone ∈ zones →
      ¬ ∃ name, Attr base' "Name" TextValue name ∧ n = sensorNameToDbusName name)
    (hpid : ∀ base' zones, Active sel objs pidInterface base' → Attr base' "Zones" NamesValue zones → zone ∈ zones →
      (∃ name, Attr base' "Name" TextValue name ∧ n = sensorNameToDbusName name) ∨
        base'.find? "SetPointOffset" ≠ none → base' = base) :
    PidLoop b base n info := by
  obtain ⟨z, h1, h2⟩ := C83_loops hw h hp
  have := C82_distinct hw h h1 hi
  subst this
  rcases h2 n info hf with ⟨base', zones, a, hz, hm, hl⟩ | ⟨base', zones, a, hz, hm, hl⟩
  · have : base' = base := by
      refine hpid base' zones a hz hm ?_
      cases hl with
      | plain name h1 h2 => exact .inl ⟨name, h1, h2⟩
      | offset t _ _ _ _ _ _ h1 =>
        obtain ⟨v, hv, -⟩ := h1
        exact .inr (by rw [hv]; simp)
    exact this ▸ hl
  · exact absurd hl.name (hstep base' zones a hz hm)

/-- **C84.** Every stepwise configuration that applies and has inputs gives its loop in every zone it names. -/
theorem C84_present {b : BusView} {sel : List String} {objs : List ConfObj} (hw : ∀ o ∈ objs, OMap.WF o) {r : Bool}
    {c : DbusCfg} (h : dbusInit b sel objs = .ok (r, c)) {base : ConfProps} {zones names acceptable : List String}
    {zone name : String} (hA : Active sel objs stepwiseInterface base) (hz : Attr base "Zones" NamesValue zones)
    (hm : zone ∈ zones) (hname : Attr base "Name" TextValue name) (hi : Attr base "Inputs" NamesValue names)
    (ha : AttrOr base "MissingIsAcceptable" NamesValue [] acceptable) (hne : stepNames b acceptable names ≠ []) :
    ∃ i conf info, c.numbers.find? zone = some i ∧ c.pids.find? i = some conf ∧
      conf.find? (sensorNameToDbusName name) = some info := by
  obtain ⟨zones', hz', hp⟩ := (dbusInit_ok hw h).2.2.2 base hA
  rw [attr_unique names_unique hz' hz] at hp
  obtain ⟨i, conf, h1, h2, h3⟩ := hp zone hm
  obtain ⟨info, hinfo⟩ := Option.ne_none_iff_exists'.1 (h3 _ ⟨name, names, acceptable, hname, rfl, hi, ha, hne⟩)
  exact ⟨i, conf, info, h1, h2, hinfo⟩

/-- **C84.** If no other configuration in its zone uses the name, the loop found there is that of the stepwise
configuration. -/
theorem C84_loop {b : BusView} {sel : List String} {objs : List ConfObj} (hw : ∀ o ∈ objs, OMap.WF o) {r : Bool}
    {c : DbusCfg} (h : dbusInit b sel objs = .ok (r, c)) {base : ConfProps} {i : Int} {conf : PIDConf} {zone n : String}
    {info : ControllerInfo} (hi : c.numbers.find? zone = some i) (hp : c.pids.find? i = some conf)
    (hf : conf.find? n = some info)
    (hpid : ∀ base' zones, Active sel objs pidInterface base' → Attr base' "Zones" NamesValue zones → zone ∈ zones →
      ¬ PidLoop b base' n info)
    (hstep : ∀ base' zones, Active sel objs stepwiseInterface base' → Attr base' "Zones" NamesValue zones → zone ∈ zones →
      (∃ name, Attr base' "Name" TextValue name ∧ n = sensorNameToDbusName name) → base' = base) :
    StepLoop b base n info := by
  obtain ⟨z, h1, h2⟩ := C83_loops hw h hp
  have := C82_distinct hw h h1 hi
  subst this
  rcases h2 n info hf with ⟨base', zones, a, hz, hm, hl⟩ | ⟨base', zones, a, hz, hm, hl⟩
  · exact absurd hl (hpid base' zones a hz hm)
  · exact hstep base' zones a hz hm hl.name ▸ hl

/-! ## C85, C86 -/

/-- **C85.** Every input of every loop has settings. -/
theorem C85_inputs {b : BusView} {sel : List String} {objs : List ConfObj} (hw : ∀ o ∈ objs, OMap.WF o) {r : Bool}
    {c : DbusCfg} (h : dbusInit b sel objs = .ok (r, c)) {i : Int} {conf : PIDConf} {n : String} {info : ControllerInfo}
    (hp : c.pids.find? i = some conf) (hf : conf.find? n = some info) {x : SensorInput} (hx : x ∈ info.inputs) :
    ∃ s, c.sensors.find? x.name = some s := by
  obtain ⟨z, -, -, h3⟩ := (dbusInit_ok hw h).1.loops i conf hp
  exact Option.ne_none_iff_exists'.1 ((h3.2 n info hf).sensors x hx)

/-- **C85.** The settings of every sensor fit: it is read from a sensor of its name that is on the bus or is awaited, or it
is a fan, read from a fan and written to a control that are both on the bus. -/
theorem C85_fits {b : BusView} {sel : List String} {objs : List ConfObj} (hw : ∀ o ∈ objs, OMap.WF o) {r : Bool}
    {c : DbusCfg} (h : dbusInit b sel objs = .ok (r, c)) {n : String} {s : SensorConfig} (hs : c.sensors.find? n = some s) :
    SensorFits b n s := (dbusInit_ok hw h).1.fit n s hs

omit F in
/-- Loops are named, and sensors are searched, by their configured names with underscores for spaces. -/
theorem C83_search_name (n t : String) : Underscored n t ↔ t = sensorNameToDbusName n := by
  have key : ∀ l t : List Char, List.Forall₂ (fun a b => (a = ' ' ∧ b = '_') ∨ (a ≠ ' ' ∧ b = a)) l t ↔
      t = l.map (fun c => if c = ' ' then '_' else c) := by
    intro l
    induction l with
    | nil => intro t; simp
    | cons a l ih =>
      intro t
      cases t with
      | nil => simp
      | cons b t =>
        rw [List.forall₂_cons, ih, List.map_cons, List.cons.injEq]
        by_cases h : a = ' ' <;> simp [h]
  unfold Underscored sensorNameToDbusName
  rw [key, ← String.toList_inj, String.toList_ofList]

omit F in
/-- Sensors are named by the last part of their path. -/
theorem C85_sensor_name (path n : String) : LastPart path n ↔ n = sensorNameFromPath path := by
  have key : ∀ l n : List Char, ('/' ∉ n ∧ (l = n ∨ ∃ d, l = n ++ '/' :: d)) ↔ n = l.takeWhile (· ≠ '/') := by
    intro l
    induction l with
    | nil => intro n; simp; rintro rfl; simp
    | cons a l ih =>
      intro n
      by_cases h : a = '/'
      · subst h
        simp only [ne_eq, not_true_eq_false, decide_false, Bool.false_eq_true, not_false_eq_true, List.takeWhile_cons_of_neg]
        constructor
        · rintro ⟨h1, h2 | ⟨d, h2⟩⟩
          · subst h2; simp at h1
          · cases n with
            | nil => rfl
            | cons b n => simp only [List.cons_append, List.cons.injEq] at h2; rw [← h2.1] at h1; simp at h1
        · rintro rfl
          exact ⟨by simp, .inr ⟨l, rfl⟩⟩
      · rw [List.takeWhile_cons_of_pos (by simpa using h)]
        constructor
        · rintro ⟨h1, h2⟩
          cases n with
          | nil => rcases h2 with h2 | ⟨d, h2⟩ <;> simp at h2; exact absurd h2.1 h
          | cons b n =>
            have e : a = b := by rcases h2 with h2 | ⟨d, h2⟩ <;> simp at h2 <;> exact h2.1
            subst e
            rw [← (ih n).1 ⟨fun hm => h1 (List.mem_cons_of_mem _ hm), by
              rcases h2 with h2 | ⟨d, h2⟩ <;> simp at h2
              · exact .inl h2
              · exact .inr ⟨d, h2⟩⟩]
        · rintro rfl
          obtain ⟨h1, h2⟩ := (ih _).2 rfl
          refine ⟨by simp only [List.mem_cons, not_or]; exact ⟨fun e => h e.symm, h1⟩, ?_⟩
          rcases h2 with h2 | ⟨d, h2⟩
          · exact .inl (by rw [← h2])
          · exact .inr ⟨d, by rw [List.cons_append, ← h2]⟩
  unfold LastPart sensorNameFromPath
  have := key path.toList.reverse n.toList.reverse
  rw [List.mem_reverse] at this
  constructor
  · rintro ⟨h1, h2⟩
    rw [← String.toList_inj, String.toList_ofList, ← this.1 ⟨h1, ?_⟩, List.reverse_reverse]
    rcases h2 with h2 | ⟨d, h2⟩
    · exact .inl (by rw [h2])
    · exact .inr ⟨d.toList.reverse, by rw [h2]; simp⟩
  · intro h
    have h' : n.toList.reverse = path.toList.reverse.takeWhile (· ≠ '/') := by
      rw [h, String.toList_ofList, List.reverse_reverse]
    obtain ⟨h1, h2⟩ := this.2 h'
    refine ⟨h1, ?_⟩
    rcases h2 with h2 | ⟨d, h2⟩
    · exact .inl (String.toList_inj.1 (List.reverse_inj.1 h2))
    · refine .inr ⟨String.ofList d.reverse, String.toList_inj.1 (List.reverse_inj.1 ?_)⟩
      rw [h2]
      simp

/-- **C86.** No loop is without inputs, so a configuration read from the bus can be built into zones exactly when every zone
named by a loop configuration is configured. -/
theorem C86_builds {b : BusView} {sel : List String} {objs : List ConfObj} (hw : ∀ o ∈ objs, OMap.WF o)
    (hd : DistinctZones sel objs) {r : Bool} {c : DbusCfg} (h : dbusInit b sel objs = .ok (r, c)) :
    (∃ zones, buildZones c.pids c.zones = .ok zones) ↔
      ∀ base zones zone, Active sel objs pidInterface base ∨ Active sel objs stepwiseInterface base →
        Attr base "Zones" NamesValue zones → zone ∈ zones →
        ∃ z, Active sel objs zoneInterface z ∧ Attr z "Name" TextValue zone := by
  obtain ⟨hok, -, hpid, hstep⟩ := dbusInit_ok hw h
  obtain ⟨hz1, hz2⟩ := C82_settings hw hd h
  rw [(C64_builds c.pids c.zones).1]
  constructor
  · intro hb base zones zone hA hz hm
    have : ∃ i conf, c.numbers.find? zone = some i ∧ c.pids.find? i = some conf := by
      rcases hA with hA | hA
      · obtain ⟨zones', hz', hp⟩ := hpid base hA
        rw [attr_unique names_unique hz' hz] at hp
        obtain ⟨names, hn, i, conf, h1, h2, -⟩ := hp zone hm
        exact ⟨i, conf, h1, h2⟩
      · obtain ⟨zones', hz', hp⟩ := hstep base hA
        rw [attr_unique names_unique hz' hz] at hp
        obtain ⟨i, conf, h1, h2, -⟩ := hp zone hm
        exact ⟨i, conf, h1, h2⟩
    obtain ⟨i, conf, h1, h2⟩ := this
    obtain ⟨⟨d, hd'⟩, -⟩ := hb (i, conf) ((OMap.mem_entries_iff hok.wf _ _).2 h2)
    obtain ⟨z, n, a1, a2, a3, -⟩ := hz1 i d hd'
    have := C82_distinct hw h a3 h1
    subst this
    exact ⟨z, a1, a2⟩
  · rintro hall ⟨i, conf⟩ he
    have hf := (OMap.mem_entries_iff hok.wf _ _).1 he
    obtain ⟨zone, h1, ⟨base, zones, hA, hz, hm⟩, h3⟩ := hok.loops i conf hf
    refine ⟨?_, fun l hl _ => (h3.2 l.1 l.2 ((OMap.mem_entries_iff h3.1 _ _).1 hl)).inputs⟩
    obtain ⟨z, a1, a2⟩ := hall base zones zone hA hz hm
    obtain ⟨n, j, d, b1, b2, b3, -⟩ := hz2 z a1
    have := attr_unique text_unique b1 a2
    subst this
    rw [b2] at h1
    injection h1 with h1
    subst h1
    exact ⟨d, b3⟩

/-- **C86.** The configuration counts as usable exactly when there is a zone and a loop configuration names one. -/
theorem C86_usable {b : BusView} {sel : List String} {objs : List ConfObj} (hw : ∀ o ∈ objs, OMap.WF o)
    (hd : DistinctZones sel objs) {r : Bool} {c : DbusCfg} (h : dbusInit b sel objs = .ok (r, c)) :
    r = true ↔ (∃ z, Active sel objs zoneInterface z) ∧ ∃ base zones zone,
      (Active sel objs pidInterface base ∨ Active sel objs stepwiseInterface base) ∧
        Attr base "Zones" NamesValue zones ∧ zone ∈ zones := by
  obtain ⟨hok, hr, hpid, hstep⟩ := dbusInit_ok hw h
  obtain ⟨hz1, hz2⟩ := C82_settings hw hd h
  rw [hr, Bool.not_eq_true', Bool.or_eq_false_iff, OMap.isEmpty_false_iff, OMap.isEmpty_false_iff, and_comm]
  refine and_congr ⟨?_, ?_⟩ ⟨?_, ?_⟩
  · rintro ⟨i, d, hi⟩
    obtain ⟨z, n, a, -⟩ := hz1 i d hi
    exact ⟨z, a⟩
  · rintro ⟨z, a⟩
    obtain ⟨n, i, d, -, -, hi, -⟩ := hz2 z a
    exact ⟨i, d, hi⟩
  · rintro ⟨i, conf, hi⟩
    obtain ⟨zone, -, ⟨base, zones, hA, hz, hm⟩, -⟩ := hok.loops i conf hi
    exact ⟨base, zones, zone, hA, hz, hm⟩
  · rintro ⟨base, zones, zone, hA, hz, hm⟩
    rcases hA with hA | hA
    · obtain ⟨zones', hz', hp⟩ := hpid base hA
      rw [attr_unique names_unique hz' hz] at hp
      obtain ⟨names, hn, i, conf, h1, h2, -⟩ := hp zone hm
      exact ⟨i, conf, h2⟩
    · obtain ⟨zones', hz', hp⟩ := hstep base hA
      rw [attr_unique names_unique hz' hz] at hp
      obtain ⟨i, conf, h1, h2, -⟩ := hp zone hm
      exact ⟨i, conf, h2⟩

/-! ## C87 -/

theorem foundNames_single {b : BusView} : ∀ {names : List String}, (∀ n ∈ names, ∃ s, Matching b n = [s]) → ∀ {k : Nat} {n : String},
    names[k]? = some n → ∃ s, Matching b n = [s] ∧ (foundNames b names)[k]? = some (sensorNameFromPath s.1)
  | [], _, k, n, hk => by simp at hk
  | m :: names, h, k, n, hk => by
    obtain ⟨hm, hr⟩ := List.forall_mem_cons.1 h
    obtain ⟨s, hs⟩ := hm
    rw [foundNames_cons, hs]
    cases k with
    | zero =>
      simp only [List.getElem?_cons_zero, Option.some.injEq] at hk
      subst hk
      exact ⟨s, hs, rfl⟩
    | succ k =>
      simp only [List.getElem?_cons_succ] at hk
      obtain ⟨s', h1, h2⟩ := foundNames_single hr hk
      exact ⟨s', h1, by simpa using h2⟩

theorem missing_single {b : BusView} {acc names : List String} (h : ∀ n ∈ names, ∃ s, Matching b n = [s]) :
    missingNames b acc names = [] := by
  unfold missingNames
  split
  · have : names.filter (fun n => Matching b n = [] ∧ n ∉ acc) = [] := by
      rw [List.filter_eq_nil_iff]
      intro n hn
      obtain ⟨s, hs⟩ := h n hn
      simp [hs]
    rw [this]
    rfl
  · rfl

/-- **C87, part.** The values of `TempToMargin` belong to the inputs listed at the same position, if every name listed stands
for exactly one sensor on the bus. Otherwise they do not (`C87_violated`). -/
theorem C87_margins_partial {b : BusView} {sel : List String} {objs : List ConfObj} (hw : ∀ o ∈ objs, OMap.WF o)
    {r : Bool} {c : DbusCfg} (h : dbusInit b sel objs = .ok (r, c)) {base : ConfProps} {i : Int} {conf : PIDConf}
    {zone n cls : String} {info : ControllerInfo} (hi : c.numbers.find? zone = some i) (hp : c.pids.find? i = some conf)
    (hf : conf.find? n = some info)
    (hstep : ∀ base' zones, Active sel objs stepwiseInterface base' → Attr base' "Zones" NamesValue zones → zone ∈ zones →
      ¬ ∃ name, Attr base' "Name" TextValue name ∧ n = sensorNameToDbusName name)
    (hpid : ∀ base' zones, Active sel objs pidInterface base' → Attr base' "Zones" NamesValue zones → zone ∈ zones →
      (∃ name, Attr base' "Name" TextValue name ∧ n = sensorNameToDbusName name) ∨
        base'.find? "SetPointOffset" ≠ none → base' = base)
    (hoff : base.find? "SetPointOffset" = none) (hcls : Attr base "Class" TextValue cls)
    (hheat : cls ∈ ["temp", "margin", "power", "powersum"]) {names : List String} {margins : List Dbl}
    (hin : Attr base "Inputs" NamesValue names) (hm : AttrOr base "TempToMargin" NumbersValue [] margins)
    (hone : ∀ n ∈ names, ∃ s, Matching b n = [s]) {k : Nat} {m : String} (hk : names[k]? = some m) :
    ∃ x s, info.inputs[k]? = some x ∧ Matching b m = [s] ∧ x.name = sensorNameFromPath s.1 ∧
      x.convertTempToMargin = decide (k < margins.length) ∧ x.convertMarginZero = margins.getD k nan := by
  have hl := C83_loop hw h hi hp hf hstep hpid
  cases hl with
  | offset t _ _ _ _ _ _ h1 =>
    obtain ⟨v, hv, -⟩ := h1
    rw [hoff] at hv
    cases hv
  | plain name h1 h2 h3 h4 h5 h6 =>
    obtain ⟨names', margins', acc, hn, hm', -, hsp⟩ := h6
    rw [attrOr_unique numbers_unique hm' hm] at hsp
    have hnames : names' = foundNames b names := by
      cases hn with
      | heat a1 a2 a3 a4 => rw [attr_unique names_unique a3 hin, missing_single hone, List.nil_append]
      | fan a1 =>
        rw [attr_unique text_unique hcls a1] at hheat
        exact absurd hheat (by decide)
      | other a1 a2 =>
        rw [attr_unique text_unique hcls a1] at hheat
        exact absurd (List.mem_cons_of_mem _ hheat) a2
    rw [hnames] at hsp
    obtain ⟨s, hs, hk'⟩ := foundNames_single hone hk
    have hx : (info.inputs.map SensorInput.name)[k]? = some (sensorNameFromPath s.1) := by rw [hsp.1]; exact hk'
    rw [List.getElem?_map] at hx
    cases hxk : info.inputs[k]? with
    | none => rw [hxk] at hx; cases hx
    | some x =>
      rw [hxk] at hx
      injection hx with hx
      obtain ⟨b1, b2, -⟩ := hsp.2 k x hxk
      exact ⟨x, s, rfl, hs, hx, b1, b2⟩

/-! ## C88 -/

/-- **C88.** The zones built from a configuration on the bus run: with finite margins, nothing in starting a zone and in its
cycles is undefined or throws other than the conversions of commands, as long as the sensors can be read and written. -/
theorem C88_runs {b : BusView} {sel : List String} {objs : List ConfObj} (hw : ∀ o ∈ objs, OMap.WF o) {r : Bool}
    {c : DbusCfg} (h : dbusInit b sel objs = .ok (r, c))
    (hfin : ∀ base l, Active sel objs pidInterface base ∨ Active sel objs stepwiseInterface base →
      Attr base "TempToMargin" NumbersValue l → ∀ d ∈ l, d.isFinite = true)
    {zones : OMap Int Zone} (hb : buildZones c.pids c.zones = .ok zones) {i : Int} {z : Zone} (hz : zones.find? i = some z)
    {o : Opts} {w0 : World} (hw0 : WorldOk o w0 z) :
    ∃ z0, z.start o w0 = .ok z0 ∧ ∀ z1, OkTicks o z0 z1 → ∀ w, WorldOk o w z1 → ∀ cnt,
      (∃ r, z1.tick o w cnt = .ok r) ∨
        ∃ e, (e = .ub "cast to int64_t" ∨ e = .ub "cast to uint64_t") ∧ z1.tick o w cnt = .error e := by
  obtain ⟨hok, -, -, -⟩ := dbusInit_ok hw h
  have hwf : ∀ e ∈ c.pids.entries, OMap.WF e.2 := by
    intro e he
    obtain ⟨zone, -, -, h3⟩ := hok.loops e.1 e.2 ((OMap.mem_entries_iff hok.wf _ _).1 he)
    exact h3.1
  cases hp : c.pids.find? i with
  | none =>
    rw [(C64_zones hok.wf hwf hb i).2 hp] at hz
    cases hz
  | some conf =>
    obtain ⟨zone, -, -, h3⟩ := hok.loops i conf hp
    have hl : ∀ e ∈ conf.entries, LoopOk b sel objs zone c.sensors e.1 e.2 :=
      fun e he => h3.2 e.1 e.2 ((OMap.mem_entries_iff h3.1 _ _).1 he)
    refine C79_runs hok.wf hwf hb hp hz ⟨fun e he _ => (hl e he).inputs, fun e he _ x hx hc => ?_⟩ hw0
    obtain ⟨base, l, hA, hm, hd⟩ := (hl e he).margins x hx hc
    exact hfin base l hA hm _ hd

end

/-! ## Concrete cases and disagreements -/

namespace Ex
section
attribute [local instance] binary64

deriving instance DecidableEq for SensorInput

/-- a bus with these sensors; names are matched literally -/
def busOf (handleMissing : Bool) (sensors : List (String × String)) : BusView :=
  ⟨handleMissing, sensors, fun p => some (fun path => p.toList.dropLast.isSuffixOf path.toList),
    fun _ path _ => .ok (if path = "/sensors/temperature/Core_1" then 90 else 80)⟩

def coreBus : BusView := busOf false
  [("/sensors/temperature/Core_1", valueInterface), ("/sensors/temperature/Core_2", valueInterface),
   ("/sensors/fan_tach/Fan_1", valueInterface), ("/control/Pwm_1", pwmInterface)]

def zoneConf (name : String) (more : List (String × ConfVariant)) : ConfProps :=
  ⟨[("Name", .str name), ("MinThermalOutput", .dbl 30), ("FailSafePercent", .dbl 75)] ++ more⟩

def numbersConf : List (String × ConfVariant) :=
  ["PCoefficient", "ICoefficient", "FFOffCoefficient", "FFGainCoefficient", "ILimitMax", "ILimitMin", "OutLimitMax",
    "OutLimitMin", "SlewNeg", "SlewPos"].map (fun k => (k, .dbl (if k = "OutLimitMax" then 100 else 0)))

def heatConf (inputs : List String) (more : List (String × ConfVariant)) : ConfProps :=
  ⟨[("Name", .str "CPU loop"), ("Class", .str "temp"), ("Zones", .strs ["Left"]), ("Inputs", .strs inputs),
    ("SetPoint", .dbl (-10))] ++ more ++ numbersConf⟩

def busFan (more : List (String × ConfVariant)) : ConfProps :=
  ⟨[("Name", .str "Fan loop"), ("Class", .str "fan"), ("Zones", .strs ["Left"]), ("Inputs", .strs ["Fan 1"]),
    ("Outputs", .strs ["Pwm 1"])] ++ more ++ numbersConf⟩

def stepConf (inputs : List String) (more : List (String × ConfVariant)) : ConfProps :=
  ⟨[("Name", .str "Step loop"), ("Class", .str "Floor"), ("Zones", .strs ["Left"]), ("Inputs", .strs inputs),
    ("Reading", .dbls [20, 40]), ("Output", .dbls [30, 60])] ++ more⟩

/-- the loops of zone `i` as names with their inputs -/
def loopsOf (b : BusView) (objs : List ConfObj) (i : Int) : Option (List (String × List SensorInput)) :=
  match dbusInit b [] objs with
  | .ok (_, c) => (c.pids.find? i).map (fun conf => conf.entries.map (fun e => (e.1, e.2.inputs)))
  | .error _ => none

/-- one zone with a fan loop, a temperature loop and a stepwise loop -/
def system (more : List (String × ConfVariant)) : List ConfObj :=
  [⟨[(pidInterface, busFan []), (zoneInterface, zoneConf "Left" [("ZoneIndex", .dbl 3)])]⟩,
   ⟨[(pidInterface, heatConf ["Core 1", "Core 2"] more), (stepwiseInterface, stepConf ["Core 2"] [])]⟩]

/-- C82, C83, C84, C85, C86: the whole path from the objects on the bus to zones -/
example : loopsOf coreBus (system []) 3 = some
    [("CPU_loop", [⟨"Core_1", nan, false, false⟩, ⟨"Core_2", nan, false, false⟩]),
     ("Fan_loop", [⟨"Fan_1Pwm_1", nan, false, false⟩]),
     ("Step_loop", [⟨"Core_2", nan, false, false⟩])] := by decide +kernel

/-- the hypotheses on the objects hold -/
theorem system_wf (more : List (String × ConfVariant)) : ∀ o ∈ system more, OMap.WF o := by
  intro o ho
  simp only [system, List.mem_cons, List.not_mem_nil, or_false] at ho
  rcases ho with rfl | rfl
  · simp only [OMap.WF, List.pairwise_cons, List.mem_singleton, forall_eq, List.not_mem_nil, false_imp_iff, implies_true,
      List.Pairwise.nil, and_true]
    decide
  · simp only [OMap.WF, List.pairwise_cons, List.mem_singleton, forall_eq, List.not_mem_nil, false_imp_iff, implies_true,
      List.Pairwise.nil, and_true]
    decide

theorem system_distinct (sel : List String) (more : List (String × ConfVariant)) : DistinctZones sel (system more) := by
  refine List.Pairwise.cons ?_ (List.Pairwise.cons (by simp) List.Pairwise.nil)
  intro o' ho' z z' n _ _ h3
  simp only [List.mem_singleton] at ho'
  subst ho'
  simp [OMap.find?, OMap.lookupL, zoneInterface, pidInterface, stepwiseInterface] at h3

/-- C81: a configuration for a profile that is not selected is left out -/
example : (applyProfiles ["Quiet"] [⟨[(pidInterface, heatConf [] [("Profiles", .strs ["Loud"])]),
      (stepwiseInterface, stepConf [] [("Profiles", .strs ["Loud", "Quiet"])])]⟩]).toOption.map
    (List.map (fun o => o.entries.map Prod.fst)) = some [[stepwiseInterface]] := by decide +kernel

/-- C82: the settings of the zone -/
example : (match dbusInit coreBus [] (system []) with
    | .ok (r, c) => (c.zones.find? 3).map (fun d => (r, c.numbers.find? "Left", d.minThermalOutput, d.failsafePercent,
        d.cycleTime.cycleIntervalTimeMS, d.accumulateSetPoint))
    | .error _ => none) = some (true, some 3, 30, 75, 100, false) := by decide +kernel

/-- C83: a loop for every input, with the threshold of its sensor added to the set point -/
example : (match dbusInit coreBus [] (system [("SetPointOffset", .str "WarningHigh")]) with
    | .ok (_, c) => (c.pids.find? 3).map (fun conf => conf.entries.map (fun e => (e.1, e.2.setpoint)))
    | .error _ => none) = some [("Core_1", 80), ("Core_2", 70), ("Fan_loop", 0), ("Step_loop", 0)] := by decide +kernel

/-- C85: the settings of the sensors -/
example : (match dbusInit coreBus [] (system []) with
    | .ok (_, c) => c.sensors.entries.map (fun e => (e.1, e.2.type, e.2.readPath, e.2.writePath, e.2.max))
    | .error _ => []) =
    [("Core_1", "temp", "/sensors/temperature/Core_1", "", 0), ("Core_2", "temp", "/sensors/temperature/Core_2", "", 0),
     ("Fan_1Pwm_1", "fan", "/sensors/fan_tach/Fan_1", "/control/Pwm_1", 255)] := by decide +kernel

/-- C86, C88: the zone is built -/
theorem system_builds : ∃ r c zones, dbusInit coreBus [] (system []) = .ok (r, c) ∧ buildZones c.pids c.zones = .ok zones ∧
    zones.find? 3 ≠ none := by
  obtain ⟨⟨r, c⟩, h1, h2⟩ := ok_of_any (x := dbusInit coreBus [] (system []))
    (P := fun r : Bool × DbusCfg => match buildZones r.2.pids r.2.zones with
      | .ok zones => (zones.find? 3).isSome
      | .error _ => false) (by decide +kernel)
  dsimp only at h2
  split at h2
  · rename_i zones hz
    exact ⟨r, c, zones, h1, hz, by rw [← Option.isSome_iff_ne_none]; exact h2⟩
  · cases h2

/-- C87: with both sensors on the bus the margins are in place -/
example : loopsOf coreBus (system [("TempToMargin", .dbls [85, 95])]) 3 = some
    [("CPU_loop", [⟨"Core_1", 85, true, false⟩, ⟨"Core_2", 95, true, false⟩]),
     ("Fan_loop", [⟨"Fan_1Pwm_1", nan, false, false⟩]),
     ("Step_loop", [⟨"Core_2", nan, false, false⟩])] := by decide +kernel

/-- the bus while the first core is missing -/
def halfBus (handleMissing : Bool) : BusView := busOf handleMissing
  [("/sensors/temperature/Core_2", valueInterface), ("/sensors/fan_tach/Fan_1", valueInterface),
   ("/control/Pwm_1", pwmInterface)]

/-- C83, C85: names -/
example : Underscored "CPU 1 Temp" "CPU_1_Temp" ∧ LastPart "/xyz/openbmc_project/sensors/temperature/CPU_1" "CPU_1" ∧
    AwaitedAt "margin" "CPU" "/xyz/openbmc_project/sensors/temperature/CPU" :=
  ⟨(C83_search_name _ _).2 (by decide +kernel), (C85_sensor_name _ _).2 (by decide +kernel), _, .margin, by decide +kernel⟩

/-- C87, the disagreement: while the sensor of the first name is missing, the sensor of the second name gets the margin of
the first. -/
theorem C87_violated : ∃ (b : BusView) (objs : List ConfObj) (r : Bool) (c : DbusCfg) (conf : PIDConf) (info : ControllerInfo),
    dbusInit b [] objs = .ok (r, c) ∧ c.pids.find? 3 = some conf ∧ conf.find? "CPU_loop" = some info ∧
    objs = system [("TempToMargin", .dbls [85, 95])] ∧ info.inputs = [⟨"Core_2", 85, true, false⟩] := by
  obtain ⟨⟨r, c⟩, h1, h2⟩ := ok_of_any (x := dbusInit (halfBus false) [] (system [("TempToMargin", .dbls [85, 95])]))
    (P := fun r : Bool × DbusCfg => ((r.2.pids.find? 3).bind (fun conf => conf.find? "CPU_loop")).any
      (fun info : ControllerInfo => decide (info.inputs = [⟨"Core_2", 85, true, false⟩]))) (by decide +kernel)
  obtain ⟨h, h4⟩ := (Option.any_eq_true_iff_get _ _).1 h2
  generalize hg : Option.get _ h = info at h4
  have h3 := Option.eq_some_of_isSome h
  rw [hg] at h3
  obtain ⟨conf, h5, h6⟩ := Option.bind_eq_some_iff.1 h3
  exact ⟨_, _, r, c, conf, info, h1, h5, h6, rfl, of_decide_eq_true h4⟩

/-- C87: the same if the missing sensor may be missing and missing objects are handled -/
example : loopsOf (halfBus true) (system [("TempToMargin", .dbls [85, 95]), ("MissingIsAcceptable", .strs ["Core 1"])]) 3 = some
    [("CPU_loop", [⟨"Core_2", 85, true, false⟩]), ("Fan_loop", [⟨"Fan_1Pwm_1", nan, false, false⟩]),
     ("Step_loop", [⟨"Core_2", nan, false, false⟩])] := by decide +kernel

/-- C84, a disagreement: without support for missing objects the inputs behind the first missing one are dropped, here all of
them, and the loop is lost with them although one of its sensors is there. A PID loop keeps the sensor. -/
theorem C84_stops : loopsOf (halfBus false)
    [⟨[(pidInterface, heatConf ["Core 1", "Core 2"] []), (zoneInterface, zoneConf "Left" []),
       (stepwiseInterface, stepConf ["Core 1", "Core 2"] [])]⟩] 0 = some
    [("CPU_loop", [⟨"Core_2", nan, false, false⟩])] := by decide +kernel

/-- C84, a disagreement: a stepwise configuration's `FailSafePercent` is not read. -/
theorem C84_percent_ignored : (match dbusInit coreBus []
      [⟨[(zoneInterface, zoneConf "Left" []), (stepwiseInterface, stepConf ["Core 1"] [("FailSafePercent", .dbl 90)])]⟩] with
    | .ok (_, c) => ((c.pids.find? 0).bind (fun conf => conf.find? "Step_loop")).map (fun i => i.failSafePercent)
    | .error _ => none) = some 0 := by decide +kernel

/-- C83, a disagreement: a fan named as one that may be missing is not marked so, because the input of a fan loop is named
after fan and control together. -/
theorem C83_fan_not_lenient : loopsOf coreBus
    [⟨[(pidInterface, busFan [("MissingIsAcceptable", .strs ["Fan 1"])]), (zoneInterface, zoneConf "Left" [])]⟩] 0 = some
    [("Fan_loop", [⟨"Fan_1Pwm_1", nan, false, false⟩])] := by decide +kernel

/-- C85, a disagreement: of two sensors with the same last part of their paths one is read twice and the other is not read. -/
theorem C85_collision : (match dbusInit (busOf false [("/sensors/temperature/Core", valueInterface),
      ("/sensors/power/Core", valueInterface)]) []
      [⟨[(pidInterface, heatConf ["Core"] []), (zoneInterface, zoneConf "Left" [])]⟩] with
    | .ok (_, c) => (c.sensors.entries.map (fun e => (e.1, e.2.readPath)),
        (c.pids.find? 0).map (fun conf => conf.entries.map (fun e => e.2.inputs.map SensorInput.name)))
    | .error _ => ([], none)) =
    ([("Core", "/sensors/power/Core")], some [["Core", "Core"]]) := by decide +kernel

/-- C86: a loop configuration that names a zone without configuration. The configuration counts as usable and building the
zones throws. -/
theorem C86_unknown_zone : ∃ r c, dbusInit coreBus []
      [⟨[(pidInterface, heatConf ["Core 1"] []), (zoneInterface, zoneConf "Right" [])]⟩] = .ok (r, c) ∧ r = true ∧
    ∃ e, buildZones c.pids c.zones = .error (.exc e) := by
  obtain ⟨⟨r, c⟩, h1, h2⟩ := ok_of_any (x := dbusInit coreBus []
      [⟨[(pidInterface, heatConf ["Core 1"] []), (zoneInterface, zoneConf "Right" [])]⟩])
    (P := fun r : Bool × DbusCfg => r.1 && match buildZones r.2.pids r.2.zones with
      | .error (.exc _) => true
      | _ => false) (by decide +kernel)
  rw [Bool.and_eq_true] at h2
  obtain ⟨h2, h3⟩ := h2
  dsimp only at h3
  split at h3
  · rename_i e he
    exact ⟨r, c, h1, h2, e, he⟩
  · cases h3

/-- C82: where two zones want the same number, a third that wants another one alone may not get it. -/
theorem C82_shifted : (match dbusInit coreBus [] [⟨[(zoneInterface, zoneConf "A" [("ZoneIndex", .dbl 1)])]⟩,
      ⟨[(zoneInterface, zoneConf "B" [("ZoneIndex", .dbl 1)])]⟩, ⟨[(zoneInterface, zoneConf "C" [("ZoneIndex", .dbl 2)])]⟩] with
    | .ok (_, c) => ["A", "B", "C"].map c.numbers.find?
    | .error _ => []) = [some 1, some 2, some 3] := by decide +kernel

/-- C82: a number given as an integer is ignored. -/
theorem C82_integer_ignored : (match dbusInit coreBus [] [⟨[(zoneInterface, zoneConf "A" [("ZoneIndex", .int 7)])]⟩] with
    | .ok (_, c) => c.numbers.find? "A"
    | .error _ => none) = some 0 := by decide +kernel

end
end Ex
end Verif
