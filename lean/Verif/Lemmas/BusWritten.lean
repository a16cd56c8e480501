import Verif.Spec.BusWritten
import Verif.Lemmas.Written
import Verif.Props.Complete
import Verif.Props.OnBus

/-! # Lemmas on configurations over D-Bus and the daemons they start -/

namespace Verif
open Dbl
section
variable [F : FloatModel]

/-! ## Attributes have one value -/

theorem percent_unique (v : ConfVariant) (x y : Dbl) (h1 : PercentValue v x) (h2 : PercentValue v y) : x = y := by
  have := (getPercent_iff v x).2 h1
  rw [(getPercent_iff v y).2 h2] at this
  exact (Except.ok.inj this).symm

theorem number_unique (v : ConfVariant) (x y : Dbl) (h1 : NumberValue v x) (h2 : NumberValue v y) : x = y := by
  have := (toDbl_iff v x).2 h1
  rw [(toDbl_iff v y).2 h2] at this
  exact (Except.ok.inj this).symm

theorem attrOr_of {α : Type} {R : ConfVariant → α → Prop} (hR : ∀ v x y, R v x → R v y → x = y) {p : ConfProps} {k : String}
    {d x y : α} (h : AttrOr p k R d x) (h' : Attr p k R y) : x = y := attrOr_unique hR h (.inl h')

theorem truncates_unique {q : ℚ} {n m : Int} (h : Truncates q n) (h' : Truncates q m) : n = m := by
  have := truncates_iff.1 h
  rw [truncates_iff.1 h'] at this
  exact this.symm

theorem cycleAttr_unique {zone : ConfProps} {k : String} {d n n' : Nat} (h : CycleAttr zone k d n) (h' : CycleAttr zone k d n') :
    n = n' := by
  have none_attr : ∀ {x : Dbl}, zone.find? k = none → Attr zone k NumberValue x → False := by
    rintro x hn ⟨v, hv, -⟩
    rw [hn] at hv
    cases hv
  rcases h with ⟨q, hq, h1, h2, h3, -⟩ | ⟨rfl, h⟩ <;> rcases h' with ⟨q', hq', g1, g2, g3, -⟩ | ⟨rfl, g⟩
  · have := attr_unique number_unique h1 g1
    injection this with this
    subst this
    exact_mod_cast truncates_unique h3 g3
  · rcases g with g | ⟨x, g, gx⟩
    · exact (none_attr g h1).elim
    · rw [← attr_unique number_unique h1 g, one_eq, fin_le_fin] at gx
      exact absurd h2 gx
  · rcases h with h | ⟨x, h, hx⟩
    · exact (none_attr h g1).elim
    · rw [← attr_unique number_unique g1 h, one_eq, fin_le_fin] at hx
      exact absurd g2 hx
  · rfl

theorem cycleAttr_pos {zone : ConfProps} {k : String} {d n : Nat} (h : CycleAttr zone k d n) (hd : 1 ≤ d) : 1 ≤ n := by
  rcases h with ⟨q, -, -, h1, ⟨-, h2, -⟩, -⟩ | ⟨rfl, -⟩
  · rw [abs_of_nonneg (by linarith), abs_of_nonneg (by positivity)] at h2
    have : (0 : ℚ) < n := by
      have : ((n : Int) : ℚ) = (n : ℚ) := by push_cast; rfl
      rw [this] at h2
      linarith
    exact_mod_cast this
  · exact hd

theorem percent_int {v : ConfVariant} {p : Dbl} (h : PercentValue v p) : ∃ n : Int, p = Dbl.ofInt n := by
  obtain ⟨-, -, n, -, -, -, -, h⟩ := h
  exact ⟨n, h⟩

theorem inputNames_unique {b : BusView} {base : ConfProps} {i : String} {names names' lenient lenient' : List String}
    (h : InputNames b base i names lenient) (h' : InputNames b base i names' lenient') : names = names' ∧ lenient = lenient' := by
  cases h with
  | pid e h1 h2 =>
    cases h' with
    | pid _ g1 g2 => exact ⟨pidNames_unique h1 g1, by rw [attrOr_unique names_unique h2 g2]⟩
    | step e' => exact absurd (e.symm.trans e') (by decide)
  | step e h1 h2 =>
    cases h' with
    | pid e' => exact absurd (e.symm.trans e') (by decide)
    | step _ g1 g2 =>
      rw [attrOr_unique names_unique h2 g2, attr_unique names_unique h1 g1]
      exact ⟨rfl, rfl⟩

/-! ## The order in which the configurations are read does not matter -/

theorem active_eq {sel : List String} {objs objs' : List ConfObj} (h : objs'.Perm objs) : Active sel objs' = Active sel objs := by
  funext i p
  exact propext ⟨active_perm h, active_perm h.symm⟩

theorem usesSensor_eq {b : BusView} {sel : List String} {objs objs' : List ConfObj} (h : objs'.Perm objs) :
    UsesSensor b sel objs' = UsesSensor b sel objs := by
  funext base n type
  refine propext ⟨fun hu => ?_, fun hu => ?_⟩
  · cases hu with
    | pid h1 h2 h3 h4 h5 => exact .pid (active_perm h h1) h2 h3 h4 h5
    | step h1 h2 h3 h4 h5 => exact .step (active_perm h h1) h2 h3 h4 h5
  · cases hu with
    | pid h1 h2 h3 h4 h5 => exact .pid (active_perm h.symm h1) h2 h3 h4 h5
    | step h1 h2 h3 h4 h5 => exact .step (active_perm h.symm h1) h2 h3 h4 h5

theorem SensorFor.perm {b : BusView} {sel : List String} {objs objs' : List ConfObj} (h : objs'.Perm objs) {n : String}
    (hs : SensorFor b sel objs n) : SensorFor b sel objs' n :=
  ⟨by rw [usesSensor_eq h]; exact hs.options, by rw [active_eq h]; exact hs.nofan⟩

theorem FanFor.perm {b : BusView} {sel : List String} {objs objs' : List ConfObj} (h : objs'.Perm objs) {zone m path : String}
    (hs : FanFor b sel objs zone m path) : FanFor b sel objs' zone m path :=
  ⟨by rw [active_eq h]; exact hs.pair, by rw [active_eq h]; exact hs.same, by rw [active_eq h]; exact hs.only,
    by rw [active_eq h]; exact hs.zones, by rw [active_eq h]; exact hs.controls, by rw [active_eq h]; exact hs.plain,
    by rw [usesSensor_eq h]; exact hs.nosensor⟩

/-! ## Loops -/

/-- `e` is the loop of the configuration `base` -/
structure EntryOf (A : String → ConfProps → Prop) (b : BusView) (zone : String) (e : Entry) (i : String) (base : ConfProps) :
    Prop where
  zone : ForZone A i zone base
  name : ∃ name, Attr base "Name" TextValue name ∧ Underscored name e.1
  inputs : ∃ names lenient, InputNames b base i names lenient ∧ e.2.inputs.map SensorInput.name = names ∧
    ∀ x ∈ e.2.inputs, x.missingIsAcceptable = decide (x.name ∈ lenient)
  nonempty : e.2.inputs ≠ []
  kind : (i = pidInterface ∧ PidSettings base e.2) ∨
    (i = stepwiseInterface ∧ StepLoop b base e.1 e.2 ∧ e.2.failSafePercent = 0)

theorem spliced_lenient {inputs : List SensorInput} {names : List String} {margins : List Dbl} {lenient : List String}
    (h : Spliced inputs names margins lenient) : inputs.map SensorInput.name = names ∧
      ∀ x ∈ inputs, x.missingIsAcceptable = decide (x.name ∈ lenient) :=
  ⟨h.1, fun x hx => by
    obtain ⟨k, hk⟩ := List.mem_iff_getElem?.1 hx
    exact (h.2 k x hk).2.2⟩

section
variable {b : BusView} {sel : List String} {objs : List ConfObj} {r : Bool} {c : DbusCfg} {zone : String} {i : Int}
  {conf : PIDConf}

theorem entries_of (hw : ∀ o ∈ objs, OMap.WF o) (h : dbusInit b sel objs = .ok (r, c)) (hT : Tidy (Active sel objs) zone)
    (hi : c.numbers.find? zone = some i) (hp : c.pids.find? i = some conf) {e : Entry} (he : e ∈ conf.entries) :
    ∃ k base, EntryOf (Active sel objs) b zone e k base := by
  obtain ⟨z, h1, -, hwf, h3⟩ := (dbusInit_ok hw h).1.loops i conf hp
  have := C82_distinct hw h h1 hi
  subst this
  have hl := h3 e.1 e.2 ((OMap.mem_entries_iff hwf _ _).1 he)
  rcases hl.source with ⟨base, zones, a1, a2, a3, a4⟩ | ⟨base, zones, a1, a2, a3, a4⟩
  · refine ⟨pidInterface, base, ⟨a1, zones, a2, a3⟩, ?_, ?_, hl.inputs, .inl ⟨rfl, ?_⟩⟩
    all_goals
      cases a4 with
      | offset t _ _ _ _ _ _ hoff =>
        obtain ⟨v, hv, -⟩ := hoff
        rw [hT.plain base ⟨a1, zones, a2, a3⟩] at hv
        cases hv
      | plain name g1 g2 g3 g4 g5 g6 =>
        first
        | exact ⟨name, g1, (C83_search_name _ _).2 g2⟩
        | exact g4
        | (obtain ⟨names, margins, acceptable, q1, -, q3, q4⟩ := g6
           exact ⟨names, _, .pid rfl q1 q3, spliced_lenient q4⟩)
  · refine ⟨stepwiseInterface, base, ⟨a1, zones, a2, a3⟩, ?_, ?_, hl.inputs, .inr ⟨rfl, a4, ?_⟩⟩
    · obtain ⟨name, q1, q2⟩ := a4.name
      exact ⟨name, q1, (C83_search_name _ _).2 q2⟩
    · obtain ⟨names, margins, acceptable, q1, -, q3, q4⟩ := a4.inputs
      exact ⟨_, _, .step rfl q1 q3, spliced_lenient q4⟩
    · rcases hl.percent with hp | ⟨info', ⟨base', zones', c1, c2, c3, c4⟩, -⟩
      · exact hp
      · exfalso
        cases c4 with
        | offset t _ _ _ _ _ _ hoff =>
          obtain ⟨v, hv, -⟩ := hoff
          rw [hT.plain base' ⟨c1, zones', c2, c3⟩] at hv
          cases hv
        | plain name g1 g2 =>
          obtain ⟨name', q1, q2⟩ := a4.name
          have := (hT.named pidInterface (by simp [loopInterfaces, pidInterface]) stepwiseInterface
            (by simp [loopInterfaces, stepwiseInterface]) base' base
            name name' e.1 ⟨c1, zones', c2, c3⟩ ⟨a1, zones, a2, a3⟩ g1 q1 ((C83_search_name _ _).2 g2)
            ((C83_search_name _ _).2 q2)).1
          exact absurd this (by decide)

theorem entry_present (hw : ∀ o ∈ objs, OMap.WF o) (h : dbusInit b sel objs = .ok (r, c)) (hT : Tidy (Active sel objs) zone)
    {k : String} {base : ConfProps} (hz : ForZone (Active sel objs) k zone base)
    {names lenient : List String} (hn : InputNames b base k names lenient) (hne : names ≠ []) :
    ∃ i conf, c.numbers.find? zone = some i ∧ c.pids.find? i = some conf ∧ ∃ e ∈ conf.entries,
      EntryOf (Active sel objs) b zone e k base := by
  obtain ⟨hA, zones, hzs, hmem⟩ := hz
  obtain ⟨name, i, conf, info, hname, hi, hp, hf⟩ : ∃ name i conf info, Attr base "Name" TextValue name ∧
      c.numbers.find? zone = some i ∧ c.pids.find? i = some conf ∧ conf.find? (sensorNameToDbusName name) = some info := by
    have hnm : ∃ name, Attr base "Name" TextValue name := by
      cases hn with
      | pid e => exact ((C109_needs hw h).pids base (e ▸ hA)).name
      | step e => exact ((C109_needs hw h).steps base (e ▸ hA)).name
    obtain ⟨name, hname⟩ := hnm
    cases hn with
    | pid e h1 h2 =>
      subst e
      obtain ⟨names', i, conf, g1, g2, g3, g4, -⟩ := C83_present hw h hA hzs hmem
      rw [pidNames_unique h1 g1] at hne
      obtain ⟨info, hf⟩ := g4 (hT.plain base ⟨hA, zones, hzs, hmem⟩) hne name hname
      exact ⟨name, i, conf, info, hname, g2, g3, hf⟩
    | step e h1 h2 =>
      subst e
      obtain ⟨i, conf, info, g⟩ := C84_present hw h hA hzs hmem hname h1 h2 hne
      exact ⟨name, i, conf, info, hname, g⟩
  have hwf : conf.WF := by
    obtain ⟨z, -, -, hwf, -⟩ := (dbusInit_ok hw h).1.loops i conf hp
    exact hwf
  have he := (OMap.mem_entries_iff hwf _ _).2 hf
  refine ⟨i, conf, hi, hp, _, he, ?_⟩
  obtain ⟨k', base', hE⟩ := entries_of hw h hT hi hp he
  obtain ⟨name', q1, q2⟩ := hE.name
  have hk : ∀ {k base names lenient}, InputNames b base k names lenient → k ∈ loopInterfaces := by
    intro k base names lenient h
    cases h with
    | pid e => simp [loopInterfaces, e]
    | step e => simp [loopInterfaces, e]
  obtain ⟨_, _, hin, -⟩ := hE.inputs
  obtain ⟨rfl, rfl⟩ := hT.named k (hk hn) k' (hk hin) base base' name name' _ ⟨hA, zones, hzs, hmem⟩ hE.zone hname q1
    ((C83_search_name _ _).2 rfl) q2
  exact hE

end

/-- without support for missing objects only the known classes have inputs -/
theorem pid_class {b : BusView} (hm : b.handleMissing = false) {base : ConfProps} {names : List String} (h : PidNames b base names)
    (hne : names ≠ []) {cls : String} (hc : Attr base "Class" TextValue cls) :
    cls ∈ ["fan", "temp", "margin", "power", "powersum"] := by
  cases h with
  | heat h1 h2 => rw [attr_unique text_unique hc h1]; exact List.mem_cons_of_mem _ h2
  | fan h1 => rw [attr_unique text_unique hc h1]; exact List.mem_cons_self
  | other => exact absurd (by unfold missingNames; rw [hm]; rfl) hne

section
variable {A : String → ConfProps → Prop} {b : BusView} {zone : String} {e : Entry} {k : String} {base : ConfProps}

theorem EntryOf.names (h : EntryOf A b zone e k base) {names lenient : List String} (hn : InputNames b base k names lenient)
    {n : String} : (∃ x ∈ e.2.inputs, x.name = n) ↔ n ∈ names := by
  obtain ⟨names', lenient', h1, h2, -⟩ := h.inputs
  rw [(inputNames_unique hn h1).1, ← h2, List.mem_map]

theorem EntryOf.type (h : EntryOf A b zone e k base) (hm : b.handleMissing = false) : IsFan e ∨ IsHeat e := by
  rcases h.kind with ⟨rfl, hs⟩ | ⟨-, hs, -⟩
  · obtain ⟨names, lenient, h1, h2, -⟩ := h.inputs
    have hne : names ≠ [] := by
      rw [← h2]
      simpa using h.nonempty
    cases h1 with
    | step e => exact absurd e (by decide)
    | pid _ g1 g2 =>
      have := pid_class hm g1 hne hs.type
      rcases List.mem_cons.1 this with h | h
      · exact .inl h
      · refine .inr ?_
        show e.2.type ∈ _
        revert h
        generalize e.2.type = t
        intro h
        simp only [List.mem_cons, List.not_mem_nil, or_false] at h ⊢
        tauto
  · exact .inr (by show e.2.type ∈ _; rw [hs.type]; decide)

theorem EntryOf.heat (h : EntryOf A b zone e k base) (hh : HeatConf k base) : IsHeat e := by
  show e.2.type ∈ _
  rcases h.kind with ⟨rfl, hs⟩ | ⟨-, hs, -⟩
  · rcases hh with hh | ⟨cls, hc, hcl⟩
    · exact absurd hh (by decide)
    · rw [attr_unique text_unique hs.type hcl]
      revert hc
      simp only [List.mem_cons, List.not_mem_nil, or_false]
      tauto
  · rw [hs.type]; decide

end

theorem mustRead_bus {A : String → ConfProps → Prop} {b : BusView} {zone n : String} {conf : PIDConf}
    (hall : ∀ e ∈ conf.entries, ∃ k base, EntryOf A b zone e k base)
    (hpres : ∀ k base names lenient, ForZone A k zone base → InputNames b base k names lenient → names ≠ [] →
      ∃ e ∈ conf.entries, EntryOf A b zone e k base) (h : NeededFor A b zone n) : MustRead conf.entries n := by
  obtain ⟨⟨k, base, names, lenient, h1, h2, h3, h4⟩, hno⟩ := h
  refine ⟨?_, fun e he x hx hxn => ?_⟩
  · obtain ⟨e, he, hE⟩ := hpres k base names lenient h1 h2 (List.ne_nil_of_mem h4)
    exact ⟨e, he, hE.heat h3, (hE.names h2).2 h4⟩
  · obtain ⟨k', base', hE⟩ := hall e he
    obtain ⟨names', lenient', g1, g2, g3⟩ := hE.inputs
    rw [g3 x hx, decide_eq_false_iff_not, hxn]
    exact hno k' base' names' lenient' hE.zone g1 ((hE.names g1).1 ⟨x, hx, hxn⟩)

theorem percents_bus {A : String → ConfProps → Prop} {b : BusView} {zone : String} {conf : PIDConf}
    (hall : ∀ e ∈ conf.entries, ∃ k base, EntryOf A b zone e k base) (h : NoNegative A zone) :
    ∀ e ∈ conf.entries, 0 ≤ e.2.failSafePercent := by
  intro e he
  obtain ⟨k, base, hE⟩ := hall e he
  have h0 : (0 : Dbl) ≤ 0 := Dbl.le_refl (by rw [zero_eq]; simp)
  rcases hE.kind with ⟨rfl, hs⟩ | ⟨-, -, hs⟩
  · rcases hs.failSafePercent with hp | ⟨-, hp⟩
    · exact h.loops base _ hE.zone hp
    · rw [hp]; exact h0
  · rw [hs]; exact h0

/-- a percentage demanded is at most the one that applies -/
theorem demanded_bus {A : String → ConfProps → Prop} {b : BusView} (hm : b.handleMissing = false) {zone n : String}
    {conf : PIDConf} (hall : ∀ e ∈ conf.entries, ∃ k base, EntryOf A b zone e k base)
    (hpres : ∀ k base names lenient, ForZone A k zone base → InputNames b base k names lenient → names ≠ [] →
      ∃ e ∈ conf.entries, EntryOf A b zone e k base) {zp : ConfProps} {z : ZoneConfig} (hz : ZoneSettings zp z)
    (hzu : ∀ zp', ZoneCalled A zone zp' → zp' = zp) {p q : Dbl} (hd : DemandedFor A b zone n p)
    (hp : PercentFor z conf.entries n q) (h0 : 0 ≤ z.failsafePercent) : 0 ≤ p ∧ p ≤ q := by
  cases hd with
  | loop h1 h2 h3 h4 h5 =>
    obtain ⟨e, he, hE⟩ := hpres _ _ _ _ h1 h2 (List.ne_nil_of_mem h3)
    have hpe : e.2.failSafePercent = p := by
      rcases hE.kind with ⟨-, hs⟩ | ⟨hk, -⟩
      · exact attrOr_of percent_unique hs.failSafePercent h4
      · exact absurd hk (by decide)
    have hmem := mem_percentsFor.2 ⟨e, he, hE.type hm, (hE.names h2).2 h3, hpe⟩
    refine ⟨Dbl.le_of_lt h5, ?_⟩
    cases hp with
    | own h1 h2 => exact h1.2 _ hmem
    | zero h1 => exact absurd (h1.2 _ hmem) (Dbl.not_le_of_lt h5)
    | zone h1 => rw [h1] at hmem; cases hmem
  | zone hno hzc hpz =>
    rw [hzu _ hzc] at hpz
    have hq : z.failsafePercent = p := attrOr_unique percent_unique hz.failsafePercent hpz
    rw [← hq]
    refine ⟨h0, ?_⟩
    cases hp with
    | own h1 h2 =>
      obtain ⟨e, he, -, hi, hpe⟩ := mem_percentsFor.1 h1.1
      obtain ⟨k, base, hE⟩ := hall e he
      rcases hE.kind with ⟨rfl, hs⟩ | ⟨-, -, hs⟩
      · obtain ⟨names, lenient, g1, -⟩ := hE.inputs
        have := hno base names lenient hE.zone g1 ((hE.names g1).1 hi)
        rcases hs.failSafePercent with ⟨v, hv, -⟩ | ⟨-, hp0⟩
        · rw [this] at hv; cases hv
        · exact absurd (hpe.symm.trans hp0) h2
      · exact absurd (hpe.symm.trans hs) h2
    | zero h1 => exact Dbl.le_refl (Dbl.ne_nan_of_le_right h0)
    | zone h1 => exact Dbl.le_refl (Dbl.ne_nan_of_le_right h0)

/-! ## Zones -/

theorem zoneCalled_unique {sel : List String} {objs : List ConfObj} (hd : DistinctZones sel objs) {zone : String} {z z' : ConfProps}
    (h : ZoneCalled (Active sel objs) zone z) (h' : ZoneCalled (Active sel objs) zone z') : z = z' := by
  obtain ⟨⟨o, ho, h1, h2⟩, h3⟩ := h
  obtain ⟨⟨o', ho', g1, g2⟩, g3⟩ := h'
  by_cases e : o = o'
  · subst e
    rw [h1] at g1
    exact Option.some.inj g1
  · have := List.pairwise_iff_getElem.1 hd
    obtain ⟨k, hk, rfl⟩ := List.mem_iff_getElem.1 ho
    obtain ⟨k', hk', rfl⟩ := List.mem_iff_getElem.1 ho'
    rcases Nat.lt_trichotomy k k' with hlt | rfl | hlt
    · exact absurd g3 (this k k' hk hk' hlt z z' zone h1 h2 g1 g2 h3)
    · exact absurd rfl e
    · exact absurd h3 (this k' k hk' hk hlt z' z zone g1 g2 h1 h2 g3)

section
variable {b : BusView} {sel : List String} {objs : List ConfObj} {r : Bool} {c : DbusCfg} {zone : String} {i : Int}

theorem zone_config (hw : ∀ o ∈ objs, OMap.WF o) (hd : DistinctZones sel objs) (h : dbusInit b sel objs = .ok (r, c))
    {zp : ConfProps} (hz : ZoneCalled (Active sel objs) zone zp) (hi : c.numbers.find? zone = some i) :
    ∃ z, c.zones.find? i = some z ∧ ZoneSettings zp z := by
  obtain ⟨n, i', z, h1, h2, h3, h4⟩ := (C82_settings hw hd h).2 zp hz.1
  rw [attr_unique text_unique h1 hz.2, hi] at h2
  rw [← Option.some.inj h2] at h3
  exact ⟨z, h3, h4⟩

theorem zone_open (hw : ∀ o ∈ objs, OMap.WF o) (h : dbusInit b sel objs = .ok (r, c)) {k : String} (hk : k ∈ loopInterfaces)
    {base : ConfProps} (hz : ForZone (Active sel objs) k zone base) :
    ∃ i conf, c.numbers.find? zone = some i ∧ c.pids.find? i = some conf := by
  obtain ⟨hA, zones, hzs, hmem⟩ := hz
  simp only [loopInterfaces, List.mem_cons, List.not_mem_nil, or_false] at hk
  obtain ⟨-, -, hp, hs⟩ := dbusInit_ok hw h
  rcases hk with rfl | rfl
  · obtain ⟨zones', h1, h2⟩ := hp base hA
    rw [attr_unique names_unique h1 hzs] at h2
    obtain ⟨names, -, i, conf, h3, h4, -⟩ := h2 zone hmem
    exact ⟨i, conf, h3, h4⟩
  · obtain ⟨zones', h1, h2⟩ := hs base hA
    rw [attr_unique names_unique h1 hzs] at h2
    obtain ⟨i, conf, h3, h4, -⟩ := h2 zone hmem
    exact ⟨i, conf, h3, h4⟩

/-! ## Sensors and fans -/

theorem sensor_bus (hw : ∀ o ∈ objs, OMap.WF o) (h : dbusInit b sel objs = .ok (r, c)) {n : String} (hn : SensorFor b sel objs n)
    {s : SensorConfig} (hs : c.sensors.find? n = some s) : s.unavailableAsFailed = true ∧ s.ignoreFailIfHostOff = false := by
  refine C114_agreed hw h hs (fun hf => ?_) hn.options
  obtain ⟨base, fan, h1, h2, h3⟩ := C114_controls hw h hs (.inl hf)
  exact hn.nofan base fan _ h1 h2 h3

omit F in
theorem fanNamed_iff {fan pwm m : String} : FanNamed fan pwm m ↔ m = sensorNameFromPath fan ++ sensorNameFromPath pwm := by
  constructor
  · rintro ⟨x, y, h1, h2, rfl⟩
    rw [(C85_sensor_name _ _).1 h1, (C85_sensor_name _ _).1 h2]
  · rintro rfl
    exact ⟨_, _, (C85_sensor_name _ _).2 rfl, (C85_sensor_name _ _).2 rfl, rfl⟩

/-- the inputs of a fan configuration are its pairs -/
theorem fan_names {base : ConfProps} {names : List String} (hn : PidNames b base names) (hc : Attr base "Class" TextValue "fan")
    {m : String} : m ∈ names ↔ ∃ fan pwm, FanPair b base fan pwm ∧ FanNamed fan pwm m := by
  cases hn with
  | heat h1 h2 =>
    rw [attr_unique text_unique h1 hc] at h2
    exact absurd h2 (by decide)
  | other h1 h2 =>
    rw [attr_unique text_unique h1 hc] at h2
    exact absurd List.mem_cons_self h2
  | fan h1 h2 h3 h4 =>
    rw [List.mem_map]
    constructor
    · rintro ⟨⟨⟨f, i⟩, ⟨p, j⟩⟩, hm, rfl⟩
      exact ⟨f, p, .mk h1 h2 h3 h4 hm, fanNamed_iff.2 rfl⟩
    · rintro ⟨f, p, ⟨g1, g2, g3, g4, g5⟩, hm⟩
      rw [attr_unique names_unique g2 h2, attr_unique names_unique g3 h3] at g4
      have := (pairFans_iff.2 g4).symm.trans (pairFans_iff.2 h4)
      injection this with this
      subst this
      exact ⟨_, g5, (fanNamed_iff.1 hm).symm⟩

theorem fanPair_class {base : ConfProps} {fan pwm : String} (h : FanPair b base fan pwm) : Attr base "Class" TextValue "fan" := by
  cases h with
  | mk h => exact h

theorem fan_entry (hw : ∀ o ∈ objs, OMap.WF o) (h : dbusInit b sel objs = .ok (r, c)) (hT : Tidy (Active sel objs) zone)
    {m path : String} (hf : FanFor b sel objs zone m path) : ∃ i conf, c.numbers.find? zone = some i ∧ c.pids.find? i = some conf ∧
      ∃ e ∈ conf.entries, IsFan e ∧ (∃ x ∈ e.2.inputs, x.name = m) ∧ ∃ s, c.sensors.find? m = some s := by
  obtain ⟨base, fan, hz, hp, hm⟩ := hf.pair
  have hc := fanPair_class hp
  obtain ⟨hA, zones, hzs, hmem⟩ := hz
  obtain ⟨zones', hzs', hin⟩ := ((C109_needs hw h).pids base hA).zones
  obtain ⟨hin, -⟩ := hin (by rw [attr_unique names_unique hzs' hzs]; exact List.ne_nil_of_mem hmem)
  obtain ⟨acceptable, hacc, -⟩ := hin.acceptable
  obtain ⟨names, -, -, hn, -⟩ := C83_present hw h hA hzs hmem
  have hmn : m ∈ names := (fan_names hn hc).2 ⟨fan, path, hp, hm⟩
  obtain ⟨i, conf, h1, h2, e, he, hE⟩ := entry_present hw h hT ⟨hA, zones, hzs, hmem⟩ (.pid rfl hn hacc) (List.ne_nil_of_mem hmn)
  obtain ⟨x, hx, rfl⟩ := (hE.names (.pid rfl hn hacc)).2 hmn
  obtain ⟨z, -, -, hwf, hall⟩ := (dbusInit_ok hw h).1.loops i conf h2
  refine ⟨i, conf, h1, h2, e, he, ?_, ⟨x, hx, rfl⟩,
    Option.ne_none_iff_exists'.1 ((hall e.1 e.2 ((OMap.mem_entries_iff hwf _ _).1 he)).sensors x hx)⟩
  rcases hE.kind with ⟨-, hs⟩ | ⟨hk, -⟩
  · exact attr_unique text_unique hs.type hc
  · exact absurd hk (by decide)

theorem fanOn_bus (hw : ∀ o ∈ objs, OMap.WF o) (h : dbusInit b sel objs = .ok (r, c)) {m path : String}
    (hf : FanFor b sel objs zone m path) {s : SensorConfig} (hs : c.sensors.find? m = some s) (dirs : Dirs) :
    FanOn dirs c.sensors m s path ∧ limitsOf s = some (0, 255) := by
  have hty : s.type = "fan" := by
    by_contra hne
    obtain ⟨base, hu, -⟩ := C114_flags hw h hs hne
    exact hf.nosensor base _ hu
  have hwp : s.writePath = path := by
    obtain ⟨base, fan, h1, h2, h3⟩ := C114_controls hw h hs (.inl hty)
    exact hf.same base fan _ h1 h2 h3
  obtain ⟨hmin, hmax⟩ : s.min = 0 ∧ s.max = 255 := by
    cases C85_fits hw h hs with
    | found _ _ _ g => exact absurd hty g
    | missing _ _ g => exact absurd hty g
    | fan _ _ _ _ g1 g2 => exact ⟨g1, g2⟩
  refine ⟨⟨hs, hty, fun _ => by rw [hmin, hmax]; decide, ?_, ?_⟩, by unfold limitsOf; rw [hmin, hmax]; rfl⟩
  · rw [← hwp]
    refine .dbus ?_
    rw [hwp]
    obtain ⟨base, fan, h1, h2, -⟩ := hf.pair
    exact hf.controls base fan path h1.1 h2
  · intro m' s' hne hs' hty' hw'
    obtain ⟨base, fan, h1, h2, h3⟩ := C114_controls hw h hs' (.inl hty')
    cases hw' with
    | dbus => exact hne (hf.only base fan m' h1 h2 h3)
    | sysfs hk _ =>
      have := hf.controls base fan _ h1 h2
      cases hk with
      | sysfs g =>
        cases this with
        | dbus _ g' => exact g' g

theorem onlyZone_bus (hw : ∀ o ∈ objs, OMap.WF o) (h : dbusInit b sel objs = .ok (r, c)) {m path : String}
    (hf : FanFor b sel objs zone m path) (hi : c.numbers.find? zone = some i) : OnlyZone c.pids i m := by
  intro j conf hj hp e he hF x hx hxm
  obtain ⟨zone', h1, -, hwf, hall⟩ := (dbusInit_ok hw h).1.loops j conf hp
  have hl := hall e.1 e.2 ((OMap.mem_entries_iff hwf _ _).1 he)
  have hF : e.2.type = "fan" := hF
  rcases hl.source with ⟨base, zones, a1, a2, a3, a4⟩ | ⟨base, zones, a1, a2, a3, a4⟩
  · have hc : Attr base "Class" TextValue "fan" := by
      cases a4 with
      | plain _ _ _ _ g => exact hF ▸ g.type
      | offset _ _ _ _ _ _ _ _ _ g => exact hF ▸ g.type
    cases a4 with
    | offset t _ _ _ _ _ _ hoff =>
      obtain ⟨v, hv, -⟩ := hoff
      rw [hf.plain base a1 hc] at hv
      cases hv
    | plain name g1 g2 g3 g4 g5 g6 =>
      obtain ⟨names, margins, acceptable, q1, -, q3, q4⟩ := g6
      have hm : m ∈ names := by
        rw [← q4.1]
        exact List.mem_map.2 ⟨x, hx, hxm⟩
      obtain ⟨fan, pwm, p1, p2⟩ := (fan_names q1 hc).1 hm
      have := hf.zones zone' base fan pwm ⟨a1, zones, a2, a3⟩ p1 p2
      subst this
      rw [h1] at hi
      exact hj (Option.some.inj hi)
  · rw [a4.type] at hF
    exact absurd hF (by decide)

end

/-! ## The start -/

/-- what is read from the bus -/
theorem read_from_bus {objs : List BusObject} {b : ConfBus} {reply : SubTree} {sel : List String} (hB : OnTheBus objs b reply sel)
    {h : HashOrder} {c : DbusCfg} (hc : busInit b h = .ok (true, c)) :
    ∃ l, l.Perm (confsOf objs) ∧ (∀ o ∈ l, OMap.WF o) ∧ DistinctZones sel l ∧ dbusInit (b.view h reply) sel l = .ok (true, c) := by
  obtain ⟨l, hp, he⟩ := C107_collected hB.subTree hB.mapper hB.managers hB.arranged hB.configured h
  have hp : l.Perm (confsOf objs) := hp
  have hi := hc
  rw [he, hB.profiles, ok_bind] at hi
  refine ⟨l, hp, fun o ho => ?_, ?_, hi⟩
  · obtain ⟨x, hx, rfl⟩ := List.mem_map.1 (hp.mem_iff.1 ho)
    exact hB.sorted x (List.mem_filter.1 hx).1
  · have hd := hB.suits.distinct
    unfold DistinctZones at hd ⊢
    refine (hp.symm.pairwise ?_ ?_)
    · exact hd.sublist (List.filter_sublist.map _)
    · intro o o' hoo z z' n a b' c' d' e f
      exact hoo z' z n c' d' a b' f e

/-- a daemon that runs from the bus -/
theorem runs_from_bus {o : Opts} {conf : String} {f : StartFiles} (hsrc : Source conf f none) {objs : List BusObject} {b : ConfBus}
    {reply : SubTree} {sel : List String} (hB : OnTheBus objs b reply sel) {h : HashOrder} {bus : BuildBus} {now : Int} {w : World}
    {d : Daemon} (hd : attempt o conf f b h bus now w = .running d) {c : DbusCfg} (hc : busInit b h = .ok (true, c))
    (started : Int → Int) :
    ∃ l, l.Perm (confsOf objs) ∧ (∀ o ∈ l, OMap.WF o) ∧ DistinctZones sel l ∧ dbusInit (b.view h reply) sel l = .ok (true, c) ∧
      (∀ e ∈ c.pids.entries, OMap.WF e.2) ∧
      (∃ td, WithBusTimers (Active sel (confsOf objs)) c.numbers started d td) ∧
      ∀ td, Timed.launch o bus now started w c.sensors c.pids c.zones = .ok td ↔
        WithBusTimers (Active sel (confsOf objs)) c.numbers started d td := by
  obtain ⟨l, hp, hwl, hdl, hi⟩ := read_from_bus hB hc
  obtain ⟨hcfg, -, -, -⟩ := dbusInit_ok hwl hi
  have hlw : ∀ e ∈ c.pids.entries, OMap.WF e.2 := by
    intro e he
    obtain ⟨z, -, -, hwf, -⟩ := hcfg.loops e.1 e.2 ((OMap.mem_entries_iff hcfg.wf _ _).1 he)
    exact hwf
  have hl : Daemon.launch o bus now w c.sensors c.pids c.zones = .ok d := by
    obtain ⟨c', h1, h2⟩ := ((C108_bus hsrc b h bus now w).1 d).1 hd
    rw [hc] at h1
    cases h1
    exact h2
  rw [← active_eq hp]
  obtain ⟨td, h1, h2⟩ := timed_of_launch started hcfg.wf hlw hl
  obtain ⟨w1, w2⟩ := launch_timers hcfg.wf hlw h1
  have hzone : ∀ k ∈ loopInterfaces, ∀ zone base, ForZone (Active sel l) k zone base → ∃ zp, ZoneCalled (Active sel l) zone zp := by
    rintro k hk zone base ⟨hA, zones, hzs, hmem⟩
    simp only [loopInterfaces, List.mem_cons, List.not_mem_nil, or_false] at hk
    have : ∃ x ∈ objs, (x.interfaces.find? pidInterface = some base ∨ x.interfaces.find? stepwiseInterface = some base) ∧
        Selected sel base := by
      rcases hk with rfl | rfl
      · obtain ⟨x, hx, g1, g2⟩ := (active_objs hp (.inl rfl) base).1 hA
        exact ⟨x, hx, .inl g1, g2⟩
      · obtain ⟨x, hx, g1, g2⟩ := (active_objs hp (.inr (.inr rfl)) base).1 hA
        exact ⟨x, hx, .inr g1, g2⟩
    obtain ⟨x, hx, g1, g2⟩ := this
    obtain ⟨x', hx', zp, g3, g4, g5⟩ := hB.suits.zones x hx base g1 g2 zones zone hzs hmem
    exact ⟨zp, (active_objs hp (.inr (.inl rfl)) zp).2 ⟨x', hx', g3, g4⟩, g5⟩
  have hloops : ∀ i conf, c.pids.find? i = some conf → ∃ zone, c.numbers.find? zone = some i ∧ ∃ k ∈ loopInterfaces, ∃ base,
      ForZone (Active sel l) k zone base := by
    intro i conf hpi
    obtain ⟨zone, g1, ⟨base, zones, g2, g3, g4⟩, -⟩ := hcfg.loops i conf hpi
    rcases g2 with g2 | g2
    · exact ⟨zone, g1, _, by simp [loopInterfaces], base, g2, zones, g3, g4⟩
    · exact ⟨zone, g1, _, by simp [loopInterfaces], base, g2, zones, g3, g4⟩
  have htd : WithBusTimers (Active sel l) c.numbers started d td := by
    refine ⟨h2, fun zone zp i k hk base n hz hni hF hcy => ?_, fun i hno => w2 i ?_, w1⟩
    · obtain ⟨z, g1, g2⟩ := zone_config hwl hdl hi hz hni
      obtain ⟨i', conf, g3, g4⟩ := zone_open hwl hi hk hF
      rw [hni] at g3
      cases g3
      rw [(timed_launch hcfg.wf hlw h1).2 i conf z g4 g1, cycleAttr_unique hcy g2.cycle]
    · cases hpi : c.pids.find? i with
      | none => rfl
      | some conf =>
        obtain ⟨zone, g1, k, hk, base, g2⟩ := hloops i conf hpi
        exact absurd g2 (hno zone g1 k hk base)
  refine ⟨l, hp, hwl, hdl, hi, hlw, ⟨td, htd⟩, fun td' => ⟨fun h => ?_, fun h => ?_⟩⟩
  · rw [h1] at h
    cases h
    exact htd
  · rw [h1]
    congr 1
    obtain ⟨d1, t1⟩ := td
    obtain ⟨d2, t2⟩ := td'
    have e1 : d1 = d2 := htd.daemon.trans h.daemon.symm
    have e2 : t1 = t2 := by
      refine omap_ext htd.sorted h.sorted (fun i => ?_)
      by_cases hz : ∃ zone, c.numbers.find? zone = some i ∧ ∃ k ∈ loopInterfaces, ∃ base, ForZone (Active sel l) k zone base
      · obtain ⟨zone, g1, k, hk, base, g2⟩ := hz
        obtain ⟨zp, g3⟩ := hzone k hk zone base g2
        obtain ⟨z, g4, g5⟩ := zone_config hwl hdl hi g3 g1
        exact (htd.timers zone zp i k hk base _ g3 g1 g2 g5.cycle).trans (h.timers zone zp i k hk base _ g3 g1 g2 g5.cycle).symm
      · have hno : ∀ zone, c.numbers.find? zone = some i → ∀ k ∈ loopInterfaces, ∀ base, ¬ ForZone (Active sel l) k zone base :=
          fun zone g1 k hk base g2 => hz ⟨zone, g1, k, hk, base, g2⟩
        exact (htd.others i hno).trans (h.others i hno).symm
    rw [e1, e2]

end
end Verif
