import Verif.Spec.Lasting
import Verif.Props.Demand

/-! # Helper lemmas: the input of a loop -/

namespace Verif
variable [F : FloatModel]
open Dbl

/-- the kind of controller for a type -/
def KindOf (type : String) (t : ThermalType) : Prop :=
  (t = .margin ∧ type = "margin") ∨ (t = .absolute ∧ (type = "temp" ∨ type = "power")) ∨ (t = .summation ∧ type = "powersum")

omit F in
theorem KindOf.margin [FloatModel] {type : String} {t : ThermalType} (h : KindOf type t) : t = .margin ↔ type = "margin" := by
  rcases h with ⟨rfl, rfl⟩ | ⟨rfl, rfl | rfl⟩ | ⟨rfl, rfl⟩ <;> simp

/-- what an input counts for -/
def counts (type : String) (i : SensorInput) (r : Dbl) : List Dbl :=
  if r.isFinite then [if type = "margin" ∧ i.convertTempToMargin = true then i.convertMarginZero - r else r] else []

theorem counted_cons (type : String) (i : SensorInput) (is : List SensorInput) (r : Dbl) (rs : List Dbl) :
    counted type (i :: is) (r :: rs) = counts type i r ++ counted type is rs := by
  unfold counts
  rw [counted]
  split_ifs <;> rfl

theorem inputOne_eq {type : String} {c : ThermalPid} (hk : KindOf type c.type) {z z' : ZoneData} {v v' : Dbl} {a a' : Bool}
    {i : SensorInput} (h : c.inputOne z v a i = .ok (z', v', a')) :
    ∃ e, z.cachedValuesByName.find? i.name = some e ∧ v' = (counts type i e.scaled).foldl (aggStep c.type) v ∧
      a' = (!(counts type i e.scaled).isEmpty || a) ∧ ∀ u ∈ counts type i e.scaled, u ≠ nan := by
  unfold ThermalPid.inputOne at h
  obtain ⟨e, he, h⟩ := bind_eq_ok.1 h
  refine ⟨e, (OMap.atKey_ok_iff _ _ _).1 he, ?_⟩
  dsimp only at h
  have tail : ∀ x : Dbl, (if (!v.eqb x) = true then do
        let z ← z.updateThermalPowerDebugInterface c.id i.name x 0
        Except.ok (z, x, true)
      else Except.ok (z, x, true)) = .ok (z', v', a') → v' = x ∧ a' = true := by
    intro x h
    split_ifs at h with h2
    · obtain ⟨z1, h3, h4⟩ := bind_eq_ok.1 h
      cases h4
      exact ⟨rfl, rfl⟩
    · cases h; exact ⟨rfl, rfl⟩
  unfold counts
  have hm := hk.margin
  split_ifs at h with h1 h2 h3
  · cases h
    have h1 : e.scaled.isFinite = false := by simpa using h1
    simp [h1]
  · cases h
  · obtain ⟨t1, t2⟩ := tail _ h
    have h1 : e.scaled.isFinite = true := by simpa using h1
    have h3 : i.convertMarginZero.isFinite = true := by simpa using h3
    rw [t1, t2, if_pos h1, if_pos ⟨hm.1 h2.1, h2.2⟩, h2.1]
    refine ⟨rfl, rfl, ?_⟩
    intro u hu
    rw [List.mem_singleton] at hu
    rw [hu]
    cases hq : i.convertMarginZero with
    | fin q hq' =>
      cases hr : e.scaled with
      | fin r hr' => rw [fin_sub_fin]; exact ofRat_ne_nan _
      | _ => rw [hr] at h1; cases h1
    | _ => rw [hq] at h3; cases h3
  · obtain ⟨t1, t2⟩ := tail _ h
    have h1 : e.scaled.isFinite = true := by simpa using h1
    rw [t1, t2, if_pos h1, if_neg (fun hh => h2 ⟨hm.2 hh.1, hh.2⟩)]
    refine ⟨?_, rfl, ?_⟩
    · cases c.type <;> rfl
    · intro u hu
      rw [List.mem_singleton] at hu
      rw [hu]
      intro hn
      rw [hn] at h1
      cases h1

theorem inputLoop_eq {type : String} {c : ThermalPid} (hk : KindOf type c.type) : ∀ {is : List SensorInput} {z z' : ZoneData}
    {v v' : Dbl} {a a' : Bool}, c.inputLoop z v a is = .ok (z', v', a') →
    ∃ rs, List.Forall₂ (fun i r => ∃ e, z.cachedValuesByName.find? (SensorInput.name i) = some e ∧ e.scaled = r) is rs ∧
      v' = (counted type is rs).foldl (aggStep c.type) v ∧ a' = (!(counted type is rs).isEmpty || a) ∧
      ∀ u ∈ counted type is rs, u ≠ nan
  | [], z, z', v, v', a, a', h => by
    cases h
    exact ⟨[], .nil, rfl, rfl, fun u hu => by cases hu⟩
  | i :: is, z, z', v, v', a, a', h => by
    unfold ThermalPid.inputLoop at h
    obtain ⟨⟨z1, v1, a1⟩, h1, h2⟩ := bind_eq_ok.1 h
    obtain ⟨e, q1, q2, q3, q4⟩ := inputOne_eq hk h1
    obtain ⟨rs, p1, p2, p3, p4⟩ := inputLoop_eq hk h2
    rw [(inputOne_only h1).cache] at p1
    refine ⟨e.scaled :: rs, .cons ⟨e, q1, rfl⟩ p1, ?_, ?_, ?_⟩
    · rw [counted_cons, List.foldl_append, ← q2]; exact p2
    · rw [counted_cons, p3, q3]
      cases counts type i e.scaled <;> simp
    · intro u hu
      rw [counted_cons, List.mem_append] at hu
      exact hu.elim (q4 u) (p4 u)

theorem counted_finite {type : String} (h : type ≠ "margin") : ∀ {is : List SensorInput} {rs : List Dbl} {u : Dbl},
    u ∈ counted type is rs → u.isFinite = true
  | [], _, u, hu => by simp [counted] at hu
  | _ :: _, [], u, hu => by simp [counted] at hu
  | i :: is, r :: rs, u, hu => by
    rw [counted_cons, List.mem_append] at hu
    rcases hu with hu | hu
    · unfold counts at hu
      rw [if_neg (fun hh : type = "margin" ∧ _ => h hh.1)] at hu
      split_ifs at hu with hf
      · rw [List.mem_singleton] at hu; rw [hu]; exact hf
      · cases hu
    · exact counted_finite h hu

theorem inputProc_eq {type : String} {c : ThermalPid} (hk : KindOf type c.type) {z z' : ZoneData} {v : Dbl}
    (h : c.inputProc z = .ok (z', v)) :
    ∃ rs, List.Forall₂ (fun i r => ∃ e, z.cachedValuesByName.find? (SensorInput.name i) = some e ∧ e.scaled = r) c.inputs rs ∧
      InputOver type c.setpoint (counted type c.inputs rs) v := by
  have key : ∃ z1 v1 a1, c.inputLoop z (aggStart c.type) false c.inputs = .ok (z1, v1, a1) ∧
      v = if a1 then v1 else c.setpoint := by
    unfold ThermalPid.inputProc at h
    split_ifs at h
    obtain ⟨⟨z1, v1, a1⟩, h1, h2⟩ := bind_eq_ok.1 h
    cases h2
    exact ⟨_, v1, a1, by cases hc : c.type <;> simpa [aggStart, hc] using h1, rfl⟩
  obtain ⟨z1, v1, a1, h1, rfl⟩ := key
  obtain ⟨rs, p1, p2, p3, p4⟩ := inputLoop_eq hk h1
  refine ⟨rs, p1, ?_⟩
  by_cases hl : counted type c.inputs rs = []
  · rw [hl] at p3 ⊢
    rw [p3]
    exact .nothing
  · have : a1 = true := by
      rw [p3, Bool.or_false]
      simpa using hl
    rw [this, if_pos rfl, p2]
    rcases hk with ⟨ht, rfl⟩ | ⟨ht, hty⟩ | ⟨ht, rfl⟩
    · rw [ht]
      have hs := foldl_cmin_smallest (counted "margin" c.inputs rs) (aggStart_ne_nan .margin)
      refine .smallest rfl hl ?_ (fun u hu => hs.2 u ((List.mem_cons.1 hu).imp id (fun h => ⟨h, p4 u h⟩)))
      rcases hs.1 with h | h
      · exact List.mem_cons.2 (.inl h)
      · exact List.mem_cons.2 (.inr h.1)
    · have hne : type ≠ "margin" := by rcases hty with rfl | rfl <;> decide
      rw [ht]
      have hs := foldl_cmax_largest (counted type c.inputs rs) (aggStart_ne_nan .absolute)
      have hup : ∀ u ∈ counted type c.inputs rs, u ≤ (counted type c.inputs rs).foldl cmax (aggStart .absolute) :=
        fun u hu => hs.2 u (.inr ⟨hu, p4 u hu⟩)
      refine .largest hty ?_ hup
      rcases hs.1 with h | h
      · obtain ⟨u, hu⟩ := List.exists_mem_of_ne_nil _ hl
        have h1 := hup u hu
        rw [h] at h1
        have h2 : lowest ≤ u := lowest_le_finite (counted_finite hne hu)
        have h3 : u = (counted type c.inputs rs).foldl cmax (aggStart .absolute) := by rw [h]; exact Dbl.le_antisymm h1 h2
        show (counted type c.inputs rs).foldl cmax (aggStart .absolute) ∈ _
        rw [← h3]; exact hu
      · exact h.1
    · rw [ht]
      exact .sum rfl hl

/-- in the zone the loop sees only inputs with property `G` -/
def Fed (t : ThermalType) (s : Dbl) (inputs : List SensorInput) (G : Dbl → Prop) (z : ZoneData) : Prop :=
  ∀ c z1 z2 v, ThermalPid.type c = t → c.setpoint = s → c.inputs = inputs → z1.cachedValuesByName = z.cachedValuesByName →
    c.inputProc z1 = .ok (z2, v) → G v

theorem fed_of {e : ControllerInfo} {t : ThermalType} (hk : KindOf e.type t) {G : Dbl → Prop} {ti : List String} {w : World}
    (hti : ∀ j ∈ e.inputs, j.name ∈ ti) (h : ∀ v, Sees w e v → G v) : Fine (Fed t e.setpoint e.inputs G) ti w := by
  intro z d hz hu c z1 z2 v h1 h2 h3 h4 h5
  rw [← h1] at hk
  obtain ⟨rs, p1, p2⟩ := inputProc_eq hk h5
  rw [h3] at p1
  refine h v ⟨rs, ?_, by rw [← h2, ← h3]; exact p2⟩
  rw [h4] at p1
  have hp := (pollAll_spec hu).sensor
  rw [hz] at hp
  clear p2 h5 h3 h
  generalize e.inputs = is at p1 hti
  induction p1 with
  | nil => exact .nil
  | @cons i r is rs q _ ih =>
    refine .cons ?_ (ih (fun j hj => hti j (List.mem_cons_of_mem _ hj)))
    obtain ⟨y, hy1, hy2⟩ := q
    obtain ⟨s, rr, f, a1, a2, _, a4⟩ := hp i.name (hti i List.mem_cons_self)
    rw [hy1] at a4
    cases a4
    exact ⟨s, rr, a1, a2, hy2⟩

omit F in
theorem gives_unique [FloatModel] {w : World} {n : String} {r r' : Dbl} (h : GivesReading w n r) (h' : GivesReading w n r') : r = r' := by
  obtain ⟨s, a, h1, h2, rfl⟩ := h
  obtain ⟨s', a', h3, h4, rfl⟩ := h'
  rw [h1] at h3
  cases h3
  rw [h2] at h4
  cases h4
  rfl

theorem value_counted {type : String} {w : World} {is : List SensorInput} {rs : List Dbl}
    (h : List.Forall₂ (fun i r => GivesReading w (SensorInput.name i) r) is rs) {i : SensorInput} (hi : i ∈ is) {r : Dbl}
    (hr : GivesReading w i.name r) (hf : r.isFinite = true) :
    (if type = "margin" ∧ i.convertTempToMargin = true then i.convertMarginZero - r else r) ∈ counted type is rs := by
  induction h with
  | nil => cases hi
  | @cons j u is rs hj _ ih =>
    rw [counted_cons, List.mem_append]
    rcases List.mem_cons.1 hi with rfl | hi
    · left
      rw [gives_unique hj hr]
      unfold counts
      rw [if_pos hf]
      exact List.mem_singleton.2 rfl
    · exact .inr (ih hi)

theorem reading_counted {type : String} (hne : type ≠ "margin") {w : World} {is : List SensorInput} {rs : List Dbl}
    (h : List.Forall₂ (fun i r => GivesReading w (SensorInput.name i) r) is rs) {i : SensorInput} (hi : i ∈ is) {r : Dbl}
    (hr : GivesReading w i.name r) (hf : r.isFinite = true) : r ∈ counted type is rs := by
  have := value_counted (type := type) h hi hr hf
  rwa [if_neg (fun hh => hne hh.1)] at this

theorem counted_reading {type : String} (hne : type ≠ "margin") {w : World} {is : List SensorInput} {rs : List Dbl}
    (h : List.Forall₂ (fun i r => GivesReading w (SensorInput.name i) r) is rs) {u : Dbl} (hu : u ∈ counted type is rs) :
    ∃ i ∈ is, GivesReading w i.name u ∧ u.isFinite = true := by
  induction h with
  | nil => simp [counted] at hu
  | @cons j r is rs hj _ ih =>
    rw [counted_cons, List.mem_append] at hu
    rcases hu with hu | hu
    · unfold counts at hu
      rw [if_neg (fun hh : type = "margin" ∧ _ => hne hh.1)] at hu
      split_ifs at hu with hf
      · rw [List.mem_singleton] at hu
        rw [hu]
        exact ⟨j, List.mem_cons_self, hj, hf⟩
      · cases hu
    · obtain ⟨i, hi, h⟩ := ih hu
      exact ⟨i, List.mem_cons_of_mem _ hi, h⟩

theorem nonneg_add {a b : Dbl} (ha : 0 ≤ a) (hb : 0 ≤ b) : 0 ≤ a + b ∧ a ≤ a + b ∧ b ≤ a + b := by
  have key : ∀ p q : Rat, 0 ≤ q → (p : Rat) ≤ p + q := fun p q h => by linarith
  rw [zero_eq] at *
  cases a with
  | nan => simp at ha
  | ninf => simp at ha
  | pinf => cases b <;> simp_all [add_def, Dbl.add]
  | fin p hp =>
    cases b with
    | nan => simp at hb
    | ninf => simp at hb
    | pinf => simp [add_def, Dbl.add]
    | fin q hq =>
      rw [fin_le_fin] at ha hb
      rw [fin_add_fin]
      have h0 : (fin 0 FloatModel.rep_zero : Dbl) ≤ ofRat (p + q) := by
        rw [← ofRat_rep FloatModel.rep_zero]; exact ofRat_mono (by linarith)
      have h1 : (fin p hp : Dbl) ≤ ofRat (p + q) := by
        conv_lhs => rw [← ofRat_rep hp]
        exact ofRat_mono (by linarith)
      have h2 : (fin q hq : Dbl) ≤ ofRat (p + q) := by
        conv_lhs => rw [← ofRat_rep hq]
        exact ofRat_mono (by linarith)
      exact ⟨h0, h1, h2⟩

theorem sum_ge : ∀ {l : List Dbl} {a : Dbl}, (∀ u ∈ l, 0 ≤ u) → a ≠ nan → 0 ≤ a →
    a ≤ l.foldl (· + ·) a ∧ ∀ u ∈ l, u ≤ l.foldl (· + ·) a
  | [], a, _, hn, _ => ⟨Dbl.le_refl hn, fun u hu => by cases hu⟩
  | b :: l, a, h, hn, ha => by
    obtain ⟨q1, q2, q3⟩ := nonneg_add ha (h b List.mem_cons_self)
    obtain ⟨r1, r2⟩ := sum_ge (l := l) (fun u hu => h u (List.mem_cons_of_mem _ hu)) (Dbl.ne_nan_of_le_right q1) q1
    refine ⟨Dbl.le_trans q2 r1, fun u hu => ?_⟩
    rcases List.mem_cons.1 hu with rfl | hu
    · exact Dbl.le_trans q3 r1
    · exact r2 u hu

end Verif
