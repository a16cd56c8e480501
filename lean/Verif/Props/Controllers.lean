import Verif.Base.Binary64
import Verif.Lemmas.Controllers
import Verif.Lemmas.Profile
import Verif.Lemmas.Stepwise
import Verif.Spec.Example

/-! # Properties of the controllers: C14 - C22 -/

namespace Verif
open Dbl

section
variable [F : FloatModel]

/-! ## C14 -/

/-- C14: a ceiling controller only appends one ceiling; everything else in the zone is untouched. -/
theorem C14_ceiling {c c' : StepwiseCtl} {z z' : ZoneData} (hc : c.info.isCeiling = true)
    (h : c.process z = .ok (z', c')) :
    ∃ v, z' = { z with rpmCeilings := z.rpmCeilings ++ [v] } := by
  unfold StepwiseCtl.process at h
  obtain ⟨i, _, h⟩ := bind_eq_ok.1 h
  simp only [hc, if_true] at h
  cases h
  exact ⟨_, rfl⟩

/-- C14: any other stepwise controller leaves the ceilings alone and changes no request but its own. -/
theorem C14_setpoint {c c' : StepwiseCtl} {z z' : ZoneData} (hc : c.info.isCeiling = false)
    (h : c.process z = .ok (z', c')) :
    z'.rpmCeilings = z.rpmCeilings ∧
      ∃ own, (if z.accumulateSetPoint then IsProfile c.id own else own = c.id) ∧
        ∀ n, n ≠ own → z'.setPoints.find? n = z.setPoints.find? n := by
  unfold StepwiseCtl.process at h
  obtain ⟨i, _, h⟩ := bind_eq_ok.1 h
  simp only [hc] at h
  obtain ⟨z1, h1, h⟩ := bind_eq_ok.1 h
  cases h
  obtain ⟨p, _, h1⟩ := addSetPoint_ok h1
  have hown : if z.accumulateSetPoint then IsProfile c.id (if z.accumulateSetPoint then ZoneData.profileName c.id else c.id)
      else (if z.accumulateSetPoint then ZoneData.profileName c.id else c.id) = c.id := by
    cases z.accumulateSetPoint
    · rfl
    · exact (isProfile_iff _ _).2 rfl
  by_cases he : p.enabled = true
  · rw [if_pos he] at h1; subst h1
    exact ⟨rfl, _, hown, fun n hn => OMap.find?_insert_ne _ hn _⟩
  · rw [if_neg he] at h1; subst h1
    exact ⟨rfl, _, hown, fun _ _ => rfl⟩

/-! ## C15 -/

/-- C15: the input of a stepwise controller is the largest non-NaN reading of its inputs, counting the lowest double
as a reading (only -inf is below it). -/
theorem C15_hottest {z : ZoneData} {inputs : List String} (h : ∀ n ∈ inputs, ∃ x, Reads z n x) :
    ∃ v, StepwiseCtl.inputLoop z lowest inputs = .ok v ∧
      Largest (fun x => x = lowest ∨ (x ≠ nan ∧ ∃ n ∈ inputs, Reads z n x)) v := by
  refine ⟨_, stepInput_eq z inputs lowest h, ?_⟩
  refine (foldl_cmax_largest _ (by simp [lowest])).congr (fun x => ?_)
  constructor
  · rintro (hx | ⟨hx, hn⟩)
    · exact .inl hx
    · obtain ⟨n, hn1, rfl⟩ := List.mem_map.1 hx
      obtain ⟨y, hy⟩ := h n hn1
      exact .inr ⟨hn, n, hn1, by rw [hy.scaledOf]; exact hy⟩
  · rintro (hx | ⟨hn, n, hn1, hx⟩)
    · exact .inl hx
    · exact .inr ⟨List.mem_map.2 ⟨n, hn1, hx.scaledOf⟩, hn⟩

/-- C15: with only NaN readings the input is the lowest double. -/
theorem C15_all_nan {z : ZoneData} {inputs : List String} (h : ∀ n ∈ inputs, Reads z n nan) :
    StepwiseCtl.inputLoop z lowest inputs = .ok lowest := by
  obtain ⟨v, h1, h2, _⟩ := C15_hottest (fun n hn => ⟨nan, h n hn⟩)
  rcases h2 with h2 | ⟨hn, n, hn1, h2⟩
  · rw [h1, h2]
  · exact absurd ((h2.scaledOf).symm.trans (h n hn1).scaledOf) hn

/-- C15: the order of the inputs does not matter. -/
theorem C15_order {z : ZoneData} {inputs inputs' : List String} (hp : inputs.Perm inputs')
    (h : ∀ n ∈ inputs, ∃ x, Reads z n x) :
    StepwiseCtl.inputLoop z lowest inputs = StepwiseCtl.inputLoop z lowest inputs' := by
  obtain ⟨v, h1, h2⟩ := C15_hottest h
  obtain ⟨v', h1', h2'⟩ := C15_hottest (fun n hn => h n (hp.mem_iff.2 hn))
  rw [h1, h1', h2.unique (h2'.congr (fun x => by simp only [hp.mem_iff]))]

/-- C15: when some reading is a finite number or +inf, the input is one of the readings. -/
theorem C15_is_a_reading {z : ZoneData} {inputs : List String} (h : ∀ n ∈ inputs, ∃ x, Reads z n x)
    {n : String} (hn : n ∈ inputs) {x : Dbl} (hx : Reads z n x) (hl : lowest ≤ x) :
    ∃ v, StepwiseCtl.inputLoop z lowest inputs = .ok v ∧ ∃ m ∈ inputs, Reads z m v := by
  obtain ⟨v, h1, h2, h3⟩ := C15_hottest h
  refine ⟨v, h1, ?_⟩
  rcases h2 with h2 | ⟨_, h2⟩
  · have := h3 x (.inr ⟨ne_nan_of_le_right hl, n, hn, hx⟩)
    rw [h2] at this ⊢
    exact ⟨n, hn, (Dbl.le_antisymm hl this) ▸ hx⟩
  · exact h2

/-! ## C16 -/

theorem contribution_ne_nan {t : ThermalType} {i : SensorInput} {r x : Dbl}
    (hm : t = .margin → i.convertTempToMargin = true → i.convertMarginZero.isFinite = true)
    (h : contribution t i r = some x) : x ≠ nan := by
  cases r with
  | fin q hq =>
    simp only [contribution, Option.some.injEq] at h
    split_ifs at h with hc
    · obtain ⟨p, hp, e⟩ := isFinite_iff.1 (hm hc.1 hc.2)
      rw [← h, e, fin_sub_fin]
      exact ofRat_ne_nan _
    · rw [← h]; simp
  | _ => simp [contribution] at h

theorem Contributes.ne_nan {c : ThermalPid} {z : ZoneData} (hr : ThermalReady c z) {i : SensorInput} {x : Dbl}
    (h : Contributes c z i x) : x ≠ nan := by
  obtain ⟨hi, r, _, h⟩ := h
  exact contribution_ne_nan (fun ht => hr.tjmax ht i hi) h

theorem lowest_le_fin {q : Rat} {h : F.rep q} : lowest ≤ fin q h := by
  simp only [lowest, fin_le_fin]; exact FloatModel.neg_le_rep h

theorem fin_le_dblMax {q : Rat} {h : F.rep q} : fin q h ≤ dblMax := by
  simp only [dblMax, fin_le_fin]; exact F.rep_le h

/-- C16: a temperature/power loop uses the largest of its usable readings. -/
theorem C16_absolute {c : ThermalPid} {z : ZoneData} (hr : ThermalReady c z) (ht : c.type = .absolute)
    (hu : ∃ i x, Contributes c z i x) :
    ∃ z' v, c.inputProc z = .ok (z', v) ∧ Largest (fun x => ∃ i, Contributes c z i x) v := by
  obtain ⟨z', _, h2, _⟩ := inputProc_spec hr
  obtain ⟨i, x, hx⟩ := hu
  have hm := (mem_contribs hr.cached x).2 ⟨i, hx⟩
  rw [if_neg (List.ne_nil_of_mem hm)] at h2
  refine ⟨z', _, h2, ?_⟩
  have hl := foldl_cmax_largest (contribs c.type z c.inputs) (aggStart_ne_nan .absolute)
  simp only [ht] at hl ⊢
  change Largest _ (List.foldl cmax (aggStart .absolute) _)
  have hmem : ∀ y, (∃ i, Contributes c z i y) → y ∈ contribs .absolute z c.inputs := by
    intro y hy
    have := (mem_contribs hr.cached y).2 hy
    rwa [ht] at this
  have hup : ∀ y, (∃ i, Contributes c z i y) →
      y ≤ List.foldl cmax (aggStart .absolute) (contribs .absolute z c.inputs) :=
    fun y hy => hl.2 y (.inr ⟨hmem y hy, by obtain ⟨i, hy⟩ := hy; exact hy.ne_nan hr⟩)
  refine ⟨?_, hup⟩
  rcases hl.1 with h1 | h1
  · have h3 := hup x ⟨i, hx⟩
    rw [h1] at h3 ⊢
    have h4 : (aggStart .absolute) ≤ x := by
      obtain ⟨_, r, _, hx'⟩ := hx
      cases r with
      | fin q h =>
        simp only [contribution, ht, reduceCtorEq, false_and, if_false, Option.some.injEq] at hx'
        rw [← hx']; exact lowest_le_fin
      | _ => simp [contribution] at hx'
    exact ⟨i, (Dbl.le_antisymm h3 h4) ▸ hx⟩
  · have h3 := h1.1
    exact (mem_contribs hr.cached _).1 (by rw [ht]; exact h3)

/-- C16: a margin loop uses the smallest of its usable (converted) readings. The proviso excludes conversions that
overflow to +inf. -/
theorem C16_margin {c : ThermalPid} {z : ZoneData} (hr : ThermalReady c z) (ht : c.type = .margin)
    (hu : ∃ i x, Contributes c z i x ∧ x ≠ pinf) :
    ∃ z' v, c.inputProc z = .ok (z', v) ∧ Smallest (fun x => ∃ i, Contributes c z i x) v := by
  obtain ⟨z', _, h2, _⟩ := inputProc_spec hr
  obtain ⟨i, x, hx, hxp⟩ := hu
  have hm := (mem_contribs hr.cached x).2 ⟨i, hx⟩
  rw [if_neg (List.ne_nil_of_mem hm)] at h2
  refine ⟨z', _, h2, ?_⟩
  have hl := foldl_cmin_smallest (contribs c.type z c.inputs) (aggStart_ne_nan .margin)
  simp only [ht] at hl ⊢
  change Smallest _ (List.foldl cmin (aggStart .margin) _)
  have hmem : ∀ y, (∃ i, Contributes c z i y) → y ∈ contribs .margin z c.inputs := by
    intro y hy
    have := (mem_contribs hr.cached y).2 hy
    rwa [ht] at this
  have hlo : ∀ y, (∃ i, Contributes c z i y) →
      List.foldl cmin (aggStart .margin) (contribs .margin z c.inputs) ≤ y :=
    fun y hy => hl.2 y (.inr ⟨hmem y hy, by obtain ⟨i, hy⟩ := hy; exact hy.ne_nan hr⟩)
  refine ⟨?_, hlo⟩
  rcases hl.1 with h1 | h1
  · have h3 := hlo x ⟨i, hx⟩
    rw [h1] at h3 ⊢
    have h4 : x ≤ (aggStart .margin) := by
      have hn := hx.ne_nan hr
      cases x with
      | fin q h => exact fin_le_dblMax
      | nan => exact absurd rfl hn
      | pinf => exact absurd rfl hxp
      | ninf => simp [aggStart, dblMax]
    exact ⟨i, (Dbl.le_antisymm h4 h3) ▸ hx⟩
  · exact (mem_contribs hr.cached _).1 (by rw [ht]; exact h1.1)

/-- C16: a power-sum loop adds up the finite readings, in input order. -/
theorem C16_summation {c : ThermalPid} {z : ZoneData} (hr : ThermalReady c z) (ht : c.type = .summation)
    {rs : List Dbl} (hrs : List.Forall₂ (fun i r => Reads z i.name r) c.inputs rs)
    (hu : ∃ r ∈ rs, r.isFinite = true) :
    ∃ z', c.inputProc z = .ok (z', (rs.filter (fun r => r.isFinite)).foldl (· + ·) 0) := by
  obtain ⟨z', _, h2, _⟩ := inputProc_spec hr
  have key : ∀ (is : List SensorInput) (rs : List Dbl), List.Forall₂ (fun i r => Reads z i.name r) is rs →
      contribs .summation z is = rs.filter (fun r => r.isFinite) := by
    intro is rs h
    induction h with
    | nil => rfl
    | @cons i r is rs h1 _ ih =>
      have e : contribs .summation z (i :: is) = (contribution .summation i r).toList ++ contribs .summation z is := by
        simp only [contribs, List.filterMap_cons, h1.scaledOf]
        cases contribution .summation i r <;> rfl
      rw [e, ih]
      cases r <;> simp [contribution, isFinite]
  have e := key _ _ hrs
  rw [ht, e] at h2
  have hne : rs.filter (fun r => r.isFinite) ≠ [] := by
    obtain ⟨r, h3, h4⟩ := hu
    exact List.ne_nil_of_mem (List.mem_filter.2 ⟨h3, h4⟩)
  rw [if_neg hne] at h2
  exact ⟨z', h2⟩

/-- C16: for minimum and maximum loops the order of the inputs does not matter. -/
theorem C16_order {c : ThermalPid} {z : ZoneData} (hr : ThermalReady c z) (ht : c.type ≠ .summation)
    {inputs' : List SensorInput} (hp : c.inputs.Perm inputs') :
    ∃ z1 z2 v, c.inputProc z = .ok (z1, v) ∧ { c with inputs := inputs' }.inputProc z = .ok (z2, v) := by
  have hr' : ThermalReady { c with inputs := inputs' } z :=
    { nonempty := fun h => by
        have h' : inputs' = [] := h
        rw [h'] at hp; exact hr.nonempty hp.eq_nil
      cached := fun i hi => hr.cached i (hp.mem_iff.2 hi)
      proc := hr.proc
      tjmax := fun ht i hi => hr.tjmax ht i (hp.mem_iff.2 hi) }
  obtain ⟨z1, _, h1, _⟩ := inputProc_spec hr
  obtain ⟨z2, _, h2, _⟩ := inputProc_spec hr'
  refine ⟨z1, z2, _, h1, ?_⟩
  rw [h2]
  simp only
  have hcp : (contribs c.type z inputs').Perm (contribs c.type z c.inputs) := List.Perm.filterMap _ hp.symm
  have hnil : contribs c.type z inputs' = [] ↔ contribs c.type z c.inputs = [] :=
    ⟨fun h => by rw [h] at hcp; exact hcp.symm.eq_nil, fun h => by rw [h] at hcp; exact hcp.eq_nil⟩
  simp only [hnil]
  congr 2
  split_ifs
  · rfl
  · cases h : c.type with
    | summation => exact absurd h ht
    | margin =>
      rw [h] at hcp
      exact (foldl_cmin_smallest _ (aggStart_ne_nan .margin)).unique
        ((foldl_cmin_smallest _ (aggStart_ne_nan .margin)).congr (fun x => by rw [hcp.mem_iff]))
    | absolute =>
      rw [h] at hcp
      exact (foldl_cmax_largest _ (aggStart_ne_nan .absolute)).unique
        ((foldl_cmax_largest _ (aggStart_ne_nan .absolute)).congr (fun x => by rw [hcp.mem_iff]))

/-! ## C17 -/

/-- C17: with no finite reading the loop's input is its set point; for a finite set point the error is exactly 0. -/
theorem C17_neutral {c : ThermalPid} {z : ZoneData} (hr : ThermalReady c z)
    (hn : ∀ i ∈ c.inputs, ∀ x, Reads z i.name x → x.isFinite = false) :
    ∃ z', c.inputProc z = .ok (z', c.setpoint) ∧
      (c.setpoint.isFinite = true → c.setpoint - c.setpoint = 0) := by
  obtain ⟨z', _, h2, _⟩ := inputProc_spec hr
  have e : contribs c.type z c.inputs = [] := by
    rw [List.eq_nil_iff_forall_not_mem]
    intro x hx
    obtain ⟨i, hi, r, hr', hx⟩ := (mem_contribs hr.cached x).1 hx
    have := hn i hi r hr'
    cases r <;> simp [contribution, isFinite] at hx this
  rw [if_pos e] at h2
  refine ⟨z', h2, fun hf => ?_⟩
  obtain ⟨q, h, e⟩ := isFinite_iff.1 hf
  rw [e]; exact sub_self_fin

/-! ## C18 -/

/-- C18: in a margin loop, the loop's input is at most `Tjmax - T` for each converted input reading `T`, at most `T` for
each other one, and equals one of these values. -/
theorem C18_conversion {c : ThermalPid} {z : ZoneData} (hr : ThermalReady c z) (ht : c.type = .margin)
    (hu : ∃ i x, Contributes c z i x ∧ x ≠ pinf) :
    ∃ z' v, c.inputProc z = .ok (z', v) ∧
      (∀ i ∈ c.inputs, ∀ q h, Reads z i.name (fin q h) →
        v ≤ if i.convertTempToMargin then i.convertMarginZero - fin q h else fin q h) ∧
      ∃ i ∈ c.inputs, ∃ q h, Reads z i.name (fin q h) ∧
        v = if i.convertTempToMargin then i.convertMarginZero - fin q h else fin q h := by
  obtain ⟨z', v, h1, ⟨i, hi, r, hri, hx⟩, h3⟩ := C16_margin hr ht hu
  refine ⟨z', v, h1, ?_, ?_⟩
  · intro j hj q h hq
    apply h3
    exact ⟨j, hj, fin q h, hq, by simp [contribution, ht]⟩
  · cases r with
    | fin q h => exact ⟨i, hi, q, h, hri, by simpa [contribution, ht] using hx.symm⟩
    | _ => simp [contribution] at hx

theorem inputLoop_tjmax (c : ThermalPid) (ht : c.type = .margin) : ∀ (is : List SensorInput) (z : ZoneData) (v : Dbl)
    (a : Bool), (∃ p, z.procs.find? c.id = some p) → (∀ i ∈ is, ∃ x, Reads z i.name x) →
    (∃ i ∈ is, i.convertTempToMargin = true ∧ i.convertMarginZero.isFinite = false ∧ (scaledOf z i.name).isFinite = true) →
    c.inputLoop z v a is = .error (.exc "Unrecognized TempToMargin")
  | [], z, v, a, _, _, h => by simp at h
  | i :: is, z, v, a, hp, hc, h => by
    obtain ⟨x, hx⟩ := hc i List.mem_cons_self
    by_cases hb : i.convertTempToMargin = true ∧ i.convertMarginZero.isFinite = false ∧ (scaledOf z i.name).isFinite = true
    · obtain ⟨e, h1, h2⟩ := hx.getCached
      obtain ⟨b1, b2, b3⟩ := hb
      rw [hx.scaledOf] at b3
      simp [ThermalPid.inputLoop, ThermalPid.inputOne, h1, h2, b1, b2, b3, ht]
    · have hone : ∃ z1 v1 a1, DebugOnly z z1 ∧ c.inputOne z v a i = .ok (z1, v1, a1) := by
        by_cases hm : i.convertTempToMargin = true → i.convertMarginZero.isFinite = true
        · obtain ⟨z1, d, e, _⟩ := inputOne_spec c z v a i hp ⟨x, hx⟩ (fun _ => hm)
          exact ⟨_, _, _, d, e⟩
        · have h1 : i.convertTempToMargin = true := by
            by_contra h'; exact hm (fun h'' => absurd h'' h')
          have h2 : i.convertMarginZero.isFinite = false := by
            by_contra h'; exact hm (fun _ => by simpa using h')
          have h3 : (scaledOf z i.name).isFinite = false := by
            by_contra h'; exact hb ⟨h1, h2, by simpa using h'⟩
          rw [hx.scaledOf] at h3
          obtain ⟨e, h4, h5⟩ := hx.getCached
          exact ⟨z, v, a, DebugOnly.refl z, by simp [ThermalPid.inputOne, h4, h5, h3]⟩
      obtain ⟨z1, v1, a1, d, e⟩ := hone
      simp only [ThermalPid.inputLoop, e, ok_bind]
      apply inputLoop_tjmax c ht is z1 v1 a1 (d.proc hp)
      · intro j hj
        obtain ⟨y, en, hy⟩ := hc j (List.mem_cons_of_mem _ hj)
        exact ⟨y, en, by rw [d.cache]; exact hy.1, hy.2⟩
      · obtain ⟨j, hj, hjb⟩ := h
        rcases List.mem_cons.1 hj with hj | hj
        · subst hj; exact absurd hjb hb
        · exact ⟨j, hj, by rw [d.scaledOf]; exact hjb⟩

/-- C18: a converted input with a usable reading but without a finite Tjmax raises an error. -/
theorem C18_tjmax_error {c : ThermalPid} {z : ZoneData} (ht : c.type = .margin)
    (hc : ∀ i ∈ c.inputs, ∃ x, Reads z i.name x) (hp : ∃ p, z.procs.find? c.id = some p)
    {i : SensorInput} (hi : i ∈ c.inputs) (h1 : i.convertTempToMargin = true)
    (h2 : i.convertMarginZero.isFinite = false) {x : Dbl} (h3 : Reads z i.name x) (h4 : x.isFinite = true) :
    c.inputProc z = .error (.exc "Unrecognized TempToMargin") := by
  have hne : c.inputs.isEmpty = false := by
    cases h : c.inputs with
    | nil => rw [h] at hi; simp at hi
    | cons => rfl
  have key : c.inputProc z = (c.inputLoop z (aggStart c.type) false c.inputs >>= fun p =>
      .ok (p.1, if p.2.2 then p.2.1 else c.setpoint)) := by
    unfold ThermalPid.inputProc
    rw [hne]
    rfl
  rw [key, inputLoop_tjmax c ht c.inputs z _ _ hp hc ⟨i, hi, h1, h2, by rw [h3.scaledOf]; exact h4⟩]
  rfl

/-! ## C19 -/

/-- C19: the leader published on D-Bus is an input whose (converted) value is the loop's input, which is published with
it. Proviso: some usable value differs from the extreme double the computation starts from. -/
theorem C19_leader {c : ThermalPid} {z : ZoneData} (hr : ThermalReady c z) (ht : c.type ≠ .summation)
    (hnames : ∀ i ∈ c.inputs, i.name ≠ "")
    (hu : ∃ i x, Contributes c z i x ∧ (c.type = .margin → x < dblMax) ∧ (c.type = .absolute → lowest < x)) :
    ∃ z' v p i, c.inputProc z = .ok (z', v) ∧ z'.procs.find? c.id = some p ∧
      p.input = v ∧ p.leader = i.name ∧ Contributes c z i v := by
  obtain ⟨z', _, h2, h3⟩ := inputProc_spec hr
  obtain ⟨i, x, hx, hx1, hx2⟩ := hu
  have hm := (mem_contribs hr.cached x).2 ⟨i, hx⟩
  rw [if_neg (List.ne_nil_of_mem hm)] at h2
  have hne : (contribs c.type z c.inputs).foldl (aggStep c.type) (aggStart c.type) ≠ aggStart c.type := by
    cases htt : c.type with
    | summation => exact absurd htt ht
    | margin =>
      rw [htt] at hm
      have h4 := (foldl_cmin_smallest (contribs .margin z c.inputs) (aggStart_ne_nan .margin)).2 x
        (.inr ⟨hm, hx.ne_nan hr⟩)
      intro h
      change (contribs .margin z c.inputs).foldl cmin (aggStart .margin) = _ at h
      rw [h] at h4
      exact not_lt_of_le h4 (hx1 htt)
    | absolute =>
      rw [htt] at hm
      have h4 := (foldl_cmax_largest (contribs .absolute z c.inputs) (aggStart_ne_nan .absolute)).2 x
        (.inr ⟨hm, hx.ne_nan hr⟩)
      intro h
      change (contribs .absolute z c.inputs).foldl cmax (aggStart .absolute) = _ at h
      rw [h] at h4
      exact not_lt_of_le h4 (hx2 htt)
  obtain ⟨p, j, h4, h5, h6, h7, h8⟩ := h3 ht hnames hne
  obtain ⟨r, hrj⟩ := hr.cached j h5
  exact ⟨z', _, p, j, h2, h4, h7, h6, h5, r, hrj, by rw [← hrj.scaledOf]; exact h8⟩

/-! ## C20 -/

/-- a usable tach reading of a fan loop -/
def SpinningAt (inputs : List String) (z : ZoneData) (x : Dbl) : Prop :=
  ∃ n ∈ inputs, ReadsRaw z n x ∧ x.isFinite = true ∧ 0 < x

theorem fanReadings_spec (z : ZoneData) : ∀ ns : List String, (∀ n ∈ ns, ∃ x, ReadsRaw z n x) →
    ∃ vs, FanPid.readings z ns = .ok vs ∧ ∀ x, x ∈ vs ↔ SpinningAt ns z x
  | [], _ => ⟨[], rfl, by simp [SpinningAt]⟩
  | n :: ns, h => by
    obtain ⟨vs, h1, h2⟩ := fanReadings_spec z ns (fun m hm => h m (List.mem_cons_of_mem _ hm))
    obtain ⟨x, e, he, hx⟩ := h n List.mem_cons_self
    refine ⟨if !e.unscaled.isFinite then vs else if e.unscaled ≤ 0 then vs else e.unscaled :: vs,
      by simp only [FanPid.readings, ZoneData.getCachedValues, OMap.atKey_of_find? he, ok_bind, h1], ?_⟩
    intro y
    have hread : ∀ w, ReadsRaw z n w ↔ w = x := by
      intro w
      constructor
      · rintro ⟨e', he', hw⟩; rw [he] at he'; cases he'; rw [← hw, hx]
      · rintro rfl; exact ⟨e, he, hx⟩
    have hsplit : SpinningAt (n :: ns) z y ↔ (y = x ∧ y.isFinite = true ∧ 0 < y) ∨ SpinningAt ns z y := by
      simp only [SpinningAt, List.mem_cons, exists_eq_or_imp, hread]
    rw [hsplit, hx]
    split_ifs with hf hz
    · rw [h2]
      constructor
      · exact .inr
      · rintro (⟨rfl, h3, _⟩ | h3)
        · simp [h3] at hf
        · exact h3
    · rw [h2]
      constructor
      · exact .inr
      · rintro (⟨rfl, _, h3⟩ | h3)
        · exact absurd h3 (not_lt_of_le hz)
        · exact h3
    · have hf' : x.isFinite = true := by simpa using hf
      rw [List.mem_cons, h2]
      constructor
      · rintro (rfl | h3)
        · exact .inl ⟨rfl, hf', lt_of_not_le zero_ne_nan (isFinite_ne_nan hf') hz⟩
        · exact .inr h3
      · rintro (⟨rfl, _⟩ | h3)
        · exact .inl rfl
        · exact .inr h3

/-- C20: the feedback is the smallest finite reading above 0, and 0 when there is none. -/
theorem C20_slowest {c : FanPid} {z : ZoneData} (h : ∀ n ∈ c.inputs, ∃ x, ReadsRaw z n x) :
    ∃ v, c.inputProc z = .ok v ∧
      ((∃ x, SpinningAt c.inputs z x) → Smallest (SpinningAt c.inputs z) v) ∧
      ((¬ ∃ x, SpinningAt c.inputs z x) → v = 0) := by
  obtain ⟨vs, h1, h2⟩ := fanReadings_spec z c.inputs h
  unfold FanPid.inputProc
  rw [h1]
  cases vs with
  | nil =>
    refine ⟨0, rfl, ?_, fun _ => rfl⟩
    rintro ⟨x, hx⟩
    exact absurd ((h2 x).2 hx) (by simp)
  | cons v vs =>
    refine ⟨_, rfl, fun _ => ?_, fun hn => absurd ⟨v, (h2 v).1 List.mem_cons_self⟩ hn⟩
    have hv : v ≠ nan := by
      obtain ⟨_, _, _, hf, _⟩ := (h2 v).1 List.mem_cons_self
      exact isFinite_ne_nan hf
    refine (foldl_cmin_smallest vs hv).congr (fun x => ?_)
    rw [← h2, List.mem_cons]
    constructor
    · rintro (h3 | ⟨h3, _⟩)
      · exact .inl h3
      · exact .inr h3
    · rintro (h3 | h3)
      · exact .inl h3
      · refine .inr ⟨h3, ?_⟩
        obtain ⟨_, _, _, hf, _⟩ := (h2 x).1 (List.mem_cons_of_mem _ h3)
        exact isFinite_ne_nan hf

/-- C20: the order of the fans does not matter. -/
theorem C20_order {c : FanPid} {z : ZoneData} (h : ∀ n ∈ c.inputs, ∃ x, ReadsRaw z n x) {inputs' : List String}
    (hp : c.inputs.Perm inputs') : c.inputProc z = { c with inputs := inputs' }.inputProc z := by
  obtain ⟨v, h1, h2, h3⟩ := C20_slowest h
  obtain ⟨v', h1', h2', h3'⟩ := C20_slowest (c := { c with inputs := inputs' }) (fun n hn => h n (hp.mem_iff.2 hn))
  have hs : ∀ x, SpinningAt c.inputs z x ↔ SpinningAt inputs' z x := by
    intro x; simp only [SpinningAt, hp.mem_iff]
  rw [h1, h1']
  by_cases he : ∃ x, SpinningAt c.inputs z x
  · rw [(h2 he).unique ((h2' (by obtain ⟨x, hx⟩ := he; exact ⟨x, (hs x).1 hx⟩)).congr (fun x => (hs x).symm))]
  · rw [h3 he, h3' (fun ⟨x, hx⟩ => he ⟨x, (hs x).2 hx⟩)]

/-! ## C21 -/

/-- C21: after a fan loop has run, its set point is the zone's and its direction compares it with the previous one. -/
theorem C21_direction {o : Opts} {w w' : World} {z z' : ZoneData} {c c' : FanPid}
    (h : c.process o w z = .ok (w', z', c')) :
    c'.setpoint = z.maximumSetPoint ∧
      (c'.direction = .up ↔ c.setpoint < c'.setpoint) ∧
      (c'.direction = .down ↔ c'.setpoint < c.setpoint) ∧
      (c'.direction = .neutral ↔ ¬ c.setpoint < c'.setpoint ∧ ¬ c'.setpoint < c.setpoint) := by
  unfold FanPid.process at h
  obtain ⟨i, _, h⟩ := bind_eq_ok.1 h
  obtain ⟨⟨w1, z1⟩, _, h⟩ := bind_eq_ok.1 h
  cases h
  simp only [FanPid.setptProc]
  refine ⟨trivial, ?_⟩
  have hx : c.setpoint < z.maximumSetPoint → ¬ z.maximumSetPoint < c.setpoint :=
    fun h1 h2 => Dbl.lt_irrefl _ (Dbl.lt_trans h1 h2)
  split_ifs with h1 h2
  · simp [h1, hx h1]
  · simp [h1, h2]
  · simp [h1, h2]

/-! ## C22 -/

theorem writeFans_commanded {raw0 : Res Int} {v : Dbl} : ∀ {ns : List String} {w w' : World} {z z' : ZoneData},
    writeFans raw0 v w z ns = .ok (w', z') →
      Commanded v z.redundantWrite w ns w' ∧ z' = { z with cachedFanOutputs := z'.cachedFanOutputs }
  | [], w, w', z, z', h => by cases h; exact ⟨.nil _, rfl⟩
  | n :: ns, w, w', z, z', h => by
    simp only [writeFans] at h
    obtain ⟨⟨w1, sn, wr⟩, h1, h⟩ := bind_eq_ok.1 h
    obtain ⟨r, _, h⟩ := bind_eq_ok.1 h
    obtain ⟨h2, h3⟩ := writeFans_commanded h
    exact ⟨.cons h1 h2, by rw [h3]; rfl⟩

/-- C22: a fan loop commands all its fans the same percentage, which is its own output outside failsafe or with tuning;
in failsafe it is the failsafe percentage (strict build) or at least the failsafe percentage and the loop's output
(normal build, output and percentage being numbers). -/
theorem C22_failsafe_floor {o : Opts} {w w' : World} {z z' : ZoneData} {c c' : FanPid}
    (h : c.process o w z = .ok (w', z', c')) :
    ∃ input percent, c.inputProc z = .ok input ∧
      Commanded (percent / 100) z.redundantWrite w c.inputs w' ∧
      (o.tuningEnabled = true ∨ (∀ n, z.failSafeSensors.find? n = none) →
        percent = (pidStep c.ctl z.maximumSetPoint input).1) ∧
      (o.tuningEnabled = false → (∃ n f, z.failSafeSensors.find? n = some f) →
        (o.strictFailsafePwm = true → percent = z.getFailSafePercent) ∧
        (o.strictFailsafePwm = false → (pidStep c.ctl z.maximumSetPoint input).1 ≠ nan → z.getFailSafePercent ≠ nan →
          z.getFailSafePercent ≤ percent ∧ (pidStep c.ctl z.maximumSetPoint input).1 ≤ percent ∧
          (percent = z.getFailSafePercent ∨ percent = (pidStep c.ctl z.maximumSetPoint input).1))) := by
  unfold FanPid.process at h
  obtain ⟨i, hi, h⟩ := bind_eq_ok.1 h
  obtain ⟨⟨w1, z1⟩, hw, h⟩ := bind_eq_ok.1 h
  cases h
  refine ⟨i, fanPercent o z (pidStep c.ctl z.maximumSetPoint i).1, hi, (writeFans_commanded hw).1, ?_, ?_⟩
  · rintro (h | h)
    · simp [fanPercent, h]
    · have : z.getFailSafeMode = false := by
        simp only [ZoneData.getFailSafeMode, Bool.not_eq_false']
        exact (OMap.isEmpty_iff _).2 h
      simp [fanPercent, this]
  · rintro ht ⟨n, f, hf⟩
    have hm : z.getFailSafeMode = true := by
      simp only [ZoneData.getFailSafeMode, Bool.not_eq_true']
      exact (OMap.isEmpty_false_iff _).2 ⟨n, f, hf⟩
    refine ⟨fun hs => by simp [fanPercent, ht, hm, hs], fun hs hn hp => ?_⟩
    simp only [fanPercent, ht, hm, hs, Bool.false_eq_true, if_false, if_true]
    split_ifs with hlt
    · exact ⟨Dbl.le_refl hp, Dbl.le_of_lt hlt, .inl rfl⟩
    · exact ⟨le_of_not_lt hp hn hlt, Dbl.le_refl hn, .inr rfl⟩

/-- C22 (finding): in failsafe without the strict build option a NaN loop output is not replaced by the failsafe
percentage; the conversion for a D-Bus or sysfs fan is then undefined behaviour. -/
theorem C22_nan_not_floored {o : Opts} {w : World} {z : ZoneData} {c : FanPid} {input : Dbl} {n : String}
    {rest : List String} {s : Sensor} {r : Reader} {path : String} {min max old : Int}
    (ho : o.strictFailsafePwm = false) (hin : c.inputs = n :: rest)
    (hs : w.sensors.find? n = some s) (himpl : s.impl = .pluggable r (.dbusPercent path min max old))
    (hi : c.inputProc z = .ok input) (hnan : (pidStep c.ctl z.maximumSetPoint input).1 = nan) :
    c.process o w z = .error (.ub "cast to int64_t") := by
  have hp : fanPercent o z nan = nan := by
    simp only [fanPercent, ho]
    split_ifs <;> simp_all
  have hi' : (c.setptProc z).inputProc z = .ok input := hi
  unfold FanPid.process
  simp only [hi', ok_bind]
  have hw : writeFans (.ok (-1)) (nan / 100) w z (n :: rest) = .error (.ub "cast to int64_t") := by
    simp only [writeFans, World.writeSensor, World.getSensor, OMap.atKey_of_find? hs, ok_bind, himpl, Writer.write,
      nan_div, percentToRaw, mul_nan, nan_add, dbusWriteTail]
    rfl
  have e : writeFans (.ok (-1)) (fanPercent o z (pidStep (c.setptProc z).ctl (c.setptProc z).setpoint input).1 / 100) w z
      (c.setptProc z).inputs = .error (.ub "cast to int64_t") := by
    have h1 : (pidStep (c.setptProc z).ctl (c.setptProc z).setpoint input).1 = nan := hnan
    have h2 : (c.setptProc z).inputs = n :: rest := hin
    rw [h1, h2, hp, hw]
  rw [e]
  rfl

end

/-! ## Concrete cases -/

section
attribute [local instance] binary64
open Ex

/-- the hypotheses of C14 are met -/
example : (ceil.process data).toOption.isSome = true ∧ (step.process data).toOption.isSome = true := by
  decide +kernel

theorem ex_reads_cpu : Reads data "cpu" 80 := ⟨⟨80, 80⟩, by decide +kernel⟩
theorem ex_reads_dimm : Reads data "dimm" nan := ⟨⟨nan, nan⟩, by decide +kernel⟩

/-- C15 on the example: NaN is skipped, 80 is the input -/
example : ∀ n ∈ ["dimm", "cpu"], ∃ x, Reads data n x := by
  simp only [List.mem_cons, List.not_mem_nil, or_false, forall_eq_or_imp, forall_eq]
  exact ⟨⟨_, ex_reads_dimm⟩, ⟨_, ex_reads_cpu⟩⟩
example : StepwiseCtl.inputLoop data lowest ["dimm", "cpu"] = .ok 80 := by decide +kernel
example : ∀ n ∈ ["dimm", "dimm"], Reads data n nan := by simpa using ex_reads_dimm
example : lowest ≤ (80 : Dbl) := by decide +kernel

theorem ex_ready : ThermalReady thermal data where
  nonempty := by decide
  cached := by
    simp only [thermal, List.mem_cons, List.not_mem_nil, or_false, forall_eq_or_imp, forall_eq]
    exact ⟨⟨_, ex_reads_cpu⟩, ⟨_, ex_reads_dimm⟩⟩
  proc := Option.isSome_iff_exists.1 (by decide +kernel)
  tjmax := by decide

theorem ex_ready_margin : ThermalReady margin data where
  nonempty := by decide
  cached := by
    simp only [margin, List.mem_cons, List.not_mem_nil, or_false, forall_eq_or_imp, forall_eq]
    exact ⟨⟨_, ex_reads_cpu⟩, ⟨_, ex_reads_dimm⟩⟩
  proc := Option.isSome_iff_exists.1 (by decide +kernel)
  tjmax := by decide +kernel

/-- C16, C18, C19 on the example -/
example : Contributes thermal data { name := "cpu" } 80 :=
  ⟨by simp [thermal], 80, ex_reads_cpu, by decide +kernel⟩
example : Contributes margin data { name := "cpu", convertMarginZero := 95, convertTempToMargin := true } 15 ∧
    (15 : Dbl) ≠ pinf ∧ (15 : Dbl) < dblMax := by
  refine ⟨⟨by simp [margin], 80, ex_reads_cpu, ?_⟩, ?_, ?_⟩ <;> decide +kernel
example : (thermal.inputProc data).toOption.map (·.2) = some 80 := by decide +kernel
example : (margin.inputProc data).toOption.map (·.2) = some 15 := by decide +kernel
example : ((margin.inputProc data).toOption.bind (·.1.procs.find? "cpu_pid")).map (·.leader) = some "cpu" := by
  decide +kernel
/-- C16, summation: two good sensors are added -/
example : (ThermalPid.inputProc { thermal with type := .summation, inputs := [{ name := "cpu" }, { name := "dimm" }, { name := "cpu" }] }
    data).toOption.map (·.2) = some 160 := by decide +kernel
/-- C17: a loop with only the dead sensor -/
example : (ThermalPid.inputProc { thermal with inputs := [{ name := "dimm" }] } data).toOption.map (·.2) = some 60 := by
  decide +kernel
/-- C18: a conversion without Tjmax -/
example : (ThermalPid.inputProc { margin with inputs := [{ name := "cpu", convertTempToMargin := true }] } data).toOption.isNone
    = true := by decide +kernel

/-- C20: a stopped fan is ignored -/
example : SpinningAt fan.inputs data 3000 :=
  ⟨"fan0", by decide, ⟨⟨3000, 3000⟩, by decide +kernel⟩, by decide +kernel, by decide +kernel⟩
example : fan.inputProc data = .ok 3000 := by decide +kernel

/-- C21, C22: the loop runs, in failsafe and outside -/
def exFailed : ZoneData := data.markSensorMissing "cpu" "Sensor timeout"
example : ((fan.process {} world data).toOption.map (·.2.2.direction)) = some .neutral := by decide +kernel
example : ((fan.process {} world { data with maximumSetPoint := 50 }).toOption.map (·.2.2.direction)) = some .up := by
  decide +kernel
example : (fan.process {} world exFailed).toOption.map (·.1.trace) =
    some [.dbusSet "/fan0" 191 true, .dbusSet "/fan1" 191 true] := by decide +kernel
example : (fan.process {} world data).toOption.map (·.1.trace) =
    some [.dbusSet "/fan0" 25 true, .dbusSet "/fan1" 25 true] := by decide +kernel
/-- C22, NaN: a NaN set point reaches the fan loop's output -/
example : fan.process {} world { exFailed with maximumSetPoint := nan } = .error (.ub "cast to int64_t") :=
  C22_nan_not_floored (n := "fan0") (rest := ["fan1"]) (input := 3000) (r := .passive tach) (path := "/fan0") (min := 0)
    (max := 255) (old := -1)
    (s := ⟨"fan0", 2, false, .pluggable (.passive tach) (.dbusPercent "/fan0" 0 255 (-1))⟩)
    rfl rfl (by rfl) rfl (by decide +kernel) (by decide +kernel)

end

end Verif
