import Verif.Lemmas.Fold
import Verif.Lemmas.OMap

/-! # Helper lemmas about the controllers -/

namespace Verif
variable [F : FloatModel]
open Dbl

/-- key under which `addSetPoint` stores the request of loop `name` -/
def reqKey (acc : Bool) (name : String) : String := if acc then ZoneData.profileName name else name

/-- value stored by `addSetPoint` -/
def reqNew (z : ZoneData) (sp : Dbl) (name : String) : Dbl :=
  if z.accumulateSetPoint then (z.setPoints.find? (reqKey z.accumulateSetPoint name)).getD 0 + sp
  else if (z.setPoints.find? (reqKey z.accumulateSetPoint name)).getD 0 < sp then sp
  else (z.setPoints.find? (reqKey z.accumulateSetPoint name)).getD 0

/-- the zone after storing value `v` under key `k` -/
def withRequest (z : ZoneData) (k : String) (v : Dbl) : ZoneData :=
  { z with
    setPoints := z.setPoints.insert k v
    maximumSetPoint := if z.maximumSetPoint < v then v else z.maximumSetPoint
    maximumSetPointName := if z.maximumSetPoint < v then k else z.maximumSetPointName }

theorem addSetPoint_eq {z : ZoneData} {name : String} {p : ProcObj} (hp : z.procs.find? name = some p) (sp : Dbl) :
    z.addSetPoint sp name =
      .ok (if p.enabled then withRequest z (reqKey z.accumulateSetPoint name) (reqNew z sp name) else z) := by
  unfold ZoneData.addSetPoint ZoneData.isPidProcessEnabled
  simp only [hp, ok_bind]
  cases p.enabled
  · simp
  · have key : ∀ (k : String) (v : Dbl),
        (if z.maximumSetPoint < v then
          (.ok { z with setPoints := z.setPoints.insert k v, maximumSetPoint := v, maximumSetPointName := k } : Res ZoneData)
        else .ok { z with setPoints := z.setPoints.insert k v }) = .ok (withRequest z k v) := by
      intro k v
      unfold withRequest
      split_ifs <;> rfl
    exact key (reqKey z.accumulateSetPoint name) (reqNew z sp name)

theorem addSetPoint_ok {z z' : ZoneData} {sp : Dbl} {name : String} (h : z.addSetPoint sp name = .ok z') :
    ∃ p, z.procs.find? name = some p ∧
      z' = if p.enabled then withRequest z (reqKey z.accumulateSetPoint name) (reqNew z sp name) else z := by
  cases hp : z.procs.find? name with
  | none => simp [ZoneData.addSetPoint, ZoneData.isPidProcessEnabled, hp] at h
  | some p => rw [addSetPoint_eq hp] at h; cases h; exact ⟨p, rfl, rfl⟩

/-- reading of a cached sensor, `nan` if it is not cached -/
def scaledOf (z : ZoneData) (name : String) : Dbl := ((z.cachedValuesByName.find? name).map CacheEntry.scaled).getD nan

/-- the running aggregate -/
def aggStep (t : ThermalType) (v x : Dbl) : Dbl :=
  match t with
  | .margin => cmin v x
  | .absolute => cmax v x
  | .summation => v + x

/-- the values contributed by a list of inputs -/
def contribs (t : ThermalType) (z : ZoneData) (is : List SensorInput) : List Dbl :=
  is.filterMap (fun i => contribution t i (scaledOf z i.name))

/-- `z'` is `z` up to the D-Bus debug objects, and loop `id`'s object exists in both -/
structure DebugOnly (z z' : ZoneData) : Prop where
  eq : z' = { z with procs := z'.procs }
  keys : ∀ k, (z'.procs.find? k).map (·.enabled) = (z.procs.find? k).map (·.enabled)

theorem DebugOnly.refl (z : ZoneData) : DebugOnly z z := ⟨rfl, fun _ => rfl⟩

theorem DebugOnly.trans {a b c : ZoneData} (h : DebugOnly a b) (h' : DebugOnly b c) : DebugOnly a c := by
  refine ⟨?_, fun k => (h'.keys k).trans (h.keys k)⟩
  have e1 := h.eq
  have e2 := h'.eq
  rw [e2, e1]

theorem DebugOnly.proc {z z' : ZoneData} (h : DebugOnly z z') {id : String} (hp : ∃ p, z.procs.find? id = some p) :
    ∃ p, z'.procs.find? id = some p := by
  obtain ⟨p, hp⟩ := hp
  have := h.keys id
  rw [hp] at this
  cases h' : z'.procs.find? id with
  | none => rw [h'] at this; simp at this
  | some q => exact ⟨q, rfl⟩

theorem DebugOnly.cache {z z' : ZoneData} (h : DebugOnly z z') : z'.cachedValuesByName = z.cachedValuesByName := by
  rw [h.eq]

theorem DebugOnly.scaledOf {z z' : ZoneData} (h : DebugOnly z z') (n : String) :
    Verif.scaledOf z' n = Verif.scaledOf z n := by
  unfold Verif.scaledOf; rw [h.cache]

theorem updateDebug_ok {z : ZoneData} {id : String} (hp : ∃ p, z.procs.find? id = some p) (leader : String)
    (input output : Dbl) :
    ∃ z', z.updateThermalPowerDebugInterface id leader input output = .ok z' ∧ DebugOnly z z' ∧
      (leader ≠ "" → ∃ p, z'.procs.find? id = some p ∧ p.leader = leader ∧ p.input = input) ∧
      (leader = "" → ∃ p, z'.procs.find? id = some p ∧ p.output = output) := by
  obtain ⟨p, hp⟩ := hp
  unfold ZoneData.updateThermalPowerDebugInterface
  simp only [hp]
  split_ifs with h
  · refine ⟨_, rfl, ⟨rfl, fun k => ?_⟩, fun h' => absurd h h', fun _ => ⟨_, OMap.find?_insert_self _ _ _, rfl⟩⟩
    simp only [OMap.find?_insert]
    split_ifs with hk
    · subst hk; simp [hp]
    · rfl
  · refine ⟨_, rfl, ⟨rfl, fun k => ?_⟩, fun _ => ⟨_, OMap.find?_insert_self _ _ _, rfl, rfl⟩, fun h' => absurd h' h⟩
    simp only [OMap.find?_insert]
    split_ifs with hk
    · subst hk; simp [hp]
    · rfl

theorem Reads.scaledOf {z : ZoneData} {n : String} {x : Dbl} (h : Reads z n x) : scaledOf z n = x := by
  obtain ⟨e, h1, h2⟩ := h
  simp [Verif.scaledOf, h1, h2]

theorem Reads.getCached {z : ZoneData} {n : String} {x : Dbl} (h : Reads z n x) :
    ∃ e, z.getCachedValues n = .ok e ∧ e.scaled = x := by
  obtain ⟨e, h1, h2⟩ := h
  exact ⟨e, OMap.atKey_of_find? h1, h2⟩

/-- The leader recorded for the loop is an input that contributes the recorded value. -/
def LeaderIs (c : ThermalPid) (z : ZoneData) (is : List SensorInput) (z' : ZoneData) (v' : Dbl) : Prop :=
  ∃ p i, z'.procs.find? c.id = some p ∧ i ∈ is ∧ p.leader = i.name ∧ p.input = v' ∧
    contribution c.type i (scaledOf z i.name) = some v'

theorem aggStep_mem {t : ThermalType} (ht : t ≠ .summation) {v x : Dbl} (h : aggStep t v x ≠ v) : aggStep t v x = x := by
  cases t with
  | margin => simp only [aggStep, cmin] at *; split_ifs at * with h1; rfl; exact absurd rfl h
  | absolute => simp only [aggStep, cmax] at *; split_ifs at * with h1; rfl; exact absurd rfl h
  | summation => exact absurd rfl ht

theorem aggStep_ne_nan {t : ThermalType} (ht : t ≠ .summation) {v x : Dbl} (hv : v ≠ nan) : aggStep t v x ≠ nan := by
  by_cases h : aggStep t v x = v
  · rwa [h]
  · cases t with
    | margin => simp only [aggStep, cmin] at *; split_ifs at * with h1; exact ne_nan_of_lt_left h1; exact absurd rfl h
    | absolute => simp only [aggStep, cmax] at *; split_ifs at * with h1; exact ne_nan_of_lt_right h1; exact absurd rfl h
    | summation => exact absurd rfl ht

theorem agg_stays {t : ThermalType} (ht : t ≠ .summation) {v x : Dbl} (hv : v ≠ nan) (l : List Dbl)
    (h : l.foldl (aggStep t) (aggStep t v x) = v) : aggStep t v x = v := by
  have hn := aggStep_ne_nan ht (x := x) hv
  cases t with
  | margin =>
    have h1 := (foldl_cmin_smallest l hn).2 _ (.inl rfl)
    change (l.foldl cmin (aggStep .margin v x)) = v at h
    rw [h] at h1
    simp only [aggStep, cmin] at *
    split_ifs at * with h2
    · exact absurd h2 (not_lt_of_le h1)
    · rfl
  | absolute =>
    have h1 := (foldl_cmax_largest l hn).2 _ (.inl rfl)
    change (l.foldl cmax (aggStep .absolute v x)) = v at h
    rw [h] at h1
    simp only [aggStep, cmax] at *
    split_ifs at * with h2
    · exact absurd h2 (not_lt_of_le h1)
    · rfl
  | summation => exact absurd rfl ht

theorem inputOne_spec (c : ThermalPid) (z : ZoneData) (v : Dbl) (a : Bool) (i : SensorInput)
    (hproc : ∃ p, z.procs.find? c.id = some p) (hc : ∃ x, Reads z i.name x)
    (hm : c.type = .margin → i.convertTempToMargin = true → i.convertMarginZero.isFinite = true) :
    ∃ z', DebugOnly z z' ∧
      c.inputOne z v a i = .ok (z', ((contribution c.type i (scaledOf z i.name)).map (aggStep c.type v)).getD v,
        (contribution c.type i (scaledOf z i.name)).isSome || a) ∧
      (∀ x, contribution c.type i (scaledOf z i.name) = some x → aggStep c.type v x ≠ v → i.name ≠ "" →
        ∃ p, z'.procs.find? c.id = some p ∧ p.leader = i.name ∧ p.input = aggStep c.type v x) ∧
      ((∀ x, contribution c.type i (scaledOf z i.name) = some x → aggStep c.type v x = v ∧ v ≠ nan) → z' = z) := by
  obtain ⟨x, hx⟩ := hc
  have hs := hx.scaledOf
  obtain ⟨e, he1, he2⟩ := hx.getCached
  rw [hs]
  unfold ThermalPid.inputOne
  simp only [he1, ok_bind, he2]
  cases x with
  | nan => exact ⟨z, DebugOnly.refl z, by simp [isFinite, contribution], by simp [contribution], fun _ => rfl⟩
  | ninf => exact ⟨z, DebugOnly.refl z, by simp [isFinite, contribution], by simp [contribution], fun _ => rfl⟩
  | pinf => exact ⟨z, DebugOnly.refl z, by simp [isFinite, contribution], by simp [contribution], fun _ => rfl⟩
  | fin q h =>
    have key : ∀ y : Dbl,
        ∃ z', DebugOnly z z' ∧
          (if (!eqb v (aggStep c.type v y)) = true then
            z.updateThermalPowerDebugInterface c.id i.name (aggStep c.type v y) 0 >>= fun z =>
              (Except.ok (z, aggStep c.type v y, true) : Res (ZoneData × Dbl × Bool))
          else .ok (z, aggStep c.type v y, true)) = .ok (z', aggStep c.type v y, true) ∧
          (aggStep c.type v y ≠ v → i.name ≠ "" →
            ∃ p, z'.procs.find? c.id = some p ∧ p.leader = i.name ∧ p.input = aggStep c.type v y) ∧
          (aggStep c.type v y = v ∧ v ≠ nan → z' = z) := by
      intro y
      by_cases hb : eqb v (aggStep c.type v y) = true
      · refine ⟨z, DebugOnly.refl z, by simp [hb], ?_, fun _ => rfl⟩
        intro hne
        exact absurd (eqb_iff.1 hb).1.symm hne
      · obtain ⟨z', h1, h2, h3, _⟩ := updateDebug_ok hproc i.name (aggStep c.type v y) 0
        refine ⟨z', h2, by simp [hb, h1], ?_, ?_⟩
        · intro _ hn
          exact h3 hn
        · rintro ⟨h4, h5⟩
          exact absurd (eqb_iff.2 ⟨h4.symm, h5⟩) hb
    by_cases hmc : c.type = .margin ∧ i.convertTempToMargin = true
    · have hz := hm hmc.1 hmc.2
      obtain ⟨z', h1, h2, h3, h4⟩ := key (i.convertMarginZero - fin q h)
      refine ⟨z', h1, ?_, ?_, ?_⟩
      · have hf : (fin q h : Dbl).isFinite = true := rfl
        simp only [hmc, hz, hf, contribution, and_self, if_true] at h2 ⊢
        simpa [aggStep] using h2
      · intro x hx; simp only [contribution, hmc, and_self, if_true, Option.some.injEq] at hx; subst hx; exact h3
      · intro hh; exact h4 (hh _ (by simp [contribution, hmc]))
    · obtain ⟨z', h1, h2, h3, h4⟩ := key (fin q h)
      refine ⟨z', h1, ?_, ?_, ?_⟩
      · simp only [hmc, isFinite, contribution, if_false] at h2 ⊢
        cases ht : c.type <;> simp only [ht] at h2 ⊢ <;> simpa [aggStep] using h2
      · intro x hx; simp only [contribution, hmc, if_false, Option.some.injEq] at hx; subst hx; exact h3
      · intro hh; exact h4 (hh _ (by simp [contribution, hmc]))

theorem inputLoop_spec (c : ThermalPid) : ∀ (is : List SensorInput) (z : ZoneData) (v : Dbl) (a : Bool),
    (∃ p, z.procs.find? c.id = some p) → (∀ i ∈ is, ∃ x, Reads z i.name x) →
    (c.type = .margin → ∀ i ∈ is, i.convertTempToMargin = true → i.convertMarginZero.isFinite = true) →
    ∃ z', DebugOnly z z' ∧
      c.inputLoop z v a is = .ok (z', (contribs c.type z is).foldl (aggStep c.type) v, !(contribs c.type z is).isEmpty || a) ∧
      (c.type ≠ .summation → v ≠ nan → ((contribs c.type z is).foldl (aggStep c.type) v = v → z' = z) ∧
        ((contribs c.type z is).foldl (aggStep c.type) v ≠ v → (∀ i ∈ is, i.name ≠ "") →
          LeaderIs c z is z' ((contribs c.type z is).foldl (aggStep c.type) v)))
  | [], z, v, a, _, _, _ => ⟨z, DebugOnly.refl z, by simp [ThermalPid.inputLoop, contribs], by simp [contribs]⟩
  | i :: is, z, v, a, hp, hc, hm => by
    obtain ⟨z1, d1, e1, l1, u1⟩ := inputOne_spec c z v a i hp (hc i List.mem_cons_self)
      (fun h => hm h i List.mem_cons_self)
    have hp1 := d1.proc hp
    have hc1 : ∀ j ∈ is, ∃ x, Reads z1 j.name x := by
      intro j hj
      obtain ⟨x, e, hx⟩ := hc j (List.mem_cons_of_mem _ hj)
      exact ⟨x, e, by rw [d1.cache]; exact hx.1, hx.2⟩
    obtain ⟨z2, d2, e2, l2⟩ := inputLoop_spec c is z1
      (((contribution c.type i (scaledOf z i.name)).map (aggStep c.type v)).getD v)
      ((contribution c.type i (scaledOf z i.name)).isSome || a) hp1 hc1
      (fun h j hj => hm h j (List.mem_cons_of_mem _ hj))
    have hcs : contribs c.type z1 is = contribs c.type z is := by
      unfold contribs
      exact List.filterMap_congr (fun j _ => by rw [d1.scaledOf])
    rw [hcs] at e2 l2
    refine ⟨z2, d1.trans d2, ?_, ?_⟩
    · simp only [ThermalPid.inputLoop, e1, ok_bind, e2]
      cases hx : contribution c.type i (scaledOf z i.name) with
      | none => simp [contribs, hx]
      | some x => simp [contribs, hx]
    · intro ht hv
      have lift : ∀ v', LeaderIs c z1 is z2 v' → LeaderIs c z (i :: is) z2 v' := by
        rintro v' ⟨p, j, h1, h2, h3, h4, h5⟩
        exact ⟨p, j, h1, List.mem_cons_of_mem _ h2, h3, h4, by rw [← h5, d1.scaledOf]⟩
      cases hx : contribution c.type i (scaledOf z i.name) with
      | none =>
        simp only [hx, Option.map_none, Option.getD_none] at l2
        have e : contribs c.type z (i :: is) = contribs c.type z is := by simp [contribs, hx]
        have hz1 : z1 = z := u1 (by simp [hx])
        obtain ⟨l3, l4⟩ := l2 ht hv
        rw [e]
        exact ⟨fun h => (l3 h).trans hz1, fun h hn => lift _ (l4 h (fun j hj => hn j (List.mem_cons_of_mem _ hj)))⟩
      | some x =>
        simp only [hx, Option.map_some, Option.getD_some] at l2
        have e : (contribs c.type z (i :: is)).foldl (aggStep c.type) v =
            (contribs c.type z is).foldl (aggStep c.type) (aggStep c.type v x) := by simp [contribs, hx]
        obtain ⟨l3, l4⟩ := l2 ht (aggStep_ne_nan ht hv)
        rw [e]
        refine ⟨fun h => ?_, fun h hn => ?_⟩
        · have hs := agg_stays ht hv _ h
          have hz1 : z1 = z := u1 (fun y hy => by rw [hx] at hy; cases hy; exact ⟨hs, hv⟩)
          exact (l3 (h.trans hs.symm)).trans hz1
        · by_cases h' : (contribs c.type z is).foldl (aggStep c.type) (aggStep c.type v x) = aggStep c.type v x
          · rw [h'] at h ⊢
            have hz2 := l3 h'
            obtain ⟨p, h1, h2, h3⟩ := l1 x hx h (hn i List.mem_cons_self)
            exact ⟨p, i, by rw [hz2]; exact h1, List.mem_cons_self, h2, h3, by rw [hx, aggStep_mem ht h]⟩
          · exact lift _ (l4 h' (fun j hj => hn j (List.mem_cons_of_mem _ hj)))

/-- start value of the aggregate -/
def aggStart (t : ThermalType) : Dbl :=
  match t with
  | .margin => dblMax
  | .absolute => lowest
  | .summation => 0

theorem aggStart_ne_nan (t : ThermalType) : aggStart t ≠ nan := by
  cases t <;> simp [aggStart, dblMax, lowest]

theorem inputProc_spec {c : ThermalPid} {z : ZoneData} (h : ThermalReady c z) :
    ∃ z', DebugOnly z z' ∧
      c.inputProc z = .ok (z', if (contribs c.type z c.inputs) = [] then c.setpoint
        else (contribs c.type z c.inputs).foldl (aggStep c.type) (aggStart c.type)) ∧
      (c.type ≠ .summation → (∀ i ∈ c.inputs, i.name ≠ "") →
        (contribs c.type z c.inputs).foldl (aggStep c.type) (aggStart c.type) ≠ aggStart c.type →
        LeaderIs c z c.inputs z' ((contribs c.type z c.inputs).foldl (aggStep c.type) (aggStart c.type))) := by
  obtain ⟨z', h1, h2, h3⟩ := inputLoop_spec c c.inputs z (aggStart c.type) false h.proc h.cached h.tjmax
  refine ⟨z', h1, ?_, fun ht hn hv => (h3 ht (aggStart_ne_nan _)).2 hv hn⟩
  have hne : c.inputs.isEmpty = false := by simpa using h.nonempty
  have key : c.inputProc z = (c.inputLoop z (aggStart c.type) false c.inputs >>= fun p =>
      .ok (p.1, if p.2.2 then p.2.1 else c.setpoint)) := by
    unfold ThermalPid.inputProc
    rw [hne]
    rfl
  rw [key, h2]
  simp only [ok_bind, Bool.or_false]
  cases hcs : contribs c.type z c.inputs <;> simp

theorem mem_contribs {c : ThermalPid} {z : ZoneData} (h : ∀ i ∈ c.inputs, ∃ x, Reads z i.name x) (x : Dbl) :
    x ∈ contribs c.type z c.inputs ↔ ∃ i, Contributes c z i x := by
  simp only [contribs, List.mem_filterMap, Contributes]
  constructor
  · rintro ⟨i, hi, hx⟩
    obtain ⟨r, hr⟩ := h i hi
    exact ⟨i, hi, r, hr, by rw [← hr.scaledOf]; exact hx⟩
  · rintro ⟨i, hi, r, hr, hx⟩
    exact ⟨i, hi, by rw [hr.scaledOf]; exact hx⟩

theorem stepInput_eq (z : ZoneData) : ∀ (ns : List String) (v : Dbl), (∀ n ∈ ns, ∃ x, Reads z n x) →
    StepwiseCtl.inputLoop z v ns = .ok ((ns.map (scaledOf z)).foldl cmax v)
  | [], v, _ => rfl
  | n :: ns, v, h => by
    obtain ⟨x, hx⟩ := h n List.mem_cons_self
    obtain ⟨e, h1, h2⟩ := hx.getCached
    simp only [StepwiseCtl.inputLoop, h1, ok_bind, h2, List.map_cons, List.foldl_cons, hx.scaledOf]
    exact stepInput_eq z ns _ (fun m hm => h m (List.mem_cons_of_mem _ hm))

end Verif
