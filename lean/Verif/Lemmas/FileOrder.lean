import Verif.Lemmas.AnyOrder
import Verif.Props.Startup
import Verif.Spec.FileOrder

/-! # Lemmas about configuration files that mean the same -/

namespace Verif
section
variable [F : FloatModel]

theorem SameSettings.symm {ks : List String} {j j' : Json} (h : SameSettings ks j j') : SameSettings ks j' j :=
  fun k hk v => (h k hk v).symm

theorem SameSettings.setting {ks : List String} {j j' : Json} (h : SameSettings ks j j') {α : Type} {k : String} (hk : k ∈ ks)
    (R : Json → α → Prop) (x : α) : Setting j k R x ↔ Setting j' k R x := by
  simp only [Setting, h k hk]

theorem SameSettings.settingOr {ks : List String} {j j' : Json} (h : SameSettings ks j j') {α : Type} {k : String} (hk : k ∈ ks)
    (R : Json → α → Prop) (d x : α) : SettingOr j k R d x ↔ SettingOr j' k R d x := by
  simp only [SettingOr, Setting, Lacks, h k hk]

theorem SensorAlike.symm {e e' : Json} (h : SensorAlike e e') : SensorAlike e' e := SameSettings.symm h

theorem SensorAlike.entry {e e' : Json} (h : SensorAlike e e') {c : SensorConfig} (hc : SensorEntry e c) : SensorEntry e' c := by
  have hs := fun {α : Type} (k : String) hk (R : Json → α → Prop) x => (SameSettings.setting h (k := k) hk R x).1
  have ho := fun {α : Type} (k : String) hk (R : Json → α → Prop) d x => (SameSettings.settingOr h (k := k) hk R d x).1
  refine ⟨hs _ (by simp) _ _ hc.type, hs _ (by simp) _ _ hc.readPath, ho _ (by simp) _ _ _ hc.writePath,
    ho _ (by simp) _ _ _ hc.ignoreDbusMinMax, ho _ (by simp) _ _ _ hc.unavailableAsFailed,
    ho _ (by simp) _ _ _ hc.ignoreFailIfHostOff, ?_, ?_, ho _ (by simp) _ _ _ hc.timeout⟩
  · have := hc.min
    by_cases ht : c.type = "fan"
    · rw [if_pos ht] at this ⊢; exact ho _ (by simp) _ _ _ this
    · rw [if_neg ht] at this ⊢; exact this
  · have := hc.max
    by_cases ht : c.type = "fan"
    · rw [if_pos ht] at this ⊢; exact ho _ (by simp) _ _ _ this
    · rw [if_neg ht] at this ⊢; exact this

theorem SensorAlike.name {e e' : Json} (h : SensorAlike e e') {n : String} (hn : Named e n) : Named e' n :=
  (SameSettings.setting h (by simp) _ _).1 hn

theorem NumbersAlike.pid {p p' : Json} (h : NumbersAlike p p') {c : PidConf} (hc : PidEntry p c) : PidEntry p' c := by
  have hs := fun {α : Type} (k : String) hk (R : Json → α → Prop) x => (SameSettings.setting h (k := k) hk R x).1
  have ho := fun {α : Type} (k : String) hk (R : Json → α → Prop) d x => (SameSettings.settingOr h (k := k) hk R d x).1
  exact ⟨hs _ (by simp) _ _ hc.ts, hs _ (by simp) _ _ hc.proportionalCoeff, hs _ (by simp) _ _ hc.integralCoeff,
    hs _ (by simp) _ _ hc.feedFwdOffset, hs _ (by simp) _ _ hc.feedFwdGain, hs _ (by simp) _ _ hc.integralMin,
    hs _ (by simp) _ _ hc.integralMax, hs _ (by simp) _ _ hc.outMin, hs _ (by simp) _ _ hc.outMax,
    hs _ (by simp) _ _ hc.slewNeg, hs _ (by simp) _ _ hc.slewPos, ho _ (by simp) _ _ _ hc.derivativeCoeff,
    ho _ (by simp) _ _ _ hc.positiveHysteresis, ho _ (by simp) _ _ _ hc.negativeHysteresis,
    ho _ (by simp) _ _ _ hc.checkHysterWithSetpt⟩

theorem NumbersAlike.point {p p' : Json} (h : NumbersAlike p p') {k : String} (hk : k = "reading" ∨ k = "output")
    {i : Fin maxStepwisePoints} {d : Dbl} (hc : PointEntry p k i d) : PointEntry p' k i d := by
  have hm : ∀ v, Member p k v ↔ Member p' k v := by
    rcases hk with rfl | rfl
    · exact h "reading" (by simp)
    · exact h "output" (by simp)
  simpa only [PointEntry, Lacks, hm] using hc

theorem NumbersAlike.step {p p' : Json} (h : NumbersAlike p p') {c : StepwiseInfo} (hc : StepEntry p c) : StepEntry p' c := by
  have hs := fun {α : Type} (k : String) hk (R : Json → α → Prop) x => (SameSettings.setting h (k := k) hk R x).1
  have ho := fun {α : Type} (k : String) hk (R : Json → α → Prop) d x => (SameSettings.settingOr h (k := k) hk R d x).1
  obtain ⟨d, hd⟩ := hc.derivativeCoeff
  obtain ⟨b, hb⟩ := hc.checkHysterWithSetpt
  exact ⟨hs _ (by simp) _ _ hc.ts, hs _ (by simp) _ _ hc.isCeiling, fun i => h.point (.inl rfl) (hc.reading i),
    fun i => h.point (.inr rfl) (hc.output i), ho _ (by simp) _ _ _ hc.positiveHysteresis,
    ho _ (by simp) _ _ _ hc.negativeHysteresis, ⟨d, ho _ (by simp) _ _ _ hd⟩, ⟨b, ho _ (by simp) _ _ _ hb⟩⟩

theorem LoopAlike.symm {e e' : Json} (h : LoopAlike e e') : LoopAlike e' e := by
  obtain ⟨h, p, p', h1, h2, h3⟩ := h
  exact ⟨SameSettings.symm h, p', p, h2, h1, SameSettings.symm h3⟩

theorem LoopAlike.name {e e' : Json} (h : LoopAlike e e') {n : String} (hn : Named e n) : Named e' n :=
  (SameSettings.setting h.1 (by simp) _ _).1 hn

theorem LoopAlike.entry {e e' : Json} (h : LoopAlike e e') {c : ControllerInfo} (hc : LoopEntry e c) : LoopEntry e' c := by
  obtain ⟨h, p, p', h1, h2, h3⟩ := h
  have hs := fun {α : Type} (k : String) hk (R : Json → α → Prop) x => (SameSettings.setting h (k := k) hk R x).1
  have ho := fun {α : Type} (k : String) hk (R : Json → α → Prop) d x => (SameSettings.settingOr h (k := k) hk R d x).1
  obtain ⟨names, margins, missing, a1, a2, a3, a4⟩ := hc.inputs
  obtain ⟨n, b1, b2⟩ := hc.failSafePercent
  obtain ⟨q, c1, c2⟩ := hc.pid
  obtain rfl := member_unique h1 c1
  refine ⟨hs _ (by simp) _ _ hc.type, ⟨names, margins, missing, hs _ (by simp) _ _ a1, ho _ (by simp) _ _ _ a2,
    ho _ (by simp) _ _ _ a3, a4⟩, hs _ (by simp) _ _ hc.setpoint, ⟨n, ho _ (by simp) _ _ _ b1, b2⟩, p', h2, ?_⟩
  by_cases ht : c.type = "stepwise"
  · rw [if_pos ht] at c2 ⊢; exact ⟨h3.step c2.1, c2.2⟩
  · rw [if_neg ht] at c2 ⊢; exact ⟨h3.pid c2.1, c2.2⟩

/-! ## Lists of entries -/

section
variable {κ α : Type} [LT κ] [DecidableEq κ] [DecidableLT κ] [OMap.StrictOrd κ] {g : Json → Res (κ × α)} {N : Json → κ → Prop}
  {E : Json → α → Prop}

omit [OMap.StrictOrd κ] in
theorem gather_alike {R : Json → Json → Prop} (hg : ∀ e n c, g e = .ok (n, c) ↔ N e n ∧ E e c)
    (hN : ∀ e e' n, R e e' → N e n → N e' n) (hE : ∀ e e' c, R e e' → E e c → E e' c) :
    ∀ {es es' : List Json}, List.Forall₂ R es es' → ∀ {m r : OMap κ α}, gather g m es = .ok r → gather g m es' = .ok r
  | _, _, .nil, _, _, h => h
  | _, _, .cons hR hrest, m, r, h => by
    obtain ⟨⟨n, c⟩, h0, h⟩ := bind_eq_ok.1 h
    have := (hg _ _ _).1 h0
    rw [gather, (hg _ n c).2 ⟨hN _ _ _ hR this.1, hE _ _ _ hR this.2⟩, ok_bind]
    exact gather_alike hg hN hE hrest h

theorem gather_perm (hg : ∀ e n c, g e = .ok (n, c) ↔ N e n ∧ E e c) {es es' : List Json} (hp : es.Perm es') :
    es.Pairwise (fun a b => ∀ n, ¬ (N a n ∧ N b n)) → ∀ {m r : OMap κ α}, gather g m es = .ok r → gather g m es' = .ok r := by
  induction hp with
  | nil => exact fun _ _ _ h => h
  | cons a hp ih =>
    intro hd m r h
    obtain ⟨x, h0, h⟩ := bind_eq_ok.1 h
    rw [gather, h0, ok_bind]
    exact ih (List.pairwise_cons.1 hd).2 h
  | swap a b l =>
    intro hd m r h
    obtain ⟨⟨n, c⟩, h0, h⟩ := bind_eq_ok.1 h
    obtain ⟨⟨n', c'⟩, h1, h⟩ := bind_eq_ok.1 h
    have hne : n ≠ n' := fun e => (List.pairwise_cons.1 hd).1 a (by simp) n ⟨((hg _ _ _).1 h0).1, e ▸ ((hg _ _ _).1 h1).1⟩
    rw [gather, h1, ok_bind, gather, h0, ok_bind, OMap.insert_comm m hne.symm]
    exact h
  | trans h1 h2 ih1 ih2 =>
    intro hd m r h
    exact ih2 ((h1.pairwise_iff (fun {x y} hxy n hn => hxy n hn.symm)).1 hd) (ih1 hd h)

theorem gather_rearranged {R : Json → Json → Prop} (hg : ∀ e n c, g e = .ok (n, c) ↔ N e n ∧ E e c)
    (hN : ∀ e e' n, R e e' → N e n → N e' n) (hE : ∀ e e' c, R e e' → E e c → E e' c) {es es' : List Json}
    (h : Rearranged R N es es') {m r : OMap κ α} (hr : gather g m es = .ok r) : gather g m es' = .ok r := by
  obtain ⟨⟨mid, hp, hf⟩, hd⟩ := h
  exact gather_alike hg hN hE hf (gather_perm hg hp hd hr)

end

omit F in
theorem perm_forall₂ {α β : Type} {R : α → β → Prop} {l m : List α} (hp : l.Perm m) :
    ∀ {k : List β}, List.Forall₂ R l k → ∃ k', k.Perm k' ∧ List.Forall₂ R m k' := by
  induction hp with
  | nil => exact fun h => ⟨_, .refl _, h⟩
  | cons a hp ih =>
    intro k h
    cases h with
    | cons h0 h =>
      obtain ⟨k', h1, h2⟩ := ih h
      exact ⟨_, h1.cons _, .cons h0 h2⟩
  | swap a b l =>
    intro k h
    cases h with
    | cons h0 h =>
      cases h with
      | cons h1 h => exact ⟨_, .swap _ _ _, .cons h1 (.cons h0 h)⟩
  | trans h1 h2 ih1 ih2 =>
    intro k h
    obtain ⟨k1, a1, a2⟩ := ih1 h
    obtain ⟨k2, b1, b2⟩ := ih2 a2
    exact ⟨k2, a1.trans b1, b2⟩

theorem pairwise_alike {κ : Type} {R : Json → Json → Prop} {N : Json → κ → Prop} (hN : ∀ e e' n, R e e' → N e' n → N e n) :
    ∀ {es es' : List Json}, List.Forall₂ R es es' → es.Pairwise (fun a b => ∀ n, ¬ (N a n ∧ N b n)) →
      es'.Pairwise (fun a b => ∀ n, ¬ (N a n ∧ N b n))
  | _, _, .nil, _ => .nil
  | _, _, .cons hR hrest, hd => by
    rw [List.pairwise_cons] at hd ⊢
    refine ⟨fun b' hb' n hn => ?_, pairwise_alike hN hrest hd.2⟩
    obtain ⟨i, hi, rfl⟩ := List.getElem_of_mem hb'
    have hl := hrest.length_eq
    exact hd.1 _ (List.getElem_mem (by omega : i < _)) n
      ⟨hN _ _ _ hR hn.1, hN _ _ _ (List.forall₂_iff_get.1 hrest |>.2 i (by omega) hi) hn.2⟩

theorem Rearranged.symm {κ : Type} {R : Json → Json → Prop} {N : Json → κ → Prop} (hR : ∀ e e', R e e' → R e' e)
    (hN : ∀ e e' n, R e e' → N e n → N e' n) {es es' : List Json} (h : Rearranged R N es es') : Rearranged R N es' es := by
  obtain ⟨⟨mid, hp, hf⟩, hd⟩ := h
  have hd' : mid.Pairwise (fun a b => ∀ n, ¬ (N a n ∧ N b n)) :=
    (hp.pairwise_iff (fun {x y} hxy n hn => hxy n hn.symm)).1 hd
  refine ⟨?_, pairwise_alike (R := R) (N := N) (fun e e' n h hn => hN e' e n (hR _ _ h) hn) hf hd'⟩
  obtain ⟨k, h1, h2⟩ := perm_forall₂ hp.symm hf
  exact ⟨k, h1, (List.Forall₂.flip h2).imp fun a b h => hR _ _ h⟩

theorem Rearranged.nil_iff {κ : Type} {R : Json → Json → Prop} {N : Json → κ → Prop} {es es' : List Json}
    (h : Rearranged R N es es') : es = [] ↔ es' = [] := by
  obtain ⟨⟨mid, hp, hf⟩, -⟩ := h
  rw [← List.length_eq_zero_iff, ← List.length_eq_zero_iff, hp.length_eq, hf.length_eq]

/-! ## Zones -/

theorem ZoneAlike.symm {z z' : Json} (h : ZoneAlike z z') : ZoneAlike z' z := by
  obtain ⟨h, ls, ls', h1, h2, h3⟩ := h
  exact ⟨SameSettings.symm h, ls', ls, h2, h1, h3.symm (fun _ _ h => h.symm) (fun _ _ _ h => h.name)⟩

theorem ZoneAlike.number {z z' : Json} (h : ZoneAlike z z') {n : Int} (hn : Numbering z n) : Numbering z' n :=
  (SameSettings.setting h.1 (by simp) _ _).1 hn

theorem ZoneAlike.loops {z z' : Json} (h : ZoneAlike z z') {conf : PIDConf} (hc : loopsOf z = .ok conf) :
    loopsOf z' = .ok conf := by
  obtain ⟨-, ls, ls', h1, h2, h3⟩ := h
  rw [loopsOf, index_iff.2 h1, ok_bind, pidsFromList_eq] at hc
  rw [loopsOf, index_iff.2 h2, ok_bind, pidsFromList_eq]
  exact gather_rearranged loopStep_iff (fun _ _ _ h => h.name) (fun _ _ _ h => h.entry) h3 hc

theorem ZoneAlike.zone {z z' : Json} (h : ZoneAlike z z') {r : Int × PIDConf × ZoneConfig} (hr : zoneFromJson z = .ok r) :
    zoneFromJson z' = .ok r := by
  obtain ⟨i, conf, c⟩ := r
  obtain ⟨h1, h2, h3⟩ := zoneFromJson_iff.1 hr
  refine zoneFromJson_iff.2 ⟨h.number h1, ?_, h.loops h3⟩
  have hs := fun {α : Type} (k : String) hk (R : Json → α → Prop) x => (SameSettings.setting h.1 (k := k) hk R x).1
  have ho := fun {α : Type} (k : String) hk (R : Json → α → Prop) d x => (SameSettings.settingOr h.1 (k := k) hk R d x).1
  obtain ⟨n, a1, a2⟩ := h2.cycle
  obtain ⟨m, b1, b2⟩ := h2.thermals
  exact ⟨hs _ (by simp) _ _ h2.minThermalOutput, hs _ (by simp) _ _ h2.failsafePercent,
    ⟨n, ho _ (by simp) _ _ _ a1, a2⟩, ⟨m, ho _ (by simp) _ _ _ b1, b2⟩, ho _ (by simp) _ _ _ h2.accumulateSetPoint⟩

theorem zones_alike : ∀ {es es' : List Json}, List.Forall₂ ZoneAlike es es' → ∀ {p : OMap Int PIDConf} {z : OMap Int ZoneConfig}
    {r : OMap Int PIDConf × OMap Int ZoneConfig}, zonesFromList p z es = .ok r → zonesFromList p z es' = .ok r
  | _, _, .nil, _, _, _, h => h
  | _, _, .cons hR hrest, p, z, r, h => by
    obtain ⟨x, h0, h⟩ := bind_eq_ok.1 h
    rw [zonesFromList, hR.zone h0, ok_bind]
    exact zones_alike hrest h

theorem zones_perm {es es' : List Json} (hp : es.Perm es') : es.Pairwise (fun a b => ∀ n, ¬ (Numbering a n ∧ Numbering b n)) →
    ∀ {p : OMap Int PIDConf} {z : OMap Int ZoneConfig} {r : OMap Int PIDConf × OMap Int ZoneConfig},
      zonesFromList p z es = .ok r → zonesFromList p z es' = .ok r := by
  induction hp with
  | nil => exact fun _ _ _ _ h => h
  | cons a hp ih =>
    intro hd p z r h
    obtain ⟨x, h0, h⟩ := bind_eq_ok.1 h
    rw [zonesFromList, h0, ok_bind]
    exact ih (List.pairwise_cons.1 hd).2 h
  | swap a b l =>
    intro hd p z r h
    obtain ⟨⟨n, x, c⟩, h0, h⟩ := bind_eq_ok.1 h
    obtain ⟨⟨n', x', c'⟩, h1, h⟩ := bind_eq_ok.1 h
    have hne : n ≠ n' := fun e => (List.pairwise_cons.1 hd).1 a (by simp) n
      ⟨(zoneFromJson_iff.1 h0).1, e ▸ (zoneFromJson_iff.1 h1).1⟩
    rw [zonesFromList, h1, ok_bind, zonesFromList, h0, ok_bind, OMap.insert_comm p hne.symm, OMap.insert_comm z hne.symm]
    exact h
  | trans h1 h2 ih1 ih2 =>
    intro hd p z r h
    exact ih2 ((h1.pairwise_iff (fun {x y} hxy n hn => hxy n hn.symm)).1 hd) (ih1 hd h)

/-! ## Files -/

theorem FileAlike.symm {data data' : Json} (h : FileAlike data data') : FileAlike data' data := by
  obtain ⟨⟨ss, ss', h1, h2, h3⟩, zs, zs', h4, h5, h6⟩ := h
  exact ⟨⟨ss', ss, h2, h1, h3.symm (fun _ _ h => h.symm) (fun _ _ _ h => h.name)⟩,
    zs', zs, h5, h4, h6.symm (fun _ _ h => h.symm) (fun _ _ _ h => h.number)⟩

theorem FileAlike.acceptable {data data' : Json} (h : FileAlike data data') (ha : Acceptable data) : Acceptable data' := by
  obtain ⟨⟨ss, ss', h1, h2, h3⟩, zs, zs', h4, h5, ⟨⟨mid, hp, hf⟩, -⟩⟩ := h
  obtain ⟨⟨s, a1, a2⟩, z, a3, a4⟩ := ha
  obtain rfl := member_unique h1 a1
  obtain rfl := member_unique h4 a3
  refine ⟨⟨_, h2, fun he => a2 ?_⟩, _, h5, fun zs1 he zone hz => ?_⟩
  · rw [entries_iff] at he ⊢
    exact h3.nil_iff.2 he
  · obtain rfl : zs' = zs1 := entries_iff.1 he
    obtain ⟨i, hi, rfl⟩ := List.getElem_of_mem hz
    have hl := hf.length_eq
    have hza : ZoneAlike mid[i] zs'[i] := (List.forall₂_iff_get.1 hf).2 i (by omega) hi
    obtain ⟨p, b1, b2⟩ := a4 zs (.arr _) _ (hp.mem_iff.2 (List.getElem_mem (by omega : i < mid.length)))
    obtain ⟨-, ls, ls', c1, c2, c3⟩ := hza
    obtain rfl := member_unique c1 b1
    refine ⟨_, c2, fun he => b2 ?_⟩
    rw [entries_iff] at he ⊢
    exact c3.nil_iff.2 he

theorem FileAlike.config {f f' : StartFiles} {path path' : String} {data data' : Json} (h : FileAlike data data')
    (hj : f.json path = some data) (hj' : f'.json path' = some data') {c : Config} (hc : configFromFile f path = .ok c) :
    configFromFile f' path' = .ok c := by
  unfold configFromFile parseValidateJson at hc ⊢
  simp only [hj] at hc
  simp only [hj']
  obtain ⟨d, h0, hc⟩ := bind_eq_ok.1 hc
  obtain ⟨u, hv, h0'⟩ := bind_eq_ok.1 h0
  clear h0
  cases h0'
  obtain ⟨sensors, h1, hc⟩ := bind_eq_ok.1 hc
  obtain ⟨⟨pids, zones⟩, h2, hc⟩ := bind_eq_ok.1 hc
  rw [(C63_validate data').2 (h.acceptable ((C63_validate data).1 hv))]
  obtain ⟨⟨ss, ss', a1, a2, a3⟩, zs, zs', a4, a5, ⟨⟨mid, hp, hf⟩, hd⟩⟩ := h
  rw [buildSensorsFromJson, index_iff.2 a1, ok_bind, sensorsFromList_eq] at h1
  rw [buildPIDsFromJson, index_iff.2 a4, ok_bind] at h2
  have h1' : buildSensorsFromJson data' = .ok sensors := by
    rw [buildSensorsFromJson, index_iff.2 a2, ok_bind, sensorsFromList_eq]
    exact gather_rearranged sensorStep_iff (fun _ _ _ h => h.name) (fun _ _ _ h => h.entry) a3 h1
  have h2' : buildPIDsFromJson data' = .ok (pids, zones) := by
    rw [buildPIDsFromJson, index_iff.2 a5, ok_bind]
    exact zones_alike hf (zones_perm hp hd h2)
  rw [ok_bind, ok_bind, h1', ok_bind, h2', ok_bind]
  exact hc

end
end Verif
