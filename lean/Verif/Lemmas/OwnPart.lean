import Verif.Spec.OwnPart
import Verif.Props.Alone

/-! # Helper lemmas about what a zone can notice -/

namespace Verif
open Dbl
variable [F : FloatModel]

/-- the worlds show the same of the sensors `rs`, and the fans `ns` are the same -/
structure AgreeOn (rs ns : List String) (w w' : World) : Prop where
  same : w' = { w with sensors := w'.sensors, trace := w'.trace }
  front : ∀ n ∈ rs, (w'.sensors.find? n).map Sensor.front = (w.sensors.find? n).map Sensor.front
  own : ∀ n ∈ ns, w'.sensors.find? n = w.sensors.find? n

theorem AgreeOn.symm {rs ns : List String} {w w' : World} (h : AgreeOn rs ns w w') : AgreeOn rs ns w' w := by
  refine ⟨?_, fun n hn => (h.front n hn).symm, fun n hn => (h.own n hn).symm⟩
  have := h.same
  rw [this]

theorem AgreeOn.trans {rs ns : List String} {a b c : World} (h : AgreeOn rs ns a b) (h' : AgreeOn rs ns b c) : AgreeOn rs ns a c := by
  refine ⟨?_, fun n hn => (h'.front n hn).trans (h.front n hn), fun n hn => (h'.own n hn).trans (h.own n hn)⟩
  rw [h'.same, h.same]

theorem AgreeOn.cases {rs ns : List String} {w w' : World} (h : AgreeOn rs ns w w') {n : String} (hn : n ∈ rs) :
    (w.sensors.find? n = none ∧ w'.sensors.find? n = none) ∨
    ∃ s s', w.sensors.find? n = some s ∧ w'.sensors.find? n = some s' ∧ s'.front = s.front := by
  have := h.front n hn
  cases h1 : w.sensors.find? n with
  | none =>
    cases h2 : w'.sensors.find? n with
    | none => exact .inl ⟨rfl, rfl⟩
    | some s' => rw [h1, h2] at this; cases this
  | some s =>
    cases h2 : w'.sensors.find? n with
    | none => rw [h1, h2] at this; cases this
    | some s' => rw [h1, h2] at this; exact .inr ⟨s, s', rfl, rfl, Option.some.inj this⟩

/-- one sensor that shows the same can be handled as if all did -/
theorem AgreeOn.poll {rs ns : List String} {w w' : World} (h : AgreeOn rs ns w w') (now : Int) (z : ZoneData) {n : String}
    (hn : n ∈ rs) : z.processSensorInput w' now n = z.processSensorInput w now n := by
  unfold ZoneData.processSensorInput World.getSensor
  rcases h.cases hn with ⟨h1, h2⟩ | ⟨s, s', h1, h2, hf⟩
  · have : w'.sensors.atKey n = w.sensors.atKey n := by unfold OMap.atKey; rw [h1, h2]
    have hx : ∀ s, w.sensors.atKey n ≠ .ok s := fun s hs => by
      rw [OMap.atKey_ok_iff, h1] at hs; cases hs
    rw [this]
    cases hk : w.sensors.atKey n with
    | error e => rfl
    | ok s => exact absurd hk (hx s)
  · rw [OMap.atKey_of_find? h1, OMap.atKey_of_find? h2, ok_bind, ok_bind]
    have e1 : w'.files = w.files := by rw [h.same]
    have e2 : w'.hostOn = w.hostOn := by rw [h.same]
    have e3 : w'.redundancyFailed = w.redundancyFailed := by rw [h.same]
    rw [read_front hf e1, failed_front hf e2 e3, reason_front hf]
    have e4 : s'.timeout = s.timeout := by
      unfold Sensor.front at hf
      simp only [Prod.mk.injEq] at hf
      exact hf.2.1
    rw [e4]

theorem AgreeOn.polls {rs ns : List String} {w w' : World} (h : AgreeOn rs ns w w') (now : Int) : ∀ (l : List String) (z : ZoneData),
    (∀ n ∈ l, n ∈ rs) → z.processSensorInputs w' now l = z.processSensorInputs w now l
  | [], z, _ => rfl
  | n :: l, z, hl => by
    unfold ZoneData.processSensorInputs
    rw [h.poll now z (hl n List.mem_cons_self)]
    cases z.processSensorInput w now n with
    | error e => rfl
    | ok z' => exact h.polls now l z' (fun m hm => hl m (List.mem_cons_of_mem _ hm))

theorem AgreeOn.telemetry {rs ns : List String} {w w' : World} (h : AgreeOn rs ns w w') {z : ZoneData} (hz : ∀ n ∈ z.fanInputs, n ∈ rs) :
    z.updateFanTelemetry w' = z.updateFanTelemetry w := by
  unfold ZoneData.updateFanTelemetry
  have e : w'.nowFans = w.nowFans := by rw [h.same]
  rw [h.polls _ _ _ hz, e]

theorem AgreeOn.thermals {rs ns : List String} {w w' : World} (h : AgreeOn rs ns w w') (o : Opts) {z : Zone}
    (hz : ∀ n ∈ z.d.thermalInputs, n ∈ rs) : z.processThermals o w' = z.processThermals o w := by
  unfold Zone.processThermals ZoneData.updateSensors
  have e : w'.nowThermals = w.nowThermals := by rw [h.same]
  have e' : w'.files = w.files := by rw [h.same]
  have hd : ∀ (ids : List String) (d : ZoneData), d.determineMaxSetPointRequest o w' ids = d.determineMaxSetPointRequest o w ids := by
    intro ids d
    unfold ZoneData.determineMaxSetPointRequest
    rw [e']
  rw [h.polls _ _ _ hz, e]
  simp only [hd]

/-- a world that differs from the second one only in sensors other than `rs`, and agrees with the first one -/
theorem AgreeOn.write {rs ns : List String} {w w' : World} (h : AgreeOn rs ns w w') {n : String} (hn : n ∈ ns) {v : Dbl} {force : Bool}
    {w1 : World} {sn : String} {wr : Option Int} (hw : w.writeSensor n v force = .ok (w1, sn, wr)) :
    ∃ w1' l, w'.writeSensor n v force = .ok (w1', sn, wr) ∧ AgreeOn rs ns w1 w1' ∧ w1.trace = w.trace ++ l ∧
      w1'.trace = w'.trace ++ l := by
  obtain ⟨s, rd, writer, res, h1, h2, h3, rfl, rfl, rfl⟩ := writeSensor_spec hw
  have h1' := (h.own n hn).trans h1
  have eb : w'.busOk = w.busOk := by rw [h.same]
  refine ⟨{ w' with
      sensors := w'.sensors.insert n { s with
        impl := .pluggable rd res.writer }
      trace := w'.trace ++ res.effect.toList }, res.effect.toList, ?_, ?_, rfl, rfl⟩
  · unfold World.writeSensor World.getSensor
    rw [OMap.atKey_of_find? h1', ok_bind, h2, eb]
    dsimp only
    rw [h3, ok_bind]
  · refine ⟨?_, fun m hmr => ?_, fun m hm => ?_⟩
    · show ({ w' with sensors := _, trace := _ } : World) = _
      conv_lhs => rw [h.same]
    · simp only [OMap.find?_insert]
      split_ifs
      · rfl
      · exact h.front m hmr
    · simp only [OMap.find?_insert]
      split_ifs
      · rfl
      · exact h.own m hm

theorem AgreeOn.writeFans {rs ns : List String} {raw0 : Res Int} {v : Dbl} : ∀ {l : List String} {w w' w1 : World} {z z1 : ZoneData},
    AgreeOn rs ns w w' → (∀ n ∈ l, n ∈ ns) → writeFans raw0 v w z l = .ok (w1, z1) →
    ∃ w1' t, writeFans raw0 v w' z l = .ok (w1', z1) ∧ AgreeOn rs ns w1 w1' ∧ w1.trace = w.trace ++ t ∧ w1'.trace = w'.trace ++ t
  | [], w, w', w1, z, z1, h, _, hw => by
    cases hw
    exact ⟨w', [], rfl, h, by simp, by simp⟩
  | n :: l, w, w', w1, z, z1, h, hl, hw => by
    unfold Verif.writeFans at hw
    obtain ⟨⟨w2, sn, wr⟩, h1, hw⟩ := bind_eq_ok.1 hw
    obtain ⟨raw, h2, hw⟩ := bind_eq_ok.1 hw
    obtain ⟨w2', t, a1, a2, a3, a4⟩ := h.write (hl n List.mem_cons_self) h1
    obtain ⟨w1', t', b1, b2, b3, b4⟩ := AgreeOn.writeFans a2 (fun m hm => hl m (List.mem_cons_of_mem _ hm)) hw
    refine ⟨w1', t ++ t', ?_, b2, by rw [b3, a3, List.append_assoc], by rw [b4, a4, List.append_assoc]⟩
    unfold Verif.writeFans
    rw [a1, ok_bind]
    dsimp only
    rw [h2, ok_bind]
    exact b1

theorem AgreeOn.fans {rs ns : List String} {o : Opts} : ∀ {l l1 : List (Option FanPid)} {w w' w1 : World} {z z1 : ZoneData},
    AgreeOn rs ns w w' → (∀ c, some c ∈ l → ∀ n ∈ c.inputs, n ∈ ns) → processFanList o w z l = .ok (w1, z1, l1) →
    ∃ w1' t, processFanList o w' z l = .ok (w1', z1, l1) ∧ AgreeOn rs ns w1 w1' ∧ w1.trace = w.trace ++ t ∧ w1'.trace = w'.trace ++ t
  | [], l1, w, w', w1, z, z1, h, _, hw => by
    cases hw
    exact ⟨w', [], rfl, h, by simp, by simp⟩
  | none :: l, l1, w, w', w1, z, z1, h, _, hw => by cases hw
  | some c :: l, l1, w, w', w1, z, z1, h, hl, hw => by
    unfold processFanList at hw
    obtain ⟨⟨w2, z2, c2⟩, h1, hw⟩ := bind_eq_ok.1 hw
    obtain ⟨⟨w3, z3, l3⟩, h2, hw⟩ := bind_eq_ok.1 hw
    cases hw
    unfold FanPid.process at h1
    obtain ⟨i, h3, h1⟩ := bind_eq_ok.1 h1
    obtain ⟨⟨w4, z4⟩, h4, h1⟩ := bind_eq_ok.1 h1
    cases h1
    obtain ⟨w2', t, a1, a2, a3, a4⟩ := AgreeOn.writeFans h (hl c List.mem_cons_self) h4
    obtain ⟨w1', t', b1, b2, b3, b4⟩ := AgreeOn.fans a2 (fun c hc => hl c (List.mem_cons_of_mem _ hc)) h2
    refine ⟨w1', t ++ t', ?_, b2, by rw [b3, a3, List.append_assoc], by rw [b4, a4, List.append_assoc]⟩
    exact bind_eq_ok.2 ⟨(w2', z2, _), bind_eq_ok.2 ⟨i, h3, bind_eq_ok.2 ⟨(w2', z2), a1, rfl⟩⟩, bind_eq_ok.2 ⟨_, b1, rfl⟩⟩


theorem AgreeOn.tick {rs ns : List String} {o : Opts} {w w' w1 : World} {z z1 : Zone} {cnt cnt1 : Nat} (h : AgreeOn rs ns w w')
    (hl : ∀ c, some c ∈ z.fans → ∀ n ∈ c.inputs, n ∈ ns) (hfi : ∀ n ∈ z.d.fanInputs, n ∈ rs) (hti : ∀ n ∈ z.d.thermalInputs, n ∈ rs)
    (ht : z.tick o w cnt = .ok (w1, z1, cnt1)) :
    ∃ w1' t, z.tick o w' cnt = .ok (w1', z1, cnt1) ∧ AgreeOn rs ns w1 w1' ∧ w1.trace = w.trace ++ t ∧ w1'.trace = w'.trace ++ t := by
  by_cases hm : z.d.manualMode = true
  · rw [tick_manual hm] at ht
    cases ht
    exact ⟨w', [], tick_manual hm, h, by simp, by simp⟩
  · have hp : ∀ {zt zt' : Zone}, zt.fans = z.fans → zt.processFans o w = .ok (w1, zt') →
        ∃ w1' t, zt.processFans o w' = .ok (w1', zt') ∧ AgreeOn rs ns w1 w1' ∧ w1.trace = w.trace ++ t ∧ w1'.trace = w'.trace ++ t := by
      intro zt zt' hf hp
      unfold Zone.processFans at hp ⊢
      obtain ⟨⟨w2, d2, l2⟩, h1, hp⟩ := bind_eq_ok.1 hp
      cases hp
      obtain ⟨w1', t, a1, a2, a3, a4⟩ := AgreeOn.fans h (by rw [hf]; exact hl) h1
      exact ⟨w1', t, by rw [a1, ok_bind], a2, a3, a4⟩
    have ht0 := ht
    obtain ⟨d, h1, hd⟩ := tick_auto (by simpa using hm) ht
    have ef := (pollAll_spec h1).frame.eq
    have ec : d.cycleTime = z.d.cycleTime := by rw [ef]
    have et : d.thermalInputs = z.d.thermalInputs := by rw [ef]
    have htel := h.telemetry hfi
    have hth : ({ z with d := d } : Zone).processThermals o w' = ({ z with d := d } : Zone).processThermals o w :=
      h.thermals o (z := { z with d := d }) (by rw [et]; exact hti)
    rcases hd with ⟨hc, zt, h3, h4, h5⟩ | ⟨hc, h3, h5⟩
    · obtain ⟨w1', t, a1, a2, a3, a4⟩ := hp (thermalTick_flags h3).2.2 h4
      refine ⟨w1', t, ?_, a2, a3, a4⟩
      unfold Zone.tick at ht0 ⊢
      rw [if_neg (by simpa using hm)] at ht0 ⊢
      rw [htel]
      rw [h1, ok_bind] at ht0 ⊢
      dsimp only at ht0 ⊢
      rw [if_pos (by rw [ec]; exact hc)] at ht0 ⊢
      rw [hth, h3, ok_bind, ok_bind]
      rw [h3, ok_bind, ok_bind] at ht0
      dsimp only at ht0 ⊢
      rw [h4, ok_bind] at ht0
      rw [a1, ok_bind]
      cases ht0
      rfl
    · obtain ⟨w1', t, a1, a2, a3, a4⟩ := hp (zt := { z with d := d }) rfl h3
      refine ⟨w1', t, ?_, a2, a3, a4⟩
      unfold Zone.tick at ht0 ⊢
      rw [if_neg (by simpa using hm)] at ht0 ⊢
      rw [htel]
      rw [h1, ok_bind] at ht0 ⊢
      dsimp only at ht0 ⊢
      rw [if_neg (by rw [ec]; exact hc), ok_bind] at ht0 ⊢
      dsimp only at ht0 ⊢
      rw [h3, ok_bind] at ht0
      rw [a1, ok_bind]
      cases ht0
      rfl

end Verif
