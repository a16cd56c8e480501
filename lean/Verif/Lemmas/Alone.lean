import Verif.Spec.Alone
import Verif.Lemmas.Daemon
import Verif.Props.Daemon

/-! # Helper lemmas about the independence of zones -/

namespace Verif
open Dbl
variable [F : FloatModel]

/-- `w` and `w'` differ at most in what was written to fans other than `ns` -/
structure Agree (ns : List String) (w w' : World) : Prop where
  same : w' = { w with sensors := w'.sensors, trace := w'.trace }
  front : ∀ n, (w'.sensors.find? n).map Sensor.front = (w.sensors.find? n).map Sensor.front
  own : ∀ n ∈ ns, w'.sensors.find? n = w.sensors.find? n

theorem Agree.cases {ns : List String} {w w' : World} (h : Agree ns w w') (n : String) :
    (w.sensors.find? n = none ∧ w'.sensors.find? n = none) ∨
    ∃ s s', w.sensors.find? n = some s ∧ w'.sensors.find? n = some s' ∧ s'.front = s.front := by
  have := h.front n
  cases h1 : w.sensors.find? n with
  | none =>
    cases h2 : w'.sensors.find? n with
    | none => exact .inl ⟨rfl, rfl⟩
    | some s' => rw [h1, h2] at this; cases this
  | some s =>
    cases h2 : w'.sensors.find? n with
    | none => rw [h1, h2] at this; cases this
    | some s' => rw [h1, h2] at this; exact .inr ⟨s, s', rfl, rfl, Option.some.inj this⟩

theorem reason_front {s s' : Sensor} (h : s'.front = s.front) : s'.getFailReason = s.getFailReason := by
  obtain ⟨a, b, c, d⟩ := s
  obtain ⟨a', b', c', d'⟩ := s'
  simp only [Sensor.front, Prod.mk.injEq] at h
  obtain ⟨rfl, rfl, rfl, h⟩ := h
  cases d with
  | pluggable r wr =>
    cases d' with
    | pluggable r' wr' => cases h; cases r <;> rfl
    | host v u => cases h
  | host v u =>
    cases d' with
    | pluggable r' wr' => cases h
    | host v' u' => rfl

theorem Agree.poll {ns : List String} {w w' : World} (h : Agree ns w w') (now : Int) (z : ZoneData) (n : String) :
    z.processSensorInput w' now n = z.processSensorInput w now n := by
  unfold ZoneData.processSensorInput World.getSensor
  rcases h.cases n with ⟨h1, h2⟩ | ⟨s, s', h1, h2, hf⟩
  · have : w'.sensors.atKey n = w.sensors.atKey n := by unfold OMap.atKey; rw [h1, h2]
    have hx : ∀ s, w.sensors.atKey n ≠ .ok s := fun s hs => by
      rw [OMap.atKey_ok_iff, h1] at hs; cases hs
    rw [this]
    cases hk : w.sensors.atKey n with
    | error e => rfl
    | ok s => exact absurd hk (hx s)
  · rw [OMap.atKey_of_find? h1, OMap.atKey_of_find? h2, ok_bind, ok_bind]
    have e1 : w'.files = w.files := by rw [h.same]
    have e2 : w'.hostOn = w.hostOn := by rw [h.same]
    have e3 : w'.redundancyFailed = w.redundancyFailed := by rw [h.same]
    rw [read_front hf e1, failed_front hf e2 e3, reason_front hf]
    have e4 : s'.timeout = s.timeout := by
      unfold Sensor.front at hf
      simp only [Prod.mk.injEq] at hf
      exact hf.2.1
    rw [e4]

theorem Agree.polls {ns : List String} {w w' : World} (h : Agree ns w w') (now : Int) : ∀ (l : List String) (z : ZoneData),
    z.processSensorInputs w' now l = z.processSensorInputs w now l
  | [], z => rfl
  | n :: l, z => by
    unfold ZoneData.processSensorInputs
    rw [h.poll]
    cases z.processSensorInput w now n with
    | error e => rfl
    | ok z' => exact h.polls now l z'

theorem Agree.telemetry {ns : List String} {w w' : World} (h : Agree ns w w') (z : ZoneData) :
    z.updateFanTelemetry w' = z.updateFanTelemetry w := by
  unfold ZoneData.updateFanTelemetry
  have e : w'.nowFans = w.nowFans := by rw [h.same]
  rw [h.polls, e]

theorem Agree.thermals {ns : List String} {w w' : World} (h : Agree ns w w') (o : Opts) (z : Zone) :
    z.processThermals o w' = z.processThermals o w := by
  unfold Zone.processThermals ZoneData.updateSensors
  have e : w'.nowThermals = w.nowThermals := by rw [h.same]
  have e' : w'.files = w.files := by rw [h.same]
  have hd : ∀ (ids : List String) (d : ZoneData), d.determineMaxSetPointRequest o w' ids = d.determineMaxSetPointRequest o w ids := by
    intro ids d
    unfold ZoneData.determineMaxSetPointRequest
    rw [e']
  rw [h.polls, e]
  simp only [hd]

theorem Agree.write {ns : List String} {w w' : World} (h : Agree ns w w') {n : String} (hn : n ∈ ns) {v : Dbl} {force : Bool}
    {w1 : World} {sn : String} {wr : Option Int} (hw : w.writeSensor n v force = .ok (w1, sn, wr)) :
    ∃ w1' l, w'.writeSensor n v force = .ok (w1', sn, wr) ∧ Agree ns w1 w1' ∧ w1.trace = w.trace ++ l ∧
      w1'.trace = w'.trace ++ l := by
  obtain ⟨s, rd, writer, res, h1, h2, h3, rfl, rfl, rfl⟩ := writeSensor_spec hw
  have h1' := (h.own n hn).trans h1
  have eb : w'.busOk = w.busOk := by rw [h.same]
  refine ⟨{ w' with
      sensors := w'.sensors.insert n { s with
        impl := .pluggable rd res.writer }
      trace := w'.trace ++ res.effect.toList }, res.effect.toList, ?_, ?_, rfl, rfl⟩
  · unfold World.writeSensor World.getSensor
    rw [OMap.atKey_of_find? h1', ok_bind, h2, eb]
    dsimp only
    rw [h3, ok_bind]
  · refine ⟨?_, fun m => ?_, fun m hm => ?_⟩
    · show ({ w' with sensors := _, trace := _ } : World) = _
      conv_lhs => rw [h.same]
    · simp only [OMap.find?_insert]
      split_ifs
      · rfl
      · exact h.front m
    · simp only [OMap.find?_insert]
      split_ifs
      · rfl
      · exact h.own m hm

theorem Agree.writeFans {ns : List String} {raw0 : Res Int} {v : Dbl} : ∀ {l : List String} {w w' w1 : World} {z z1 : ZoneData},
    Agree ns w w' → (∀ n ∈ l, n ∈ ns) → writeFans raw0 v w z l = .ok (w1, z1) →
    ∃ w1' t, writeFans raw0 v w' z l = .ok (w1', z1) ∧ Agree ns w1 w1' ∧ w1.trace = w.trace ++ t ∧ w1'.trace = w'.trace ++ t
  | [], w, w', w1, z, z1, h, _, hw => by
    cases hw
    exact ⟨w', [], rfl, h, by simp, by simp⟩
  | n :: l, w, w', w1, z, z1, h, hl, hw => by
    unfold Verif.writeFans at hw
    obtain ⟨⟨w2, sn, wr⟩, h1, hw⟩ := bind_eq_ok.1 hw
    obtain ⟨raw, h2, hw⟩ := bind_eq_ok.1 hw
    obtain ⟨w2', t, a1, a2, a3, a4⟩ := h.write (hl n List.mem_cons_self) h1
    obtain ⟨w1', t', b1, b2, b3, b4⟩ := Agree.writeFans a2 (fun m hm => hl m (List.mem_cons_of_mem _ hm)) hw
    refine ⟨w1', t ++ t', ?_, b2, by rw [b3, a3, List.append_assoc], by rw [b4, a4, List.append_assoc]⟩
    unfold Verif.writeFans
    rw [a1, ok_bind]
    dsimp only
    rw [h2, ok_bind]
    exact b1

theorem Agree.fans {ns : List String} {o : Opts} : ∀ {l l1 : List (Option FanPid)} {w w' w1 : World} {z z1 : ZoneData},
    Agree ns w w' → (∀ c, some c ∈ l → ∀ n ∈ c.inputs, n ∈ ns) → processFanList o w z l = .ok (w1, z1, l1) →
    ∃ w1' t, processFanList o w' z l = .ok (w1', z1, l1) ∧ Agree ns w1 w1' ∧ w1.trace = w.trace ++ t ∧ w1'.trace = w'.trace ++ t
  | [], l1, w, w', w1, z, z1, h, _, hw => by
    cases hw
    exact ⟨w', [], rfl, h, by simp, by simp⟩
  | none :: l, l1, w, w', w1, z, z1, h, _, hw => by cases hw
  | some c :: l, l1, w, w', w1, z, z1, h, hl, hw => by
    unfold processFanList at hw
    obtain ⟨⟨w2, z2, c2⟩, h1, hw⟩ := bind_eq_ok.1 hw
    obtain ⟨⟨w3, z3, l3⟩, h2, hw⟩ := bind_eq_ok.1 hw
    cases hw
    unfold FanPid.process at h1
    obtain ⟨i, h3, h1⟩ := bind_eq_ok.1 h1
    obtain ⟨⟨w4, z4⟩, h4, h1⟩ := bind_eq_ok.1 h1
    cases h1
    obtain ⟨w2', t, a1, a2, a3, a4⟩ := Agree.writeFans h (hl c List.mem_cons_self) h4
    obtain ⟨w1', t', b1, b2, b3, b4⟩ := Agree.fans a2 (fun c hc => hl c (List.mem_cons_of_mem _ hc)) h2
    refine ⟨w1', t ++ t', ?_, b2, by rw [b3, a3, List.append_assoc], by rw [b4, a4, List.append_assoc]⟩
    exact bind_eq_ok.2 ⟨(w2', z2, _), bind_eq_ok.2 ⟨i, h3, bind_eq_ok.2 ⟨(w2', z2), a1, rfl⟩⟩, bind_eq_ok.2 ⟨_, b1, rfl⟩⟩

theorem Agree.tick {ns : List String} {o : Opts} {w w' w1 : World} {z z1 : Zone} {cnt cnt1 : Nat} (h : Agree ns w w')
    (hl : ∀ c, some c ∈ z.fans → ∀ n ∈ c.inputs, n ∈ ns) (ht : z.tick o w cnt = .ok (w1, z1, cnt1)) :
    ∃ w1' t, z.tick o w' cnt = .ok (w1', z1, cnt1) ∧ Agree ns w1 w1' ∧ w1.trace = w.trace ++ t ∧ w1'.trace = w'.trace ++ t := by
  by_cases hm : z.d.manualMode = true
  · rw [tick_manual hm] at ht
    cases ht
    exact ⟨w', [], tick_manual hm, h, by simp, by simp⟩
  · have hp : ∀ {zt zt' : Zone}, zt.fans = z.fans → zt.processFans o w = .ok (w1, zt') →
        ∃ w1' t, zt.processFans o w' = .ok (w1', zt') ∧ Agree ns w1 w1' ∧ w1.trace = w.trace ++ t ∧ w1'.trace = w'.trace ++ t := by
      intro zt zt' hf hp
      unfold Zone.processFans at hp ⊢
      obtain ⟨⟨w2, d2, l2⟩, h1, hp⟩ := bind_eq_ok.1 hp
      cases hp
      obtain ⟨w1', t, a1, a2, a3, a4⟩ := Agree.fans h (by rw [hf]; exact hl) h1
      exact ⟨w1', t, by rw [a1, ok_bind], a2, a3, a4⟩
    have ht0 := ht
    obtain ⟨d, h1, hd⟩ := tick_auto (by simpa using hm) ht
    have ec : d.cycleTime = z.d.cycleTime := by rw [(pollAll_spec h1).frame.eq]
    rcases hd with ⟨hc, zt, h3, h4, h5⟩ | ⟨hc, h3, h5⟩
    · obtain ⟨w1', t, a1, a2, a3, a4⟩ := hp (thermalTick_flags h3).2.2 h4
      refine ⟨w1', t, ?_, a2, a3, a4⟩
      unfold Zone.tick at ht0 ⊢
      rw [if_neg (by simpa using hm)] at ht0 ⊢
      rw [h.telemetry]
      rw [h1, ok_bind] at ht0 ⊢
      dsimp only at ht0 ⊢
      rw [if_pos (by rw [ec]; exact hc)] at ht0 ⊢
      rw [h.thermals, h3, ok_bind, ok_bind]
      rw [h3, ok_bind, ok_bind] at ht0
      dsimp only at ht0 ⊢
      rw [h4, ok_bind] at ht0
      rw [a1, ok_bind]
      cases ht0
      rfl
    · obtain ⟨w1', t, a1, a2, a3, a4⟩ := hp (zt := { z with d := d }) rfl h3
      refine ⟨w1', t, ?_, a2, a3, a4⟩
      unfold Zone.tick at ht0 ⊢
      rw [if_neg (by simpa using hm)] at ht0 ⊢
      rw [h.telemetry]
      rw [h1, ok_bind] at ht0 ⊢
      dsimp only at ht0 ⊢
      rw [if_neg (by rw [ec]; exact hc), ok_bind] at ht0 ⊢
      dsimp only at ht0 ⊢
      rw [h3, ok_bind] at ht0
      rw [a1, ok_bind]
      cases ht0
      rfl

/-! ## Ticks of other zones -/

theorem commanded_only {v : Dbl} {force : Bool} {w w' : World} {ns : List String} (h : Commanded v force w ns w') {m : String}
    (hm : m ∉ ns) : w'.sensors.find? m = w.sensors.find? m := by
  induction h with
  | nil w => rfl
  | @cons w w1 w2 name rest n wr h1 _ ih =>
    rw [ih (fun hx => hm (List.mem_cons_of_mem _ hx))]
    obtain ⟨s, rd, writer, res, _, _, _, _, _, rfl⟩ := writeSensor_spec h1
    exact OMap.find?_insert_ne _ (fun e : m = name => hm (e ▸ List.mem_cons_self)) _

theorem drives_only {force : Bool} {w w' : World} {l : List (FanPid × Dbl)} (h : Drives force w l w') {m : String}
    (hm : ∀ x ∈ l, m ∉ x.1.inputs) : w'.sensors.find? m = w.sensors.find? m := by
  induction h with
  | nil w => rfl
  | cons h1 _ ih =>
    rw [ih (fun x hx => hm x (List.mem_cons_of_mem _ hx)), commanded_only h1 (hm _ List.mem_cons_self)]

theorem tick_only {o : Opts} {w w' : World} {z z' : Zone} {cnt cnt' : Nat} (h : z.tick o w cnt = .ok (w', z', cnt'))
    {m : String} (hm : ∀ c, some c ∈ z.fans → m ∉ c.inputs) : w'.sensors.find? m = w.sensors.find? m := by
  by_cases hmm : z.d.manualMode = true
  · rw [tick_manual hmm] at h; cases h; rfl
  · have key : ∀ {zt : Zone}, zt.fans = z.fans → zt.processFans o w = .ok (w', z') →
        w'.sensors.find? m = w.sensors.find? m := by
      intro zt hf hp
      obtain ⟨l, a1, _, a3, _⟩ := processFans_spec hp
      refine drives_only a3 (fun x hx => ?_)
      obtain ⟨y, hy, rfl⟩ := List.mem_map.1 hx
      exact hm _ (by rw [← hf, a1]; exact List.mem_map.2 ⟨y, hy, rfl⟩)
    obtain ⟨d, _, ⟨-, zt, h2, h3, -⟩ | ⟨-, h3, -⟩⟩ := tick_auto (by simpa using hmm) h
    · exact key (thermalTick_flags h2).2.2 h3
    · exact key (zt := { z with d := d }) rfl h3

/-- the fans of a zone's loops -/
def Zone.fanNames (z : Zone) (n : String) : Prop := ∃ c, some c ∈ z.fans ∧ n ∈ c.inputs

theorem fanNames_congr {z z' : Zone} (h : z'.fans.map (Option.map FanPid.inputs) = z.fans.map (Option.map FanPid.inputs))
    {n : String} (hn : z'.fanNames n) : z.fanNames n := by
  obtain ⟨c, hc, hn⟩ := hn
  have : some c.inputs ∈ z.fans.map (Option.map FanPid.inputs) := by
    rw [← h]; exact List.mem_map.2 ⟨some c, hc, rfl⟩
  obtain ⟨c', hc', he⟩ := List.mem_map.1 this
  cases c' with
  | none => cases he
  | some c' => exact ⟨c', hc', by rw [Option.some.inj he]; exact hn⟩

/-- `d` is a daemon, `d'` one with the same zone `i` and perhaps without the others, which do not use the fans `ns` -/
structure Alone (i : Int) (ns : List String) (d d' : Daemon) : Prop where
  agree : Agree ns d.w d'.w
  zone : ∃ z cnt, d.zones.find? i = some (z, cnt) ∧ d'.zones.find? i = some (z, cnt) ∧ ∀ n, z.fanNames n → n ∈ ns
  none : ∀ j, j ≠ i → d'.zones.find? j = none
  others : ∀ j z cnt, j ≠ i → d.zones.find? j = some (z, cnt) → ∀ n, z.fanNames n → n ∉ ns

end Verif
