import Verif.Spec.FailsafeMsgs
import Verif.Props.ZoneLog
import Verif.Props.FailsafeLog

/-! # Calls to the failsafe log: properties C96, C97 -/

namespace Verif
open Dbl
section
variable [F : FloatModel]

theorem zoneSays_append (init : Bool) (a b : List FsMsg) : zoneSays init (a ++ b) = zoneSays (zoneSays init a) b := by
  induction a generalizing init with
  | nil => rfl
  | cons m a ih =>
    simp only [List.cons_append, zoneSays]
    cases m.target <;> exact ih _

theorem passive_msgs_sensor (p : Passive) (red : List String) (id : String) :
    ∀ m ∈ p.failMsgs red id, m.target = .sensor id ∧ m.location = id ∧ m.state = p.getFailed red := by
  unfold Passive.failMsgs Passive.getFailed
  split_ifs <;> simp

theorem sensor_msgs (w : World) (s : Sensor) :
    ∀ m ∈ s.failMsgs w, m.target = .sensor s.name ∧ m.location = s.name ∧
      (m.state = true → (s.ignoreFailIfHostOff = true → w.hostOn = true) → s.getFailed w = .ok true) := by
  unfold Sensor.failMsgs Sensor.getFailed
  split
  · next p wr h =>
    intro m hm
    obtain ⟨a, b, c⟩ := passive_msgs_sensor p _ _ m hm
    refine ⟨a, b, fun hst hh => ?_⟩
    rw [hst] at c
    simp only [h, ← c, Bool.true_and]
    split_ifs with hx
    · rw [hh hx]
    · rfl
  · next v u h =>
    split_ifs with h1 h2
    · simp
    · simp
    · intro m hm
      rw [List.mem_singleton] at hm
      subst hm
      refine ⟨rfl, rfl, fun _ hh => ?_⟩
      simp only [h, Bool.not_eq_true _ ▸ h1, Bool.not_false, Bool.true_and]
      split_ifs with hx
      · rw [hh hx]
      · rfl
  · simp

theorem zoneSays_sensor (init : Bool) (w : World) (s : Sensor) : zoneSays init (s.failMsgs w) = init := by
  have := sensor_msgs w s
  generalize s.failMsgs w = ms at this
  induction ms with
  | nil => rfl
  | cons m ms ih =>
    simp only [zoneSays, (this m (by simp)).1]
    exact ih (fun m hm => this m (List.mem_cons_of_mem _ hm))

/-- the calls for one input -/
structure Told (w : World) (now : Int) (n : String) (z z' : ZoneData) (ms : List FsMsg) : Prop where
  poll : z.processSensorInput w now n = .ok z'
  split : ∃ s tail, w.sensors.find? n = some s ∧ ms = s.failMsgs w ++ tail ∧
    (∀ m ∈ tail, m.target = .zone z.zoneId ∧ m.location = n ∧ m.state = z'.getFailSafeMode) ∧
    (FailsAt w now n → n ∉ z.missingAcceptable → ⟨.zone z.zoneId, z'.getFailSafeMode, n, "The sensor is missing."⟩ ∈ tail) ∧
    (FailsAt w now n → n ∈ z.missingAcceptable →
      ⟨.zone z.zoneId, z'.getFailSafeMode, n, "The sensor is missing but is acceptable."⟩ ∈ tail) ∧
    (¬ FailsAt w now n → Failed z n → tail = [⟨.zone z.zoneId, z'.getFailSafeMode, n, "The sensor has recovered."⟩]) ∧
    (¬ FailsAt w now n → ¬ Failed z n → tail = [])

theorem failsAt_iff {w : World} {now : Int} {n : String} {s : Sensor} {r : ReadReturn} {f : Bool}
    (hs : w.sensors.find? n = some s) (hr : s.read w now = .ok r) (hf : s.getFailed w = .ok f) :
    FailsAt w now n ↔ (f = true ∨ (s.timeout ≠ 0 ∧ s.timeout ≤ Int.tdiv (now - r.updated) 1000000000)) := by
  rw [stale_iff]
  constructor
  · rintro ⟨s', h1, h2⟩
    rw [hs] at h1; cases h1
    rcases h2 with h2 | ⟨r', h2, h3⟩
    · rw [hf] at h2; cases h2; exact .inl rfl
    · rw [hr] at h2; cases h2; exact .inr h3
  · rintro (rfl | h2)
    · exact ⟨s, hs, .inl hf⟩
    · exact ⟨s, hs, .inr ⟨r, hr, h2⟩⟩

theorem contains_failed (z : ZoneData) (n : String) : z.failSafeSensors.contains n = true ↔ Failed z n := by
  unfold OMap.contains Failed
  rw [Option.isSome_iff_exists]

theorem missingMsgs_spec (z : ZoneData) (n : String) (z' : ZoneData) :
    (∀ m ∈ z.missingMsgs n z', m.target = .zone z.zoneId ∧ m.location = n ∧ m.state = z'.getFailSafeMode) ∧
    (n ∉ z.missingAcceptable → ⟨.zone z.zoneId, z'.getFailSafeMode, n, "The sensor is missing."⟩ ∈ z.missingMsgs n z') ∧
    (n ∈ z.missingAcceptable →
      ⟨.zone z.zoneId, z'.getFailSafeMode, n, "The sensor is missing but is acceptable."⟩ ∈ z.missingMsgs n z') := by
  unfold ZoneData.missingMsgs
  by_cases h : n ∈ z.missingAcceptable <;> simp [h]

theorem told {w : World} {now : Int} {n : String} {z z' : ZoneData} {ms : List FsMsg}
    (h : z.processSensorInputMsgs w now n = .ok (z', ms)) : Told w now n z z' ms := by
  unfold ZoneData.processSensorInputMsgs at h
  obtain ⟨s, hs, h⟩ := bind_eq_ok.1 h
  have hs : w.sensors.find? n = some s := (OMap.atKey_ok_iff _ _ _).1 hs
  obtain ⟨r, hr, h⟩ := bind_eq_ok.1 h
  obtain ⟨z1, hz, h⟩ := bind_eq_ok.1 h
  obtain ⟨f, hf, h⟩ := bind_eq_ok.1 h
  have hF := failsAt_iff hs hr hf
  obtain ⟨m1, m2, m3⟩ := missingMsgs_spec z n z1
  dsimp only at h
  by_cases h1 : f = true
  · rw [if_pos h1] at h
    cases h
    refine ⟨hz, s, _, hs, rfl, m1, fun _ => m2, fun _ => m3, fun hn => ?_, fun hn => ?_⟩ <;>
      exact absurd (hF.2 (.inl h1)) hn
  · rw [if_neg h1] at h
    by_cases h2 : s.timeout ≠ 0 ∧ s.timeout ≤ Int.tdiv (now - r.updated) 1000000000
    · rw [if_pos h2] at h
      cases h
      refine ⟨hz, s, z.missingMsgs n z' ++ [_], hs, List.append_assoc _ _ _, ?_, fun _ hm => List.mem_append_left _ (m2 hm),
        fun _ hm => List.mem_append_left _ (m3 hm), fun hn => ?_, fun hn => ?_⟩
      · intro m hm
        rcases List.mem_append.1 hm with hm | hm
        · exact m1 m hm
        · rw [List.mem_singleton] at hm
          subst hm
          exact ⟨rfl, rfl, rfl⟩
      all_goals exact absurd (hF.2 (.inr h2)) hn
    · rw [if_neg h2] at h
      have hno : ¬ FailsAt w now n := by
        rw [hF]
        rintro (h | h)
        · exact h1 h
        · exact h2 h
      by_cases h3 : z.failSafeSensors.contains n = true
      · rw [if_pos h3] at h
        cases h
        refine ⟨hz, s, [_], hs, rfl, by simp, fun hn => absurd hn hno, fun hn => absurd hn hno, fun _ _ => rfl,
          fun _ hn => absurd ((contains_failed z n).1 h3) hn⟩
      · rw [if_neg h3] at h
        cases h
        refine ⟨hz, s, [], hs, by simp, by simp, fun hn => absurd hn hno, fun hn => absurd hn hno,
          fun _ hn => absurd ((contains_failed z n).2 hn) h3, fun _ _ => rfl⟩

theorem mode_congr {z z' : ZoneData} (h : ∀ m, Failed z' m ↔ Failed z m) : z'.getFailSafeMode = z.getFailSafeMode := by
  rw [Bool.eq_iff_iff, failSafeMode_iff, failSafeMode_iff]
  exact exists_congr h

theorem zoneSays_all {b : Bool} : ∀ {ms : List FsMsg} (init : Bool), (∀ m ∈ ms, (∃ i, m.target = .zone i) ∧ m.state = b) →
    ms ≠ [] → zoneSays init ms = b
  | m :: ms, init, h, _ => by
    obtain ⟨⟨i, hi⟩, hb⟩ := h m (by simp)
    simp only [zoneSays, hi]
    cases hms : ms with
    | nil => exact hb
    | cons m' ms' =>
      rw [← hms]
      exact zoneSays_all _ (fun m hm => h m (List.mem_cons_of_mem _ hm)) (by rw [hms]; simp)

theorem Told.tells {w : World} {now : Int} {n : String} {z z' : ZoneData} {ms : List FsMsg} (h : Told w now n z z' ms) :
    zoneSays z.getFailSafeMode ms = z'.getFailSafeMode := by
  obtain ⟨s, tail, hs, rfl, ht, h1, h2, h3, h4⟩ := h.split
  have hp := poll_spec h.poll
  rw [zoneSays_append, zoneSays_sensor]
  by_cases he : tail = []
  · subst he
    have hno : ¬ FailsAt w now n := by
      intro hF
      by_cases hm : n ∈ z.missingAcceptable
      · exact absurd (h2 hF hm) (by simp)
      · exact absurd (h1 hF hm) (by simp)
    have hnf : ¬ Failed z n := fun hf => absurd (h3 hno hf) (by simp)
    refine (mode_congr fun m => ?_).symm
    unfold Failed
    by_cases e : m = n
    · subst e
      rw [hp.works hno]
      exact ⟨fun ⟨_, h⟩ => (by cases h), fun h => absurd h hnf⟩
    · rw [(hp.other m e).1]
  · exact zoneSays_all _ (fun m hm => ⟨⟨_, (ht m hm).1⟩, (ht m hm).2.2⟩) he

/-- the calls of a pass -/
structure ToldAll (w : World) (now : Int) (names : List String) (z z' : ZoneData) (ms : List FsMsg) : Prop where
  poll : z.processSensorInputs w now names = .ok z'
  tells : zoneSays z.getFailSafeMode ms = z'.getFailSafeMode
  target : ∀ m ∈ ms, ∀ i, m.target = .zone i → i = z.zoneId
  fails : ∀ n ∈ names, FailsAt w now n → n ∉ z.missingAcceptable → ⟨.zone z.zoneId, true, n, "The sensor is missing."⟩ ∈ ms
  skipped : ∀ n ∈ names, FailsAt w now n → n ∈ z.missingAcceptable →
    ∃ b, ⟨.zone z.zoneId, b, n, "The sensor is missing but is acceptable."⟩ ∈ ms
  works : ∀ n ∈ names, ¬ FailsAt w now n → Failed z n → ∃ b, ⟨.zone z.zoneId, b, n, "The sensor has recovered."⟩ ∈ ms

theorem toldAll {w : World} {now : Int} : ∀ {names : List String} {z z' : ZoneData} {ms : List FsMsg},
    z.processSensorInputsMsgs w now names = .ok (z', ms) → ToldAll w now names z z' ms
  | [], z, z', ms, h => by
    cases h
    exact ⟨rfl, rfl, by simp, by simp, by simp, by simp⟩
  | n :: names, z, z', ms, h => by
    obtain ⟨⟨z1, ms1⟩, h1, h⟩ := bind_eq_ok.1 h
    obtain ⟨⟨z2, ms2⟩, h2, h⟩ := bind_eq_ok.1 h
    cases h
    have a := told h1
    have b := toldAll h2
    have p := poll_spec a.poll
    have hm := p.frame.missing
    have hid : z1.zoneId = z.zoneId := by rw [p.frame.eq]
    obtain ⟨s, tail, hs, rfl, ht, a1, a2, a3, a4⟩ := a.split
    refine ⟨?_, ?_, ?_, ?_, ?_, ?_⟩
    · show (z.processSensorInput w now n >>= fun z1 => z1.processSensorInputs w now names) = _
      rw [a.poll, ok_bind]
      exact b.poll
    · rw [zoneSays_append, a.tells, b.tells]
    · intro m hmem i hi
      rcases List.mem_append.1 hmem with hmem | hmem
      · rcases List.mem_append.1 hmem with hmem | hmem
        · rw [(sensor_msgs w s m hmem).1] at hi
          cases hi
        · rw [(ht m hmem).1] at hi
          cases hi
          rfl
      · exact (b.target m hmem i hi).trans hid
    · intro k hk hF hq
      by_cases e : k = n
      · subst e
        have := a1 hF hq
        have hmode : z1.getFailSafeMode = true := by
          obtain ⟨reason, hr, _⟩ := p.fails hF hq
          exact (failSafeMode_iff z1).2 ⟨k, _, hr⟩
        rw [hmode] at this
        simp [this]
      · have := b.fails k ((List.mem_cons.1 hk).resolve_left e) hF (hm ▸ hq)
        rw [hid] at this
        exact List.mem_append_right _ this
    · intro k hk hF hq
      by_cases e : k = n
      · subst e
        exact ⟨_, List.mem_append_left _ (List.mem_append_right _ (a2 hF hq))⟩
      · obtain ⟨b', this⟩ := b.skipped k ((List.mem_cons.1 hk).resolve_left e) hF (hm ▸ hq)
        rw [hid] at this
        exact ⟨b', List.mem_append_right _ this⟩
    · intro k hk hF hq
      by_cases e : k = n
      · subst e
        exact ⟨_, List.mem_append_left _ (List.mem_append_right _ (by rw [a3 hF hq]; exact List.mem_singleton.2 rfl))⟩
      · have hq' : Failed z1 k := by
          obtain ⟨x, hx⟩ := hq
          exact ⟨x, (p.other k e).1.trans hx⟩
        obtain ⟨b', this⟩ := b.works k ((List.mem_cons.1 hk).resolve_left e) hF hq'
        rw [hid] at this
        exact ⟨b', List.mem_append_right _ this⟩

theorem told_possible {w : World} {now : Int} {n : String} {z z' : ZoneData}
    (h : z.processSensorInput w now n = .ok z') : ∃ ms, z.processSensorInputMsgs w now n = .ok (z', ms) := by
  obtain ⟨s, r, f, hs, hr, hf, _⟩ := (poll_spec h).sensor
  have hg : w.getSensor n = .ok s := (OMap.atKey_ok_iff _ _ _).2 hs
  unfold ZoneData.processSensorInputMsgs
  rw [hg, ok_bind, hr, ok_bind, h, ok_bind, hf, ok_bind]
  dsimp only
  split_ifs <;> exact ⟨_, rfl⟩

theorem toldAll_possible {w : World} {now : Int} : ∀ {names : List String} {z z' : ZoneData},
    z.processSensorInputs w now names = .ok z' → ∃ ms, z.processSensorInputsMsgs w now names = .ok (z', ms)
  | [], z, z', h => by
    cases h
    exact ⟨[], rfl⟩
  | n :: names, z, z', h => by
    obtain ⟨z1, h1, h2⟩ := bind_eq_ok.1 h
    obtain ⟨a, ha⟩ := told_possible h1
    obtain ⟨b, hb⟩ := toldAll_possible h2
    exact ⟨a ++ b, by simp only [ZoneData.processSensorInputsMsgs]; rw [ha, ok_bind, hb, ok_bind]⟩

theorem init_says (z : ZoneData) : ∀ (l : List String) (z0 : ZoneData), z0.zoneId = z.zoneId →
    zoneSays z0.getFailSafeMode (z0.initMsgs l) = (l.foldl (fun z n => z.markSensorMissing n "") z0).getFailSafeMode ∧
    (∀ m ∈ z0.initMsgs l, m.target = .zone z.zoneId)
  | [], z0, _ => ⟨rfl, by simp [ZoneData.initMsgs]⟩
  | n :: l, z0, h => by
    have hid : (z0.markSensorMissing n "").zoneId = z.zoneId := by
      rw [← h]
      unfold ZoneData.markSensorMissing
      split_ifs <;> rfl
    obtain ⟨h1, h2⟩ := init_says z l (z0.markSensorMissing n "") hid
    obtain ⟨m1, m2, m3⟩ := missingMsgs_spec z0 n (z0.markSensorMissing n "")
    constructor
    · rw [List.foldl_cons, ← h1, ZoneData.initMsgs, zoneSays_append]
      congr 1
      refine zoneSays_all _ (fun m hm => ⟨⟨_, (m1 m hm).1⟩, (m1 m hm).2.2⟩) ?_
      unfold ZoneData.missingMsgs
      split_ifs <;> simp
    · intro m hm
      rw [ZoneData.initMsgs] at hm
      rcases List.mem_append.1 hm with hm | hm
      · rw [(m1 m hm).1, h]
      · exact h2 m hm

theorem marks_failed : ∀ (l : List String) (z : ZoneData) (n : String),
    Failed (l.foldl (fun z n => z.markSensorMissing n "") z) n ↔ (n ∈ l ∧ n ∉ z.missingAcceptable) ∨ Failed z n
  | [], z, n => by simp
  | k :: l, z, n => by
    rw [List.foldl_cons, marks_failed l]
    by_cases hk : k ∈ z.missingAcceptable
    · rw [markMissing_skip hk]
      constructor
      · rintro (⟨h1, h2⟩ | h)
        · exact .inl ⟨List.mem_cons_of_mem _ h1, h2⟩
        · exact .inr h
      · rintro (⟨h1, h2⟩ | h)
        · rcases List.mem_cons.1 h1 with rfl | h1
          · exact absurd hk h2
          · exact .inl ⟨h1, h2⟩
        · exact .inr h
    · obtain ⟨a, b, c⟩ := markMissing_spec hk ""
      rw [a.missing]
      have hf : Failed (z.markSensorMissing k "") n ↔ n = k ∨ Failed z n := by
        unfold Failed
        rw [b, OMap.find?_insert]
        by_cases e : n = k <;> simp [e]
      rw [hf]
      constructor
      · rintro (⟨h1, h2⟩ | rfl | h)
        · exact .inl ⟨List.mem_cons_of_mem _ h1, h2⟩
        · exact .inl ⟨by simp, hk⟩
        · exact .inr h
      · rintro (⟨h1, h2⟩ | h)
        · rcases List.mem_cons.1 h1 with rfl | h1
          · exact .inr (.inl rfl)
          · exact .inl ⟨h1, h2⟩
        · exact .inr (.inr h)

theorem init_mode (z : ZoneData) :
    ((z.fanInputs ++ z.thermalInputs).foldl (fun z n => z.markSensorMissing n "") z).getFailSafeMode =
      z.initializeCache.getFailSafeMode := by
  refine mode_congr fun n => ?_
  rw [marks_failed]
  unfold Failed
  rw [(initializeCache_spec z).failed]
  by_cases h : n ∈ z.fanInputs ++ z.thermalInputs ∧ n ∉ z.missingAcceptable
  · simp [h]
  · rw [if_neg h]
    exact ⟨fun h' => h'.resolve_left h, .inr⟩

/-- the calls of a tick -/
theorem tick_told {o : Opts} {w w' : World} {z z' : Zone} {cnt cnt' : Nat} {ms : List FsMsg}
    (ht : z.tick o w cnt = .ok (w', z', cnt')) (hms : z.tickMsgs w cnt = .ok ms) (hm : z.d.manualMode = false) :
    ∃ d ms1, ToldAll w w.nowFans z.d.fanInputs z.d d ms1 ∧
      ((¬ z.d.cycleTime.updateThermalsTimeMS ≤ cnt ∧ ms = ms1 ∧ Rest d z'.d) ∨
       (z.d.cycleTime.updateThermalsTimeMS ≤ cnt ∧ ∃ d2 ms2, ToldAll w w.nowThermals z.d.thermalInputs d d2 ms2 ∧
          ms = ms1 ++ ms2 ∧ Rest d2 z'.d)) := by
  obtain ⟨d, h1, h2⟩ := tick_auto hm ht
  unfold Zone.tickMsgs at hms
  rw [if_neg (by simp [hm])] at hms
  obtain ⟨⟨d', ms1⟩, h3, hms⟩ := bind_eq_ok.1 hms
  have a := toldAll h3
  have hdd : d' = d := by
    have := a.poll.symm.trans h1
    cases this
    rfl
  subst hdd
  have hi : d'.thermalInputs = z.d.thermalInputs := by rw [(pollAll_spec h1).frame.eq]
  refine ⟨d', ms1, a, ?_⟩
  dsimp only at hms
  rcases h2 with ⟨ht, zt, h4, h5, _⟩ | ⟨ht, h5, _⟩
  · rw [if_pos ht] at hms
    obtain ⟨⟨d2, ms2⟩, h6, hms⟩ := bind_eq_ok.1 hms
    cases hms
    rw [hi] at h6
    have b := toldAll h6
    obtain ⟨d3, h7, h8⟩ := processThermals_rest h4
    have hd3 : d3 = d2 := by
      have h7' : d'.processSensorInputs w w.nowThermals d'.thermalInputs = .ok d3 := h7
      rw [hi] at h7'
      have := h7'.symm.trans b.poll
      cases this
      rfl
    subst hd3
    exact .inr ⟨ht, d3, ms2, b, rfl, h8.trans (processFans_rest h5).1⟩
  · rw [if_neg ht] at hms
    cases hms
    exact .inl ⟨ht, rfl, (processFans_rest h5).1⟩

theorem Rest.mode {z z' : ZoneData} (h : Rest z z') : z'.getFailSafeMode = z.getFailSafeMode := by
  unfold ZoneData.getFailSafeMode
  rw [h.failed]

/-! ## C96 -/

/-- **C96** The calls do not influence the zone: a history with calls is a history. -/
theorem C96_history {o : Opts} {d0 : ZoneData} {z : Zone} {cnt : Nat} {log : List Poll} {ms : List FsMsg}
    (h : HistMsgs o d0 z cnt log ms) : Hist o d0 z cnt log := by
  induction h with
  | start w hb hz hs _ => exact .start w hb hz hs
  | manual b _ ih => exact ih.manual b
  | enable n b _ ih => exact ih.enable n b
  | tick w _ ht _ ih => exact ih.tick w ht

/-- **C96** Every history has its calls. -/
theorem C96_possible {o : Opts} {d0 : ZoneData} {z : Zone} {cnt : Nat} {log : List Poll} (h : Hist o d0 z cnt log) :
    ∃ ms, HistMsgs o d0 z cnt log ms := by
  induction h with
  | @start z z' w hb hz hs =>
    obtain ⟨d, h1, _⟩ := processThermals_rest (z := { z with d := z.d.initializeCache }) hs
    have hi : z.d.initializeCache.thermalInputs = z.d.thermalInputs := by rw [(initializeCache_spec z.d).eq]
    have h1' : z.d.initializeCache.processSensorInputs w w.nowThermals z.d.initializeCache.thermalInputs = .ok d := h1
    rw [hi] at h1'
    obtain ⟨ms, hms⟩ := toldAll_possible h1'
    exact ⟨_, .start w hb hz hs (by unfold Zone.startMsgs; rw [hms]; rfl)⟩
  | manual b _ ih => exact ih.imp fun _ h => h.manual b
  | enable n b _ ih => exact ih.imp fun _ h => h.enable n b
  | @tick z cnt log w w' z' cnt' hh ht ih =>
    obtain ⟨ms, ih⟩ := ih
    suffices h : ∃ more, z.tickMsgs w cnt = .ok more by
      obtain ⟨more, h⟩ := h
      exact ⟨_, ih.tick w ht h⟩
    unfold Zone.tickMsgs
    by_cases hm : z.d.manualMode = true
    · exact ⟨[], by rw [if_pos hm]⟩
    · rw [if_neg hm]
      have hm : z.d.manualMode = false := by simpa using hm
      obtain ⟨d, h1, h2⟩ := tick_auto hm ht
      obtain ⟨ms1, h3⟩ := toldAll_possible (show z.d.processSensorInputs w w.nowFans z.d.fanInputs = .ok d from h1)
      rw [h3, ok_bind]
      rcases h2 with ⟨ht, zt, h4, h5, _⟩ | ⟨ht, h5, _⟩
      · rw [if_pos ht]
        obtain ⟨d3, h7, h8⟩ := processThermals_rest h4
        obtain ⟨ms2, h9⟩ := toldAll_possible
          (show d.processSensorInputs w w.nowThermals d.thermalInputs = .ok d3 from h7)
        exact ⟨_, by rw [h9]; rfl⟩
      · exact ⟨_, by rw [if_neg ht]⟩

/-- **C96** In every reachable state the last message about the zone itself reports whether the zone is in failsafe mode:
every change is reported. All these messages name the right zone. -/
theorem C96_reported {o : Opts} {d0 : ZoneData} {z : Zone} {cnt : Nat} {log : List Poll} {ms : List FsMsg}
    (h : HistMsgs o d0 z cnt log ms) :
    zoneSays false ms = z.d.getFailSafeMode ∧ ∀ m ∈ ms, ∀ i, m.target = .zone i → i = d0.zoneId := by
  induction h with
  | @start z z' ms w hb hz hs hms =>
    subst hz
    obtain ⟨d, h1, hr⟩ := processThermals_rest (z := { z with d := z.d.initializeCache }) hs
    have hi : z.d.initializeCache.thermalInputs = z.d.thermalInputs := by rw [(initializeCache_spec z.d).eq]
    have hid : z.d.initializeCache.zoneId = z.d.zoneId := by rw [(initializeCache_spec z.d).eq]
    have h1' : z.d.initializeCache.processSensorInputs w w.nowThermals z.d.initializeCache.thermalInputs = .ok d := h1
    rw [hi] at h1'
    unfold Zone.startMsgs at hms
    obtain ⟨⟨d', ms1⟩, h3, hms⟩ := bind_eq_ok.1 hms
    have a := toldAll h3
    obtain rfl : d' = d := by
      have := a.poll.symm.trans h1'
      cases this
      rfl
    cases hms
    obtain ⟨b1, b2⟩ := init_says z.d (z.d.fanInputs ++ z.d.thermalInputs) z.d rfl
    have h0 : z.d.getFailSafeMode = false := by
      unfold ZoneData.getFailSafeMode
      rw [built_failed hb]
      rfl
    refine ⟨?_, fun m hm i hi => ?_⟩
    · rw [zoneSays_append, ← h0, b1, init_mode, a.tells, hr.mode]
    · rcases List.mem_append.1 hm with hm | hm
      · rw [b2 m hm] at hi
        cases hi
        rfl
      · rw [a.target m hm i hi, hid]
  | manual b _ ih => exact ih
  | enable n b _ ih => exact ⟨ih.1.trans (setEnabled_rest _ n b).mode.symm, ih.2⟩
  | @tick z cnt log ms w w' z' cnt' more hh ht hms ih =>
    by_cases hm : z.d.manualMode = true
    · rw [tick_manual hm] at ht
      unfold Zone.tickMsgs at hms
      rw [if_pos hm] at hms
      cases ht
      cases hms
      simpa using ih
    · have hm : z.d.manualMode = false := by simpa using hm
      have hid : z.d.zoneId = d0.zoneId := (C96_history hh).inv.same.2.2.2.2.2.2.2
      obtain ⟨d, ms1, a, h⟩ := tick_told ht hms hm
      have hid2 : d.zoneId = d0.zoneId := by rw [(pollAll_spec a.poll).frame.eq]; exact hid
      rw [zoneSays_append, ih.1]
      rcases h with ⟨_, rfl, hr⟩ | ⟨_, d2, ms2, b, rfl, hr⟩
      · refine ⟨by rw [a.tells, hr.mode], fun m hm i hi => ?_⟩
        rcases List.mem_append.1 hm with hm | hm
        · exact ih.2 m hm i hi
        · exact (a.target m hm i hi).trans hid
      · refine ⟨by rw [zoneSays_append, a.tells, b.tells, hr.mode], fun m hm i hi => ?_⟩
        rcases List.mem_append.1 hm with hm | hm
        · exact ih.2 m hm i hi
        · rcases List.mem_append.1 hm with hm | hm
          · exact (a.target m hm i hi).trans hid
          · exact (b.target m hm i hi).trans hid2

/-- **C96** In every tick, each input that is polled and fails is reported as missing: with the zone in failsafe mode if
it is required, and as acceptable otherwise. -/
theorem C96_failing {o : Opts} {d0 : ZoneData} {z z' : Zone} {cnt cnt' : Nat} {log : List Poll} {w w' : World}
    {ms : List FsMsg} (h : Hist o d0 z cnt log) (ht : z.tick o w cnt = .ok (w', z', cnt'))
    (hms : z.tickMsgs w cnt = .ok ms) {p : Poll} (hp : p ∈ tickPolls z cnt w) {n : String} (hn : n ∈ p.names)
    (hF : FailsAt p.w p.now n) :
    (n ∉ d0.missingAcceptable → ⟨.zone d0.zoneId, true, n, "The sensor is missing."⟩ ∈ ms) ∧
    (n ∈ d0.missingAcceptable → ∃ b, ⟨.zone d0.zoneId, b, n, "The sensor is missing but is acceptable."⟩ ∈ ms) := by
  have hs := h.inv.same
  by_cases hm : z.d.manualMode = true
  · simp [tickPolls, hm] at hp
  have hm : z.d.manualMode = false := by simpa using hm
  obtain ⟨d, ms1, a, hd⟩ := tick_told ht hms hm
  have hid : z.d.zoneId = d0.zoneId := hs.2.2.2.2.2.2.2
  have hmiss : z.d.missingAcceptable = d0.missingAcceptable := hs.2.2.1
  have hfr := (pollAll_spec a.poll).frame
  have hid2 : d.zoneId = d0.zoneId := by rw [hfr.eq]; exact hid
  have hmiss2 : d.missingAcceptable = d0.missingAcceptable := by rw [hfr.missing, hmiss]
  unfold tickPolls at hp
  rw [if_neg (by simp [hm])] at hp
  rcases List.mem_cons.1 hp with rfl | hp
  · have f1 := a.fails n hn hF
    have f2 := a.skipped n hn hF
    rw [hid, hmiss] at f1 f2
    rcases hd with ⟨_, rfl, _⟩ | ⟨_, d2, ms2, b, rfl, _⟩
    · exact ⟨f1, f2⟩
    · exact ⟨fun h => List.mem_append_left _ (f1 h), fun h => (f2 h).imp fun _ h => List.mem_append_left _ h⟩
  · rcases hd with ⟨hc, rfl, _⟩ | ⟨hc, d2, ms2, b, rfl, _⟩
    · rw [if_neg hc] at hp
      cases hp
    · rw [if_pos hc, List.mem_singleton] at hp
      subst hp
      have f1 := b.fails n hn hF
      have f2 := b.skipped n hn hF
      rw [hid2, hmiss2] at f1 f2
      exact ⟨fun h => List.mem_append_right _ (f1 h), fun h => (f2 h).imp fun _ h => List.mem_append_right _ h⟩

/-- **C96** In every tick, an input that was listed as failed and works when polled is reported as recovered. -/
theorem C96_recovered {o : Opts} {d0 : ZoneData} {z z' : Zone} {cnt cnt' : Nat} {log : List Poll} {w w' : World}
    {ms : List FsMsg} (h : Hist o d0 z cnt log) (ht : z.tick o w cnt = .ok (w', z', cnt'))
    (hms : z.tickMsgs w cnt = .ok ms) {p : Poll} (hp : p ∈ tickPolls z cnt w) {n : String} (hn : n ∈ p.names)
    (hF : ¬ FailsAt p.w p.now n) (hf : Failed z.d n) :
    ∃ b, ⟨.zone d0.zoneId, b, n, "The sensor has recovered."⟩ ∈ ms := by
  have hs := h.inv.same
  by_cases hm : z.d.manualMode = true
  · simp [tickPolls, hm] at hp
  have hm : z.d.manualMode = false := by simpa using hm
  obtain ⟨d, ms1, a, hd⟩ := tick_told ht hms hm
  have hid : z.d.zoneId = d0.zoneId := hs.2.2.2.2.2.2.2
  have hsp := pollAll_spec a.poll
  have hid2 : d.zoneId = d0.zoneId := by rw [hsp.frame.eq]; exact hid
  have hreq : n ∉ z.d.missingAcceptable := by
    have := ((h.inv.failed n).1 hf).1.2
    rwa [hs.2.2.1]
  have hfirst : ∀ x, x ∈ ms1 → x ∈ ms := by
    rcases hd with ⟨_, rfl, _⟩ | ⟨_, d2, ms2, b, rfl, _⟩
    · exact fun _ h => h
    · exact fun _ h => List.mem_append_left _ h
  unfold tickPolls at hp
  rw [if_neg (by simp [hm])] at hp
  rcases List.mem_cons.1 hp with rfl | hp
  · obtain ⟨b, hb⟩ := a.works n hn hF hf
    rw [hid] at hb
    exact ⟨b, hfirst _ hb⟩
  · rcases hd with ⟨hc, rfl, _⟩ | ⟨hc, d2, ms2, b, rfl, _⟩
    · rw [if_neg hc] at hp
      cases hp
    · rw [if_pos hc, List.mem_singleton] at hp
      subst hp
      by_cases hfd : Failed d n
      · obtain ⟨b', hb⟩ := b.works n hn hF hfd
        rw [hid2] at hb
        exact ⟨b', List.mem_append_right _ hb⟩
      · by_cases hin : n ∈ z.d.fanInputs
        · by_cases hF1 : FailsAt w w.nowFans n
          · obtain ⟨reason, hr, _⟩ := hsp.fails n hin hF1 hreq
            exact absurd ⟨_, hr⟩ hfd
          · obtain ⟨b', hb⟩ := a.works n hin hF1 hf
            rw [hid] at hb
            exact ⟨b', hfirst _ hb⟩
        · obtain ⟨x, hx⟩ := hf
          exact absurd ⟨x, (hsp.other n hin).1.trans hx⟩ hfd

/-! ## C97 -/

/-- **C97**, the part that holds: of the messages sent while one input is polled, those about the zone itself are true,
and so is a message about the sensor that reports failsafe mode, if a failure of the sensor counts. A message that
reports the end of failsafe mode is true if the sensor has not timed out and no other sensor of the zone has failed.
Missing: messages about healthy sensors in a zone with another failed sensor (`C97_violated`), about sensors that may be
missing or that the host excuses, and about sensors that have timed out. -/
theorem C97_messages_partial {w : World} {now : Int} {n : String} {z z' : ZoneData} {ms : List FsMsg}
    (h : z.processSensorInputMsgs w now n = .ok (z', ms)) {m : FsMsg} (hm : m ∈ ms) :
    (∀ i, m.target = .zone i → m.state = z'.getFailSafeMode) ∧
    (m.state = true → Counts z w n → z'.getFailSafeMode = true) ∧
    (m.state = false → ¬ FailsAt w now n → (∀ k, k ≠ n → ¬ Failed z k) → z'.getFailSafeMode = false) := by
  have a := told h
  have p := poll_spec a.poll
  obtain ⟨s, tail, hs, rfl, ht, a1, a2, a3, a4⟩ := a.split
  refine ⟨fun i hi => ?_, fun hst hc => ?_, fun _ hF hk => ?_⟩
  · rcases List.mem_append.1 hm with hm | hm
    · rw [(sensor_msgs w s m hm).1] at hi
      cases hi
    · exact (ht m hm).2.2
  · rcases List.mem_append.1 hm with hm | hm
    · obtain ⟨_, _, hq⟩ := sensor_msgs w s m hm
      have hF : FailsAt w now n := ⟨s, hs, .inl (hq hst (hc.2 s hs))⟩
      obtain ⟨reason, hr, _⟩ := p.fails hF hc.1
      exact (failSafeMode_iff z').2 ⟨n, _, hr⟩
    · rw [← (ht m hm).2.2, hst]
  · rw [Bool.eq_false_iff, ne_eq, failSafeMode_iff]
    rintro ⟨k, x, hx⟩
    by_cases e : k = n
    · subst e
      rw [p.works hF] at hx
      cases hx
    · rw [(p.other k e).1] at hx
      exact hk k e ⟨x, hx⟩

/-- **C97** A message about a sensor that reports the end of failsafe mode is never sent when this sensor itself has failed;
instead a message that reports failsafe mode names it, if it is a D-Bus sensor or a host sensor. -/
theorem C97_own_failure {w : World} {now : Int} {n : String} {z z' : ZoneData} {ms : List FsMsg}
    (h : z.processSensorInputMsgs w now n = .ok (z', ms)) {s : Sensor} (hs : w.sensors.find? n = some s)
    (hf : s.getFailed w = .ok true) :
    (∀ m ∈ ms, ∀ i, m.target = .sensor i → m.state = true) ∧
    ((∃ p wr, s.impl = .pluggable (.passive p) wr) ∨ (∃ v u, s.impl = .host v u) →
      ∃ m ∈ ms, m.target = .sensor s.name ∧ m.location = s.name ∧ m.state = true) := by
  have a := told h
  obtain ⟨s', tail, hs', rfl, ht, -⟩ := a.split
  rw [hs] at hs'
  cases hs'
  have key : ∀ m ∈ s.failMsgs w, m.state = true := by
    intro m hm
    unfold Sensor.failMsgs at hm
    unfold Sensor.getFailed at hf
    split at hm
    · next p wr hi =>
      rw [hi] at hf
      obtain ⟨-, -, c⟩ := passive_msgs_sensor p _ _ m hm
      rw [c]
      dsimp only at hf
      cases hp : p.getFailed w.redundancyFailed with
      | true => rfl
      | false => rw [hp] at hf; simp at hf
    · split_ifs at hm
      · simp at hm
      · simp at hm
      · rw [List.mem_singleton] at hm
        rw [hm]
    · simp at hm
  refine ⟨fun m hm i hi => ?_, fun hk => ?_⟩
  · rcases List.mem_append.1 hm with hm | hm
    · exact key m hm
    · rw [(ht m hm).1] at hi
      cases hi
  · have hne : s.failMsgs w ≠ [] := by
      unfold Sensor.failMsgs
      unfold Sensor.getFailed at hf
      rcases hk with ⟨p, wr, hi⟩ | ⟨v, u, hi⟩
      · rw [hi] at hf ⊢
        dsimp only at hf ⊢
        unfold Passive.failMsgs
        split_ifs with h1 h2 h3
        all_goals first
          | simp
          | skip
        have : p.getFailed w.redundancyFailed = false := by
          unfold Passive.getFailed
          rw [if_neg h1, if_neg h2, if_pos h3]
        rw [this] at hf
        simp at hf
      · rw [hi] at hf ⊢
        dsimp only at hf ⊢
        cases hv : v.isFinite
        · rw [hv] at hf
          cases hig : s.ignoreFailIfHostOff <;> cases hon : w.hostOn <;> simp_all
        · rw [hv] at hf
          simp at hf
    obtain ⟨m, hm⟩ := List.exists_mem_of_ne_nil _ hne
    exact ⟨m, List.mem_append_left _ hm, (sensor_msgs w s m hm).1, (sensor_msgs w s m hm).2.1, key m hm⟩

/-- **C97** (finding) Whenever a healthy D-Bus sensor is polled, the end of failsafe mode is reported for its zones, even
if another sensor of the zone has failed and the zone stays in failsafe mode. -/
theorem C97_other_failed {w : World} {now : Int} {n k : String} {z z' : ZoneData} {ms : List FsMsg}
    (h : z.processSensorInputMsgs w now n = .ok (z', ms)) {s : Sensor} {p : Passive} {wr : Writer}
    (hs : w.sensors.find? n = some s) (hi : s.impl = .pluggable (.passive p) wr)
    (hp : p.getFailed w.redundancyFailed = false) (hav : p.available = true) (hk : Failed z k) (hkn : k ≠ n) :
    ⟨.sensor s.name, false, s.name, "The sensor has recovered."⟩ ∈ ms ∧ z'.getFailSafeMode = true ∧
      ¬ Truthful z' ms := by
  have a := told h
  have q := poll_spec a.poll
  obtain ⟨s', tail, hs', rfl, ht, a1, a2, a3, a4⟩ := a.split
  rw [hs] at hs'
  cases hs'
  have hmem : ⟨.sensor s.name, false, s.name, "The sensor has recovered."⟩ ∈ s.failMsgs w ++ tail := by
    refine List.mem_append_left _ ?_
    unfold Sensor.failMsgs
    rw [hi]
    unfold Passive.getFailed at hp
    unfold Passive.failMsgs
    revert hp
    simp only [hav, Bool.not_true, Bool.and_false, Bool.false_and, Bool.false_eq_true, ite_false]
    split_ifs <;> simp
  have hmode : z'.getFailSafeMode = true := by
    obtain ⟨x, hx⟩ := hk
    exact (failSafeMode_iff z').2 ⟨k, x, by rw [(q.other k hkn).1]; exact hx⟩
  refine ⟨hmem, hmode, fun ht => ?_⟩
  have := ht _ hmem
  rw [hmode] at this
  cases this

end

namespace Ex
section
attribute [local instance] binary64

/-- the zone starts: all inputs are reported, then the healthy sensor recovers -/
example : ∃ ms, zone.startMsgs world = .ok ms ∧ decide (ms.map (fun m => (m.target, m.state, m.location, m.reason)) =
    [(.zone 1, true, "fan0", "The sensor is missing."), (.zone 1, true, "fan1", "The sensor is missing."),
     (.zone 1, true, "cpu", "The sensor is missing."),
     (.zone 1, true, "dimm", "The sensor is missing but is acceptable."),
     (.sensor "cpu", false, "cpu", "The sensor has recovered."), (.zone 1, true, "cpu", "The sensor has recovered."),
     (.sensor "dimm", true, "dimm", "The sensor has bad readings."),
     (.zone 1, true, "dimm", "The sensor is missing but is acceptable.")]) = true :=
  ok_of_any (x := zone.startMsgs world) (P := fun ms : List FsMsg => decide (ms.map (fun m => (m.target, m.state, m.location,
    m.reason)) = _)) (by decide +kernel)

/-- a history with its calls -/
example : ∃ z log ms, HistMsgs {} data0 z 100 log ms ∧ z.d.getFailSafeMode = false ∧ zoneSays false ms = false := by
  obtain ⟨z, log, h, hz, _⟩ := ex_hist
  obtain ⟨ms, hm⟩ := C96_possible h
  exact ⟨z, log, ms, hm, hz, (C96_reported hm).1.trans hz⟩

/-- a host sensor with an invalid value is reported as failed -/
example : ∃ r, data.processSensorInputMsgs { world with
      sensors := sensors.insert "host" ⟨"host", 0, false, .host .nan 0⟩ } 6000000000 "host" = .ok r ∧
    decide (r.2.map (fun m => (m.target, m.state, m.location, m.reason)) =
      [(.sensor "host", true, "host", "The sensor has invalid readings."), (.zone 1, true, "host", "The sensor is missing.")]) = true :=
  ok_of_any (P := fun r : ZoneData × List FsMsg => decide (r.2.map (fun m => (m.target, m.state, m.location, m.reason)) = _))
    (by decide +kernel)

/-- a fan that has failed -/
def brokenWorld : World :=
  { world with
    sensors := sensors.insert "fan1" ⟨"fan1", 2, false,
      .pluggable (.passive { tach with badReading := true }) (.dbusPercent "/fan1" 0 255 (-1))⟩ }

/-- the zone while the broken fan is known -/
def brokenData : ZoneData := data.markSensorMissing "fan1" ""

/-- **C97** violated: the processor, which is healthy, is polled while a fan has failed. -/
theorem C97_violated : ¬ C97_statement := by
  intro hst
  obtain ⟨r, hr, hx⟩ := ok_of_any (x := brokenData.processSensorInputMsgs brokenWorld 6000000000 "cpu")
    (P := fun r : ZoneData × List FsMsg => decide (∃ m ∈ r.2, m.state ≠ r.1.getFailSafeMode)) (by decide +kernel)
  obtain ⟨m, hm, hne⟩ := of_decide_eq_true hx
  exact hne (hst _ _ _ _ _ _ hr m hm)

/-- zone 1 and its thermal sensors; the zone is in failsafe mode -/
def loggers : FsLoggers := buildFailsafeLoggers 20 [⟨1, true, ["cpu", "dimm"]⟩]

/-- the lines printed in two ticks, 100 ms apart, with passes over the thermal sensors -/
def twoTicks : Res (List FsLine × List FsLine) := do
  let z ← zone.start {} brokenWorld
  let a ← z.tick {} brokenWorld 1000
  let m1 ← z.tickMsgs brokenWorld 1000
  let m2 ← a.2.1.tickMsgs brokenWorld 1000
  let l1 := loggers.deliver 6000 m1
  let l2 := l1.2.deliver 6100 m2
  .ok (l1.1.flatMap FsEvent.printed, l2.1.flatMap FsEvent.printed)

/-- **C97** (finding) What the user sees: one fan has failed and the zone stays in failsafe mode, but in every pass over the
thermal sensors the log says that the zone leaves failsafe mode, and then that it is in it. -/
theorem C97_flapping : ∃ r, twoTicks = .ok r ∧ decide (r.2.map (fun l => (l.zone, l.enters, l.location, l.reason)) =
    [(1, true, "fan1", "The sensor is missing."), (1, false, "cpu", "The sensor has recovered."),
     (1, true, "dimm", "The sensor has bad readings."), (1, true, "dimm", "The sensor is missing but is acceptable.")]) = true :=
  ok_of_any (x := twoTicks) (P := fun r : List FsLine × List FsLine =>
    decide (r.2.map (fun l => (l.zone, l.enters, l.location, l.reason)) = _)) (by decide +kernel)

end
end Ex
end Verif
