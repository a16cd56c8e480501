import Verif.Spec.Daemon
import Verif.Lemmas.Drive
import Verif.Props.Build
import Verif.Props.BuildSensors

/-! # Helper lemmas about the daemon -/

namespace Verif
open Dbl
variable [F : FloatModel]

/-! ## What a tick changes in the world -/

/-- a sensor without its writer -/
def Sensor.front (s : Sensor) : String × Int × Bool × (Reader ⊕ (Dbl × Int)) :=
  (s.name, s.timeout, s.ignoreFailIfHostOff,
    match s.impl with
    | .pluggable r _ => .inl r
    | .host v u => .inr (v, u))

/-- `w'` is `w` after fans were written -/
structure AfterWrites (w w' : World) : Prop where
  same : w' = { w with sensors := w'.sensors, trace := w'.trace }
  front : ∀ n, (w'.sensors.find? n).map Sensor.front = (w.sensors.find? n).map Sensor.front
  writers : ∀ n, Writable w n → Writable w' n
  target : ∀ n, targetOf w' n = targetOf w n

theorem AfterWrites.refl (w : World) : AfterWrites w w := ⟨rfl, fun _ => rfl, fun _ h => h, fun _ => rfl⟩

theorem AfterWrites.trans {a b c : World} (h : AfterWrites a b) (h' : AfterWrites b c) : AfterWrites a c := by
  refine ⟨?_, fun n => (h'.front n).trans (h.front n), fun n hn => h'.writers n (h.writers n hn),
    fun n => (h'.target n).trans (h.target n)⟩
  rw [h'.same, h.same]

theorem writer_ne_null {busOk : String → Bool} {wr : Writer} {v : Dbl} {force : Bool} {r : WriteResult}
    (h : wr.write busOk v force = .ok r) : r.writer ≠ .null := by
  cases wr with
  | dbusPercent path min max old =>
    obtain ⟨raw, _, (⟨_, hf, rfl⟩ | ⟨_, u, _, rfl⟩)⟩ := dbusTail_spec h <;> simp
  | dbusRaw path old =>
    obtain ⟨raw, _, (⟨_, hf, rfl⟩ | ⟨_, u, _, rfl⟩)⟩ := dbusTail_spec h <;> simp
  | sysfsPercent path min max =>
    obtain ⟨raw, _, h2⟩ := bind_eq_ok.1 h
    cases h2; simp
  | sysfsRaw path =>
    obtain ⟨raw, _, h2⟩ := bind_eq_ok.1 h
    cases h2; simp
  | readOnlyNoExcept => cases h; simp
  | null => cases h

theorem writeSensor_after {w w' : World} {n sn : String} {v : Dbl} {force : Bool} {wr : Option Int}
    (h : w.writeSensor n v force = .ok (w', sn, wr)) : AfterWrites w w' := by
  have ht := (writeSensor_target h).1
  obtain ⟨s, rd, writer, res, h1, h2, h3, _, _, rfl⟩ := writeSensor_spec h
  refine ⟨rfl, fun m => ?_, fun m hm => ?_, ht⟩
  · rw [OMap.find?_insert]
    by_cases e : m = n
    · subst e
      rw [if_pos rfl, h1]
      simp [Sensor.front, h2]
    · rw [if_neg e]
  · unfold Writable
    simp only [OMap.find?_insert]
    by_cases e : m = n
    · rw [if_pos e]; exact ⟨_, _, _, rfl, rfl, writer_ne_null h3⟩
    · rw [if_neg e]; exact hm

theorem commanded_after {v : Dbl} {force : Bool} {w w' : World} {ns : List String} (h : Commanded v force w ns w') :
    AfterWrites w w' := by
  induction h with
  | nil w => exact .refl w
  | cons h1 _ ih => exact (writeSensor_after h1).trans ih

theorem drives_after {force : Bool} {w w' : World} {l : List (FanPid × Dbl)} (h : Drives force w l w') : AfterWrites w w' := by
  induction h with
  | nil w => exact .refl w
  | cons h1 _ ih => exact (commanded_after h1).trans ih

theorem tick_after {o : Opts} {w w' : World} {z z' : Zone} {cnt cnt' : Nat} (h : z.tick o w cnt = .ok (w', z', cnt')) :
    AfterWrites w w' := by
  by_cases hm : z.d.manualMode = true
  · rw [tick_manual hm] at h; cases h; exact .refl w
  · obtain ⟨d, _, ⟨-, zt, _, h3, -⟩ | ⟨-, h3, -⟩⟩ := tick_auto (by simpa using hm) h <;>
    · obtain ⟨l, _, _, h4, _⟩ := processFans_spec h3
      exact drives_after h4

theorem read_front {w w' : World} {now : Int} {s s' : Sensor} (h : s'.front = s.front) (hf : w'.files = w.files) :
    s'.read w' now = s.read w now := by
  obtain ⟨a, b, c, d⟩ := s
  obtain ⟨a', b', c', d'⟩ := s'
  simp only [Sensor.front, Prod.mk.injEq] at h
  obtain ⟨rfl, rfl, rfl, h⟩ := h
  cases d with
  | pluggable r wr =>
    cases d' with
    | pluggable r' wr' =>
      cases h
      cases r <;> simp only [Sensor.read, hf]
    | host v u => cases h
  | host v u =>
    cases d' with
    | pluggable r' wr' => cases h
    | host v' u' => cases h; rfl

theorem failed_front {w w' : World} {s s' : Sensor} (h : s'.front = s.front) (hh : w'.hostOn = w.hostOn)
    (hr : w'.redundancyFailed = w.redundancyFailed) : s'.getFailed w' = s.getFailed w := by
  obtain ⟨a, b, c, d⟩ := s
  obtain ⟨a', b', c', d'⟩ := s'
  simp only [Sensor.front, Prod.mk.injEq] at h
  obtain ⟨rfl, rfl, rfl, h⟩ := h
  cases d with
  | pluggable r wr =>
    cases d' with
    | pluggable r' wr' =>
      cases h
      cases r <;> simp only [Sensor.getFailed, hh, hr]
    | host v u => cases h
  | host v u =>
    cases d' with
    | pluggable r' wr' => cases h
    | host v' u' => cases h; simp only [Sensor.getFailed, hh]

/-! ## Launching -/

theorem zoneList_wf {configs : OMap Int ZoneConfig} : ∀ {l : List (Int × PIDConf)} {zs zs' : OMap Int Zone}, zs.WF →
    buildZoneList configs zs l = .ok zs' → zs'.WF
  | [], _, _, hw, h => by cases h; exact hw
  | (i, p) :: l, zs, zs', hw, h => by
    obtain ⟨z, _, h⟩ := bind_eq_ok.1 h
    exact zoneList_wf (OMap.wf_insert hw _ _) h

theorem buildZones_wf {pids : OMap Int PIDConf} {configs : OMap Int ZoneConfig} {zones : OMap Int Zone}
    (h : buildZones pids configs = .ok zones) : zones.WF := zoneList_wf OMap.wf_empty h

theorem startZones_find? {o : Opts} {w : World} : ∀ {l : List (Int × Zone)} {acc zs : OMap Int (Zone × Nat)},
    (l.map Prod.fst).Nodup → startZones o w acc l = .ok zs → ∀ i,
      (∀ z, (i, z) ∈ l → ∃ z0, z.start o w = .ok z0 ∧ zs.find? i = some (z0, 0)) ∧
      ((∀ e ∈ l, e.1 ≠ i) → zs.find? i = acc.find? i)
  | [], acc, zs, _, h, i => by
    cases h
    exact ⟨by simp, fun _ => rfl⟩
  | (j, z) :: l, acc, zs, hn, h, i => by
    rw [List.map_cons, List.nodup_cons] at hn
    obtain ⟨z0, hz0, h⟩ := bind_eq_ok.1 h
    obtain ⟨a, b⟩ := startZones_find? hn.2 h i
    constructor
    · intro z' hz'
      rcases List.mem_cons.1 hz' with hz' | hz'
      · cases hz'
        exact ⟨z0, hz0, by
          rw [b (fun e he hk => hn.1 (List.mem_map.2 ⟨e, he, hk⟩)), OMap.find?_insert_self]⟩
      · exact a z' hz'
    · intro hk
      rw [b (fun e he => hk e (List.mem_cons_of_mem _ he)), OMap.find?_insert_ne]
      exact fun e => hk (j, z) List.mem_cons_self e.symm

theorem startZones_total {o : Opts} {w : World} : ∀ {l : List (Int × Zone)} {acc : OMap Int (Zone × Nat)},
    (∀ e ∈ l, ∃ z0, e.2.start o w = .ok z0) → ∃ zs, startZones o w acc l = .ok zs
  | [], acc, _ => ⟨acc, rfl⟩
  | (j, z) :: l, acc, h => by
    obtain ⟨z0, hz0⟩ := h _ List.mem_cons_self
    obtain ⟨zs, hzs⟩ := startZones_total (acc := acc.insert j (z0, 0)) (fun e he => h e (List.mem_cons_of_mem _ he))
    exact ⟨zs, by unfold startZones; rw [hz0, ok_bind]; exact hzs⟩

/-- a launched daemon -/
structure Launched (o : Opts) (bus : BuildBus) (now : Int) (w : World) (sensors : OMap String SensorConfig)
    (pids : OMap Int PIDConf) (configs : OMap Int ZoneConfig) (m : Manager) (zones : OMap Int Zone) (d : Daemon) : Prop where
  made : buildSensors o bus now sensors = .ok m
  built : buildZones pids configs = .ok zones
  world : d.w = { w with sensors := m.sensors }
  started : ∀ i z, zones.find? i = some z → ∃ z0, z.start o d.w = .ok z0 ∧ d.zones.find? i = some (z0, 0)
  only : ∀ i, zones.find? i = none → d.zones.find? i = none

theorem launch_spec {o : Opts} {bus : BuildBus} {now : Int} {w : World} {sensors : OMap String SensorConfig}
    {pids : OMap Int PIDConf} {configs : OMap Int ZoneConfig} {d : Daemon}
    (h : Daemon.launch o bus now w sensors pids configs = .ok d) :
    ∃ m zones, Launched o bus now w sensors pids configs m zones d := by
  unfold Daemon.launch at h
  obtain ⟨m, h1, h⟩ := bind_eq_ok.1 h
  obtain ⟨zones, h2, h⟩ := bind_eq_ok.1 h
  split_ifs at h
  obtain ⟨zs, h3, h⟩ := bind_eq_ok.1 h
  cases h
  have hw := buildZones_wf h2
  refine ⟨m, zones, h1, h2, rfl, fun i z hz => ?_, fun i hi => ?_⟩
  · exact (startZones_find? (OMap.wf_nodup hw) h3 i).1 z ((OMap.mem_entries_iff hw _ _).2 hz)
  · rw [(startZones_find? (OMap.wf_nodup hw) h3 i).2 ((OMap.lookupL_none_iff _ _).1 hi), OMap.find?_empty]

/-! ## Running -/

theorem run_append {o : Opts} : ∀ {es es' : List DEvent} {d d' : Daemon},
    d.run o (es ++ es') = .ok d' ↔ ∃ d1, d.run o es = .ok d1 ∧ d1.run o es' = .ok d'
  | [], es', d, d' => by simp [Daemon.run]
  | e :: es, es', d, d' => by
    simp only [List.cons_append, Daemon.run, bind_eq_ok, run_append]
    constructor
    · rintro ⟨d1, h1, d2, h2, h3⟩; exact ⟨d2, ⟨d1, h1, h2⟩, h3⟩
    · rintro ⟨d2, ⟨d1, h1, h2⟩, h3⟩; exact ⟨d1, h1, d2, h2, h3⟩

theorem onZone_find? (d : Daemon) (i j : Int) (f : ZoneData → ZoneData) :
    (d.onZone i f).zones.find? j =
      if j = i then (d.zones.find? i).map (fun x => ({ x.1 with d := f x.1.d }, x.2)) else d.zones.find? j := by
  unfold Daemon.onZone
  cases h : d.zones.find? i with
  | none =>
    split_ifs with e
    · rw [e, h]; rfl
    · rfl
  | some x =>
    rw [OMap.find?_insert]
    rfl

theorem onZone_w (d : Daemon) (i : Int) (f : ZoneData → ZoneData) : (d.onZone i f).w = d.w := by
  unfold Daemon.onZone
  split <;> rfl

/-- what one event does to zone `i` -/
inductive ZoneStep (o : Opts) (i : Int) (w : World) (z : Zone) (cnt : Nat) : DEvent → Zone → Nat → Prop
  | manual (b : Bool) : ZoneStep o i w z cnt (.manual i b) { z with d := z.d.setManualMode b } cnt
  | enable (loop : String) (b : Bool) : ZoneStep o i w z cnt (.enable i loop b) { z with d := z.d.setEnabled loop b } cnt
  | tick {w' z' cnt'} : z.tick o w cnt = .ok (w', z', cnt') → ZoneStep o i w z cnt (.tick i) z' cnt'
  | other {e} : (∀ b, e ≠ .manual i b) → (∀ l b, e ≠ .enable i l b) → e ≠ .tick i → ZoneStep o i w z cnt e z cnt

theorem step_zone {o : Opts} {d d' : Daemon} {e : DEvent} (h : d.step o e = .ok d') {i : Int} {z : Zone} {cnt : Nat}
    (hz : d.zones.find? i = some (z, cnt)) :
    ∃ z' cnt', d'.zones.find? i = some (z', cnt') ∧ ZoneStep o i d.w z cnt e z' cnt' := by
  cases e with
  | outside nf nt ho rf fi bo => cases h; exact ⟨z, cnt, hz, .other (by simp) (by simp) (by simp)⟩
  | signal n t m =>
    refine ⟨z, cnt, ?_, .other (by simp) (by simp) (by simp)⟩
    have h : d.signal o n t m = .ok d' := h
    unfold Daemon.signal at h
    split at h
    · split at h
      · obtain ⟨p, _, h⟩ := bind_eq_ok.1 h
        cases h; exact hz
      · cases h; exact hz
    · cases h; exact hz
  | hostWrite n t v =>
    refine ⟨z, cnt, ?_, .other (by simp) (by simp) (by simp)⟩
    simp only [Daemon.step] at h
    split at h <;> (cases h; exact hz)
  | manual j b =>
    cases h
    by_cases e : i = j
    · subst e
      exact ⟨_, cnt, by rw [onZone_find?, if_pos rfl, hz]; rfl, .manual b⟩
    · exact ⟨z, cnt, by rw [onZone_find?, if_neg e, hz],
        .other (by rintro b' ⟨⟩; exact e rfl) (by simp) (by simp)⟩
  | enable j l b =>
    cases h
    by_cases e : i = j
    · subst e
      exact ⟨_, cnt, by rw [onZone_find?, if_pos rfl, hz]; rfl, .enable l b⟩
    · exact ⟨z, cnt, by rw [onZone_find?, if_neg e, hz],
        .other (by simp) (by rintro l' b' ⟨⟩; exact e rfl) (by simp)⟩
  | tick j =>
    by_cases e : i = j
    · subst e
      simp only [Daemon.step, hz] at h
      obtain ⟨⟨w', z', cnt'⟩, h1, h⟩ := bind_eq_ok.1 h
      cases h
      exact ⟨z', cnt', OMap.find?_insert_self _ _ _, .tick h1⟩
    · refine ⟨z, cnt, ?_, .other (by simp) (by simp) (by rintro ⟨⟩; exact e rfl)⟩
      simp only [Daemon.step] at h
      split at h
      · obtain ⟨⟨w', z', cnt'⟩, h1, h⟩ := bind_eq_ok.1 h
        cases h
        exact (OMap.find?_insert_ne _ e _).trans hz
      · cases h; exact hz

/-- zones neither appear nor disappear -/
theorem step_none {o : Opts} {d d' : Daemon} {e : DEvent} (h : d.step o e = .ok d') {i : Int}
    (hz : d.zones.find? i = none) : d'.zones.find? i = none := by
  cases e with
  | outside nf nt ho rf fi bo => cases h; exact hz
  | signal n t m =>
    have h : d.signal o n t m = .ok d' := h
    unfold Daemon.signal at h
    split at h
    · split at h
      · obtain ⟨p, _, h⟩ := bind_eq_ok.1 h
        cases h; exact hz
      · cases h; exact hz
    · cases h; exact hz
  | hostWrite n t v =>
    simp only [Daemon.step] at h
    split at h <;> (cases h; exact hz)
  | manual j b =>
    cases h
    rw [onZone_find?]
    split_ifs with e
    · rw [← e, hz]; rfl
    · exact hz
  | enable j l b =>
    cases h
    rw [onZone_find?]
    split_ifs with e
    · rw [← e, hz]; rfl
    · exact hz
  | tick j =>
    simp only [Daemon.step] at h
    split at h
    · next z cnt hj =>
      obtain ⟨⟨w', z', cnt'⟩, h1, h⟩ := bind_eq_ok.1 h
      cases h
      refine (OMap.find?_insert_ne _ ?_ _).trans hz
      rintro rfl
      rw [hz] at hj
      cases hj
    · cases h; exact hz

/-- what one event does to sensor `n` -/
inductive SensorStep (o : Opts) (n : String) (s : Sensor) : DEvent → Sensor → Prop
  | heard {p p' wr t m} : s.impl = .pluggable (.passive p) wr → handleSensorValue o p t m = .ok p' →
      SensorStep o n s (.signal n t m) { s with impl := .pluggable (.passive p') wr }
  | deaf {t m} : (∀ p wr, s.impl ≠ .pluggable (.passive p) wr) → SensorStep o n s (.signal n t m) s
  | host {t v} : SensorStep o n s (.hostWrite n t v) (s.hostWrite t v)
  | written {i s'} : s'.front = s.front →
      ((∃ r wr, s.impl = .pluggable r wr ∧ wr ≠ .null) → ∃ r wr, s'.impl = .pluggable r wr ∧ wr ≠ .null) →
      SensorStep o n s (.tick i) s'
  | other {e} : (∀ t m, e ≠ .signal n t m) → (∀ t v, e ≠ .hostWrite n t v) → SensorStep o n s e s

theorem step_sensor {o : Opts} {d d' : Daemon} {e : DEvent} (h : d.step o e = .ok d') {n : String} {s : Sensor}
    (hs : d.w.sensors.find? n = some s) :
    ∃ s', d'.w.sensors.find? n = some s' ∧ SensorStep o n s e s' := by
  cases e with
  | outside nf nt ho rf fi bo => cases h; exact ⟨s, hs, .other (by simp) (by simp)⟩
  | signal k t m =>
    have h : d.signal o k t m = .ok d' := h
    unfold Daemon.signal at h
    by_cases e : n = k
    · subst e
      simp only [hs] at h
      split at h
      · next p wr hi =>
        obtain ⟨p', hp, h⟩ := bind_eq_ok.1 h
        cases h
        exact ⟨_, OMap.find?_insert_self _ _ _, .heard hi hp⟩
      · next hne =>
        cases h
        exact ⟨s, hs, .deaf hne⟩
    · refine ⟨s, ?_, .other (by rintro t' m' ⟨⟩; exact e rfl) (by simp)⟩
      split at h
      · split at h
        · obtain ⟨p', hp, h⟩ := bind_eq_ok.1 h
          cases h
          exact (OMap.find?_insert_ne _ e _).trans hs
        · cases h; exact hs
      · cases h; exact hs
  | hostWrite k t v =>
    simp only [Daemon.step] at h
    by_cases e : n = k
    · subst e
      simp only [hs] at h
      cases h
      exact ⟨_, OMap.find?_insert_self _ _ _, .host⟩
    · refine ⟨s, ?_, .other (by simp) (by rintro t' m' ⟨⟩; exact e rfl)⟩
      split at h
      · cases h
        exact (OMap.find?_insert_ne _ e _).trans hs
      · cases h; exact hs
  | manual j b => cases h; exact ⟨s, by rw [onZone_w]; exact hs, .other (by simp) (by simp)⟩
  | enable j l b => cases h; exact ⟨s, by rw [onZone_w]; exact hs, .other (by simp) (by simp)⟩
  | tick j =>
    simp only [Daemon.step] at h
    split at h
    · obtain ⟨⟨w', z', cnt'⟩, h1, h⟩ := bind_eq_ok.1 h
      cases h
      have a := tick_after h1
      have b := a.front n
      rw [hs] at b
      cases hs' : w'.sensors.find? n with
      | none => rw [hs'] at b; cases b
      | some s' =>
        rw [hs'] at b
        refine ⟨s', rfl, .written (Option.some.inj b) ?_⟩
        rintro ⟨r, wr, h2, h3⟩
        obtain ⟨s2, r', wr', q1, q2, q3⟩ := a.writers n ⟨s, r, wr, hs, h2, h3⟩
        rw [hs'] at q1
        cases q1
        exact ⟨_, _, q2, q3⟩
    · cases h
      exact ⟨s, hs, .written rfl id⟩

/-- the files stay, unless they change outside -/
theorem step_files {o : Opts} {d d' : Daemon} {e : DEvent} (h : d.step o e = .ok d') :
    d'.w.files = d.w.files ∨ ∃ nf nt ho rf fi bo, e = .outside nf nt ho rf fi bo ∧ d'.w.files = fi := by
  cases e with
  | outside nf nt ho rf fi bo => cases h; exact .inr ⟨_, _, _, _, _, _, rfl, rfl⟩
  | signal k t m =>
    have h : d.signal o k t m = .ok d' := h
    unfold Daemon.signal at h
    left
    split at h
    · split at h
      · obtain ⟨p', hp, h⟩ := bind_eq_ok.1 h
        cases h; rfl
      · cases h; rfl
    · cases h; rfl
  | hostWrite k t v =>
    simp only [Daemon.step] at h
    left
    split at h <;> (cases h; rfl)
  | manual j b => cases h; left; rw [onZone_w]
  | enable j l b => cases h; left; rw [onZone_w]
  | tick j =>
    left
    simp only [Daemon.step] at h
    split at h
    · obtain ⟨⟨w', z', cnt'⟩, h1, h⟩ := bind_eq_ok.1 h
      cases h
      have := (tick_after h1).same
      rw [this]
    · cases h; rfl

end Verif
