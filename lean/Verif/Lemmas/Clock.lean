import Verif.Spec.Clock
import Verif.Lemmas.Alone

/-! # Helper lemmas about lives that differ only in their times -/

namespace Verif
open Dbl

/-- both succeed with related results or both fail alike -/
inductive Both {α β : Type} (R : α → β → Prop) : Res α → Res β → Prop
  | ok {a b} : R a b → Both R (.ok a) (.ok b)
  | err (e) : Both R (.error e) (.error e)

theorem Both.bind {α β α' β' : Type} {R : α → β → Prop} {S : α' → β' → Prop} {x : Res α} {y : Res β} {f : α → Res α'} {g : β → Res β'}
    (h : Both R x y) (hf : ∀ a b, R a b → Both S (f a) (g b)) : Both S (x >>= f) (y >>= g) := by
  cases h with
  | ok h => exact hf _ _ h
  | err e => exact .err e

theorem Both.same {α : Type} {R : α → α → Prop} (x : Res α) (h : ∀ a, R a a) : Both R x x := by
  cases x with
  | ok a => exact .ok (h a)
  | error e => exact .err e

theorem Both.mono {α β : Type} {R S : α → β → Prop} {x : Res α} {y : Res β} (h : Both R x y) (hs : ∀ a b, R a b → S a b) :
    Both S x y := by
  cases h with
  | ok h => exact .ok (hs _ _ h)
  | err e => exact .err e

theorem Both.map_eq {α β γ : Type} {R : α → β → Prop} {x : Res α} {y : Res β} {f : α → γ} {g : β → γ} (h : Both R x y)
    (hf : ∀ a b, R a b → f a = g b) : x.map f = y.map g := by
  cases h with
  | ok h => exact congrArg Except.ok (hf _ _ h)
  | err e => rfl

section
variable [F : FloatModel]

/-- the two clocks run alike -/
def Aligned (T : Int → Int → Prop) : Prop := ∀ a a' b b', T a a' → T b b' → a' - b' = a - b

inductive ImplLike (T : Int → Int → Prop) : SensorImpl → SensorImpl → Prop
  | host {v u u'} : T u u' → ImplLike T (.host v u) (.host v u')
  | passive {p u' wr} : T p.updated u' →
      ImplLike T (.pluggable (.passive p) wr) (.pluggable (.passive { p with updated := u' }) wr)
  | sysfs {path wr} : ImplLike T (.pluggable (.sysfs path) wr) (.pluggable (.sysfs path) wr)
  | writeOnly {wr} : ImplLike T (.pluggable .writeOnly wr) (.pluggable .writeOnly wr)
  | null {wr} : ImplLike T (.pluggable .null wr) (.pluggable .null wr)

inductive SensorLike (T : Int → Int → Prop) : Sensor → Sensor → Prop
  | mk {n t i a b} : ImplLike T a b → (t = 0 ∨ Aligned T) → SensorLike T ⟨n, t, i, a⟩ ⟨n, t, i, b⟩

inductive Maybe (R : Sensor → Sensor → Prop) : Option Sensor → Option Sensor → Prop
  | none : Maybe R none none
  | some {a b} : R a b → Maybe R (some a) (some b)

structure WorldLike (T : Int → Int → Prop) (w w' : World) : Prop where
  fans : T w.nowFans w'.nowFans
  thermals : T w.nowThermals w'.nowThermals
  rest : w' = ⟨w'.nowFans, w'.nowThermals, w.hostOn, w.redundancyFailed, w.files, w.busOk, w'.sensors, w.trace⟩
  sensors : ∀ n, Maybe (SensorLike T) (w.sensors.find? n) (w'.sensors.find? n)

variable {T : Int → Int → Prop}

theorem maybe_insert {m m' : OMap String Sensor} (h : ∀ n, Maybe (SensorLike T) (m.find? n) (m'.find? n)) (k : String) {s s' : Sensor}
    (hs : SensorLike T s s') (n : String) : Maybe (SensorLike T) ((m.insert k s).find? n) ((m'.insert k s').find? n) := by
  simp only [OMap.find?_insert]
  split_ifs
  · exact .some hs
  · exact h n

theorem WorldLike.get {w w' : World} (h : WorldLike T w w') (n : String) :
    Both (SensorLike T) (w.getSensor n) (w'.getSensor n) := by
  unfold World.getSensor
  have := h.sensors n
  unfold OMap.atKey
  generalize w.sensors.find? n = a at this
  generalize w'.sensors.find? n = b at this
  cases this with
  | none => exact .err _
  | some hs => exact .ok hs

theorem WorldLike.poll {w w' : World} (h : WorldLike T w w') {now now' : Int} (hn : T now now') (z : ZoneData) (n : String) :
    z.processSensorInput w' now' n = z.processSensorInput w now n := by
  have ef : w'.files = w.files := by rw [h.rest]
  have eh : w'.hostOn = w.hostOn := by rw [h.rest]
  have er : w'.redundancyFailed = w.redundancyFailed := by rw [h.rest]
  unfold ZoneData.processSensorInput
  have hg := h.get n
  generalize w.getSensor n = x at hg
  generalize w'.getSensor n = y at hg
  cases hg with
  | err e => rfl
  | ok hs =>
    rw [ok_bind, ok_bind]
    cases hs with
    | @mk nm t i a b hi ht =>
      have old : ∀ u u', T u u' → (t ≠ 0 ∧ t ≤ Int.tdiv (now' - u') 1000000000 ↔ t ≠ 0 ∧ t ≤ Int.tdiv (now - u) 1000000000) := by
        intro u u' hu
        rcases ht with ht | ht
        · simp [ht]
        · rw [ht _ _ _ _ hn hu]
      cases hi with
      | host hu =>
        simp only [Sensor.read, Sensor.getFailed, Sensor.getFailReason, eh, ok_bind, old _ _ hu]
      | passive hu =>
        simp only [Sensor.read, Sensor.getFailed, Sensor.getFailReason, eh, er, ok_bind, Passive.read, old _ _ hu]
        rfl
      | sysfs =>
        simp only [Sensor.read, Sensor.getFailed, Sensor.getFailReason, ef, ok_bind]
        unfold sysfsRead
        split <;> simp
      | writeOnly => rfl
      | null => rfl

theorem WorldLike.polls {w w' : World} (h : WorldLike T w w') {now now' : Int} (hn : T now now') : ∀ (l : List String) (z : ZoneData),
    z.processSensorInputs w' now' l = z.processSensorInputs w now l
  | [], z => rfl
  | n :: l, z => by
    unfold ZoneData.processSensorInputs
    rw [h.poll hn]
    cases z.processSensorInput w now n with
    | error e => rfl
    | ok z' => exact h.polls hn l z'

theorem WorldLike.telemetry {w w' : World} (h : WorldLike T w w') (z : ZoneData) :
    z.updateFanTelemetry w' = z.updateFanTelemetry w := h.polls h.fans _ _

theorem WorldLike.thermalPass {w w' : World} (h : WorldLike T w w') (o : Opts) (z : Zone) :
    z.processThermals o w' = z.processThermals o w := by
  unfold Zone.processThermals ZoneData.updateSensors
  have e' : w'.files = w.files := by rw [h.rest]
  have hd : ∀ (ids : List String) (d : ZoneData), d.determineMaxSetPointRequest o w' ids = d.determineMaxSetPointRequest o w ids := by
    intro ids d
    unfold ZoneData.determineMaxSetPointRequest
    rw [e']
  rw [h.polls h.thermals]
  simp only [hd]

theorem WorldLike.start {w w' : World} (h : WorldLike T w w') (o : Opts) (z : Zone) : z.start o w' = z.start o w :=
  h.thermalPass o _

/-- related worlds, and the rest equal -/
def Beside {α : Type} (T : Int → Int → Prop) (x y : World × α) : Prop := WorldLike T x.1 y.1 ∧ y.2 = x.2

theorem WorldLike.write {w w' : World} (h : WorldLike T w w') (n : String) (v : Dbl) (force : Bool) :
    Both (Beside T) (w.writeSensor n v force) (w'.writeSensor n v force) := by
  have eb : w'.busOk = w.busOk := by rw [h.rest]
  unfold World.writeSensor
  refine (h.get n).bind (fun s s' hs => ?_)
  have key : ∀ {nm t i r r' wr}, (∀ wr', ImplLike T (.pluggable r wr') (.pluggable r' wr')) → (t = 0 ∨ Aligned T) →
      Both (Beside T)
        (do let res ← Writer.write w.busOk wr v force
            .ok (({ w with sensors := w.sensors.insert n ⟨nm, t, i, .pluggable r res.writer⟩, trace := w.trace ++ res.effect.toList } : World), nm, res.written))
        (do let res ← Writer.write w'.busOk wr v force
            .ok (({ w' with sensors := w'.sensors.insert n ⟨nm, t, i, .pluggable r' res.writer⟩, trace := w'.trace ++ res.effect.toList } : World), nm, res.written)) := by
    intro nm t i r r' wr hr ht
    rw [eb]
    refine (Both.same (R := Eq) _ (fun _ => rfl)).bind ?_
    rintro res _ rfl
    refine .ok ⟨⟨h.fans, h.thermals, ?_, maybe_insert h.sensors n ⟨hr _, ht⟩⟩, rfl⟩
    have := h.rest
    simp only [World.mk.injEq] at this ⊢
    obtain ⟨w1, w2, w3, w4, w5, w6, w7, w8⟩ := w'
    cases this
    simp
  cases hs with
  | mk hi ht =>
    cases hi with
    | host hu => exact .err _
    | passive hu => exact key (fun _ => .passive hu) ht
    | sysfs => exact key (fun _ => .sysfs) ht
    | writeOnly => exact key (fun _ => .writeOnly) ht
    | null => exact key (fun _ => .null) ht

theorem WorldLike.writeFans {raw0 : Res Int} {v : Dbl} : ∀ {l : List String} {w w' : World} {z : ZoneData}, WorldLike T w w' →
    Both (Beside T) (writeFans raw0 v w z l) (writeFans raw0 v w' z l)
  | [], w, w', z, h => .ok ⟨h, rfl⟩
  | n :: l, w, w', z, h => by
    unfold Verif.writeFans
    refine (h.write n v z.redundantWrite).bind ?_
    rintro ⟨w1, sn, wr⟩ ⟨w1', sn', wr'⟩ ⟨h1, h2⟩
    cases h2
    refine (Both.same (R := Eq) _ (fun _ => rfl)).bind ?_
    rintro raw _ rfl
    exact WorldLike.writeFans h1

theorem WorldLike.fanList {o : Opts} : ∀ {l : List (Option FanPid)} {w w' : World} {z : ZoneData}, WorldLike T w w' →
    Both (Beside T) (processFanList o w z l) (processFanList o w' z l)
  | [], w, w', z, h => .ok ⟨h, rfl⟩
  | none :: l, w, w', z, h => .err _
  | some c :: l, w, w', z, h => by
    unfold processFanList
    have hc : Both (Beside T) (c.process o w z) (c.process o w' z) := by
      unfold FanPid.process
      refine (Both.same (R := Eq) _ (fun _ => rfl)).bind ?_
      rintro i _ rfl
      refine (WorldLike.writeFans h).bind ?_
      rintro ⟨w1, z1⟩ ⟨w1', z1'⟩ ⟨h1, h2⟩
      cases h2
      exact .ok ⟨h1, rfl⟩
    refine hc.bind ?_
    rintro ⟨w1, z1, c1⟩ ⟨w1', z1', c1'⟩ ⟨h1, h2⟩
    cases h2
    refine (WorldLike.fanList h1).bind ?_
    rintro ⟨w2, z2, c2⟩ ⟨w2', z2', c2'⟩ ⟨h3, h4⟩
    cases h4
    exact .ok ⟨h3, rfl⟩

theorem WorldLike.fanPass {o : Opts} {w w' : World} {z : Zone} (h : WorldLike T w w') :
    Both (Beside T) (z.processFans o w) (z.processFans o w') := by
  unfold Zone.processFans
  refine (WorldLike.fanList h).bind ?_
  rintro ⟨w1, z1, c1⟩ ⟨w1', z1', c1'⟩ ⟨h1, h2⟩
  cases h2
  exact .ok ⟨h1, rfl⟩

theorem WorldLike.tick {o : Opts} {w w' : World} {z : Zone} {cnt : Nat} (h : WorldLike T w w') :
    Both (Beside T) (z.tick o w cnt) (z.tick o w' cnt) := by
  unfold Zone.tick
  by_cases hm : z.d.manualMode = true
  · simp only [hm, if_true]
    exact .ok ⟨h, rfl⟩
  · simp only [hm]
    rw [h.telemetry]
    refine (Both.same (R := Eq) _ (fun _ => rfl)).bind ?_
    rintro d _ rfl
    have e : ∀ z : Zone, z.processThermals o w' = z.processThermals o w := fun z => h.thermalPass o z
    simp only [e]
    split_ifs
    · refine (Both.same (R := Eq) _ (fun _ => rfl)).bind ?_
      rintro zt _ rfl
      refine (WorldLike.fanPass h).bind ?_
      rintro ⟨w1, z1⟩ ⟨w1', z1'⟩ ⟨h1, h2⟩
      cases h2
      exact .ok ⟨h1, rfl⟩
    · refine (WorldLike.fanPass h).bind ?_
      rintro ⟨w1, z1⟩ ⟨w1', z1'⟩ ⟨h1, h2⟩
      cases h2
      exact .ok ⟨h1, rfl⟩

/-! ## Sensors -/

theorem update_like {p : Passive} {u' : Int} (h : T p.updated u') {now now' : Int} (hn : T now now') (v : Dbl) (force : Bool) :
    ∃ u1, T (p.updateValue now v force).updated u1 ∧
      ({ p with updated := u' } : Passive).updateValue now' v force = { p.updateValue now v force with updated := u1 } := by
  unfold Passive.updateValue
  by_cases hc : (!v.isFinite && !force) = true
  · simp only [hc, if_true]
    exact ⟨u', h, rfl⟩
  · simp only [hc]
    exact ⟨now', hn, rfl⟩

theorem signal_like {o : Opts} {p : Passive} {u' : Int} (h : T p.updated u') {now now' : Int} (hn : T now now') (m : PropMsg) :
    Both (fun a b => ∃ u1, T a.updated u1 ∧ b = { a with updated := u1 }) (handleSensorValue o p now m)
      (handleSensorValue o { p with updated := u' } now' m) := by
  have id' : ∃ u1, T p.updated u1 ∧ ({ p with updated := u' } : Passive) = { p with updated := u1 } := ⟨u', h, rfl⟩
  have flag : ∀ (x : Res Bool) (f : Passive → Bool → Passive), (∀ b, ∃ u1, T (f p b).updated u1 ∧
      f { p with updated := u' } b = { f p b with updated := u1 }) →
      Both (fun a b => ∃ u1, T a.updated u1 ∧ b = { a with updated := u1 }) (do let b ← x; .ok (f p b))
        (do let b ← x; .ok (f { p with updated := u' } b)) := by
    intro x f hf
    cases x with
    | error e => exact .err e
    | ok b => exact .ok (hf b)
  unfold handleSensorValue
  by_cases h1 : m.iface = ifSensorValue
  · rw [if_pos h1, if_pos h1]
    split
    · exact .ok (update_like h hn _ _)
    · exact .ok id'
  · rw [if_neg h1, if_neg h1]
    by_cases h2 : m.iface = ifCritical
    · rw [if_pos h2, if_pos h2]
      have set : ∀ b, Both (fun a b => ∃ u1, T a.updated u1 ∧ b = { a with updated := u1 }) (.ok (p.setFailed b))
          (.ok (({ p with updated := u' } : Passive).setFailed b)) := fun b => .ok ⟨u', h, rfl⟩
      cases m.props.find? "CriticalAlarmLow" with
      | none =>
        cases m.props.find? "CriticalAlarmHigh" with
        | none => exact .ok id'
        | some v => exact flag v.getBool Passive.setFailed (fun b => ⟨u', h, rfl⟩)
      | some v =>
        dsimp only
        cases v.getBool with
        | error e => exact .err _
        | ok b =>
          cases b with
          | true => exact set true
          | false =>
            cases m.props.find? "CriticalAlarmHigh" with
            | none => exact set false
            | some v => exact flag v.getBool Passive.setFailed (fun b => ⟨u', h, rfl⟩)
    · rw [if_neg h2, if_neg h2]
      by_cases h3 : (o.uncFailsafe && m.iface = ifWarning) = true
      · rw [if_pos h3, if_pos h3]
        split
        · exact .ok id'
        · exact flag _ Passive.setFailed (fun b => ⟨u', h, rfl⟩)
      · rw [if_neg h3, if_neg h3]
        by_cases h4 : m.iface = ifAvailability
        · rw [if_pos h4, if_pos h4]
          split
          · exact .ok id'
          · refine (Both.same (R := Eq) _ (fun _ => rfl)).bind ?_
            rintro b _ rfl
            cases b with
            | true => exact .ok ⟨u', h, rfl⟩
            | false => exact .ok (update_like (p := p.setAvailable false) h hn .nan true)
        · rw [if_neg h4, if_neg h4]
          by_cases h5 : m.iface = ifOperational
          · rw [if_pos h5, if_pos h5]
            split
            · exact .ok id'
            · exact flag _ Passive.setFunctional (fun b => ⟨u', h, rfl⟩)
          · rw [if_neg h5, if_neg h5]
            exact .ok id'

theorem init_like {p : Passive} {now now' : Int} (hn : T now now') (s : SensorProperties) (failed : Bool) :
    T (p.initFromSettings now s failed).updated now' ∧
      p.initFromSettings now' s failed = { p.initFromSettings now s failed with updated := now' } := by
  have e : ∀ (q : Passive) (n : Int), (q.updateValue n s.value true).updated = n := by
    intro q n; unfold Passive.updateValue; simp
  have e' : ∀ (q : Passive), q.updateValue now' s.value true = { q.updateValue now s.value true with updated := now' } := by
    intro q; unfold Passive.updateValue; simp
  unfold Passive.initFromSettings
  exact ⟨by dsimp only; rw [e]; exact hn, e' _⟩

theorem reader_like {o : Opts} {bus : BuildBus} {now now' : Int} (hn : T now now') (name : String) (info : SensorConfig) :
    Both (fun r r' => ∀ wr, ImplLike T (.pluggable r wr) (.pluggable r' wr)) (buildReader o bus now name info)
      (buildReader o bus now' name info) := by
  unfold buildReader
  split
  · unfold createDbusPassive
    by_cases h1 : (!validType info.type) = true
    · simp only [h1, if_true]; exact .err _
    · simp only [h1]
      by_cases h2 : (!(bus.passive name).service) = true
      · simp only [h2, if_true]
        by_cases h3 : (!o.handleMissingObjectPaths) = true
        · simp only [h3, if_true]; exact .err _
        · simp only [h3]
          refine .ok (fun wr => ?_)
          have := fun p => @init_like F T p _ _ hn
          rw [(this _ _ _).2]
          exact .passive (this _ _ _).1
      · simp only [h2]
        cases (bus.passive name).props with
        | none => exact .err _
        | some x =>
          refine .ok (fun wr => ?_)
          have := fun p => @init_like F T p _ _ hn
          rw [(this _ _ _).2]
          exact .passive (this _ _ _).1
  · exact .ok (fun _ => .null)
  · exact (Both.same (R := Eq) _ (fun _ => rfl)).bind (by rintro path _ rfl; exact .ok (fun _ => .sysfs))
  · exact .ok (fun _ => .writeOnly)

theorem sensor_like {o : Opts} {bus : BuildBus} {now now' : Int} (hn : T now now') (name : String) (info : SensorConfig)
    (ht : info.timeout = 0 ∨ Aligned T) :
    Both (Maybe (SensorLike T)) (buildSensor o bus now name info) (buildSensor o bus now' name info) := by
  unfold buildSensor
  refine (reader_like hn name info).bind (fun r r' hr => ?_)
  split_ifs
  · refine (Both.same (R := Eq) _ (fun _ => rfl)).bind ?_
    rintro wi _ rfl
    exact .ok (.some ⟨hr _, ht⟩)
  · exact .ok (.some ⟨.host hn, ht⟩)
  · exact .ok (.some ⟨hr _, ht⟩)
  · exact .ok .none

structure ManagerLike (T : Int → Int → Prop) (m m' : Manager) : Prop where
  sensors : ∀ n, Maybe (SensorLike T) (m.sensors.find? n) (m'.sensors.find? n)
  types : m'.types = m.types

theorem sensors_like {o : Opts} {bus : BuildBus} {now now' : Int} (hn : T now now') : ∀ {l : List (String × SensorConfig)} {m m' : Manager},
    ManagerLike T m m' → (∀ x ∈ l, x.2.timeout = 0 ∨ Aligned T) →
    Both (ManagerLike T) (buildSensorsLoop o bus now m l) (buildSensorsLoop o bus now' m' l)
  | [], m, m', h, _ => .ok h
  | (name, info) :: l, m, m', h, ht => by
    unfold buildSensorsLoop
    refine (sensor_like hn name info (ht _ List.mem_cons_self)).bind ?_
    rintro _ _ (_ | hs)
    · exact sensors_like hn h (fun x hx => ht x (List.mem_cons_of_mem _ hx))
    · refine sensors_like hn ⟨maybe_insert h.sensors _ hs, ?_⟩ (fun x hx => ht x (List.mem_cons_of_mem _ hx))
      show m'.types.insert _ _ = _
      rw [h.types]
      rfl

/-! ## Events -/

inductive DEvent.Retimed (T : Int → Int → Prop) : DEvent → DEvent → Prop
  | outside {a a' b b' h r f ok} : T a a' → T b b' → Retimed T (.outside a b h r f ok) (.outside a' b' h r f ok)
  | signal {n t t' m} : T t t' → Retimed T (.signal n t m) (.signal n t' m)
  | hostWrite {n t t' v} : T t t' → Retimed T (.hostWrite n t v) (.hostWrite n t' v)
  | manual {i b} : Retimed T (.manual i b) (.manual i b)
  | enable {i l b} : Retimed T (.enable i l b) (.enable i l b)
  | tick {i} : Retimed T (.tick i) (.tick i)

structure DaemonLike (T : Int → Int → Prop) (d d' : Daemon) : Prop where
  w : WorldLike T d.w d'.w
  zones : d'.zones = d.zones

theorem WorldLike.set {w w' : World} (h : WorldLike T w w') (k : String) {s s' : Sensor} (hs : SensorLike T s s') :
    WorldLike T { w with sensors := w.sensors.insert k s } { w' with sensors := w'.sensors.insert k s' } := by
  refine ⟨h.fans, h.thermals, ?_, maybe_insert h.sensors k hs⟩
  have := h.rest
  obtain ⟨w1, w2, w3, w4, w5, w6, w7, w8⟩ := w'
  cases this
  rfl

theorem DaemonLike.step {o : Opts} {d d' : Daemon} {e e' : DEvent} (h : DaemonLike T d d') (he : DEvent.Retimed T e e') :
    Both (DaemonLike T) (d.step o e) (d'.step o e') := by
  cases he with
  | outside h1 h2 =>
    refine .ok ⟨⟨h1, h2, ?_, h.w.sensors⟩, h.zones⟩
    have e : d'.w.trace = d.w.trace := by rw [h.w.rest]
    simp [e]
  | @signal n t t' m ht =>
    unfold Daemon.step Daemon.signal
    dsimp only
    have := h.w.sensors n
    generalize d.w.sensors.find? n = a at this
    generalize d'.w.sensors.find? n = b at this
    cases this with
    | none => exact .ok h
    | some hs =>
      cases hs with
      | mk hi hto =>
        cases hi with
        | passive hu =>
          dsimp only
          refine (signal_like hu ht m).bind ?_
          rintro p _ ⟨u1, hu1, rfl⟩
          exact .ok ⟨h.w.set n ⟨.passive hu1, hto⟩, h.zones⟩
        | host hu => exact .ok h
        | sysfs => exact .ok h
        | writeOnly => exact .ok h
        | null => exact .ok h
  | @hostWrite n t t' v ht =>
    unfold Daemon.step
    dsimp only
    have := h.w.sensors n
    generalize d.w.sensors.find? n = a at this
    generalize d'.w.sensors.find? n = b at this
    cases this with
    | none => exact .ok h
    | some hs =>
      cases hs with
      | mk hi hto =>
        refine .ok ⟨h.w.set n ?_, h.zones⟩
        cases hi with
        | host hu => exact ⟨.host ht, hto⟩
        | passive hu => exact ⟨.passive hu, hto⟩
        | sysfs => exact ⟨.sysfs, hto⟩
        | writeOnly => exact ⟨.writeOnly, hto⟩
        | null => exact ⟨.null, hto⟩
  | manual =>
    refine .ok ?_
    unfold Daemon.onZone
    rw [h.zones]
    split
    · exact ⟨h.w, rfl⟩
    · exact h
  | enable =>
    refine .ok ?_
    unfold Daemon.onZone
    rw [h.zones]
    split
    · exact ⟨h.w, rfl⟩
    · exact h
  | tick =>
    unfold Daemon.step
    dsimp only
    rw [h.zones]
    split
    · refine (WorldLike.tick h.w).bind ?_
      rintro ⟨w1, z1, c1⟩ ⟨w1', z1', c1'⟩ ⟨h1, h2⟩
      cases h2
      exact .ok ⟨h1, rfl⟩
    · exact .ok h

/-! ## Lives -/

structure WholeLike (T : Int → Int → Prop) (s s' : Whole) : Prop where
  d : DaemonLike T s.d s'.d
  idle : s'.idle = s.idle
  hosts : s'.hosts = s.hosts
  again : s'.again = s.again

theorem WorldLike.destroyFans {o : Opts} : ∀ {l : List (Option FanPid)} {w w' : World} {z : ZoneData}, WorldLike T w w' →
    Both (Beside T) (Zone.destroyFans o w z l) (Zone.destroyFans o w' z l)
  | [], w, w', z, h => .ok ⟨h, rfl⟩
  | none :: l, w, w', z, h => WorldLike.destroyFans (l := l) h
  | some c :: l, w, w', z, h => by
    unfold Zone.destroyFans
    have hc : Both (Beside T) (c.destroy o w z) (c.destroy o w' z) := by
      unfold FanPid.destroy
      split_ifs
      · exact .ok ⟨h, rfl⟩
      · exact WorldLike.writeFans h
    refine hc.bind ?_
    rintro ⟨w1, z1⟩ ⟨w1', z1'⟩ ⟨h1, h2⟩
    cases h2
    exact WorldLike.destroyFans h1

theorem WorldLike.destroyZones {o : Opts} : ∀ {l : List Zone} {w w' : World}, WorldLike T w w' →
    Both (WorldLike T) (destroyZones o w l) (destroyZones o w' l)
  | [], w, w', h => .ok h
  | z :: l, w, w', h => by
    unfold Verif.destroyZones
    refine (WorldLike.destroyFans h).bind ?_
    rintro ⟨w1, z1⟩ ⟨w1', z1'⟩ ⟨h1, h2⟩
    exact WorldLike.destroyZones h1

theorem WholeLike.stop {o : Opts} {s s' : Whole} (h : WholeLike T s s') : Both (WorldLike T) (s.stop o) (s'.stop o) := by
  unfold Whole.stop
  rw [h.idle, h.d.zones]
  exact WorldLike.destroyZones h.d.w

theorem WorldLike.startSome {o : Opts} {w w' : World} (h : WorldLike T w w') : ∀ (l : List (Int × Zone)) (acc : OMap Int (Zone × Nat)),
    startSome o w' acc l = startSome o w acc l
  | [], acc => rfl
  | (i, z) :: l, acc => by
    unfold Verif.startSome
    rw [h.start]
    split
    · exact h.startSome l _
    · rfl

theorem WorldLike.startBuilt {o : Opts} {w w' : World} (h : WorldLike T w w') (c : Config) :
    Both (WholeLike T) (startBuilt o c w) (startBuilt o c w') := by
  unfold Verif.startBuilt
  dsimp only
  split
  · exact .ok ⟨⟨h, rfl⟩, rfl, rfl, rfl⟩
  · exact .err _
  · split_ifs
    · exact .err _
    · rw [h.startSome]
      split
      · exact .ok ⟨⟨h, rfl⟩, rfl, rfl, rfl⟩
      · exact .ok ⟨⟨h, rfl⟩, rfl, rfl, rfl⟩
      · exact .err _

inductive WEvent.Retimed (T : Int → Int → Prop) : WEvent → WEvent → Prop
  | event {e e'} : DEvent.Retimed T e e' → Retimed T (.event e) (.event e')
  | reload {r : Found} {now' : Int} : T r.now now' →
      (∀ c, r.read = .got c → ∀ x ∈ c.sensors.entries, x.2.timeout = 0 ∨ Aligned T) →
      Retimed T (.reload r) (.reload { r with now := now' })

theorem WholeLike.rebuild {o : Opts} {r : Found} {now' : Int} {s s' : Whole} {w w' : World} {c : Config} (h : WholeLike T s s')
    (hw : WorldLike T w w') (hn : T r.now now') (ht : ∀ x ∈ c.sensors.entries, x.2.timeout = 0 ∨ Aligned T) :
    Both (WholeLike T) (s.rebuild o r w c) (s'.rebuild o { r with now := now' } w' c) := by
  unfold Whole.rebuild
  rw [h.hosts]
  dsimp only
  have halt : ∀ b, WholeLike T (s.halted w b) (s'.halted w' b) := fun b => ⟨⟨hw, rfl⟩, rfl, h.hosts, rfl⟩
  split_ifs
  · exact .ok (halt _)
  · have hb : Both (ManagerLike T) (buildSensors o r.bus r.now c.sensors) (buildSensors o r.bus now' c.sensors) :=
      sensors_like hn ⟨fun n => by rw [OMap.find?_empty]; exact .none, rfl⟩ ht
    generalize buildSensors o r.bus r.now c.sensors = x at hb
    generalize buildSensors o r.bus now' c.sensors = y at hb
    cases hb with
    | err e =>
      cases e with
      | exc why => exact .ok (halt _)
      | ub why => exact .err _
    | ok hm =>
      rename_i m m'
      refine WorldLike.startBuilt (w := { w with sensors := m.sensors }) (w' := { w' with sensors := m'.sensors })
        ⟨hw.fans, hw.thermals, ?_, hm.sensors⟩ c
      have := hw.rest
      obtain ⟨w1, w2, w3, w4, w5, w6, w7, w8⟩ := w'
      cases this
      rfl

theorem WholeLike.step {o : Opts} {s s' : Whole} {e e' : WEvent} (h : WholeLike T s s') (he : WEvent.Retimed T e e') :
    Both (WholeLike T) (s.step o e) (s'.step o e') := by
  cases he with
  | event he =>
    refine (h.d.step he).bind (fun d d' hd => .ok ⟨hd, h.idle, h.hosts, h.again⟩)
  | @reload r now' hn ht =>
    unfold Whole.step Whole.reload
    refine h.stop.bind (fun w w' hw => ?_)
    have er : Found.read { r with now := now' } = r.read := rfl
    rw [er]
    cases hr : r.read with
    | got c => exact h.rebuild hw hn (ht c hr)
    | wait => exact .ok ⟨⟨hw, rfl⟩, rfl, h.hosts, rfl⟩
    | again why => exact .ok ⟨⟨hw, rfl⟩, rfl, h.hosts, rfl⟩
    | ended why => exact .err _
    | undefined why => exact .err _

theorem WholeLike.run {o : Opts} : ∀ {es es' : List WEvent} {s s' : Whole}, WholeLike T s s' → List.Forall₂ (WEvent.Retimed T) es es' →
    Both (WholeLike T) (s.run o es) (s'.run o es')
  | _, _, s, s', h, .nil => .ok h
  | _, _, s, s', h, .cons he hes => by
    unfold Whole.run
    exact (h.step he).bind (fun a b hab => WholeLike.run hab hes)

theorem WholeLike.seen {s s' : Whole} (h : WholeLike T s s') : s'.seen = s.seen := by
  unfold Whole.seen
  rw [h.d.zones, h.idle, h.hosts, h.again, h.d.w.rest]

end
end Verif
