import Verif.Spec.AnyOrder
import Verif.Lemmas.OMap
import Verif.Lemmas.Daemon

/-! # Helper lemmas about the order of events -/

namespace Verif
open Dbl

namespace OMap
variable {K V : Type} [DecidableEq K] [LT K] [DecidableLT K] [StrictOrd K]

theorem insertL_same (k : K) (v v' : V) : ∀ l : List (K × V), insertL k v' (insertL k v l) = insertL k v' l
  | [] => by simp [insertL]
  | (j, x) :: l => by
    by_cases h1 : k = j
    · simp [insertL, h1]
    · by_cases h2 : k < j
      · simp [insertL, h1, h2]
      · simp [insertL, h1, h2, insertL_same k v v' l]

theorem insertL_comm {k j : K} (h : k < j) (v x : V) : ∀ l : List (K × V),
    insertL k v (insertL j x l) = insertL j x (insertL k v l)
  | [] => by
    have h1 : ¬ j < k := fun h' => StrictOrd.irrefl _ (StrictOrd.trans h h')
    have h2 : k ≠ j := fun e => StrictOrd.irrefl j (e ▸ h)
    simp [insertL, h, h1, h2, Ne.symm h2]
  | (i, y) :: l => by
    have h1 : ¬ j < k := fun h' => StrictOrd.irrefl _ (StrictOrd.trans h h')
    have h2 : k ≠ j := fun e => StrictOrd.irrefl j (e ▸ h)
    by_cases e1 : j = i
    · subst e1
      simp [insertL, h, h1, h2, Ne.symm h2]
    · by_cases l1 : j < i
      · have l2 := StrictOrd.trans h l1
        have e2 : k ≠ i := fun e => StrictOrd.irrefl i (e ▸ l2)
        simp [insertL, h, h1, h2, Ne.symm h2, e1, l1, e2, l2]
      · by_cases e2 : k = i
        · simp [insertL, e1, l1, e2]
        · by_cases l2 : k < i
          · simp [insertL, e1, l1, e2, l2, h1, Ne.symm h2]
          · simp [insertL, e1, l1, e2, l2, insertL_comm h v x l]

theorem insert_same (m : OMap K V) (k : K) (v v' : V) : (m.insert k v).insert k v' = m.insert k v' := by
  unfold insert
  rw [insertL_same]

theorem insert_comm (m : OMap K V) {k j : K} (h : k ≠ j) (v x : V) :
    (m.insert k v).insert j x = (m.insert j x).insert k v := by
  unfold insert
  by_cases hl : k < j
  · rw [insertL_comm hl]
  · rw [insertL_comm (StrictOrd.total hl h)]

/-- a change of the value at one key, if there is one -/
def upd (m : OMap K V) (k : K) (f : V → Res (Option V)) : Res (OMap K V) :=
  match m.find? k with
  | none => .ok m
  | some v => do
    match ← f v with
    | none => .ok m
    | some v' => .ok (m.insert k v')

theorem upd_find? {m m1 : OMap K V} {k j : K} (h : j ≠ k) {f : V → Res (Option V)} (hu : m.upd k f = .ok m1) :
    m1.find? j = m.find? j := by
  unfold upd at hu
  cases hk : m.find? k with
  | none => rw [hk] at hu; cases hu; rfl
  | some v =>
    rw [hk] at hu
    obtain ⟨r, _, hu⟩ := bind_eq_ok.1 hu
    cases r with
    | none => cases hu; rfl
    | some v' => cases hu; exact find?_insert_ne m h v'

/-- changes at different keys -/
theorem upd_comm {m m1 m2 : OMap K V} {k j : K} (h : k ≠ j) {f g : V → Res (Option V)} (h1 : m.upd k f = .ok m1)
    (h2 : m1.upd j g = .ok m2) : ∃ m1', m.upd j g = .ok m1' ∧ m1'.upd k f = .ok m2 := by
  have e1 := upd_find? (Ne.symm h) h1
  have hmk : ∀ {m'}, m.upd j g = .ok m' → m'.find? k = m.find? k := fun hh => upd_find? h hh
  unfold upd at h1 h2
  rw [e1] at h2
  cases hj : m.find? j with
  | none =>
    rw [hj] at h2
    cases h2
    have : m.upd j g = .ok m := by unfold upd; rw [hj]
    exact ⟨m, this, h1⟩
  | some x =>
    rw [hj] at h2
    obtain ⟨r, hr, h2⟩ := bind_eq_ok.1 h2
    cases r with
    | none => cases h2; exact ⟨m, by unfold upd; rw [hj]; exact bind_eq_ok.2 ⟨none, hr, rfl⟩, h1⟩
    | some x' =>
      cases h2
      refine ⟨m.insert j x', by unfold upd; rw [hj]; exact bind_eq_ok.2 ⟨some x', hr, rfl⟩, ?_⟩
      unfold upd
      rw [find?_insert_ne m h]
      cases hk : m.find? k with
      | none => rw [hk] at h1; cases h1; rfl
      | some v =>
        rw [hk] at h1
        obtain ⟨r, hr, h1⟩ := bind_eq_ok.1 h1
        refine bind_eq_ok.2 ⟨r, hr, ?_⟩
        cases r with
        | none => cases h1; rfl
        | some v' => cases h1; exact congrArg Except.ok (insert_comm m (Ne.symm h) x' v')

/-- one change after the other -/
def andThen (f g : V → Res (Option V)) (v : V) : Res (Option V) := do
  let r ← f v
  let r' ← g (r.getD v)
  .ok (r'.or r)

/-- changes at one key that do not disturb each other -/
theorem upd_same {m m1 m2 : OMap K V} {k : K} {f g : V → Res (Option V)}
    (hc : ∀ v x, andThen f g v = .ok x → andThen g f v = .ok x) (h1 : m.upd k f = .ok m1)
    (h2 : m1.upd k g = .ok m2) : ∃ m1', m.upd k g = .ok m1' ∧ m1'.upd k f = .ok m2 := by
  have key : ∀ {f g : V → Res (Option V)} {m2}, (∃ m1, m.upd k f = .ok m1 ∧ m1.upd k g = .ok m2) ↔ m.upd k (andThen f g) = .ok m2 := by
    intro f g m2
    unfold upd
    cases hk : m.find? k with
    | none =>
      constructor
      · rintro ⟨m1, h1, h2⟩; cases h1; rw [hk] at h2; exact h2
      · intro h; exact ⟨m, rfl, by rw [hk]; exact h⟩
    | some v =>
      constructor
      · rintro ⟨m1, h1, h2⟩
        obtain ⟨r, hr, h1⟩ := bind_eq_ok.1 h1
        cases r with
        | none =>
          cases h1
          rw [hk] at h2
          obtain ⟨r', hr', h2⟩ := bind_eq_ok.1 h2
          refine bind_eq_ok.2 ⟨r', bind_eq_ok.2 ⟨none, hr, bind_eq_ok.2 ⟨r', hr', by simp⟩⟩, h2⟩
        | some v1 =>
          cases h1
          rw [find?_insert_self] at h2
          obtain ⟨r', hr', h2⟩ := bind_eq_ok.1 h2
          refine bind_eq_ok.2 ⟨r'.or (some v1), bind_eq_ok.2 ⟨some v1, hr, bind_eq_ok.2 ⟨r', hr', rfl⟩⟩, ?_⟩
          cases r' with
          | none => exact h2
          | some v2 => cases h2; exact (congrArg Except.ok (insert_same m k v1 v2)).symm
      · intro h
        obtain ⟨r2, h, h3⟩ := bind_eq_ok.1 h
        obtain ⟨r, hr, h⟩ := bind_eq_ok.1 h
        obtain ⟨r', hr', h⟩ := bind_eq_ok.1 h
        cases h
        cases r with
        | none =>
          refine ⟨m, bind_eq_ok.2 ⟨none, hr, rfl⟩, ?_⟩
          rw [hk]
          refine bind_eq_ok.2 ⟨r', hr', ?_⟩
          cases r' <;> exact h3
        | some v1 =>
          refine ⟨m.insert k v1, bind_eq_ok.2 ⟨some v1, hr, rfl⟩, ?_⟩
          rw [find?_insert_self]
          refine bind_eq_ok.2 ⟨r', hr', ?_⟩
          cases r' with
          | none => exact h3
          | some v2 => cases h3; exact congrArg Except.ok (insert_same m k v1 v2)
  refine key.2 ?_
  have h := key.1 ⟨m1, h1, h2⟩
  unfold upd at h ⊢
  cases hk : m.find? k with
  | none => rw [hk] at h; exact h
  | some v =>
    rw [hk] at h
    obtain ⟨r, hr, h⟩ := bind_eq_ok.1 h
    exact bind_eq_ok.2 ⟨r, hc v r hr, h⟩

end OMap

variable [F : FloatModel]

/-- what an event changes of a sensor -/
def onSensor (o : Opts) : DEvent → Sensor → Res (Option Sensor)
  | .signal _ now m, s =>
    match s.impl with
    | .pluggable (.passive p) wr => do
      let p ← handleSensorValue o p now m
      .ok (some { s with impl := .pluggable (.passive p) wr })
    | _ => .ok none
  | .hostWrite _ now v, s => .ok (some (s.hostWrite now v))
  | _, _ => .ok none

/-- what an event changes of a zone -/
def onZoneData : DEvent → ZoneData → ZoneData
  | .manual _ b, z => z.setManualMode b
  | .enable _ l b, z => z.setEnabled l b
  | _, z => z

def zoneUpd (e : DEvent) (x : Zone × Nat) : Res (Option (Zone × Nat)) := .ok (some ({ x.1 with d := onZoneData e x.1.d }, x.2))

theorem step_sensor_upd {o : Opts} {d : Daemon} {e : DEvent} {n : String} (he : (∃ t m, e = .signal n t m) ∨ ∃ t v, e = .hostWrite n t v) :
    d.step o e = (d.w.sensors.upd n (onSensor o e)).map (fun s => { d with w := { d.w with sensors := s } }) := by
  rcases he with ⟨t, m, rfl⟩ | ⟨t, v, rfl⟩
  · show d.signal o n t m = _
    unfold Daemon.signal OMap.upd onSensor
    cases d.w.sensors.find? n with
    | none => rfl
    | some s =>
      dsimp only
      cases hi : s.impl with
      | pluggable rd wr =>
        cases rd with
        | passive p => dsimp only; cases handleSensorValue o p t m <;> rfl
        | _ => rfl
      | _ => rfl
  · unfold Daemon.step OMap.upd
    dsimp only
    cases d.w.sensors.find? n <;> rfl

theorem step_zone_upd {o : Opts} {d : Daemon} {e : DEvent} {i : Int} (he : (∃ b, e = .manual i b) ∨ ∃ l b, e = .enable i l b) :
    d.step o e = (d.zones.upd i (zoneUpd e)).map (fun z => { d with zones := z }) := by
  rcases he with ⟨b, rfl⟩ | ⟨l, b, rfl⟩
  · unfold Daemon.step OMap.upd
    dsimp only
    unfold Daemon.onZone
    cases h : d.zones.find? i <;> rfl
  · unfold Daemon.step OMap.upd
    dsimp only
    unfold Daemon.onZone
    cases h : d.zones.find? i <;> rfl

/-- what a message does to a sensor -/
theorem aspect {o : Opts} {p p1 : Passive} {n : String} {t : Int} {m : PropMsg} (h : handleSensorValue o p t m = .ok p1) :
    ∃ act : Passive → Passive, (∀ q, handleSensorValue o q t m = .ok (act q)) ∧
      ((about (.signal n t m) = .reading n ∧ (∀ q b, act (q.setFailed b) = (act q).setFailed b) ∧
          ∀ q b, act (q.setFunctional b) = (act q).setFunctional b) ∨
        (about (.signal n t m) = .alarm n ∧ (act = id ∨ ∃ b, act = fun q => q.setFailed b)) ∨
        (about (.signal n t m) = .functional n ∧ (act = id ∨ ∃ b, act = fun q => q.setFunctional b))) := by
  have hu1 : ∀ (q : Passive) b t v f, (q.setFailed b).updateValue t v f = (q.updateValue t v f).setFailed b := by
    intro q b t v f
    unfold Passive.updateValue
    by_cases c : (!v.isFinite && !f) = true
    · rw [if_pos c, if_pos c]; rfl
    · rw [if_neg c, if_neg c]; rfl
  have hu2 : ∀ (q : Passive) b t v f, (q.setFunctional b).updateValue t v f = (q.updateValue t v f).setFunctional b := by
    intro q b t v f
    unfold Passive.updateValue
    by_cases c : (!v.isFinite && !f) = true
    · rw [if_pos c, if_pos c]; rfl
    · rw [if_neg c, if_neg c]; rfl
  unfold handleSensorValue at h ⊢
  unfold about
  dsimp only
  by_cases c1 : m.iface = ifSensorValue
  · have n1 : ¬ (m.iface = ifCritical ∨ m.iface = ifWarning) := by rw [c1]; decide
    have n2 : ¬ m.iface = ifOperational := by rw [c1]; decide
    simp only [if_pos c1, if_neg n1, if_neg n2] at h ⊢
    cases hv : m.props.find? "Value" with
    | none => exact ⟨id, fun _ => rfl, .inl ⟨trivial, fun _ _ => rfl, fun _ _ => rfl⟩⟩
    | some v => exact ⟨fun q => q.updateValue t v.toDbl false, fun _ => rfl, .inl ⟨trivial, fun _ _ => hu1 .., fun _ _ => hu2 ..⟩⟩
  by_cases c2 : m.iface = ifCritical
  · simp only [if_neg c1, if_pos c2, if_pos (Or.inl c2 : m.iface = ifCritical ∨ m.iface = ifWarning)] at h ⊢
    cases hl : m.props.find? "CriticalAlarmLow" with
    | none =>
      cases hh : m.props.find? "CriticalAlarmHigh" with
      | none => exact ⟨id, fun _ => rfl, .inr (.inl ⟨trivial, .inl rfl⟩)⟩
      | some v =>
        rw [hl, hh] at h
        cases hb : v.getBool with
        | error x => simp [hb] at h
        | ok b =>
          refine ⟨fun q => q.setFailed b, fun q => ?_, .inr (.inl ⟨trivial, .inr ⟨b, rfl⟩⟩)⟩
          simp [hb]
    | some u =>
      rw [hl] at h
      cases ha : u.getBool with
      | error x =>
        simp [ha] at h
      | ok a =>
        cases hh : m.props.find? "CriticalAlarmHigh" with
        | none =>
          refine ⟨fun q => q.setFailed a, fun q => ?_, .inr (.inl ⟨trivial, .inr ⟨a, rfl⟩⟩)⟩
          cases a <;> simp [ha]
        | some v =>
          rw [hh] at h
          cases a with
          | true =>
            refine ⟨fun q => q.setFailed true, fun q => ?_, .inr (.inl ⟨trivial, .inr ⟨true, rfl⟩⟩)⟩
            simp [ha]
          | false =>
            cases hb : v.getBool with
            | error x => simp [ha, hb] at h
            | ok b =>
              refine ⟨fun q => q.setFailed b, fun q => ?_, .inr (.inl ⟨trivial, .inr ⟨b, rfl⟩⟩)⟩
              simp [ha, hb]
  by_cases c3 : m.iface = ifWarning
  · have n3 : ¬ m.iface = ifAvailability := by rw [c3]; decide
    have n4 : ¬ m.iface = ifOperational := by rw [c3]; decide
    simp only [if_neg c1, if_neg c2, if_pos (Or.inr c3 : m.iface = ifCritical ∨ m.iface = ifWarning), if_neg n3, if_neg n4] at h ⊢
    by_cases co : (o.uncFailsafe && decide (m.iface = ifWarning)) = true
    · simp only [if_pos co] at h ⊢
      cases hv : m.props.find? "WarningAlarmHigh" with
      | none => exact ⟨id, fun _ => rfl, .inr (.inl ⟨trivial, .inl rfl⟩)⟩
      | some v =>
        rw [hv] at h
        cases hb : v.getBool with
        | error x => simp [hb] at h
        | ok b =>
          refine ⟨fun q => q.setFailed b, fun q => ?_, .inr (.inl ⟨trivial, .inr ⟨b, rfl⟩⟩)⟩
          simp [hb]
    · simp only [if_neg co] at h ⊢
      exact ⟨id, fun _ => rfl, .inr (.inl ⟨trivial, .inl rfl⟩)⟩
  have n5 : ¬ (m.iface = ifCritical ∨ m.iface = ifWarning) := by rintro (h | h); exacts [c2 h, c3 h]
  have n6 : ¬ (o.uncFailsafe && decide (m.iface = ifWarning)) = true := by simp [c3]
  simp only [if_neg c1, if_neg c2, if_neg n5, if_neg n6] at h ⊢
  by_cases c4 : m.iface = ifAvailability
  · have n7 : ¬ m.iface = ifOperational := by rw [c4]; decide
    simp only [if_pos c4, if_neg n7] at h ⊢
    cases hv : m.props.find? "Available" with
    | none => exact ⟨id, fun _ => rfl, .inl ⟨trivial, fun _ _ => rfl, fun _ _ => rfl⟩⟩
    | some v =>
      rw [hv] at h
      cases hb : v.getBool with
      | error x => simp [hb] at h
      | ok b =>
        refine ⟨fun q => if b then q.setAvailable b else (q.setAvailable b).updateValue t .nan true, fun q => by simp [hb], .inl ⟨trivial, ?_, ?_⟩⟩
        · intro q b'
          cases b
          · exact hu1 (q.setAvailable false) b' t .nan true
          · rfl
        · intro q b'
          cases b
          · exact hu2 (q.setAvailable false) b' t .nan true
          · rfl
  simp only [if_neg c4] at h ⊢
  by_cases c5 : m.iface = ifOperational
  · simp only [if_pos c5] at h ⊢
    cases hv : m.props.find? "Functional" with
    | none => exact ⟨id, fun _ => rfl, .inr (.inr ⟨trivial, .inl rfl⟩)⟩
    | some v =>
      rw [hv] at h
      cases hb : v.getBool with
      | error x => simp [hb] at h
      | ok b =>
        refine ⟨fun q => q.setFunctional b, fun q => ?_, .inr (.inr ⟨trivial, .inr ⟨b, rfl⟩⟩)⟩
        simp [hb]
  · simp only [if_neg c5] at h ⊢
    exact ⟨id, fun _ => rfl, .inl ⟨trivial, fun _ _ => rfl, fun _ _ => rfl⟩⟩

/-- messages about different aspects of a sensor do not disturb each other -/
theorem aspects_comm {o : Opts} {p p1 p2 : Passive} {n : String} {t t' : Int} {m m' : PropMsg}
    (hne : about (.signal n t m) ≠ about (.signal n t' m')) (h1 : handleSensorValue o p t m = .ok p1)
    (h2 : handleSensorValue o p1 t' m' = .ok p2) :
    ∃ p1', handleSensorValue o p t' m' = .ok p1' ∧ handleSensorValue o p1' t m = .ok p2 := by
  obtain ⟨act, ha, hc⟩ := aspect (n := n) h1
  obtain ⟨act', ha', hc'⟩ := aspect (n := n) h2
  rw [ha] at h1
  cases h1
  rw [ha'] at h2
  cases h2
  refine ⟨_, ha' p, ?_⟩
  rw [ha]
  congr 1
  rcases hc with ⟨e, c1, c2⟩ | ⟨e, rfl | ⟨b, rfl⟩⟩ | ⟨e, rfl | ⟨b, rfl⟩⟩ <;>
    rcases hc' with ⟨e', c1', c2'⟩ | ⟨e', rfl | ⟨b', rfl⟩⟩ | ⟨e', rfl | ⟨b', rfl⟩⟩ <;>
    first
    | exact absurd (e.trans e'.symm) hne
    | rfl
    | exact c1 ..
    | exact c2 ..
    | exact (c1' ..).symm
    | exact (c2' ..).symm

theorem sensor_comm {o : Opts} {e e' : DEvent} {n : String} (he : (∃ t m, e = .signal n t m) ∨ ∃ t v, e = .hostWrite n t v)
    (he' : (∃ t m, e' = .signal n t m) ∨ ∃ t v, e' = .hostWrite n t v) (hne : about e ≠ about e') (s : Sensor) (x : Option Sensor)
    (h : OMap.andThen (onSensor o e) (onSensor o e') s = .ok x) : OMap.andThen (onSensor o e') (onSensor o e) s = .ok x := by
  have hw : ∀ {t m t' v x}, OMap.andThen (onSensor o (.signal n t m)) (onSensor o (.hostWrite n t' v)) s = .ok x ↔
      OMap.andThen (onSensor o (.hostWrite n t' v)) (onSensor o (.signal n t m)) s = .ok x := by
    intro t m t' v x
    unfold OMap.andThen onSensor Sensor.hostWrite
    dsimp only
    cases hi : s.impl with
    | host a b => simp [hi]
    | pluggable rd wr =>
      cases rd with
      | passive p =>
        cases hh : handleSensorValue o p t m with
        | error y => simp [hi, hh]
        | ok p1 => simp [hi, hh]
      | _ => simp [hi]
  rcases he with ⟨t, m, rfl⟩ | ⟨t, v, rfl⟩
  · rcases he' with ⟨t', m', rfl⟩ | ⟨t', v', rfl⟩
    · unfold OMap.andThen onSensor at h ⊢
      dsimp only at h ⊢
      cases hi : s.impl with
      | pluggable rd wr =>
        cases rd with
        | passive p =>
          simp only [hi] at h ⊢
          obtain ⟨r, h1, h⟩ := bind_eq_ok.1 h
          obtain ⟨p1, k1, hr⟩ := bind_eq_ok.1 h1
          cases hr
          obtain ⟨r, h2, h⟩ := bind_eq_ok.1 h
          obtain ⟨p2, k2, hr⟩ := bind_eq_ok.1 h2
          cases hr
          cases h
          obtain ⟨p1', g1, g2⟩ := aspects_comm hne k1 k2
          refine bind_eq_ok.2 ⟨_, bind_eq_ok.2 ⟨p1', g1, rfl⟩, bind_eq_ok.2 ⟨_, bind_eq_ok.2 ⟨p2, g2, rfl⟩, rfl⟩⟩
        | _ => simp [hi] at h ⊢; exact h
      | _ => simp [hi] at h ⊢; exact h
    · exact hw.1 h
  · rcases he' with ⟨t', m', rfl⟩ | ⟨t', v', rfl⟩
    · exact hw.2 h
    · exact absurd rfl hne

theorem zone_comm {e e' : DEvent} {i : Int} (he : (∃ b, e = .manual i b) ∨ ∃ l b, e = .enable i l b)
    (he' : (∃ b, e' = .manual i b) ∨ ∃ l b, e' = .enable i l b) (hne : about e ≠ about e') (z : ZoneData) :
    onZoneData e' (onZoneData e z) = onZoneData e (onZoneData e' z) := by
  have key : ∀ b l b', (z.setEnabled l b').setManualMode b = (z.setManualMode b).setEnabled l b' := by
    intro b l b'
    have : (z.setManualMode b).procs = z.procs := rfl
    unfold ZoneData.setEnabled
    rw [this]
    cases z.procs.find? l <;> rfl
  rcases he with ⟨b, rfl⟩ | ⟨l, b, rfl⟩
  · rcases he' with ⟨b', rfl⟩ | ⟨l', b', rfl⟩
    · exact absurd rfl hne
    · exact (key b l' b').symm
  · rcases he' with ⟨b', rfl⟩ | ⟨l', b', rfl⟩
    · exact key b' l b
    · have hl : l ≠ l' := fun e => hne (by rw [e]; rfl)
      simp only [onZoneData]
      have hs : ∀ (z : ZoneData) (l b), (z.setEnabled l b) = { z with procs := match z.procs.find? l with
          | some p => z.procs.insert l { p with enabled := b }
          | none => z.procs } := by
        intro z l b
        unfold ZoneData.setEnabled
        cases z.procs.find? l <;> rfl
      rw [hs _ l' b', hs _ l b, hs _ l b, hs _ l' b']
      congr 1
      dsimp only
      cases h1 : z.procs.find? l with
      | none =>
        cases h2 : z.procs.find? l' with
        | none => simp only [h1]
        | some q => simp only [OMap.find?_insert_ne _ hl, h1]
      | some p =>
        cases h2 : z.procs.find? l' with
        | none => simp only [OMap.find?_insert_ne _ (Ne.symm hl), h1, h2]
        | some q => simp only [OMap.find?_insert_ne _ (Ne.symm hl), OMap.find?_insert_ne _ hl, h1, h2, OMap.insert_comm _ hl]

inductive EventKind : DEvent → Type
  | outside {a b c d e f} : EventKind (.outside a b c d e f)
  | sensor {e : DEvent} (n : String) : ((∃ t m, e = .signal n t m) ∨ ∃ t v, e = .hostWrite n t v) → EventKind e
  | zone {e : DEvent} (i : Int) : ((∃ b, e = .manual i b) ∨ ∃ l b, e = .enable i l b) → EventKind e
  | tick (i : Int) : EventKind (.tick i)

def eventKind : (e : DEvent) → EventKind e
  | .outside .. => .outside
  | .signal n t m => .sensor n (.inl ⟨t, m, rfl⟩)
  | .hostWrite n t v => .sensor n (.inr ⟨t, v, rfl⟩)
  | .manual i b => .zone i (.inl ⟨b, rfl⟩)
  | .enable i l b => .zone i (.inr ⟨l, b, rfl⟩)
  | .tick i => .tick i

omit F in
theorem Linked.symm {a b : Thing} (h : Linked a b) : Linked b a := by
  cases a <;> cases b <;> simp_all [Linked]

omit F in
theorem Linked.refl (a : Thing) : Linked a a := by cases a <;> simp [Linked]

theorem about_sensor {e : DEvent} {n : String} (he : (∃ t m, e = .signal n t m) ∨ ∃ t v, e = .hostWrite n t v) :
    about e = .reading n ∨ about e = .alarm n ∨ about e = .functional n := by
  rcases he with ⟨t, m, rfl⟩ | ⟨t, v, rfl⟩
  · unfold about
    dsimp only
    split_ifs
    · exact .inr (.inl rfl)
    · exact .inr (.inr rfl)
    · exact .inl rfl
  · exact .inl rfl

/-- unrelated events can be exchanged -/
theorem step_comm {o : Opts} {d d1 d2 : Daemon} {e f : DEvent} (hn : ¬ Linked (about e) (about f)) (h1 : d.step o e = .ok d1)
    (h2 : d1.step o f = .ok d2) : ∃ d1', d.step o f = .ok d1' ∧ d1'.step o e = .ok d2 := by
  have hne : about e ≠ about f := fun h => hn (h ▸ Linked.refl _)
  have tz : ∀ {d d1 d2 : Daemon} {i j : Int} {f : DEvent}, i ≠ j → ((∃ b, f = .manual j b) ∨ ∃ l b, f = .enable j l b) →
      ((d.step o (.tick i) = .ok d1 ∧ d1.step o f = .ok d2) → ∃ d1', d.step o f = .ok d1' ∧ d1'.step o (.tick i) = .ok d2) ∧
      ((d.step o f = .ok d1 ∧ d1.step o (.tick i) = .ok d2) → ∃ d1', d.step o (.tick i) = .ok d1' ∧ d1'.step o f = .ok d2) := by
    intro d d1 d2 i j f hij hf
    constructor
    · rintro ⟨h1, h2⟩
      rw [step_zone_upd hf] at h2
      replace h2 := map_ok.1 h2
      obtain ⟨m, h2, rfl⟩ := h2
      rw [step_zone_upd hf]
      simp only [Daemon.step] at h1 ⊢
      cases hi : d.zones.find? i with
      | none =>
        rw [hi] at h1
        cases h1
        refine ⟨_, map_ok.2 ⟨m, h2, rfl⟩, ?_⟩
        dsimp only
        rw [OMap.upd_find? hij h2, hi]
      | some x =>
        rw [hi] at h1
        obtain ⟨⟨w, z, cnt⟩, ht, h1⟩ := bind_eq_ok.1 h1
        cases h1
        obtain ⟨m1, g1, g2⟩ := OMap.upd_comm (m := d.zones) (k := i) (f := fun _ => .ok (some (z, cnt))) hij
          (by unfold OMap.upd; rw [hi]; rfl) h2
        refine ⟨_, map_ok.2 ⟨m1, g1, rfl⟩, ?_⟩
        have e1 := OMap.upd_find? hij g1
        dsimp only
        rw [e1, hi]
        refine bind_eq_ok.2 ⟨_, ht, ?_⟩
        unfold OMap.upd at g2
        rw [e1, hi] at g2
        cases g2
        rfl
    · rintro ⟨h1, h2⟩
      rw [step_zone_upd hf] at h1
      replace h1 := map_ok.1 h1
      obtain ⟨m, h1, rfl⟩ := h1
      simp only [step_zone_upd hf]
      simp only [Daemon.step] at h2 ⊢
      rw [OMap.upd_find? hij h1] at h2
      cases hi : d.zones.find? i with
      | none =>
        rw [hi] at h2
        cases h2
        exact ⟨d, rfl, map_ok.2 ⟨m, h1, rfl⟩⟩
      | some x =>
        rw [hi] at h2
        obtain ⟨⟨w, z, cnt⟩, ht, h2⟩ := bind_eq_ok.1 h2
        cases h2
        obtain ⟨m1, g1, g2⟩ := OMap.upd_comm (m2 := m.insert i (z, cnt)) (j := i) (g := fun _ => .ok (some (z, cnt))) (Ne.symm hij)
          h1 (by unfold OMap.upd; rw [OMap.upd_find? hij h1, hi]; rfl)
        unfold OMap.upd at g1
        rw [hi] at g1
        cases g1
        refine ⟨_, bind_eq_ok.2 ⟨_, ht, rfl⟩, ?_⟩
        exact map_ok.2 ⟨_, g2, rfl⟩
  have hz : ∀ {e : DEvent} {i : Int}, ((∃ b, e = .manual i b) ∨ ∃ l b, e = .enable i l b) →
      about e = .mode i ∨ ∃ l, about e = .switch i l := by
    rintro e i (⟨b, rfl⟩ | ⟨l, b, rfl⟩)
    · exact .inl rfl
    · exact .inr ⟨l, rfl⟩
  cases eventKind e with
  | outside =>
    cases h1
    cases eventKind f with
    | outside => exact absurd rfl hne
    | sensor n hf =>
      rw [step_sensor_upd hf] at h2 ⊢
      replace h2 := map_ok.1 h2
      obtain ⟨m, h2, rfl⟩ := h2
      exact ⟨_, map_ok.2 ⟨m, h2, rfl⟩, rfl⟩
    | zone j hf =>
      rw [step_zone_upd hf] at h2 ⊢
      replace h2 := map_ok.1 h2
      obtain ⟨m, h2, rfl⟩ := h2
      exact ⟨_, map_ok.2 ⟨m, h2, rfl⟩, rfl⟩
    | tick j => exact absurd trivial hn
  | sensor n he =>
    rw [step_sensor_upd he] at h1
    replace h1 := map_ok.1 h1
    obtain ⟨m, h1, rfl⟩ := h1
    cases eventKind f with
    | outside =>
      cases h2
      exact ⟨_, rfl, by rw [step_sensor_upd he]; exact map_ok.2 ⟨m, h1, rfl⟩⟩
    | sensor n' hf =>
      rw [step_sensor_upd hf] at h2
      replace h2 := map_ok.1 h2
      obtain ⟨m', h2, rfl⟩ := h2
      have key : ∃ m1', d.w.sensors.upd n' (onSensor o f) = .ok m1' ∧ m1'.upd n (onSensor o e) = .ok m' := by
        by_cases hnn : n = n'
        · subst hnn
          exact OMap.upd_same (sensor_comm he hf hne) h1 h2
        · exact OMap.upd_comm hnn h1 h2
      obtain ⟨m1', g1, g2⟩ := key
      refine ⟨_, by rw [step_sensor_upd hf]; exact map_ok.2 ⟨m1', g1, rfl⟩, ?_⟩
      rw [step_sensor_upd he]
      exact map_ok.2 ⟨m', g2, rfl⟩
    | zone j hf =>
      rw [step_zone_upd hf] at h2
      replace h2 := map_ok.1 h2
      obtain ⟨m', h2, rfl⟩ := h2
      refine ⟨_, by rw [step_zone_upd hf]; exact map_ok.2 ⟨m', h2, rfl⟩, ?_⟩
      rw [step_sensor_upd he]
      exact map_ok.2 ⟨m, h1, rfl⟩
    | tick j =>
      exfalso
      rcases about_sensor he with h | h | h <;> (rw [h] at hn; exact hn trivial)
  | zone i he =>
    cases eventKind f with
    | outside =>
      rw [step_zone_upd he] at h1
      replace h1 := map_ok.1 h1
      obtain ⟨m, h1, rfl⟩ := h1
      cases h2
      exact ⟨_, rfl, by rw [step_zone_upd he]; exact map_ok.2 ⟨m, h1, rfl⟩⟩
    | sensor n' hf =>
      rw [step_zone_upd he] at h1
      replace h1 := map_ok.1 h1
      obtain ⟨m, h1, rfl⟩ := h1
      rw [step_sensor_upd hf] at h2
      replace h2 := map_ok.1 h2
      obtain ⟨m', h2, rfl⟩ := h2
      refine ⟨_, by rw [step_sensor_upd hf]; exact map_ok.2 ⟨m', h2, rfl⟩, ?_⟩
      rw [step_zone_upd he]
      exact map_ok.2 ⟨m, h1, rfl⟩
    | zone j hf =>
      rw [step_zone_upd he] at h1
      replace h1 := map_ok.1 h1
      obtain ⟨m, h1, rfl⟩ := h1
      rw [step_zone_upd hf] at h2
      replace h2 := map_ok.1 h2
      obtain ⟨m', h2, rfl⟩ := h2
      have key : ∃ m1', d.zones.upd j (zoneUpd f) = .ok m1' ∧ m1'.upd i (zoneUpd e) = .ok m' := by
        by_cases hij : i = j
        · subst hij
          refine OMap.upd_same (fun v x hx => ?_) h1 h2
          cases hx
          show Except.ok _ = Except.ok _
          simp only [Option.getD_some, Option.or_some, zone_comm he hf hne]
        · exact OMap.upd_comm hij h1 h2
      obtain ⟨m1', g1, g2⟩ := key
      refine ⟨_, by rw [step_zone_upd hf]; exact map_ok.2 ⟨m1', g1, rfl⟩, ?_⟩
      rw [step_zone_upd he]
      exact map_ok.2 ⟨m', g2, rfl⟩
    | tick j =>
      have hij : j ≠ i := by
        rcases hz he with h | ⟨l, h⟩ <;> (rw [h] at hn; exact fun h => hn h)
      exact (tz hij he).2 ⟨h1, h2⟩
  | tick i =>
    cases eventKind f with
    | outside => exact absurd trivial hn
    | sensor n hf =>
      exfalso
      rcases about_sensor hf with h | h | h <;> (rw [h] at hn; exact hn trivial)
    | zone j hf =>
      have hij : i ≠ j := by
        rcases hz hf with h | ⟨l, h⟩ <;> (rw [h] at hn; exact fun h => hn h)
      exact (tz hij hf).1 ⟨h1, h2⟩
    | tick j => exact absurd trivial hn

/-- an event that is unrelated to all events before it may come first -/
theorem run_front {o : Opts} {e : DEvent} : ∀ {pre post : List DEvent} {d d2 : Daemon}, (∀ f ∈ pre, ¬ Linked (about e) (about f)) →
    d.run o (e :: (pre ++ post)) = .ok d2 → d.run o (pre ++ e :: post) = .ok d2
  | [], _, _, _, _, h => h
  | f :: pre, post, d, d2, hp, h => by
    obtain ⟨d1, h1, h⟩ := bind_eq_ok.1 h
    obtain ⟨d1', h2, h⟩ := bind_eq_ok.1 h
    obtain ⟨x, g1, g2⟩ := step_comm (hp f List.mem_cons_self) h1 h2
    refine bind_eq_ok.2 ⟨x, g1, run_front (fun y hy => hp y (List.mem_cons_of_mem _ hy)) (bind_eq_ok.2 ⟨d1', g2, h⟩)⟩

/-- the first event of one sequence is found in the other one, and nothing before it is related to it -/
theorem SameOrders.cons {e : DEvent} {es es' : List DEvent} (h : SameOrders (e :: es) es') :
    ∃ pre post, es' = pre ++ e :: post ∧ (∀ f ∈ pre, ¬ Linked (about e) (about f)) ∧ SameOrders es (pre ++ post) := by
  have h0 := h (about e) (about e) (Linked.refl _)
  rw [List.filter_cons, if_pos (by simp)] at h0
  obtain ⟨pre, post, rfl, hpre, -, -⟩ := List.filter_eq_cons_iff.1 h0.symm
  have hno : ∀ f ∈ pre, about f ≠ about e := fun f hf => by simpa using hpre f hf
  have hun : ∀ f ∈ pre, ¬ Linked (about e) (about f) := by
    intro f hf hl
    have h1 := h _ _ hl
    rw [List.filter_cons, if_pos (by simp), List.filter_append] at h1
    have hne : pre.filter (fun x => about x = about e ∨ about x = about f) ≠ [] :=
      List.ne_nil_of_mem (List.mem_filter.2 ⟨hf, by simp⟩)
    obtain ⟨y, ys, hy⟩ := List.exists_cons_of_ne_nil hne
    rw [hy, List.cons_append] at h1
    have := (List.cons.inj h1).1
    subst this
    have hm : e ∈ pre.filter (fun x => about x = about e ∨ about x = about f) := by rw [hy]; exact List.mem_cons_self
    exact hno e (List.mem_filter.1 hm).1 rfl
  refine ⟨pre, post, rfl, hun, fun a b hab => ?_⟩
  have h1 := h a b hab
  rw [List.filter_cons, List.filter_append, List.filter_cons] at h1
  rw [List.filter_append]
  by_cases he : about e = a ∨ about e = b
  · rw [if_pos (by simpa using he), if_pos (by simpa using he)] at h1
    have hnil : pre.filter (fun x => about x = a ∨ about x = b) = [] := by
      refine List.filter_eq_nil_iff.2 (fun f hf => ?_)
      simp only [decide_eq_true_eq, not_or]
      rcases he with rfl | rfl
      · exact ⟨hno f hf, fun hb => hun f hf (hb ▸ hab)⟩
      · exact ⟨fun ha => hun f hf (ha ▸ hab.symm), hno f hf⟩
    rw [hnil, List.nil_append] at h1 ⊢
    exact (List.cons.inj h1).2
  · rw [if_neg (by simpa using he), if_neg (by simpa using he)] at h1
    exact h1

theorem SameOrders.nil {es : List DEvent} (h : SameOrders [] es) : es = [] := by
  cases es with
  | nil => rfl
  | cons e es =>
    have := h (about e) (about e) (Linked.refl _)
    rw [List.filter_nil, List.filter_cons, if_pos (by simp)] at this
    cases this

end Verif
