import Verif.Spec.Helper
import Verif.Props.Sensors
import Verif.Props.Host

/-! # Sensors made from bus objects: property C95 -/

namespace Verif
open Dbl
section
variable [F : FloatModel]

theorem number_iff (v : HVal) (d : Dbl) : v.toDbl = .ok d ↔ NumberIs v d := by
  unfold NumberIs HVal.toDbl
  cases v with
  | int i => simp [eq_comm]
  | dbl x => simp
  | str t => simp
  | bool b => cases b <;> simp [eq_comm]

theorem readLimit_iff (m : OMap String HVal) (k : String) (d : Dbl) :
    readLimit (m.find? k) = .ok d ↔ NumberOr0 m k d := by
  unfold NumberOr0
  cases m.find? k with
  | none => simp [readLimit, eq_comm]
  | some v => simp [readLimit, number_iff]

theorem readValue_iff (m : OMap String HVal) (k : String) (d : Dbl) :
    readValue (m.find? k) = .ok d ↔ NumberOr0 m k d := by
  unfold NumberOr0
  cases m.find? k with
  | none =>
    have : Dbl.ofInt 0 = 0 := rfl
    simp [readValue, HVal.toDbl, this, eq_comm]
  | some v => simp [readValue, number_iff]

theorem readScale_iff (m : OMap String HVal) (s : Int) : readScale (m.find? "Scale") = .ok s ↔ ScaleIs m s := by
  unfold ScaleIs
  rcases m.find? "Scale" with _ | v
  · simp [readScale, eq_comm]
  · cases v <;> simp [readScale, HVal.getInt]

theorem readUnit_iff (m : OMap String HVal) : (∃ u, readUnit (m.find? "Unit") = .ok u) ↔ UnitOk m := by
  unfold UnitOk
  rcases m.find? "Unit" with _ | v
  · simp [readUnit]
  · cases v <;> simp [readUnit, HVal.getStr]

theorem says_iff (m : OMap String Variant) (k : String) (b : Bool) :
    (match m.find? k with
      | some v => v.getBool
      | none => .ok false) = Except.ok b ↔ Says (some m) k b := by
  unfold Says
  rw [Option.bind_some]
  rcases m.find? k with _ | v
  · simp [eq_comm]
  · cases v <;> simp [Variant.getBool]

theorem says_none (k : String) (b : Bool) : Says none k b ↔ b = false := by simp [Says]
theorem says_empty (k : String) (b : Bool) : Says (some {}) k b ↔ b = false := by
  simp [Says, OMap.find?_empty]

theorem alarm_iff (o : Opts) (b : SensorReplies) (f : Bool) :
    thresholdsAsserted o b.critical b.warning = .ok f ↔ AlarmIs o b f := by
  unfold AlarmIs Says thresholdsAsserted
  generalize b.critical = c
  generalize b.warning = w
  generalize o.uncFailsafe = u
  rcases c with _ | c
  · cases u
    · cases f <;> simp
    · rcases w with _ | w
      · cases f <;> simp [OMap.find?_empty]
      · simp only [Option.getD_none, OMap.find?_empty, Option.bind_none, Option.bind_some]
        rcases w.find? "WarningAlarmHigh" with _ | v
        · cases f <;> simp
        · cases v <;> cases f <;> simp [Variant.getBool]
  · simp only [Option.getD_some, Option.bind_some]
    rcases c.find? "CriticalAlarmLow" with _ | v1
    · rcases c.find? "CriticalAlarmHigh" with _ | v2
      · cases u
        · cases f <;> simp
        · rcases w with _ | w
          · cases f <;> simp
          · simp only [Option.bind_some]
            rcases w.find? "WarningAlarmHigh" with _ | v
            · cases f <;> simp
            · cases v <;> cases f <;> simp [Variant.getBool]
      · cases v2 with
        | int i => cases u <;> cases f <;> simp [Variant.getBool]
        | dbl i => cases u <;> cases f <;> simp [Variant.getBool]
        | bool b2 =>
          cases b2
          · cases u
            · cases f <;> simp [Variant.getBool]
            · rcases w with _ | w
              · cases f <;> simp [Variant.getBool]
              · simp only [Option.bind_some]
                rcases w.find? "WarningAlarmHigh" with _ | v
                · cases f <;> simp [Variant.getBool]
                · cases v <;> cases f <;> simp [Variant.getBool]
          · cases u <;> cases f <;> simp [Variant.getBool]
    · cases v1 with
      | int i => cases u <;> cases f <;> simp [Variant.getBool]
      | dbl i => cases u <;> cases f <;> simp [Variant.getBool]
      | bool b1 =>
        cases b1
        · rcases c.find? "CriticalAlarmHigh" with _ | v2
          · cases u
            · cases f <;> simp [Variant.getBool]
            · rcases w with _ | w
              · cases f <;> simp [Variant.getBool]
              · simp only [Option.bind_some]
                rcases w.find? "WarningAlarmHigh" with _ | v
                · cases f <;> simp [Variant.getBool]
                · cases v <;> cases f <;> simp [Variant.getBool]
          · cases v2 with
            | int i => cases u <;> cases f <;> simp [Variant.getBool]
            | dbl i => cases u <;> cases f <;> simp [Variant.getBool]
            | bool b2 =>
              cases b2
              · cases u
                · cases f <;> simp [Variant.getBool]
                · rcases w with _ | w
                  · cases f <;> simp [Variant.getBool]
                  · simp only [Option.bind_some]
                    rcases w.find? "WarningAlarmHigh" with _ | v
                    · cases f <;> simp [Variant.getBool]
                    · cases v <;> cases f <;> simp [Variant.getBool]
              · cases u <;> cases f <;> simp [Variant.getBool]
        · cases u <;> cases f <;> simp [Variant.getBool]

theorem readSensor_iff (o : Opts) (b : SensorReplies) (r : SensorProperties × Bool) : readSensor o b = .ok r ↔
    Shows o b r.1.scale r.1.value r.1.min r.1.max r.1.available r.2 ∧ r.1.unavailableAsFailed = false := by
  obtain ⟨s, f⟩ := r
  unfold readSensor getProperties
  constructor
  · intro h
    obtain ⟨s', hs, h⟩ := bind_eq_ok.1 h
    obtain ⟨f', hf, h⟩ := bind_eq_ok.1 h
    cases h
    rcases hm : b.value with _ | m
    · rw [hm] at hs
      cases hs
    · rw [hm] at hs
      obtain ⟨u, hu, hs⟩ := bind_eq_ok.1 hs
      obtain ⟨sc, hsc, hs⟩ := bind_eq_ok.1 hs
      obtain ⟨mx, hmx, hs⟩ := bind_eq_ok.1 hs
      obtain ⟨mn, hmn, hs⟩ := bind_eq_ok.1 hs
      obtain ⟨v, hv, hs⟩ := bind_eq_ok.1 hs
      cases hs
      refine ⟨⟨⟨m, hm, (readUnit_iff m).1 ⟨u, hu⟩, (readScale_iff m sc).1 hsc, (readValue_iff m _ v).1 hv,
        (readLimit_iff m _ mn).1 hmn, (readLimit_iff m _ mx).1 hmx⟩, ?_, (alarm_iff o b f).1 hf⟩, rfl⟩
      rcases b.available with _ | a
      · simp
      · cases a <;> simp
  · rintro ⟨⟨⟨m, hm, hu, hsc, hv, hmn, hmx⟩, ha, hf⟩, huf⟩
    obtain ⟨u, hu⟩ := (readUnit_iff m).2 hu
    rw [← readScale_iff] at hsc
    rw [← readValue_iff] at hv
    rw [← readLimit_iff] at hmn hmx
    rw [← alarm_iff] at hf
    rw [hm]
    simp only at hsc hv hmn hmx hf ha huf ⊢
    rw [hu, ok_bind, hsc, ok_bind, hmx, ok_bind, hmn, ok_bind, hv, ok_bind, ok_bind, hf, ok_bind]
    have : b.available.getD true = s.available := by
      rcases hb : b.available with _ | a
      · rw [hb] at ha
        simpa using ha.symm
      · rw [hb] at ha
        cases a <;> simpa using ha.symm
    rw [this, ← huf]

theorem ownersMap (l : List String) : ∀ m : OMap String Unit, m.WF →
    (l.foldl addOwner m).WF ∧
    ∀ k, (l.foldl addOwner m).find? k ≠ none ↔ k ∈ l ∨ m.find? k ≠ none := by
  induction l with
  | nil => intro m h; exact ⟨h, by simp⟩
  | cons o l ih =>
    intro m h
    obtain ⟨h1, h2⟩ := ih (addOwner m o) (OMap.wf_insert h o ())
    refine ⟨h1, fun k => ?_⟩
    rw [List.foldl_cons, h2 k, addOwner, OMap.find?_insert, List.mem_cons]
    by_cases hk : k = o
    · simp [hk]
    · simp [hk]

/-- the process that is asked -/
theorem getService_iff (b : SensorBus) (s : String) : getService b = .ok s ↔ FirstOwner b s := by
  unfold getService FirstOwner
  rcases b.owners with _ | l
  · simp
  · obtain ⟨hw, hm⟩ := ownersMap l {} OMap.wf_empty
    simp only [OMap.find?_empty, ne_eq, not_true_eq_false, or_false] at hm
    dsimp only
    generalize hx : l.foldl addOwner {} = m
    rw [hx] at hw hm
    have key : ∀ k, k ∈ l ↔ ∃ e ∈ m.entries, e.1 = k := by
      intro k
      rw [← hm k]
      constructor
      · intro h
        rcases hf : m.find? k with _ | v
        · exact absurd hf h
        · exact ⟨(k, v), (OMap.mem_entries_iff hw k v).2 hf, rfl⟩
      · rintro ⟨⟨k', v⟩, he, rfl⟩
        rw [(OMap.mem_entries_iff hw _ v).1 he]
        simp
    rcases he : m.entries with _ | ⟨e, rest⟩
    · simp only [reduceCtorEq, false_iff, not_exists, not_and]
      intro l' hl hs
      cases hl
      obtain ⟨e, h, -⟩ := (key s).1 hs
      rw [he] at h
      cases h
    · have hp : (e :: rest).Pairwise (fun a b => a.1 < b.1) := he ▸ hw
      rw [List.pairwise_cons] at hp
      simp only [Except.ok.injEq]
      constructor
      · rintro rfl
        refine ⟨l, rfl, (key _).2 ⟨e, by rw [he]; exact List.mem_cons_self, rfl⟩, fun s' hs' => ?_⟩
        obtain ⟨e', h, rfl⟩ := (key s').1 hs'
        rw [he, List.mem_cons] at h
        rcases h with rfl | h
        · exact .inl rfl
        · exact .inr (hp.1 _ h)
      · rintro ⟨l', hl, hs, hf⟩
        cases hl
        obtain ⟨e', h, rfl⟩ := (key s).1 hs
        rw [he, List.mem_cons] at h
        rcases h with rfl | h
        · rfl
        · have := hf e.1 ((key _).2 ⟨e, by rw [he]; exact List.mem_cons_self, rfl⟩)
          rcases this with h1 | h1
          · exact h1.symm
          · exact absurd (lt_trans (hp.1 _ h) h1) (lt_irrefl _)

theorem firstOwner_owned {b : SensorBus} {s : String} (h : FirstOwner b s) : Owned b := by
  obtain ⟨l, h1, h2, -⟩ := h
  exact ⟨l, h1, List.ne_nil_of_mem h2⟩

theorem owned_iff (b : SensorBus) : Owned b ↔ ∃ s, FirstOwner b s := by
  refine ⟨fun h => ?_, fun ⟨s, h⟩ => firstOwner_owned h⟩
  obtain ⟨l, h1, h2⟩ := h
  rcases hg : getService b with e | s
  · exfalso
    unfold getService at hg
    rw [h1] at hg
    obtain ⟨-, hm⟩ := ownersMap l {} OMap.wf_empty
    obtain ⟨x, hx⟩ := List.exists_mem_of_ne_nil l h2
    have := (hm x).2 (.inl hx)
    simp only at hg
    split at hg
    · rename_i he
      exact this ((OMap.lookupL_none_iff _ _).2 (by rw [he]; simp))
    · cases hg
  · exact ⟨s, (getService_iff b s).1 hg⟩

theorem service_iff (b : SensorBus) (o : Opts) : (b.answers o).service = true ↔ Owned b := by
  rw [owned_iff]
  unfold SensorBus.answers
  rcases hg : getService b with e | s
  · simp only [Bool.false_eq_true, false_iff, not_exists]
    intro s hs
    rw [(getService_iff b s).2 hs] at hg
    cases hg
  · simp only [true_iff]
    exact ⟨s, (getService_iff b s).1 hg⟩

theorem props_iff (o : Opts) {b : SensorBus} {s : String} (hs : FirstOwner b s) (r : SensorProperties × Bool) :
    (b.answers o).props = some r ↔ readSensor o (b.object s) = .ok r := by
  unfold SensorBus.answers
  rw [(getService_iff b s).2 hs]
  dsimp only
  cases readSensor o (b.object s) <;> simp

/-- **C95** A read sensor is made from a bus object exactly when its type is known and either the object has an owner
and the first of its owners shows readable properties, or it has no owner and the build option for missing objects is
set. -/
theorem C95_created (o : Opts) (now : Int) (type id readPath : String) (ign uaf red : Bool) (b : SensorBus) :
    (createDbusPassive o now type id readPath ign uaf red (b.answers o)).isSome = true ↔
      type ∈ ["fan", "temp", "margin", "power", "powersum"] ∧
        ((∃ s, FirstOwner b s ∧ ∃ scale value min max available alarm,
            Shows o (b.object s) scale value min max available alarm) ∨
          (¬ Owned b ∧ o.handleMissingObjectPaths = true)) := by
  have hv : validType type = true ↔ type ∈ ["fan", "temp", "margin", "power", "powersum"] := by
    unfold validType
    rw [List.contains_iff_mem]
  unfold createDbusPassive
  rw [← hv]
  cases validType type
  · simp
  · by_cases ho : Owned b
    · rw [(service_iff b o).2 ho]
      obtain ⟨s, hs⟩ := (owned_iff b).1 ho
      simp only [Bool.not_true, Bool.false_eq_true, if_false, true_and, ho, not_true_eq_false, false_and, or_false]
      rcases hp : (b.answers o).props with _ | ⟨st, f⟩
      · simp only [Option.isSome_none, Bool.false_eq_true, false_iff, not_exists, not_and]
        intro s' hs' scale value min max available alarm h
        have := (readSensor_iff o _ (⟨scale, value, min, max, available, false⟩, alarm)).2 ⟨h, rfl⟩
        rw [← props_iff o hs', hp] at this
        cases this
      · have := ((readSensor_iff o _ (st, f)).1 ((props_iff o hs _).1 hp)).1
        simp only [Option.isSome_some, true_iff]
        exact ⟨s, hs, _, _, _, _, _, _, this⟩
    · have hf : (b.answers o).service = false := by
        rw [Bool.eq_false_iff, ne_eq, service_iff b o]
        exact ho
      rw [hf]
      have hn : ¬ ∃ s, FirstOwner b s ∧ ∃ scale value min max available alarm,
          Shows o (b.object s) scale value min max available alarm :=
        fun ⟨s, hs, _⟩ => ho (firstOwner_owned hs)
      simp only [hn, ho, not_false_eq_true, true_and, false_or]
      cases o.handleMissingObjectPaths <;> simp

/-- **C95** The sensor starts out in the state its object shows: reading, limits (unless they are to be ignored),
availability and alarm. If several processes own the object, that is the object of the one whose name comes first in the
alphabet. -/
theorem C95_start {o : Opts} {now : Int} {type id readPath : String} {ign uaf red : Bool} {b : SensorBus} {p : Passive}
    (h : createDbusPassive o now type id readPath ign uaf red (b.answers o) = some p) {s : String} (ho : FirstOwner b s) :
    ∃ st : Setup, Heard o st [] p ∧ st.type = type ∧ st.missing = false ∧ st.created = now ∧
      st.props.unavailableAsFailed = uaf ∧
      ∃ min max, Shows o (b.object s) st.props.scale st.props.value min max st.props.available st.alarm ∧
        (if ign then st.props.min = 0 ∧ st.props.max = 0 else st.props.min = min ∧ st.props.max = max) := by
  obtain ⟨st, rfl, h1, h2, h3, h4, h5, h6⟩ := created_setup h
  have hm : st.missing = false := by
    by_contra hc
    have := (h5 (by simpa using hc)).1
    rw [(service_iff b o).2 (firstOwner_owned ho)] at this
    cases this
  obtain ⟨hu, s', f, hp, ha, hv, hs, hav, hl⟩ := h6 hm
  obtain ⟨hsh, _⟩ := (readSensor_iff o _ (s', f)).1 ((props_iff o ho _).1 hp)
  refine ⟨st, .start, h1, hm, h3, hu, s'.min, s'.max, ?_, hl⟩
  rw [hv, hs, hav, ha]
  exact hsh

/-- **C95** With the build option for missing objects, a sensor whose object has no owner when it is created stays
failed whatever it hears afterwards: only making the sensor anew can clear it. -/
theorem C95_missing {o : Opts} {now : Int} {type id readPath : String} {ign uaf red : Bool} {b : SensorBus} {p : Passive}
    (h : createDbusPassive o now type id readPath ign uaf red (b.answers o) = some p) (ho : ¬ Owned b) :
    ∃ st : Setup, Heard o st [] p ∧ st.type = type ∧
      ∀ sig q redundant, Heard o st sig q → q.getFailed redundant = true := by
  have hs : (b.answers o).service = false := by
    rw [Bool.eq_false_iff, ne_eq, service_iff b o]
    exact ho
  unfold createDbusPassive at h
  rw [hs] at h
  by_cases h1 : (!validType type) = true
  · rw [if_pos h1] at h; cases h
  rw [if_neg h1] at h
  by_cases h3 : (!o.handleMissingObjectPaths) = true
  · simp only [Bool.not_false, if_true, h3] at h
    cases h
  · simp only [Bool.not_false, if_true, h3] at h
    cases h
    exact ⟨⟨type, _, red, true, _, true, now⟩, .start, rfl,
      fun sig q redundant hq => (C49_decision hq redundant).2 (.inr (.inl rfl))⟩

/-- **C95** (finding) An object that shows no `Value` property at all is taken to read zero: a temperature sensor of
this kind looks healthy, and cold. -/
theorem C95_no_value {o : Opts} {now : Int} {type id readPath : String} {ign uaf : Bool} {b : SensorBus}
    {s : String} {m : OMap String HVal} (ht : type = "fan" ∨ type = "temp" ∨ type = "power") (ho : FirstOwner b s)
    (hm : (b.object s).value = some m)
    (hv : m.find? "Value" = none) (hsc : m.find? "Scale" = none) (hu : m.find? "Unit" = none)
    (hmin : m.find? "MinValue" = none) (hmax : m.find? "MaxValue" = none) (ha : (b.object s).available = none)
    (hc : (b.object s).critical = none) (hw : (b.object s).warning = none) :
    ∃ p, createDbusPassive o now type id readPath ign uaf false (b.answers o) = some p ∧ p.read.value = 0 ∧
      p.getFailed [] = false := by
  have hsh : Shows o (b.object s) 0 0 0 0 true false := by
    refine ⟨⟨m, hm, .inl hu, .inl ⟨hsc, rfl⟩, .inl ⟨hv, rfl⟩, .inl ⟨hmin, rfl⟩, .inl ⟨hmax, rfl⟩⟩, by simp [ha], ?_⟩
    unfold AlarmIs
    simp [hc, hw, says_none]
  have hr := (props_iff o ho _).2 ((readSensor_iff o _ (⟨0, 0, 0, 0, true, false⟩, false)).2 ⟨hsh, rfl⟩)
  have hs := (service_iff b o).2 (firstOwner_owned ho)
  have ht' : validType type = true := by rcases ht with rfl | rfl | rfl <;> rfl
  have hmg : ¬ type = "margin" := by rcases ht with rfl | rfl | rfl <;> decide
  have h0 : (0 : Dbl).isFinite = true := by rw [zero_eq]; rfl
  have h00 : (0 : Dbl) ≤ 0 := by rw [zero_eq, fin_le_fin]
  refine ⟨_, by unfold createDbusPassive; rw [ht', hs, hr]; rfl, ?_, ?_⟩
  · cases ign <;> simp only [Passive.initFromSettings, Passive.updateValue, Passive.setAvailableFromProperty,
      Passive.ctor, Passive.read, mul_pow10_zero, h0, hmg, scaleSensorReading] <;> simp [mul_pow10_zero, h00]
  · cases ign <;> simp only [Passive.initFromSettings, Passive.updateValue, Passive.setAvailableFromProperty,
      Passive.ctor, Passive.getFailed, mul_pow10_zero, h0, hmg] <;> simp [hmg, h0]

end

namespace Ex
section
attribute [local instance] binary64

theorem some_of_any {α : Type} {x : Option α} {P : α → Prop} [DecidablePred P] (h : x.any P = true) :
    ∃ a, x = some a ∧ P a := by
  cases x with
  | none => cases h
  | some a => exact ⟨a, rfl, by simpa using h⟩

def cpuObject : SensorBus where
  owners := some ["xyz.openbmc_project.HwmonTempSensor"]
  object := fun _ => {
    value := some (({} : OMap String HVal).insert "Value" (.int 42500) |>.insert "Scale" (.int (-3))
      |>.insert "Unit" (.str "xyz.openbmc_project.Sensor.Value.Unit.DegreesC"))
    available := none
    critical := some (({} : OMap String Variant).insert "CriticalAlarmHigh" (.bool true))
    warning := none }

/-- 42500 with scale −3 reads 42.5 degrees, and the alarm makes the sensor failed from the start. -/
example : ∃ p, createDbusPassive {} 7 "temp" "cpu" "" false true false (cpuObject.answers {}) = some p ∧
    p.read.value = Dbl.ofRat (85 / 2) ∧ p.read.updated = 7 ∧ p.getFailed [] = true ∧
    p.path = "/xyz/openbmc_project/sensors/temperature/cpu" :=
  some_of_any (P := fun p : Passive => p.read.value = Dbl.ofRat (85 / 2) ∧ p.read.updated = 7 ∧ p.getFailed [] = true ∧
    p.path = "/xyz/openbmc_project/sensors/temperature/cpu") (by decide +kernel)

/-- An object without properties: a temperature of zero degrees, not failed. -/
def mute : SensorBus := { cpuObject with
  object := fun _ => ⟨some {}, none, none, none⟩ }

example : ∃ p, createDbusPassive {} 7 "temp" "cpu" "" false true false (mute.answers {}) = some p ∧
    p.read.value = 0 ∧ p.getFailed [] = false :=
  C95_no_value (s := "xyz.openbmc_project.HwmonTempSensor") (m := {}) (by decide)
    ⟨_, rfl, List.mem_cons_self, by simp⟩ rfl rfl rfl rfl rfl rfl rfl rfl rfl

/-- Two processes own the object; the second in the answer of the mapper comes first in the alphabet and is asked. -/
def twice : SensorBus where
  owners := some ["xyz.openbmc_project.HwmonTempSensor", "xyz.openbmc_project.ExternalSensor"]
  object := fun s => if s = "xyz.openbmc_project.ExternalSensor" then ⟨some (({} : OMap String HVal).insert "Value" (.dbl 35)),
    none, none, none⟩ else ⟨some (({} : OMap String HVal).insert "Value" (.dbl 90)), none, none, none⟩

example : FirstOwner twice "xyz.openbmc_project.ExternalSensor" ∧
    ∃ p, createDbusPassive {} 7 "temp" "cpu" "" false true false (twice.answers {}) = some p ∧ p.read.value = 35 :=
  ⟨⟨_, rfl, by decide, by decide⟩, some_of_any (P := fun p : Passive => p.read.value = 35) (by decide +kernel)⟩

/-- An object without owner: no sensor, or with the build option a failed one. -/
example : createDbusPassive {} 7 "temp" "cpu" "" false true false (({ cpuObject with
      owners := some [] } : SensorBus).answers {}) = none ∧
    ∃ p, createDbusPassive { handleMissingObjectPaths := true } 7 "temp" "cpu" "" false true false
      (({ cpuObject with
        owners := some [] } : SensorBus).answers { handleMissingObjectPaths := true }) = some p ∧ p.getFailed [] = true :=
  ⟨rfl, some_of_any (P := fun p : Passive => p.getFailed [] = true) (by decide +kernel)⟩

end
end Ex
end Verif
