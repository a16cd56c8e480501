import Verif.Spec.BuildSensors
import Verif.Props.Host
import Verif.Props.Helper
import Verif.Lemmas.Fixup

/-! # Sensors as configured: property C98 -/

namespace Verif
open Dbl
section
variable [F : FloatModel]

theorem buildReader_iff {o : Opts} {bus : BuildBus} {now : Int} {name : String} {c : SensorConfig} {r : Reader} :
    buildReader o bus now name c = .ok r ↔ ReadsFrom o bus now name c r := by
  unfold buildReader
  constructor
  · intro h
    cases hk : getReadInterfaceType c.readPath <;> rw [hk] at h <;> have hk := (C65_read _ _).1 hk
    case dbusPassive =>
      dsimp only at h
      split at h
      · next p hp =>
        cases h
        exact .dbus hk hp
      · cases h
    case external => cases h; exact .external hk
    case sysfs =>
      obtain ⟨q, hq, h⟩ := bind_eq_ok.1 h
      cases h
      exact .sysfs hk (fixup_iff.1 hq)
    case none => cases h; exact .nothing (.inl hk)
    case unknown => cases h; exact .nothing (.inr hk)
    case dbusActive => cases hk
  · intro h
    cases h with
    | dbus hk hp =>
      rw [(C65_read _ _).2 hk]
      unfold DbusSensor at hp
      simp only [hp]
    | sysfs hk hq =>
      rw [(C65_read _ _).2 hk]
      dsimp only
      rw [fixup_iff.2 hq, ok_bind]
    | external hk => rw [(C65_read _ _).2 hk]
    | nothing hk => rcases hk with hk | hk <;> rw [(C65_read _ _).2 hk]

theorem buildReader_total {o : Opts} {bus : BuildBus} {now : Int} {name : String} {c : SensorConfig} :
    (∃ r, buildReader o bus now name c = .ok r) ↔
      (ReadKind c.readPath .dbusPassive → ∃ p, DbusSensor o bus now name c = some p) ∧
      (ReadKind c.readPath .sysfs → ∃ q, Stands bus.dirs c.readPath q) := by
  constructor
  · rintro ⟨r, hr⟩
    rw [← C65_read, ← C65_read]
    cases buildReader_iff.1 hr with
    | dbus hk' hp => exact ⟨fun _ => ⟨_, hp⟩, fun hk => by rw [(C65_read _ _).2 hk'] at hk; cases hk⟩
    | sysfs hk' hq => exact ⟨fun hk => by (rw [(C65_read _ _).2 hk'] at hk; cases hk), fun _ => ⟨_, hq⟩⟩
    | external hk' => rw [(C65_read _ _).2 hk']; simp
    | nothing hk' => rcases hk' with hk' | hk' <;> (rw [(C65_read _ _).2 hk']; simp)
  · rintro ⟨h, hq⟩
    simp only [buildReader_iff]
    cases hk : getReadInterfaceType c.readPath <;> have hk := (C65_read _ _).1 hk
    case dbusPassive =>
      obtain ⟨p, hp⟩ := h hk
      exact ⟨_, .dbus hk hp⟩
    case external => exact ⟨_, .external hk⟩
    case sysfs =>
      obtain ⟨q, hq⟩ := hq hk
      exact ⟨_, .sysfs hk hq⟩
    case none => exact ⟨_, .nothing (.inl hk)⟩
    case unknown => exact ⟨_, .nothing (.inr hk)⟩
    case dbusActive => cases hk

theorem buildWriter_iff {bus : BuildBus} {c : SensorConfig} {wr : Writer} :
    buildWriter bus c = .ok wr ↔
      WritesTo bus.dirs c wr ∧ (WriteKind c.writePath .dbusActive → bus.writeService c.writePath = true) := by
  unfold buildWriter
  constructor
  · intro h
    cases hk : getWriteInterfaceType c.writePath <;> rw [hk] at h <;> have hk' := (C65_write _ _).1 hk <;>
      simp only [← C65_write (t := .dbusActive), hk]
    case sysfs =>
      obtain ⟨q, hq, h⟩ := bind_eq_ok.1 h
      have hq := fixup_iff.1 hq
      split_ifs at h with hm
      · cases h; exact ⟨.sysfsPercent hk' hq hm, by simp⟩
      · cases h; exact ⟨.sysfsRaw hk' hq (by omega), by simp⟩
    case dbusActive =>
      dsimp only at h
      split_ifs at h with hs hm
      · cases h; exact ⟨.dbusPercent hk' hm, fun _ => by simpa using hs⟩
      · cases h; exact ⟨.dbusRaw hk' (by omega), fun _ => by simpa using hs⟩
    case none => cases h; exact ⟨.nothing (.inl hk'), by simp⟩
    case unknown => cases h; exact ⟨.nothing (.inr hk'), by simp⟩
    all_goals cases hk'
  · rintro ⟨h, hs⟩
    cases h with
    | sysfsPercent hk hq hm => rw [(C65_write _ _).2 hk]; simp only [fixup_iff.2 hq, ok_bind, if_pos hm]
    | sysfsRaw hk hq hm => rw [(C65_write _ _).2 hk]; simp only [fixup_iff.2 hq, ok_bind, if_neg (Int.not_lt.2 hm)]
    | dbusPercent hk hm => rw [(C65_write _ _).2 hk]; simp [hm, hs hk]
    | dbusRaw hk hm => rw [(C65_write _ _).2 hk]; simp [Int.not_lt.2 hm, hs hk]
    | nothing hk => rcases hk with hk | hk <;> rw [(C65_write _ _).2 hk]

theorem writes_exists {dirs : Dirs} {c : SensorConfig} (h : WriteKind c.writePath .sysfs → ∃ q, Stands dirs c.writePath q) :
    ∃ wr, WritesTo dirs c wr := by
  cases hk : getWriteInterfaceType c.writePath <;> have hk := (C65_write _ _).1 hk
  case sysfs =>
    obtain ⟨q, hq⟩ := h hk
    by_cases hm : 0 < c.max
    · exact ⟨_, .sysfsPercent hk hq hm⟩
    · exact ⟨_, .sysfsRaw hk hq (by omega)⟩
  case dbusActive =>
    by_cases hm : 0 < c.max
    · exact ⟨_, .dbusPercent hk hm⟩
    · exact ⟨_, .dbusRaw hk (by omega)⟩
  case none => exact ⟨_, .nothing (.inl hk)⟩
  case unknown => exact ⟨_, .nothing (.inr hk)⟩
  all_goals cases hk

theorem writes_stands {dirs : Dirs} {c : SensorConfig} {wr : Writer} (h : WritesTo dirs c wr)
    (hk : WriteKind c.writePath .sysfs) : ∃ q, Stands dirs c.writePath q := by
  rw [← C65_write] at hk
  cases h with
  | sysfsPercent _ hq => exact ⟨_, hq⟩
  | sysfsRaw _ hq => exact ⟨_, hq⟩
  | dbusPercent hk' => rw [(C65_write _ _).2 hk'] at hk; cases hk
  | dbusRaw hk' => rw [(C65_write _ _).2 hk'] at hk; cases hk
  | nothing hk' => rcases hk' with hk' | hk' <;> (rw [(C65_write _ _).2 hk'] at hk; cases hk)

theorem hostSensor_eq (now : Int) (name : String) (t : Int) (b : Bool) :
    createHostSensor now name t b = ⟨name, t, b, .host 0 now⟩ := by
  unfold createHostSensor Sensor.hostWrite
  simp only [mul_pow10_zero]

theorem thermal_types (t : String) :
    (t = "temp" ∨ t = "margin" ∨ t = "power" ∨ t = "powersum") ↔ t ∈ ["temp", "margin", "power", "powersum"] := by simp

theorem external_iff {c : SensorConfig} (ht : c.type ∈ ["temp", "margin", "power", "powersum"]) :
    getReadInterfaceType c.readPath = .external ↔ ExternalSensor c := by
  rw [C65_read]
  constructor
  · intro h
    cases h with
    | external h => exact ⟨ht, h⟩
  · exact fun h => .external h.2

theorem buildSensor_iff {o : Opts} {bus : BuildBus} {now : Int} {name : String} {c : SensorConfig} {s : Sensor} :
    buildSensor o bus now name c = .ok (some s) ↔ CanMake o bus now name c ∧ MadeFrom o bus now name c s := by
  unfold buildSensor CanMake
  rw [bind_eq_ok]
  constructor
  · rintro ⟨r, hr, h⟩
    have hr' := buildReader_iff.1 hr
    by_cases h1 : c.type = "fan"
    · rw [if_pos h1] at h
      obtain ⟨wr, hw, h⟩ := bind_eq_ok.1 h
      obtain ⟨hw1, hw2⟩ := buildWriter_iff.1 hw
      cases h
      obtain ⟨a1, a2⟩ := buildReader_total.1 ⟨r, hr⟩
      exact ⟨⟨a1, a2, fun _ => hw2, fun _ => writes_stands hw1⟩, .fan h1 hr' hw1⟩
    · rw [if_neg h1] at h
      by_cases h2 : c.type = "temp" ∨ c.type = "margin" ∨ c.type = "power" ∨ c.type = "powersum"
      · rw [if_pos h2] at h
        have h2 := (thermal_types _).1 h2
        obtain ⟨a1, a2⟩ := buildReader_total.1 ⟨r, hr⟩
        by_cases h3 : getReadInterfaceType c.readPath = .external
        · rw [if_pos h3] at h
          cases h
          rw [hostSensor_eq]
          exact ⟨⟨a1, a2, fun hf => absurd hf h1, fun hf => absurd hf h1⟩, .external ((external_iff h2).1 h3)⟩
        · rw [if_neg h3] at h
          cases h
          exact ⟨⟨a1, a2, fun hf => absurd hf h1, fun hf => absurd hf h1⟩,
            .thermal h2 (fun he => h3 ((external_iff h2).2 he)) hr'⟩
      · rw [if_neg h2] at h
        cases h
  · rintro ⟨⟨h1, h1', h2, _⟩, h⟩
    cases h with
    | @fan r wr ht hr hw =>
      exact ⟨r, buildReader_iff.2 hr, by rw [if_pos ht, buildWriter_iff.2 ⟨hw, h2 ht⟩, ok_bind]⟩
    | external he =>
      obtain ⟨r, hr⟩ := buildReader_total.2 ⟨h1, h1'⟩
      have hnf : c.type ≠ "fan" := by
        intro hf
        have := he.1
        rw [hf] at this
        simp at this
      exact ⟨r, hr, by rw [if_neg hnf, if_pos ((thermal_types _).2 he.1), if_pos ((external_iff he.1).2 he), hostSensor_eq]⟩
    | @thermal r ht he hr =>
      have hnf : c.type ≠ "fan" := by
        intro hf
        rw [hf] at ht
        simp at ht
      exact ⟨r, buildReader_iff.2 hr, by
        rw [if_neg hnf, if_pos ((thermal_types _).2 ht), if_neg (fun h => he ((external_iff ht).1 h))]⟩

theorem buildSensor_none {o : Opts} {bus : BuildBus} {now : Int} {name : String} {c : SensorConfig} :
    buildSensor o bus now name c = .ok none ↔
      CanMake o bus now name c ∧ c.type ∉ ["fan", "temp", "margin", "power", "powersum"] := by
  unfold buildSensor CanMake
  rw [bind_eq_ok]
  constructor
  · rintro ⟨r, hr, h⟩
    by_cases h1 : c.type = "fan"
    · rw [if_pos h1] at h
      obtain ⟨wr, hw, h⟩ := bind_eq_ok.1 h
      cases h
    · rw [if_neg h1] at h
      by_cases h2 : c.type = "temp" ∨ c.type = "margin" ∨ c.type = "power" ∨ c.type = "powersum"
      · rw [if_pos h2] at h
        split_ifs at h <;> cases h
      · obtain ⟨a1, a2⟩ := buildReader_total.1 ⟨r, hr⟩
        refine ⟨⟨a1, a2, fun hf => absurd hf h1, fun hf => absurd hf h1⟩, ?_⟩
        rw [thermal_types] at h2
        rw [List.mem_cons]
        exact fun h => h.elim h1 h2
  · rintro ⟨⟨h1, h1', _⟩, h⟩
    obtain ⟨r, hr⟩ := buildReader_total.2 ⟨h1, h1'⟩
    rw [List.mem_cons, not_or, ← thermal_types] at h
    exact ⟨r, hr, by rw [if_neg h.1, if_neg h.2]⟩

theorem canMake_total {o : Opts} {bus : BuildBus} {now : Int} {name : String} {c : SensorConfig}
    (h : CanMake o bus now name c) : ∃ x, buildSensor o bus now name c = .ok x := by
  by_cases ht : c.type ∈ ["fan", "temp", "margin", "power", "powersum"]
  · obtain ⟨r, hr⟩ := buildReader_total.2 ⟨h.1, h.2.1⟩
    rcases List.mem_cons.1 ht with hf | ht
    · obtain ⟨wr, hw⟩ := writes_exists (h.2.2.2 hf)
      exact ⟨_, buildSensor_iff.2 ⟨h, .fan hf (buildReader_iff.1 hr) hw⟩⟩
    · by_cases he : ExternalSensor c
      · exact ⟨_, buildSensor_iff.2 ⟨h, .external he⟩⟩
      · exact ⟨_, buildSensor_iff.2 ⟨h, .thermal ht he (buildReader_iff.1 hr)⟩⟩
  · exact ⟨_, buildSensor_none.2 ⟨h, ht⟩⟩

theorem canMake_of {o : Opts} {bus : BuildBus} {now : Int} {name : String} {c : SensorConfig} {x : Option Sensor}
    (h : buildSensor o bus now name c = .ok x) : CanMake o bus now name c := by
  cases x with
  | none => exact (buildSensor_none.1 h).1
  | some s => exact (buildSensor_iff.1 h).1

theorem sensorsLoop_find? {o : Opts} {bus : BuildBus} {now : Int} : ∀ {l : List (String × SensorConfig)} {m m' : Manager},
    (l.map Prod.fst).Nodup → buildSensorsLoop o bus now m l = .ok m' → ∀ name,
      (∀ c, (name, c) ∈ l → ∃ x, buildSensor o bus now name c = .ok x ∧
        m'.sensors.find? name = x.elim (m.sensors.find? name) some) ∧
      ((∀ e ∈ l, e.1 ≠ name) → m'.sensors.find? name = m.sensors.find? name)
  | [], m, m', _, h, name => by
    cases h
    exact ⟨by simp, fun _ => rfl⟩
  | (n, c) :: l, m, m', hn, h, name => by
    rw [List.map_cons, List.nodup_cons] at hn
    obtain ⟨x, hx, h⟩ := bind_eq_ok.1 h
    have key : ∃ m1, buildSensorsLoop o bus now m1 l = .ok m' ∧
        m1.sensors.find? n = x.elim (m.sensors.find? n) some ∧ ∀ j, j ≠ n → m1.sensors.find? j = m.sensors.find? j := by
      cases x with
      | none => exact ⟨m, h, rfl, fun _ _ => rfl⟩
      | some s =>
        exact ⟨_, h, OMap.find?_insert_self _ _ _, fun j hj => OMap.find?_insert_ne _ hj _⟩
    obtain ⟨m1, h1, h2, h3⟩ := key
    obtain ⟨a, b⟩ := sensorsLoop_find? hn.2 h1 name
    constructor
    · intro c' hc
      rcases List.mem_cons.1 hc with hc | hc
      · cases hc
        refine ⟨x, hx, ?_⟩
        rw [b (fun e he hk => hn.1 (List.mem_map.2 ⟨e, he, hk⟩)), h2]
      · obtain ⟨y, hy, hf⟩ := a c' hc
        refine ⟨y, hy, ?_⟩
        rw [hf, h3 name]
        exact fun e => hn.1 (List.mem_map.2 ⟨_, hc, e⟩)
    · intro hk
      rw [b (fun e he => hk e (List.mem_cons_of_mem _ he)), h3 name]
      exact fun e => hk (n, c) List.mem_cons_self e.symm

theorem sensorsLoop_total {o : Opts} {bus : BuildBus} {now : Int} : ∀ {l : List (String × SensorConfig)} {m : Manager},
    (∃ m', buildSensorsLoop o bus now m l = .ok m') ↔ ∀ e ∈ l, CanMake o bus now e.1 e.2
  | [], m => by simp [buildSensorsLoop]
  | (n, c) :: l, m => by
    rw [List.forall_mem_cons]
    constructor
    · rintro ⟨m', h⟩
      obtain ⟨x, hx, h⟩ := bind_eq_ok.1 h
      refine ⟨canMake_of hx, ?_⟩
      cases x with
      | none => exact sensorsLoop_total.1 ⟨m', h⟩
      | some s => exact sensorsLoop_total.1 ⟨m', h⟩
    · rintro ⟨h1, h2⟩
      obtain ⟨x, hx⟩ := canMake_total h1
      unfold buildSensorsLoop
      rw [hx, ok_bind]
      cases x with
      | none => exact sensorsLoop_total.2 h2
      | some s => exact sensorsLoop_total.2 h2

theorem sensorsLoop_types {o : Opts} {bus : BuildBus} {now : Int} (t : String) : ∀ {l : List (String × SensorConfig)} {m m' : Manager},
    buildSensorsLoop o bus now m l = .ok m' →
      (m'.types.find? t).getD [] = (m.types.find? t).getD [] ++
        (l.filter (fun e => e.2.type = t ∧ t ∈ ["fan", "temp", "margin", "power", "powersum"])).map Prod.fst
  | [], m, m', h => by
    cases h
    simp
  | (n, c) :: l, m, m', h => by
    obtain ⟨x, hx, h⟩ := bind_eq_ok.1 h
    cases x with
    | none =>
      have ht := (buildSensor_none.1 hx).2
      rw [sensorsLoop_types t h, List.filter_cons, if_neg]
      simp only [decide_eq_true_eq, not_and]
      rintro rfl
      exact ht
    | some s =>
      have ht : c.type ∈ ["fan", "temp", "margin", "power", "powersum"] := by
        cases (buildSensor_iff.1 hx).2 with
        | fan ht => simp [ht]
        | external ht => exact List.mem_cons_of_mem _ ht.1
        | thermal ht => exact List.mem_cons_of_mem _ ht
      rw [sensorsLoop_types t h, List.filter_cons]
      unfold Manager.addSensor
      dsimp only
      rw [OMap.find?_insert]
      by_cases e : t = c.type
      · subst e
        rw [if_pos rfl, if_pos (by simpa using ht)]
        simp
      · rw [if_neg e, if_neg]
        simp only [decide_eq_true_eq, not_and]
        exact fun e' => absurd e'.symm e

/-! ## C98 -/

/-- **C98** The sensors are built exactly if every configured sensor can be made: one D-Bus sensor that cannot be read, or
one fan control without an owner, or one missing directory in a path with `**`, keeps all sensors from being built. -/
theorem C98_all_or_nothing {o : Opts} {bus : BuildBus} {now : Int} {config : OMap String SensorConfig} (hw : config.WF) :
    (∃ m, buildSensors o bus now config = .ok m) ↔
      ∀ name c, config.find? name = some c → CanMake o bus now name c := by
  unfold buildSensors
  rw [sensorsLoop_total]
  constructor
  · exact fun h name c hc => h (name, c) ((OMap.mem_entries_iff hw _ _).2 hc)
  · exact fun h e he => h e.1 e.2 ((OMap.mem_entries_iff hw _ _).1 he)

/-- **C98** The sensors that are built are the configured ones of a known type, each with the reader, the writer, the
timeout and the host-off exemption of its configuration. -/
theorem C98_as_configured {o : Opts} {bus : BuildBus} {now : Int} {config : OMap String SensorConfig} (hw : config.WF)
    {m : Manager} (h : buildSensors o bus now config = .ok m) (name : String) :
    (∀ s, m.sensors.find? name = some s → ∃ c, config.find? name = some c ∧ MadeFrom o bus now name c s) ∧
    (∀ c, config.find? name = some c → c.type ∈ ["fan", "temp", "margin", "power", "powersum"] →
      ∃ s, m.sensors.find? name = some s ∧ MadeFrom o bus now name c s) := by
  obtain ⟨a, b⟩ := sensorsLoop_find? (OMap.wf_nodup hw) h name
  constructor
  · intro s hs
    cases hc : config.find? name with
    | none =>
      rw [b ((OMap.lookupL_none_iff _ _).1 hc)] at hs
      cases hs
    | some c =>
      obtain ⟨x, hx, hf⟩ := a c ((OMap.mem_entries_iff hw _ _).2 hc)
      rw [hs] at hf
      cases x with
      | none => cases hf
      | some s' =>
        cases hf
        exact ⟨c, rfl, (buildSensor_iff.1 hx).2⟩
  · intro c hc ht
    obtain ⟨x, hx, hf⟩ := a c ((OMap.mem_entries_iff hw _ _).2 hc)
    cases x with
    | none => exact absurd ht (buildSensor_none.1 hx).2
    | some s => exact ⟨s, hf, (buildSensor_iff.1 hx).2⟩

/-- **C98** The list of sensors of each type has the configured names, in order. -/
theorem C98_types {o : Opts} {bus : BuildBus} {now : Int} {config : OMap String SensorConfig} {m : Manager}
    (h : buildSensors o bus now config = .ok m) (t : String) :
    (m.types.find? t).getD [] =
      (config.entries.filter (fun e => e.2.type = t ∧ t ∈ ["fan", "temp", "margin", "power", "powersum"])).map Prod.fst := by
  have := sensorsLoop_types t h
  simpa using this

/-- **C98** (finding) A sensor of an unknown type (a misspelt one, for example) that is not read over D-Bus is left out
without an error. -/
theorem C98_unknown_dropped {o : Opts} {bus : BuildBus} {now : Int} {config : OMap String SensorConfig} (hw : config.WF)
    {m : Manager} (h : buildSensors o bus now config = .ok m) {name : String} {c : SensorConfig}
    (hc : config.find? name = some c) (ht : c.type ∉ ["fan", "temp", "margin", "power", "powersum"]) :
    m.sensors.find? name = none := by
  cases hs : m.sensors.find? name with
  | none => rfl
  | some s =>
    obtain ⟨c', hc', hm⟩ := (C98_as_configured hw h name).1 s hs
    rw [hc] at hc'
    cases hc'
    exfalso
    cases hm with
    | fan h => exact ht (by rw [h]; simp)
    | external h => exact ht (List.mem_cons_of_mem _ h.1)
    | thermal h => exact ht (List.mem_cons_of_mem _ h)

/-- **C98** (finding) A sensor configured with an empty read path is built without an error, but reading it throws. -/
theorem C98_empty_path {o : Opts} {bus : BuildBus} {now : Int} {config : OMap String SensorConfig} (hw : config.WF)
    {m : Manager} (h : buildSensors o bus now config = .ok m) {name : String} {c : SensorConfig}
    (hc : config.find? name = some c) (ht : c.type ∈ ["fan", "temp", "margin", "power", "powersum"]) (hp : c.readPath = "") :
    ∃ s, m.sensors.find? name = some s ∧ ∀ w t, s.read w t = .error (.exc "Not supported.") := by
  obtain ⟨s, hs, hm⟩ := (C98_as_configured hw h name).2 c hc ht
  have hr : ∀ r, ReadsFrom o bus now name c r → r = .writeOnly := by
    intro r hr
    have := buildReader_iff.2 hr
    unfold buildReader at this
    rw [hp, show getReadInterfaceType "" = .none from rfl] at this
    cases this
    rfl
  refine ⟨s, hs, fun w t => ?_⟩
  cases hm with
  | fan _ h2 _ => rw [hr _ h2]; rfl
  | external he =>
    have := he.2
    rw [hp] at this
    exact absurd this (by decide)
  | thermal _ _ h2 => rw [hr _ h2]; rfl

/-- **C98** What it takes to make a sensor that is on the bus, in terms of the bus: see C95. -/
theorem C98_can_make {o : Opts} {bus : BuildBus} {b : SensorBus} {now : Int} {name : String} {c : SensorConfig}
    (hb : bus.passive name = b.answers o) (hk : ReadKind c.readPath .dbusPassive) :
    CanMake o bus now name c ↔
      (c.type ∈ ["fan", "temp", "margin", "power", "powersum"] ∧
        ((∃ s, FirstOwner b s ∧ ∃ scale value min max available alarm,
            Shows o (b.object s) scale value min max available alarm) ∨
          (¬ Owned b ∧ o.handleMissingObjectPaths = true))) ∧
      (c.type = "fan" → WriteKind c.writePath .dbusActive → bus.writeService c.writePath = true) ∧
      (c.type = "fan" → WriteKind c.writePath .sysfs → ∃ q, Stands bus.dirs c.writePath q) := by
  have hns : ¬ ReadKind c.readPath .sysfs := fun h => by
    rw [← C65_read] at h hk
    rw [h] at hk
    cases hk
  unfold CanMake DbusSensor
  rw [hb, ← C95_created o now c.type name c.readPath c.ignoreDbusMinMax c.unavailableAsFailed (decide (c.type = "fan")) b,
    Option.isSome_iff_exists]
  simp [hk, hns]

end

namespace Ex
section
attribute [local instance] binary64

/-- a bus on which every sensor reads 30 and every fan control has an owner -/
def bus98 : BuildBus := ⟨fun _ => ⟨true, some (⟨0, 30, 0, 100, true, false⟩, false)⟩, fun _ => true, fun _ => none⟩

/-- a fan, a sensor on the bus, one set by the host, one with a misspelt type and one without a path -/
def conf98 : OMap String SensorConfig :=
  [("fan0", ⟨"fan", "/xyz/openbmc_project/sensors/fan_tach/fan0", "/sys/class/hwmon/pwm1", 0, 255, 2, false, true, false⟩),
    ("cpu", ⟨"temp", "/xyz/openbmc_project/sensors/temperature/cpu", "", 0, 0, 5, true, true, true⟩),
    ("host", ⟨"margin", "/xyz/openbmc_project/extsensors/margin/host", "", 0, 0, 0, false, true, false⟩),
    ("inlet", ⟨"tmep", "/sys/class/hwmon/temp1", "", 0, 0, 0, false, true, false⟩),
    ("none", ⟨"power", "", "", 0, 0, 0, false, true, false⟩)].foldl (fun m e => m.insert e.1 e.2) {}

theorem conf98_wf : conf98.WF := by
  unfold conf98
  simp only [List.foldl]
  repeat apply OMap.wf_insert
  exact OMap.wf_empty

theorem conf98_built : ∃ m, buildSensors {} bus98 7 conf98 = .ok m := by
  obtain ⟨m, h, _⟩ := ok_of_any (x := buildSensors {} bus98 7 conf98) (P := fun _ : Manager => True) (by decide +kernel)
  exact ⟨m, h⟩

/-- five entries, four sensors: the misspelt type is dropped, and the empty path throws when read -/
example : ∃ m, buildSensors {} bus98 7 conf98 = .ok m ∧ m.sensors.find? "inlet" = none ∧
    (∃ s, m.sensors.find? "none" = some s ∧ ∀ w t, s.read w t = .error (.exc "Not supported.")) ∧
    (m.types.find? "margin").getD [] = ["host"] := by
  obtain ⟨m, h⟩ := conf98_built
  exact ⟨m, h, C98_unknown_dropped conf98_wf h (c := ⟨"tmep", "/sys/class/hwmon/temp1", "", 0, 0, 0, false, true, false⟩)
    (by decide +kernel) (by decide), C98_empty_path conf98_wf h
      (c := ⟨"power", "", "", 0, 0, 0, false, true, false⟩) (by decide +kernel) (by decide) rfl,
    by rw [C98_types h]; decide +kernel⟩

/-- the fan is written as a percentage of its range -/
example : ∃ m, buildSensors {} bus98 7 conf98 = .ok m ∧ ∃ s r, m.sensors.find? "fan0" = some s ∧
    s.impl = .pluggable r (.sysfsPercent "/sys/class/hwmon/pwm1" 0 255) ∧ s.timeout = 2 := by
  obtain ⟨m, h⟩ := conf98_built
  obtain ⟨s, hs, hm⟩ := (C98_as_configured conf98_wf h "fan0").2
    ⟨"fan", "/xyz/openbmc_project/sensors/fan_tach/fan0", "/sys/class/hwmon/pwm1", 0, 255, 2, false, true, false⟩
    (by decide +kernel) (by decide)
  refine ⟨m, h, s, ?_⟩
  cases hm with
  | fan _ _ hw =>
    cases hw with
    | sysfsPercent _ hq =>
      rw [← fixup_iff, show fixupPath bus98.dirs "/sys/class/hwmon/pwm1" = .ok "/sys/class/hwmon/pwm1" by decide +kernel] at hq
      cases hq
      exact ⟨_, hs, rfl, rfl⟩
    | sysfsRaw _ _ h => exact absurd h (by decide)
    | dbusPercent h => exact absurd ((C65_write _ _).2 h) (by decide +kernel)
    | dbusRaw _ h => exact absurd h (by decide)
    | nothing h => rcases h with h | h <;> exact absurd ((C65_write _ _).2 h) (by decide +kernel)
  | external h => exact absurd h.1 (by decide)
  | thermal h => exact absurd h (by decide)

/-- one sensor that is not on the bus keeps everything from being built -/
example : ¬ ∃ m, buildSensors {} { bus98 with passive := fun n => if n = "cpu" then ⟨false, none⟩ else bus98.passive n } 7
    conf98 = .ok m := by
  rw [C98_all_or_nothing conf98_wf]
  intro h
  obtain ⟨p, hp⟩ := (h "cpu" ⟨"temp", "/xyz/openbmc_project/sensors/temperature/cpu", "", 0, 0, 5, true, true, true⟩
    (by decide +kernel)).1 ((C65_read _ _).1 (by decide +kernel))
  cases hp

end
end Ex
end Verif
