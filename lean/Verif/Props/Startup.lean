import Verif.Spec.Startup
import Verif.Props.Collect
import Verif.Props.Daemon

/-! # Starting the daemon: property C108 -/

namespace Verif
open Dbl
section
variable [F : FloatModel]

/-! ## Where the configuration comes from -/

theorem searchPlaces_spec (f : StartFiles) : ∀ l : List String,
    (∃ before dir after, l = before ++ dir :: after ∧ (∀ d ∈ before, f.exists (joinPath d "config.json") = false) ∧
      f.exists (joinPath dir "config.json") = true ∧ searchPlaces f l = joinPath dir "config.json") ∨
    ((∀ d ∈ l, f.exists (joinPath d "config.json") = false) ∧ searchPlaces f l = "config.json")
  | [] => .inr ⟨by simp, rfl⟩
  | seg :: rest => by
    cases he : f.exists (joinPath seg "config.json") with
    | true => exact .inl ⟨[], seg, rest, rfl, by simp, he, by simp [searchPlaces, he]⟩
    | false =>
      have e : searchPlaces f (seg :: rest) = searchPlaces f rest := by simp [searchPlaces, he]
      rw [e]
      rcases searchPlaces_spec f rest with ⟨before, dir, after, rfl, h1, h2, h3⟩ | ⟨h1, h2⟩
      · refine .inl ⟨seg :: before, dir, after, rfl, ?_, h2, h3⟩
        exact List.forall_mem_cons.2 ⟨he, h1⟩
      · exact .inr ⟨List.forall_mem_cons.2 ⟨he, h1⟩, h2⟩

/-- the path looked at -/
theorem source_path (conf : String) (f : StartFiles) :
    (f.exists (if conf ≠ "" then conf else searchConfigurationPath f) = true ∧
      Source conf f (some (if conf ≠ "" then conf else searchConfigurationPath f))) ∨
    (f.exists (if conf ≠ "" then conf else searchConfigurationPath f) = false ∧ Source conf f none) := by
  by_cases hc : conf = ""
  · have e : (if conf ≠ "" then conf else searchConfigurationPath f) = searchConfigurationPath f := if_neg (by simpa using hc)
    rw [e]
    rcases searchPlaces_spec f f.places with ⟨before, dir, after, h0, h1, h2, h3⟩ | ⟨h1, h2⟩
    · refine .inl ?_
      unfold searchConfigurationPath
      rw [h3]
      exact ⟨h2, .found hc h0 h1 h2⟩
    · refine .inr ?_
      unfold searchConfigurationPath
      rw [h2]
      exact ⟨by rw [f.relative]; exact h1 _ List.mem_cons_self, .bus (fun h => absurd hc h) (fun _ => h1)⟩
  · have e : (if conf ≠ "" then conf else searchConfigurationPath f) = conf := if_pos hc
    rw [e]
    cases he : f.exists conf with
    | true => exact .inl ⟨rfl, .given hc he⟩
    | false => exact .inr ⟨rfl, .bus (fun _ => he) (fun h => absurd h hc)⟩

theorem source_unique {conf : String} {f : StartFiles} {s s' : Option String} (h : Source conf f s) (h' : Source conf f s') :
    s = s' := by
  have key : ∀ {before after before' after' : List String} {dir dir' : String},
      before ++ dir :: after = before' ++ dir' :: after' →
      (∀ d ∈ before, f.exists (joinPath d "config.json") = false) → f.exists (joinPath dir "config.json") = true →
      (∀ d ∈ before', f.exists (joinPath d "config.json") = false) → f.exists (joinPath dir' "config.json") = true →
      dir = dir' := by
    intro before
    induction before with
    | nil =>
      intro after before' after' dir dir' h h1 h2 h3 h4
      cases before' with
      | nil => simp at h; exact h.1
      | cons b bs =>
        simp at h
        rw [h.1, h3 b List.mem_cons_self] at h2
        cases h2
    | cons b bs ih =>
      intro after before' after' dir dir' h h1 h2 h3 h4
      cases before' with
      | nil =>
        simp at h
        rw [← h.1, h1 b List.mem_cons_self] at h4
        cases h4
      | cons b' bs' =>
        simp at h
        exact ih h.2 (fun d hd => h1 d (List.mem_cons_of_mem _ hd)) h2 (fun d hd => h3 d (List.mem_cons_of_mem _ hd)) h4
  cases h with
  | given h1 h2 =>
    cases h' with
    | given => rfl
    | found h3 => exact absurd h3 h1
    | bus h3 => rw [h3 h1] at h2; cases h2
  | @found b a dir h1 h2 h3 h4 =>
    cases h' with
    | given h5 => exact absurd h1 h5
    | @found b' a' dir' g1 g2 g3 g4 => rw [key (h2.symm.trans g2) h3 h4 g3 g4]
    | bus _ h6 =>
      have := h6 h1 dir (by rw [h2]; simp)
      rw [this] at h4; cases h4
  | bus h1 h2 =>
    cases h' with
    | given h3 h4 => rw [h1 h3] at h4; cases h4
    | @found b a dir h3 h4 h5 h6 =>
      have := h2 h3 dir (by rw [h4]; simp)
      rw [this] at h6; cases h6
    | bus => rfl

theorem attempt_file {o : Opts} {conf path : String} {f : StartFiles} (hs : Source conf f (some path)) (b : ConfBus)
    (h : HashOrder) (bus : BuildBus) (now : Int) (w : World) :
    attempt o conf f b h bus now w =
      match configFromFile f path with
      | .ok c => launched o bus now w c
      | .error (.exc why) => .exit why
      | .error (.ub why) => .undefined why := by
  unfold attempt
  rcases source_path conf f with ⟨h1, h2⟩ | ⟨h1, h2⟩
  · have := source_unique hs h2
    injection this with this
    dsimp only
    rw [if_pos h1, ← this]
    rcases configFromFile f path with ⟨_ | _⟩ | _ <;> rfl
  · cases source_unique hs h2

theorem attempt_bus {o : Opts} {conf : String} {f : StartFiles} (hs : Source conf f none) (b : ConfBus)
    (h : HashOrder) (bus : BuildBus) (now : Int) (w : World) :
    attempt o conf f b h bus now w =
      match busInit b h with
      | .ok (true, c) => launched o bus now w ⟨c.sensors, c.pids, c.zones⟩
      | .ok (false, _) => .waiting
      | .error (.exc why) => .retry why
      | .error (.ub why) => .undefined why := by
  unfold attempt
  rcases source_path conf f with ⟨h1, h2⟩ | ⟨h1, h2⟩
  · cases source_unique hs h2
  · dsimp only
    rw [if_neg (by rw [h1]; simp)]
    rcases busInit b h with ⟨_ | _⟩ | ⟨_ | _, _⟩ <;> rfl

/-- the two ways of writing the same -/
theorem launched_running {o : Opts} {bus : BuildBus} {now : Int} {w : World} {c : Config} {d : Daemon} :
    launched o bus now w c = .running d ↔ Daemon.launch o bus now w c.sensors c.pids c.zones = .ok d := by
  unfold launched Daemon.launch
  cases buildSensors o bus now c.sensors with
  | error e => cases e <;> simp [orRetry, error_bind]
  | ok m =>
    simp only [ok_bind]
    cases buildZones c.pids c.zones with
    | error e => cases e <;> simp [orRetry, error_bind]
    | ok zones =>
      simp only [ok_bind]
      cases zones.isEmpty with
      | true => simp [orRetry]
      | false =>
        simp only [Bool.false_eq_true, if_false]
        cases startZones o { w with sensors := m.sensors } {} zones.entries with
        | error e => cases e <;> simp [orRetry, error_bind]
        | ok zs => simp [orRetry, ok_bind]

/-! ## Configuration files -/

theorem zonesFromList_total : ∀ {es : List Json} {p : OMap Int PIDConf} {z : OMap Int ZoneConfig},
    (∀ e ∈ es, ∃ r, zoneFromJson e = .ok r) → ∃ r, zonesFromList p z es = .ok r
  | [], _, _, _ => ⟨_, rfl⟩
  | e :: es, p, z, h => by
    obtain ⟨r, hr⟩ := h e List.mem_cons_self
    rw [zonesFromList, hr, ok_bind]
    exact zonesFromList_total (fun e he => h e (List.mem_cons_of_mem _ he))

theorem configFromFile_iff {f : StartFiles} {path : String} :
    (∃ c, configFromFile f path = .ok c) ↔ ∃ data, f.json path = some data ∧ WellFormed data := by
  constructor
  · rintro ⟨c, h⟩
    obtain ⟨data, h1, h⟩ := bind_eq_ok.1 h
    obtain ⟨sensors, h2, h⟩ := bind_eq_ok.1 h
    obtain ⟨⟨pids, zones⟩, h3, h⟩ := bind_eq_ok.1 h
    unfold parseValidateJson at h1
    cases hj : f.json path with
    | none => rw [hj] at h1; cases h1
    | some data' =>
      rw [hj] at h1
      obtain ⟨u, h4, h5⟩ := bind_eq_ok.1 h1
      cases h5
      refine ⟨_, rfl, ⟨(C63_validate _).1 h4, fun s es hs he => (C61_all hs he).1 ⟨_, h2⟩, fun z es hz he e hm => ?_⟩⟩
      obtain ⟨z', hz', h3⟩ := bind_eq_ok.1 h3
      obtain ⟨-, -, h6⟩ := zonesFromList_gather h3
      rw [member_unique (index_iff.1 hz') hz, entries_iff.1 he] at h6
      obtain ⟨⟨i, lconf, zc⟩, hr⟩ := h6 e hm
      obtain ⟨a, b, p, ls, hp, hl, hall, -⟩ := C62_zone hr
      refine ⟨⟨i, a⟩, ⟨zc, b⟩, fun p' ls' hp' hl' l hlm => ?_⟩
      cases member_unique hp hp'
      have : ls = ls' := (entries_iff.1 hl).symm.trans (entries_iff.1 hl')
      rw [← this] at hlm
      exact hall l hlm
  · rintro ⟨data, hj, hw⟩
    obtain ⟨⟨s, hs, -⟩, z, hz, hp⟩ := hw.acceptable
    obtain ⟨sensors, h1⟩ := (C61_all hs (entries_iff.2 rfl)).2 (hw.sensors s _ hs (entries_iff.2 rfl))
    have h2 : ∃ r, buildPIDsFromJson data = .ok r := by
      rw [buildPIDsFromJson, index_iff.2 hz, ok_bind]
      refine zonesFromList_total fun e he => ?_
      obtain ⟨⟨i, hi⟩, ⟨c, hc⟩, hl⟩ := hw.zones z _ hz (entries_iff.2 rfl) e he
      obtain ⟨p, hp, -⟩ := hp _ (entries_iff.2 rfl) e he
      obtain ⟨conf, h⟩ := C62_zone_total hi hc hp (entries_iff.2 rfl) (hl p _ hp (entries_iff.2 rfl))
      exact ⟨_, h⟩
    obtain ⟨⟨pids, zones⟩, h2⟩ := h2
    refine ⟨⟨sensors, pids, zones⟩, ?_⟩
    simp only [configFromFile, parseValidateJson, hj, (C63_validate data).2 hw.acceptable, ok_bind, h1, h2]

theorem configFromFile_spec {f : StartFiles} {path : String} {c : Config} (h : configFromFile f path = .ok c) :
    FileConfig f path c := by
  obtain ⟨data, hj, hw⟩ := configFromFile_iff.1 ⟨c, h⟩
  simp only [configFromFile, parseValidateJson, hj, (C63_validate data).2 hw.acceptable, ok_bind] at h
  obtain ⟨sensors, h2, h⟩ := bind_eq_ok.1 h
  obtain ⟨⟨pids, zones⟩, h3, h⟩ := bind_eq_ok.1 h
  cases h
  obtain ⟨s, ss, hs, hss, a⟩ := C61_sensors h2
  obtain ⟨z, zs, hz, hzs, b1, b2, b3⟩ := C62_zones h3
  obtain ⟨w1, w2⟩ := buildPIDs_wf h3
  refine ⟨⟨data, s, z, ss, zs, hj, hw.acceptable, hs, hss, hz, hzs, a, b1, b2, b3⟩, ?_, w1, fun i conf hf =>
    w2 (i, conf) ((OMap.mem_entries_iff w1 _ _).2 hf)⟩
  obtain ⟨s', -, h2⟩ := bind_eq_ok.1 h2
  rw [sensorsFromList_eq] at h2
  exact gather_wf OMap.wf_empty h2

/-! ## Sensors of configurations on the bus -/

/-- sensors of types that exist -/
def Typed (m : OMap String SensorConfig) : Prop := m.WF ∧ ∀ n c, m.find? n = some c → KnownType c.type

theorem Typed.insert {m : OMap String SensorConfig} (h : Typed m) {n : String} {c : SensorConfig} (hc : KnownType c.type) :
    Typed (m.insert n c) := by
  refine ⟨OMap.wf_insert h.1 _ _, fun k d hk => ?_⟩
  rw [OMap.find?_insert] at hk
  split_ifs at hk with e
  · cases hk; exact hc
  · exact h.2 k d hk

omit F in
theorem known_of_thermal {t : String} (h : isThermalType t = true) : KnownType t := by
  unfold isThermalType at h
  simp only [List.contains_eq_mem, decide_eq_true_eq] at h
  exact List.mem_cons_of_mem _ h

theorem noteFound_typed {cls : String} {f : InputFlags} : ∀ {l : List (String × String)} {s s' : InputState},
    noteFound cls f s l = .ok s' → Typed s.sensors → Typed s'.sensors
  | [], s, s', h, ht => by injection h with h; exact h ▸ ht
  | (path, i) :: l, s, s', h, ht => by
    simp only [noteFound] at h
    split_ifs at h with h1 h2
    · exact noteFound_typed h (ht.insert (known_of_thermal h2))
    · exact noteFound_typed h ht

theorem noteFans_typed : ∀ {l : List ((String × String) × (String × String))} {s s' : InputState},
    noteFans s l = .ok s' → Typed s.sensors → Typed s'.sensors
  | [], s, s', h, ht => by injection h with h; exact h ▸ ht
  | ((fanPath, _), (pwmPath, i)) :: l, s, s', h, ht => by
    simp only [noteFans] at h
    split_ifs at h with h1
    exact noteFans_typed h (ht.insert (by simp [KnownType]))

theorem findInputs_plain {b : BusView} (hb : b.handleMissing = false) {cls : String} {acc : List String} {f : InputFlags} :
    ∀ {ns : List String} {s s' : InputState}, findInputs b cls acc f s ns = .ok s' → s'.sensors = s.sensors
  | [], s, s', h => by injection h with h; rw [h]
  | n :: ns, s, s', h => by
    obtain ⟨s1, h1, h⟩ := bind_eq_ok.1 h
    obtain ⟨fd, -, h1⟩ := bind_eq_ok.1 h1
    rw [if_pos (by simp [hb])] at h1
    injection h1 with h1
    rw [findInputs_plain hb h, ← h1]

theorem pidInputs_typed {b : BusView} (hb : b.handleMissing = false) {m m' : OMap String SensorConfig} {base : ConfProps}
    {cls : String} {a x : List String} (h : pidInputs b m base cls = .ok (a, x, m')) (ht : Typed m) : Typed m' := by
  obtain ⟨_, -, h⟩ := bind_eq_ok.1 h
  obtain ⟨_, -, h⟩ := bind_eq_ok.1 h
  obtain ⟨_, -, h⟩ := bind_eq_ok.1 h
  obtain ⟨_, -, h⟩ := bind_eq_ok.1 h
  obtain ⟨s1, h1, h⟩ := bind_eq_ok.1 h
  obtain ⟨_, -, h⟩ := bind_eq_ok.1 h
  obtain ⟨_, -, h⟩ := bind_eq_ok.1 h
  obtain ⟨s2, h2, h⟩ := bind_eq_ok.1 h
  obtain ⟨_, -, h⟩ := bind_eq_ok.1 h
  obtain ⟨s3, h3, h⟩ := bind_eq_ok.1 h
  injection h with h
  simp only [Prod.mk.injEq] at h
  rw [← h.2.2]
  have t1 : Typed s1.sensors := by rw [findInputs_plain hb h1]; exact ht
  have t2 := noteFound_typed h2 t1
  unfold fanInputs at h3
  split_ifs at h3 with hc
  · obtain ⟨_, -, h3⟩ := bind_eq_ok.1 h3
    exact noteFans_typed h3 t2
  · injection h3 with h3
    exact h3 ▸ t2

theorem noteStepInputs_typed {f : InputFlags} : ∀ {l : List (String × String)} {s : List String × OMap String SensorConfig},
    Typed s.2 → Typed (noteStepInputs f s l).2
  | [], _, h => h
  | (_, _) :: l, _, h => noteStepInputs_typed (l := l) (h.insert (by simp [KnownType]))

theorem stepInputs_typed {b : BusView} {acc : List String} {f : InputFlags} : ∀ {ns : List String}
    {s s' : List String × OMap String SensorConfig}, stepInputs b acc f s ns = .ok s' → Typed s.2 → Typed s'.2
  | [], s, s', h, ht => by injection h with h; exact h ▸ ht
  | n :: ns, s, s', h, ht => by
    obtain ⟨fd, -, h⟩ := bind_eq_ok.1 h
    split_ifs at h with h1 h2 h3
    · exact stepInputs_typed h (noteStepInputs_typed ht)
    · injection h with h; exact h ▸ ht
    · exact stepInputs_typed h ht
    · exact stepInputs_typed h (ht.insert (by simp [KnownType]))

theorem addPid_typed {b : BusView} (hb : b.handleMissing = false) {base : ConfProps} {n cls zone : String} {c c' : DbusCfg}
    (h : addPid b base n cls c zone = .ok c') (ht : Typed c.sensors) : Typed c'.sensors := by
  obtain ⟨⟨i, numbers⟩, -, h⟩ := bind_eq_ok.1 h
  obtain ⟨⟨a, x, m⟩, h1, h⟩ := bind_eq_ok.1 h
  have := pidInputs_typed hb h1 ht
  dsimp only at h
  unfold finishPid at h
  split_ifs at h with hc
  · injection h with h
    rw [← h]; exact this
  · obtain ⟨_, -, h⟩ := bind_eq_ok.1 h
    obtain ⟨_, -, h⟩ := bind_eq_ok.1 h
    obtain ⟨_, -, h⟩ := bind_eq_ok.1 h
    injection h with h
    rw [← h]; exact this

theorem addStepwise_typed {b : BusView} {base : ConfProps} {n zone : String} {c c' : DbusCfg}
    (h : addStepwise b base n c zone = .ok c') (ht : Typed c.sensors) : Typed c'.sensors := by
  obtain ⟨⟨i, numbers⟩, -, h⟩ := bind_eq_ok.1 h
  obtain ⟨_, -, h⟩ := bind_eq_ok.1 h
  obtain ⟨_, -, h⟩ := bind_eq_ok.1 h
  obtain ⟨_, -, h⟩ := bind_eq_ok.1 h
  obtain ⟨⟨a, m⟩, h1, h⟩ := bind_eq_ok.1 h
  have := stepInputs_typed h1 ht
  dsimp only at h this
  unfold finishStepwise at h
  split_ifs at h with hc
  · injection h with h
    rw [← h]; exact this
  · obtain ⟨_, -, h⟩ := bind_eq_ok.1 h
    obtain ⟨_, -, h⟩ := bind_eq_ok.1 h
    injection h with h
    rw [← h]; exact this

theorem overZones_typed {step : DbusCfg → String → Res DbusCfg}
    (hs : ∀ c c' z, step c z = .ok c' → Typed c.sensors → Typed c'.sensors) :
    ∀ {zs : List String} {c c' : DbusCfg}, overZones step c zs = .ok c' → Typed c.sensors → Typed c'.sensors
  | [], c, c', h, ht => by injection h with h; exact h ▸ ht
  | z :: zs, c, c', h, ht => by
    obtain ⟨c1, h1, h⟩ := bind_eq_ok.1 h
    exact overZones_typed hs h (hs _ _ _ h1 ht)

theorem addObjects_typed {b : BusView} (hb : b.handleMissing = false) : ∀ {os : List ConfObj} {c c' : DbusCfg},
    addObjects b c os = .ok c' → Typed c.sensors → Typed c'.sensors
  | [], c, c', h, ht => by injection h with h; exact h ▸ ht
  | o :: os, c, c', h, ht => by
    obtain ⟨c1, h1, h⟩ := bind_eq_ok.1 h
    refine addObjects_typed hb h ?_
    obtain ⟨c2, h2, h1⟩ := bind_eq_ok.1 h1
    obtain ⟨c3, h3, h1⟩ := bind_eq_ok.1 h1
    have t2 : Typed c2.sensors := by
      unfold withInterface at h2
      split at h2
      · injection h2 with h2; exact h2 ▸ ht
      · obtain ⟨_, -, h2⟩ := bind_eq_ok.1 h2
        obtain ⟨⟨_, _⟩, -, h2⟩ := bind_eq_ok.1 h2
        obtain ⟨_, -, h2⟩ := bind_eq_ok.1 h2
        injection h2 with h2
        rw [← h2]; exact ht
    have t3 : Typed c3.sensors := by
      unfold withInterface at h3
      split at h3
      · injection h3 with h3; exact h3 ▸ t2
      · obtain ⟨_, -, h3⟩ := bind_eq_ok.1 h3
        obtain ⟨_, -, h3⟩ := bind_eq_ok.1 h3
        obtain ⟨_, -, h3⟩ := bind_eq_ok.1 h3
        exact overZones_typed (fun _ _ _ h => addPid_typed hb h) h3 t2
    unfold withInterface at h1
    split at h1
    · injection h1 with h1; exact h1 ▸ t3
    · obtain ⟨_, -, h1⟩ := bind_eq_ok.1 h1
      obtain ⟨_, -, h1⟩ := bind_eq_ok.1 h1
      exact overZones_typed (fun _ _ _ h => addStepwise_typed h) h1 t3

theorem dbusInit_typed {b : BusView} (hb : b.handleMissing = false) {sel : List String} {objs : List ConfObj} {r : Bool}
    {c : DbusCfg} (h : dbusInit b sel objs = .ok (r, c)) : Typed c.sensors := by
  obtain ⟨os, -, h⟩ := bind_eq_ok.1 h
  obtain ⟨numbers, -, h⟩ := bind_eq_ok.1 h
  obtain ⟨c', h1, h⟩ := bind_eq_ok.1 h
  injection h with h
  obtain ⟨-, rfl⟩ := Prod.mk.inj h
  exact addObjects_typed hb h1 ⟨OMap.wf_empty, fun n c h => by cases h⟩

/-! ## What comes of an attempt -/

theorem zoneList_nonempty {configs : OMap Int ZoneConfig} : ∀ {l : List (Int × PIDConf)} {acc zones : OMap Int Zone},
    buildZoneList configs acc l = .ok zones → acc.isEmpty = false ∨ l ≠ [] → zones.isEmpty = false
  | [], acc, zones, h, hn => by
    injection h with h
    rcases hn with hn | hn
    · exact h ▸ hn
    · exact absurd rfl hn
  | e :: l, acc, zones, h, _ => by
    obtain ⟨z, -, h⟩ := bind_eq_ok.1 h
    refine zoneList_nonempty h (.inl ?_)
    rw [OMap.isEmpty_false_iff]
    exact ⟨e.1, z, OMap.find?_insert_self _ _ _⟩

theorem launched_exit {o : Opts} {bus : BuildBus} {now : Int} {w : World} {c : Config} {why : String}
    (h : launched o bus now w c = .exit why) : c.pids.entries = [] := by
  unfold launched at h
  cases hs : buildSensors o bus now c.sensors with
  | error e => rw [hs, error_bind] at h; cases e <;> cases h
  | ok m =>
    rw [hs, ok_bind] at h
    cases hz : buildZones c.pids c.zones with
    | error e => rw [hz, error_bind] at h; cases e <;> cases h
    | ok zones =>
      rw [hz, ok_bind] at h
      by_contra hne
      rw [if_neg (by rw [zoneList_nonempty hz (.inr hne)]; simp)] at h
      cases hst : startZones o { w with sensors := m.sensors } {} zones.entries with
      | error e => rw [hst, error_bind] at h; cases e <;> cases h
      | ok zs => rw [hst, ok_bind] at h; cases h

theorem launched_not_waiting {o : Opts} {bus : BuildBus} {now : Int} {w : World} {c : Config} :
    launched o bus now w c ≠ .waiting := by
  intro h
  unfold launched at h
  cases hs : buildSensors o bus now c.sensors with
  | error e => rw [hs, error_bind] at h; cases e <;> cases h
  | ok m =>
    rw [hs, ok_bind] at h
    cases hz : buildZones c.pids c.zones with
    | error e => rw [hz, error_bind] at h; cases e <;> cases h
    | ok zones =>
      rw [hz, ok_bind] at h
      by_cases he : zones.isEmpty = true
      · rw [if_pos he] at h; cases h
      · rw [if_neg he] at h
        cases hst : startZones o { w with sensors := m.sensors } {} zones.entries with
        | error e => rw [hst, error_bind] at h; cases e <;> cases h
        | ok zs => rw [hst, ok_bind] at h; cases h

/-- **C108** Where the configuration comes from is determined: the file given, else the first `config.json` of three
directories, else the bus. -/
theorem C108_source (conf : String) (f : StartFiles) : ∃! s, Source conf f s := by
  rcases source_path conf f with ⟨-, h⟩ | ⟨-, h⟩
  · exact ⟨_, h, fun _ h' => source_unique h' h⟩
  · exact ⟨_, h, fun _ h' => source_unique h' h⟩

/-- **C108** With a file, the daemon runs from exactly what is written there, and what is configured on the bus does not
matter. -/
theorem C108_file {o : Opts} {conf path : String} {f : StartFiles} (hs : Source conf f (some path)) {data : Json}
    (hj : f.json path = some data) (hw : WellFormed data) :
    ∃ c, FileConfig f path c ∧ ∀ (b : ConfBus) (h : HashOrder) (bus : BuildBus) (now : Int) (w : World),
      (∀ d, attempt o conf f b h bus now w = .running d ↔ Daemon.launch o bus now w c.sensors c.pids c.zones = .ok d) ∧
      attempt o conf f b h bus now w ≠ .waiting ∧
      ((∃ why, attempt o conf f b h bus now w = .exit why) → c.pids.entries = []) := by
  obtain ⟨c, hc⟩ := configFromFile_iff.2 ⟨data, hj, hw⟩
  refine ⟨c, configFromFile_spec hc, fun b h bus now w => ?_⟩
  rw [attempt_file hs, hc]
  exact ⟨fun d => launched_running, launched_not_waiting, fun ⟨why, h⟩ => launched_exit h⟩

/-- **C108** If the file cannot be used, the attempt ends the process (or is undefined, see C62): neither another file nor
the bus is tried instead, and there is no other attempt. -/
theorem C108_bad_file {o : Opts} {conf path : String} {f : StartFiles} (hs : Source conf f (some path))
    (hbad : ∀ data, f.json path = some data → ¬ WellFormed data) :
    ∃ why, (∀ (b : ConfBus) (h : HashOrder) (bus : BuildBus) (now : Int) (w : World),
        attempt o conf f b h bus now w = .exit why) ∨
      ∀ (b : ConfBus) (h : HashOrder) (bus : BuildBus) (now : Int) (w : World),
        attempt o conf f b h bus now w = .undefined why := by
  cases hc : configFromFile f path with
  | ok c =>
    obtain ⟨data, hj, hw⟩ := configFromFile_iff.1 ⟨c, hc⟩
    exact absurd hw (hbad data hj)
  | error e =>
    cases e with
    | exc why => exact ⟨why, .inl fun b h bus now w => by rw [attempt_file hs, hc]⟩
    | ub why => exact ⟨why, .inr fun b h bus now w => by rw [attempt_file hs, hc]⟩

theorem validateZones_no_ub : ∀ (zs : List Json) (why : String), validateZones zs ≠ .error (.ub why)
  | [], _, h => by cases h
  | zone :: rest, why, h => by
    rw [validateZones] at h
    by_cases hc : zone.count "pids" = 1
    · rw [if_neg (by simpa using hc)] at h
      obtain ⟨p, hp⟩ := count_iff.1 hc
      rw [index_iff.2 hp, ok_bind] at h
      split_ifs at h
      · cases h
      · exact validateZones_no_ub rest why h
    · rw [if_pos hc] at h
      cases h

theorem validateJson_no_ub (data : Json) (why : String) : validateJson data ≠ .error (.ub why) := by
  intro h
  unfold validateJson at h
  by_cases hc : data.count "sensors" = 1
  · rw [if_neg (by simpa using hc)] at h
    obtain ⟨s, hs⟩ := count_iff.1 hc
    rw [index_iff.2 hs, ok_bind] at h
    by_cases h0 : s.size = 0
    · rw [if_pos h0] at h; cases h
    · rw [if_neg h0] at h
      by_cases hz : data.count "zones" = 1
      · rw [if_neg (by simpa using hz)] at h
        obtain ⟨z, hz⟩ := count_iff.1 hz
        rw [index_iff.2 hz, ok_bind] at h
        exact validateZones_no_ub _ _ h
      · rw [if_pos hz] at h; cases h
  · rw [if_pos hc] at h; cases h

/-- **C108** A file that cannot be read as JSON, or is not acceptable, ends the process. -/
theorem C108_unacceptable {o : Opts} {conf path : String} {f : StartFiles} (hs : Source conf f (some path))
    (hbad : ∀ data, f.json path = some data → ¬ Acceptable data) (b : ConfBus) (h : HashOrder) (bus : BuildBus) (now : Int)
    (w : World) : ∃ why, attempt o conf f b h bus now w = .exit why := by
  rw [attempt_file hs]
  have : ∃ why, configFromFile f path = .error (.exc why) := by
    unfold configFromFile parseValidateJson
    cases hj : f.json path with
    | none => exact ⟨_, rfl⟩
    | some data =>
      dsimp only
      cases hv : validateJson data with
      | ok u => exact absurd ((C63_validate data).1 hv) (hbad data hj)
      | error e =>
        cases e with
        | exc why => exact ⟨why, rfl⟩
        | ub why => exact absurd hv (validateJson_no_ub data why)
  obtain ⟨why, h⟩ := this
  exact ⟨why, by rw [h]⟩

/-- **C108** A configuration file whose sensors suit its zones makes the daemon run, if every sensor can be made. -/
theorem C108_file_runs {o : Opts} {conf path : String} {f : StartFiles} (hs : Source conf f (some path)) {data : Json}
    (hj : f.json path = some data) (hw : WellFormed data) {bus : BuildBus} {now : Int} {w : World}
    (hsuit : ∀ c, FileConfig f path c → Suits c.sensors c.pids c.zones)
    (hm : ∀ c, FileConfig f path c → ∀ n s, c.sensors.find? n = some s → CanMake o bus now n s)
    (hfi : ∀ c, FileConfig f path c → FilesOk o bus.dirs c.sensors w.files) (b : ConfBus) (h : HashOrder) :
    ∃ c d, FileConfig f path c ∧ attempt o conf f b h bus now w = .running d ∧
      Daemon.launch o bus now w c.sensors c.pids c.zones = .ok d := by
  obtain ⟨c, hc, ha⟩ := C108_file (o := o) hs hj hw
  obtain ⟨d, hd⟩ := C99_launches (hsuit c hc) (hm c hc) (hfi c hc)
  exact ⟨c, d, hc, ((ha b h bus now w).1 d).2 hd, hd⟩

/-- **C108** Without a file, the daemon runs from the configuration on the bus, waits for one while there is none, and tries
again after any other failure. It does not exit. -/
theorem C108_bus {o : Opts} {conf : String} {f : StartFiles} (hs : Source conf f none) (b : ConfBus) (h : HashOrder)
    (bus : BuildBus) (now : Int) (w : World) :
    (∀ d, attempt o conf f b h bus now w = .running d ↔
      ∃ c, busInit b h = .ok (true, c) ∧ Daemon.launch o bus now w c.sensors c.pids c.zones = .ok d) ∧
    (attempt o conf f b h bus now w = .waiting ↔ ∃ c, busInit b h = .ok (false, c)) ∧
    ∀ why, attempt o conf f b h bus now w ≠ .exit why := by
  rw [attempt_bus hs]
  cases hi : busInit b h with
  | error e => cases e <;> simp
  | ok r =>
    obtain ⟨r, c⟩ := r
    cases r with
    | false => simp
    | true =>
      dsimp only
      refine ⟨fun d => ?_, ?_, fun why he => ?_⟩
      · rw [launched_running]
        constructor
        · exact fun h => ⟨c, rfl, h⟩
        · rintro ⟨c', hc, h⟩
          cases hc
          exact h
      · constructor
        · exact fun h => absurd h launched_not_waiting
        · rintro ⟨c', hc⟩
          cases hc
      · have hp := launched_exit he
        dsimp only at hp
        have : c.pids.isEmpty = false := by
          unfold busInit at hi
          split at hi
          · cases hi
          · cases hi
          · obtain ⟨_, -, hi⟩ := bind_eq_ok.1 hi
            obtain ⟨_, -, hi⟩ := bind_eq_ok.1 hi
            obtain ⟨_, -, hi⟩ := bind_eq_ok.1 hi
            obtain ⟨_, -, hi⟩ := bind_eq_ok.1 hi
            obtain ⟨c', -, hi⟩ := bind_eq_ok.1 hi
            injection hi with hi
            obtain ⟨h1, rfl⟩ := Prod.mk.inj hi
            rw [Bool.not_eq_true', Bool.or_eq_false_iff] at h1
            exact h1.1
        rw [OMap.isEmpty_false_iff] at this
        obtain ⟨i, p, h⟩ := this
        unfold OMap.find? at h
        rw [hp] at h
        cases h

/-- **C108** A configuration on the bus that makes sense suits the daemon, and all its sensors are on the bus. -/
theorem C108_bus_suits {objs : List BusObject} {b : ConfBus} {reply : SubTree} (hs : b.subTree = some reply)
    (hk : MapperKnows objs reply) (hm : ManagersAnswer objs b.managed) (ha : Arranged objs) (hne : ∃ o ∈ objs, o.Configures)
    (hw : ∀ o ∈ objs, OMap.WF o.interfaces) (hmiss : b.handleMissing = false)
    {sel : List String} (hsel : getSelectedProfiles b.modes b.mode = .ok sel) (hb : BusSuits objs sel) {h : HashOrder}
    {c : DbusCfg} (hok : busInit b h = .ok (true, c)) :
    Suits c.sensors c.pids c.zones ∧ ∀ n s, c.sensors.find? n = some s → ReadKind s.readPath .dbusPassive := by
  obtain ⟨l, hp, he⟩ := C107_collected hs hk hm ha hne h
  rw [he, hsel, ok_bind] at hok
  have hwl : ∀ o ∈ l, OMap.WF o := by
    intro o ho
    obtain ⟨x, hx, rfl⟩ := List.mem_map.1 (hp.mem_iff.1 ho)
    exact hw x (List.mem_filter.1 hx).1
  have hdl : DistinctZones sel l := by
    have hd := hb.distinct
    unfold DistinctZones at hd ⊢
    refine (hp.symm.pairwise ?_ ?_)
    · exact hd.sublist (List.filter_sublist.map _)
    · intro o o' hoo z z' n a b' c' d' e f
      exact hoo z' z n c' d' a b' f e
  have hact : ∀ p, Active sel l pidInterface p ∨ Active sel l stepwiseInterface p → ∃ o ∈ objs,
      (o.interfaces.find? pidInterface = some p ∨ o.interfaces.find? stepwiseInterface = some p) ∧ Selected sel p := by
    rintro p (hA | hA)
    · obtain ⟨o, ho, h1, h2⟩ := (active_objs hp (.inl rfl) p).1 hA
      exact ⟨o, ho, .inl h1, h2⟩
    · obtain ⟨o, ho, h1, h2⟩ := (active_objs hp (.inr (.inr rfl)) p).1 hA
      exact ⟨o, ho, .inr h1, h2⟩
  obtain ⟨hcfg, hr, -, -⟩ := dbusInit_ok hwl hok
  obtain ⟨hswf, htyped⟩ := dbusInit_typed (b := b.view h reply) hmiss hok
  obtain ⟨zones, hz⟩ := (C86_builds hwl hdl hok).2 (by
    intro base zones zone hA hzs hmem
    obtain ⟨o, ho, hi, hsl⟩ := hact base hA
    obtain ⟨o', ho', z, h1, h2, h3⟩ := hb.zones o ho base hi hsl zones zone hzs hmem
    exact ⟨z, (active_objs hp (.inr (.inl rfl)) z).2 ⟨o', ho', h1, h2⟩, h3⟩)
  have hbuild := (C64_builds c.pids c.zones).1.1 ⟨zones, hz⟩
  have hloop : ∀ i conf, c.pids.find? i = some conf → ∃ zone, ConfOk (b.view h reply) sel l zone c.sensors conf := by
    intro i conf hi
    obtain ⟨zone, -, -, h3⟩ := hcfg.loops i conf hi
    exact ⟨zone, h3⟩
  have hread : ∀ n s, c.sensors.find? n = some s → ReadKind s.readPath .dbusPassive := by
    intro n s hs
    have key : ∀ i, (s.readPath, i) ∈ (b.view h reply).sensors → ReadKind s.readPath .dbusPassive := by
      intro i hi
      obtain ⟨o, ho, hpath, hserv⟩ := (C107_sensors hk h).1 _ _ hi
      exact hpath ▸ hb.paths o ho i hserv
    cases hcfg.fit _ _ hs with
    | found i h1 => exact key i h1
    | missing h1 =>
      have : b.handleMissing = true := h1
      rw [hmiss] at this
      cases this
    | fan h1 => exact key _ h1
  refine ⟨⟨hswf, hcfg.wf, fun i conf hi => ?_, ?_, fun i conf hi => ?_, fun i conf hi => ?_,
    fun i conf hi e hem _ x hx => ?_⟩, hread⟩
  · obtain ⟨zone, h3⟩ := hloop i conf hi
    exact h3.1
  · have hr := hr.symm
    rw [Bool.not_eq_true', Bool.or_eq_false_iff, OMap.isEmpty_false_iff] at hr
    exact hr.1
  · exact (hbuild (i, conf) ((OMap.mem_entries_iff hcfg.wf _ _).2 hi)).1
  · obtain ⟨zone, h3⟩ := hloop i conf hi
    have hl : ∀ e ∈ conf.entries, LoopOk (b.view h reply) sel l zone c.sensors e.1 e.2 :=
      fun e he => h3.2 e.1 e.2 ((OMap.mem_entries_iff h3.1 _ _).1 he)
    refine ⟨⟨fun e he _ => (hl e he).inputs, fun e he _ x hx hc => ?_⟩, fun e he _ => (hl e he).inputs⟩
    obtain ⟨base, ms, hA, hmm, hd⟩ := (hl e he).margins x hx hc
    obtain ⟨o, ho, hi, hsl⟩ := hact base hA
    exact hb.margins o ho base hi hsl ms hmm _ hd
  · obtain ⟨zone, h3⟩ := hloop i conf hi
    obtain ⟨s, hs⟩ := Option.ne_none_iff_exists'.1
      ((h3.2 e.1 e.2 ((OMap.mem_entries_iff h3.1 _ _).1 hem)).sensors x hx)
    have hrd := hread _ _ hs
    refine ⟨s, hs, ⟨htyped _ _ hs, .inl hrd⟩, fun _ hex => ?_⟩
    cases hrd with
    | dbus _ h2 => exact h2 hex.2

/-- **C108** So the daemon runs from it, if every sensor can be made. -/
theorem C108_bus_runs {o : Opts} {conf : String} {f : StartFiles} (hsrc : Source conf f none) {objs : List BusObject}
    {b : ConfBus} {reply : SubTree} (hs : b.subTree = some reply) (hk : MapperKnows objs reply)
    (hm : ManagersAnswer objs b.managed) (ha : Arranged objs) (hne : ∃ o ∈ objs, o.Configures)
    (hw : ∀ o ∈ objs, OMap.WF o.interfaces) (hmiss : b.handleMissing = false) {sel : List String}
    (hsel : getSelectedProfiles b.modes b.mode = .ok sel) (hb : BusSuits objs sel) {h : HashOrder} {c : DbusCfg}
    (hok : busInit b h = .ok (true, c)) {bus : BuildBus} {now : Int} {w : World}
    (hmake : ∀ n s, c.sensors.find? n = some s → CanMake o bus now n s)
    (hfi : o.tuningEnabled = true → ∀ path, w.files path ≠ .blank) :
    ∃ d, attempt o conf f b h bus now w = .running d := by
  obtain ⟨hsuit, hread⟩ := C108_bus_suits hs hk hm ha hne hw hmiss hsel hb hok
  have hfiles : FilesOk o bus.dirs c.sensors w.files := by
    refine ⟨fun n s q hf hr _ => ?_, hfi⟩
    have hd := hread n s hf
    cases hr with
    | sysfs _ h2 =>
      cases hd with
      | dbus h3 => exact absurd h3 h2
  obtain ⟨d, hd⟩ := C99_launches hsuit hmake hfiles
  exact ⟨d, ((C108_bus hsrc b h bus now w).1 d).2 ⟨c, hok, hd⟩⟩

/-- **C108** (finding) If the file given on the command line is removed while the daemon runs, a reload silently takes the
configuration from the bus: what is in other places does not matter. -/
theorem C108_given_removed {o : Opts} {conf : String} (hc : conf ≠ "") {f f' : StartFiles} (h1 : f.exists conf = false)
    (h2 : f'.exists conf = false) (b : ConfBus) (h : HashOrder) (bus : BuildBus) (now : Int) (w : World) :
    Source conf f none ∧ attempt o conf f b h bus now w = attempt o conf f' b h bus now w := by
  have hs : ∀ f : StartFiles, f.exists conf = false → Source conf f none := fun f h => .bus (fun _ => h) (fun e => absurd e hc)
  refine ⟨hs f h1, ?_⟩
  rw [attempt_bus (hs f h1), attempt_bus (hs f' h2)]

end

namespace Ex
section
attribute [local instance] binary64

/-- a fan and a processor on the bus -/
def jsonSensors108 : Json := .arr
  [.obj [("max", .int 255), ("min", .int 0), ("name", .str "fan0"),
     ("readPath", .str "/xyz/openbmc_project/sensors/fan_tach/fan0"), ("type", .str "fan"),
     ("writePath", .str "/sys/class/hwmon/pwm1")],
   .obj [("name", .str "cpu"), ("readPath", .str "/xyz/openbmc_project/sensors/temperature/cpu"), ("type", .str "temp")]]

def jsonLoop108 (name type input : String) (gain : Int) : Json := .obj
  [("inputs", .arr [.str input]), ("name", .str name),
   ("pid", .obj [("feedFwdGainCoeff", .int gain), ("feedFwdOffsetCoeff", .int 0), ("integralCoeff", .int 0),
     ("integralLimit_max", .int 0), ("integralLimit_min", .int 0), ("outLim_max", .int 100), ("outLim_min", .int 0),
     ("proportionalCoeff", .int 0), ("samplePeriod", .int 1), ("slewNeg", .int 0), ("slewPos", .int 0)]),
   ("setpoint", .int 70), ("type", .str type)]

def json108 : Json := .obj [("sensors", jsonSensors108), ("zones", .arr [.obj
  [("failsafePercent", .int 75), ("id", .int 3), ("minThermalOutput", .int 20),
   ("pids", .arr [jsonLoop108 "fans" "fan" "fan0" 1, jsonLoop108 "temps" "temp" "cpu" 0])]])]

/-- files at these places with this content -/
def files108 (paths : List String) (data : Option Json) (h : "config.json" ∉ paths) (h' : "/root/config.json" ∉ paths) : StartFiles :=
  ⟨"/root", fun p => decide (p ∈ paths), fun _ => data, by
    have : joinPath "/root" "config.json" = "/root/config.json" := by decide +kernel
    rw [this]; simp [h, h']⟩

def noConfig : ConfBus := busOf107 [] [] (fun _ _ => none)

/-- the zones of a daemon that runs -/
def ranZones : Started → Option (List Int)
  | .running d => some (d.zones.entries.map Prod.fst)
  | _ => none

/-- C108: the file in the second directory is found and used, the one in the third is not looked at -/
example : ranZones (attempt {} "" (files108 ["/var/lib/swampd/config.json"] (some json108) (by decide) (by decide)) noConfig
    asListed bus98 0 world99) = some [3] := by decide +kernel
example : Source "" (files108 ["/usr/share/swampd/config.json", "/var/lib/swampd/config.json"] none (by decide) (by decide))
    (some "/var/lib/swampd/config.json") :=
  .found (before := ["/root"]) (dir := "/var/lib/swampd") (after := ["/usr/share/swampd"]) rfl rfl (by decide +kernel)
    (by decide +kernel)

theorem json108_wellFormed : WellFormed json108 := by
  let f : StartFiles := files108 ["/var/lib/swampd/config.json"] (some json108) (by decide) (by decide)
  obtain ⟨c, h, -⟩ := ok_of_any (x := configFromFile f "") (P := fun _ : Config => true) (by decide +kernel)
  obtain ⟨data, hj, hw⟩ := configFromFile_iff.1 ⟨c, h⟩
  cases hj
  exact hw

/-- a file without zones, or one that cannot be parsed, ends the process -/
def exits : Started → Bool
  | .exit _ => true
  | _ => false

example : exits (attempt {} "/c" (files108 ["/c"] (some (.obj [("sensors", jsonSensors108), ("zones", .arr [])])) (by decide)
    (by decide)) noConfig asListed bus98 0 world99) = true := by decide +kernel
example : exits (attempt {} "/c" (files108 ["/c"] none (by decide) (by decide)) noConfig asListed bus98 0 world99) = true := by
  decide +kernel

/-- what is on the bus in another example, with sensors where they should be -/
def objs108 : List BusObject :=
  [plain107 "em" "/inventory" ["org.freedesktop.DBus.ObjectManager"],
   ⟨"em", "/inventory/board/Zone", ⟨[(zoneInterface, zoneConf "Left" [("ZoneIndex", .dbl 3)])]⟩⟩,
   ⟨"em", "/inventory/board/Fan", ⟨[(pidInterface, busFan [])]⟩⟩,
   ⟨"em", "/inventory/board/Step", ⟨[(stepwiseInterface, stepConf ["Core 2"] [])]⟩⟩,
   ⟨"em", "/inventory/board/Heat", ⟨[(pidInterface, heatConf ["Core 1"] [])]⟩⟩,
   plain107 "hwmon" "/xyz/openbmc_project/sensors/temperature/Core_1" [valueInterface],
   plain107 "hwmon" "/xyz/openbmc_project/sensors/temperature/Core_2" [valueInterface],
   plain107 "hwmon" "/xyz/openbmc_project/sensors/fan_tach/Fan_1" [valueInterface],
   plain107 "hwmon" "/xyz/openbmc_project/control/fanpwm/Pwm_1" [pwmInterface]]

def conf108 : ConfBus := busOf107 objs108 [] (fun _ _ => none)
def nofiles108 : StartFiles := files108 [] none (by decide) (by decide)

theorem nofiles108_source : Source "" nofiles108 none := .bus (fun h => absurd rfl h) (fun _ => by decide +kernel)

/-- C108: it runs -/
example : ranZones (attempt {} "" nofiles108 conf108 reversed bus98 0 world99) = some [3] := by decide +kernel
/-- a bus without configurations: it waits, or tries again -/
example : attempt {} "" nofiles108 (busOf107 [plain107 "hwmon" "/t" [valueInterface]] [] (fun _ _ => none)) reversed bus98 0
    world99 = .waiting := by
  obtain ⟨⟨r, c⟩, h, h'⟩ := ok_of_any
    (x := busInit (busOf107 [plain107 "hwmon" "/t" [valueInterface]] [] (fun _ _ => none)) reversed)
    (P := fun r : Bool × DbusCfg => !r.1) (by decide +kernel)
  rw [Bool.not_eq_true'] at h'
  dsimp only at h'
  subst h'
  exact ((C108_bus nofiles108_source _ _ _ _ _).2.1).2 ⟨c, h⟩
example : ∃ why, attempt {} "" nofiles108 noConfig reversed bus98 0 world99 = .retry why := by
  rw [attempt_bus nofiles108_source]
  exact ⟨_, rfl⟩

/-- the hypotheses of `C108_bus_runs` hold -/
theorem arranged108 : Arranged objs108 := by
  refine ⟨?_, ?_, ?_, ?_, ?_⟩
  · refine List.Nodup.of_map BusObject.path ?_
    decide +kernel
  · decide +kernel
  · decide +kernel
  · decide +kernel
  · have : ∀ o ∈ objs108, ∀ o' ∈ objs108, o.path = o'.path → o = o' := by
      have hn : (objs108.map BusObject.path).Nodup := by decide +kernel
      intro o ho o' ho' e
      exact List.inj_on_of_nodup_map hn ho ho' e
    exact fun o ho o' ho' _ _ e => this o ho o' ho' e

/-- zones and margins of a configuration -/
def onlyLeft (p : ConfProps) : Bool :=
  (match p.find? "Zones" with
   | some (.strs l) => decide (l = ["Left"])
   | _ => false) && (p.find? "TempToMargin").isNone

theorem busSuits108 : BusSuits objs108 [] := by
  have key : ∀ o ∈ objs108, ∀ p, o.interfaces.find? "xyz.openbmc_project.Configuration.Pid" = some p ∨
      o.interfaces.find? "xyz.openbmc_project.Configuration.Stepwise" = some p → onlyLeft p = true := by
    have h : ∀ o ∈ objs108, (o.interfaces.find? "xyz.openbmc_project.Configuration.Pid").all onlyLeft = true ∧
        (o.interfaces.find? "xyz.openbmc_project.Configuration.Stepwise").all onlyLeft = true := by decide +kernel
    rintro o ho p (hp | hp)
    · have := (h o ho).1; rw [hp] at this; exact this
    · have := (h o ho).2; rw [hp] at this; exact this
  refine ⟨?_, fun o ho p hp _ zones zone hz hm => ?_, fun o ho p hp _ l hl => ?_, ?_⟩
  · have : (objs108.map BusObject.interfaces).Pairwise (fun o o' => (o.find? zoneInterface).isNone = true ∨
        (o'.find? zoneInterface).isNone = true) := by decide +kernel
    refine this.imp ?_
    rintro o o' h z z' n h1 _ h2 _ _
    rcases h with h | h
    · rw [h1] at h; cases h
    · rw [h2] at h; cases h
  · have hk := key o ho p hp
    obtain ⟨v, hv, rfl⟩ := hz
    simp only [onlyLeft, hv, Bool.and_eq_true, decide_eq_true_eq] at hk
    rw [hk.1, List.mem_singleton] at hm
    subst hm
    exact ⟨_, List.mem_cons_of_mem _ List.mem_cons_self, _, rfl, .inl rfl, _, rfl, rfl⟩
  · have hk := key o ho p hp
    obtain ⟨v, hv, rfl⟩ := hl
    simp [onlyLeft, hv] at hk
  · have h : ∀ o ∈ objs108, ((o.interfaces.find? "xyz.openbmc_project.Sensor.Value").isNone = true ∧
        (o.interfaces.find? "xyz.openbmc_project.Control.FanPwm").isNone = true) ∨
        getReadInterfaceType o.path = .dbusPassive := by decide +kernel
    rintro o ho i ⟨h1, h2⟩
    rcases h o ho with ⟨a, b⟩ | h
    · rcases h2 with ⟨rfl, -⟩ | rfl
      · exact absurd (Option.isNone_iff_eq_none.1 a) h1
      · exact absurd (Option.isNone_iff_eq_none.1 b) h1
    · exact (C65_read _ _).1 h

/-- C108_bus_runs, for any order of the hash maps in which the configuration is read -/
example {h : HashOrder} {c : DbusCfg} (hok : busInit conf108 h = .ok (true, c))
    (hm : ∀ n s, c.sensors.find? n = some s → CanMake {} bus98 0 n s) :
    ∃ d, attempt {} "" nofiles108 conf108 h bus98 0 world99 = .running d :=
  C108_bus_runs nofiles108_source rfl (mapper_knows _) (managers_answer _) arranged108 (by decide +kernel)
    (by
      intro o ho
      have : o.interfaces.entries.length ≤ 1 := by revert o; decide +kernel
      unfold OMap.WF
      match h : o.interfaces.entries with
      | [] => simp
      | [e] => simp
      | _ :: _ :: _ => rw [h] at this; simp at this) rfl rfl busSuits108 hok hm (fun h => by cases h)

end
end Ex
end Verif
