import Verif.Lemmas.Collect
import Verif.Props.DbusInit

/-! # Collecting the configuration from the bus: property C107 -/

namespace Verif
open Dbl
section
variable [F : FloatModel]

theorem isConf_iff (i : String) : isConf i = true ↔ i = pidInterface ∨ i = zoneInterface ∨ i = stepwiseInterface := by
  simp [isConf, or_assoc]

/-- what the map of owners says about a service -/
theorem owners_iff {objs : List BusObject} {reply : SubTree} (hk : MapperKnows objs reply) (s : String) :
    ((noted (ownersOf reply) s).1 = true ↔ ∃ o ∈ objs, o.service = s ∧ o.Configures) ∧
    ((∃ m ∈ objs, m.service = s ∧ m.Manages ∧ (noted (ownersOf reply) s).2 = m.path) ∨
      (∀ m ∈ objs, m.service = s → ¬ m.Manages) ∧ (noted (ownersOf reply) s).2 = "") := by
  obtain ⟨h1, h2⟩ := owners_noted s reply {}
  refine ⟨?_, ?_⟩
  · refine h1.trans ⟨?_, ?_⟩
    · rintro (h | ⟨p, hp, o, ho, hs, i, hi, hc⟩)
      · cases h
      · have hi' : i ∈ askedFor := by
          rcases (isConf_iff i).1 hc with rfl | rfl | rfl <;> simp [askedFor, pidInterface, zoneInterface, stepwiseInterface]
        obtain ⟨x, hx, a, b, c⟩ := (hk s p.1 i hi').1 ⟨p, hp, rfl, o, ho, hs, hi⟩
        refine ⟨x, hx, a, ?_⟩
        rcases (isConf_iff i).1 hc with rfl | rfl | rfl
        · exact .inl c
        · exact .inr (.inl c)
        · exact .inr (.inr c)
    · rintro ⟨x, hx, hs, hc⟩
      have : ∃ i ∈ askedFor, isConf i = true ∧ x.Has i := by
        rcases hc with h | h | h
        · exact ⟨pidInterface, by simp [askedFor, pidInterface], (isConf_iff _).2 (.inl rfl), h⟩
        · exact ⟨zoneInterface, by simp [askedFor, zoneInterface], (isConf_iff _).2 (.inr (.inl rfl)), h⟩
        · exact ⟨stepwiseInterface, by simp [askedFor, stepwiseInterface], (isConf_iff _).2 (.inr (.inr rfl)), h⟩
      obtain ⟨i, ha, hi, hh⟩ := this
      obtain ⟨p, hp, -, o, ho, e, m⟩ := (hk s x.path i ha).2 ⟨x, hx, hs, rfl, hh⟩
      exact .inr ⟨p, hp, o, ho, e, i, m, hi⟩
  · have ha : objectManagerInterface ∈ askedFor := by simp [askedFor, objectManagerInterface]
    rcases h2 with ⟨p, hp, ⟨o, ho, e, m⟩, h⟩ | ⟨hn, h⟩
    · obtain ⟨x, hx, a, b, c⟩ := (hk s p.1 _ ha).1 ⟨p, hp, rfl, o, ho, e, m⟩
      exact .inl ⟨x, hx, a, c, by rw [b]; exact h⟩
    · refine .inr ⟨fun x hx hs hm => ?_, h⟩
      obtain ⟨p, hp, -, o, ho, e, m⟩ := (hk s x.path _ ha).2 ⟨x, hx, hs, rfl, hm⟩
      exact hn p hp o ho e m

theorem ownersOf_wf (reply : SubTree) : (ownersOf reply).WF := owners_wf reply _ OMap.wf_empty

theorem noted_of_mem {reply : SubTree} {s : String} {v : Bool × String} (h : (s, v) ∈ (ownersOf reply).entries) :
    noted (ownersOf reply) s = v := by
  unfold noted
  rw [(OMap.mem_entries_iff (ownersOf_wf reply) s v).1 h]
  rfl

theorem mem_of_noted {reply : SubTree} {s : String} (h : (noted (ownersOf reply) s).1 = true) :
    (s, noted (ownersOf reply) s) ∈ (ownersOf reply).entries := by
  rw [OMap.mem_entries_iff (ownersOf_wf reply)]
  unfold noted at h ⊢
  cases hf : (ownersOf reply).find? s with
  | none => rw [hf] at h; cases h
  | some v => rfl

/-- **C107** The configurations read over D-Bus are those on the bus, each once and no others, whatever the order in which
the mapper, the services and the hash maps list them. -/
theorem C107_collected {objs : List BusObject} {b : ConfBus} {reply : SubTree} (hs : b.subTree = some reply)
    (hk : MapperKnows objs reply) (hm : ManagersAnswer objs b.managed) (ha : Arranged objs)
    (hne : ∃ o ∈ objs, o.Configures) (h : HashOrder) :
    ∃ l, l.Perm ((objs.filter (fun o => o.Configures)).map BusObject.interfaces) ∧
      busInit b h = (getSelectedProfiles b.modes b.mode >>= fun sel => dbusInit (b.view h reply) sel l) := by
  let S : String → ConfObj → Prop := fun p a => ∃ o ∈ objs, o.Configures ∧ o.path = p ∧ o.interfaces = a
  have hS : OnePerPath S := by
    rintro p a a' ⟨o, ho, c, rfl, rfl⟩ ⟨o', ho', c', e, rfl⟩
    rw [ha.paths o ho o' ho' c c' e.symm]
  have hmem : ∀ e, e ∈ h.order (ownersOf reply).entries ↔ e ∈ (ownersOf reply).entries := fun e => (h.perm _).mem_iff
  have hcall : ∀ e ∈ h.order (ownersOf reply).entries, e.2.1 = true → ∃ m ∈ objs, m.Manages ∧ m.service = e.1 ∧
      m.path = e.2.2 ∧ ∃ l, b.managed e.1 e.2.2 = some l ∧ ∀ path obj, (path, obj) ∈ l ↔
        ∃ o ∈ objs, o.service = e.1 ∧ o.path = path ∧ o.interfaces = obj ∧ BelowPath e.2.2 path := by
    rintro ⟨s, v⟩ he hv
    have hn := noted_of_mem ((hmem _).1 he)
    obtain ⟨h1, h2⟩ := owners_iff hk s
    rw [hn] at h1 h2
    obtain ⟨o, ho, rfl, hc⟩ := h1.1 hv
    rcases h2 with ⟨m, hmo, e, hma, hp⟩ | ⟨hno, -⟩
    · obtain ⟨l, hl1, hl2⟩ := hm m hmo hma
      refine ⟨m, hmo, hma, e, hp.symm, l, ?_, ?_⟩
      · dsimp only; rw [← e, hp]; exact hl1
      · dsimp only; rw [← e, hp]; exact hl2
    · obtain ⟨m, hmo, hma, e⟩ := ha.manager o ho hc
      exact absurd hma (hno m hmo e)
  obtain ⟨m', hc1, hc2, hc3⟩ := collectFrom_spec hS (managed := b.managed) (es := h.order (ownersOf reply).entries)
    (m := {}) OMap.wf_empty (by simp) (by
      intro e he hv
      obtain ⟨m, -, -, -, -, l, h1, h2⟩ := hcall e he hv
      refine ⟨l, h1, ?_⟩
      rintro ⟨p, a⟩ ho hc
      obtain ⟨o, hoo, -, rfl, rfl, -⟩ := (h2 p a).1 ho
      exact ⟨o, hoo, (hasConfiguration_iff o).1 hc, rfl, rfl⟩)
  have hfind : ∀ p a, m'.find? p = some a ↔ S p a := by
    intro p a
    rw [hc3]
    constructor
    · rintro (h' | ⟨hc, e, he, hv, l, h1, h2⟩)
      · simp at h'
      · obtain ⟨m, -, -, -, -, l', h1', h2'⟩ := hcall e he hv
        rw [h1] at h1'; cases h1'
        obtain ⟨o, hoo, -, rfl, rfl, -⟩ := (h2' p a).1 h2
        exact ⟨o, hoo, (hasConfiguration_iff o).1 hc, rfl, rfl⟩
    · rintro ⟨o, ho, hc, rfl, rfl⟩
      have hv := (owners_iff hk o.service).1.2 ⟨o, ho, rfl, hc⟩
      have he := (hmem _).2 (mem_of_noted hv)
      obtain ⟨m, hmo, hma, e1, e2, l, h1, h2⟩ := hcall _ he hv
      refine .inr ⟨(hasConfiguration_iff o).2 hc, _, he, hv, l, h1, (h2 _ _).2 ⟨o, ho, rfl, rfl, rfl, ?_⟩⟩
      rw [← e2]
      exact ha.below o ho hc m hmo hma e1
  refine ⟨(h.order m'.entries).map Prod.snd, ?_, ?_⟩
  · have h1 : m'.entries.Perm ((objs.filter (fun o => o.Configures)).map (fun o => (o.path, o.interfaces))) := by
      rw [List.perm_ext_iff_of_nodup]
      · rintro ⟨p, a⟩
        rw [OMap.mem_entries_iff hc2, hfind]
        simp [S, and_assoc]
      · exact (OMap.wf_nodup hc2).of_map
      · refine (List.nodup_map_iff_inj_on (ha.distinct.filter _)).2 ?_
        intro o ho o' ho' e
        simp only [List.mem_filter, decide_eq_true_eq] at ho ho'
        exact ha.paths o ho.1 o' ho'.1 ho.2 ho'.2 (congrArg Prod.fst e)
    have h2 := ((h.perm m'.entries).trans h1).map Prod.snd
    rw [List.map_map] at h2
    exact h2
  · unfold busInit
    rw [hs]
    obtain ⟨o, ho, hc⟩ := hne
    obtain ⟨m, hmo, hma, e⟩ := ha.manager o ho hc
    obtain ⟨p, hp, -⟩ := (hk m.service m.path objectManagerInterface (by simp [askedFor, objectManagerInterface])).2
      ⟨m, hmo, rfl, rfl, hma⟩
    cases reply with
    | nil => cases hp
    | cons r rs =>
      dsimp only
      rw [hc1]
      rfl

/-- the profiles selected are the modes of all objects that have one -/
theorem modesOf_ok {get : String → String → Option (Option String)} {path : String} : ∀ {l : List String},
    (∀ o ∈ l, ∃ v, get o path = some v) →
    ∃ r, modesOf get path l = .ok r ∧ ∀ x, x ∈ r ↔ ∃ o ∈ l, ∃ v, get o path = some v ∧ v.getD "" = x
  | [], _ => ⟨[], rfl, by simp⟩
  | o :: l, hall => by
    obtain ⟨v, hv⟩ := hall o List.mem_cons_self
    obtain ⟨r, h1, h2⟩ := modesOf_ok (fun o ho => hall o (List.mem_cons_of_mem _ ho))
    refine ⟨v.getD "" :: r, ?_, fun x => ?_⟩
    · simp only [modesOf, hv, h1]; rfl
    · rw [List.mem_cons, h2]
      simp [hv, eq_comm]

theorem modesOf_error {get : String → String → Option (Option String)} {path : String} : ∀ {l : List String} {o : String},
    o ∈ l → get o path = none → ∃ e, modesOf get path l = .error (.exc e)
  | o' :: l, o, ho, hg => by
    simp only [modesOf]
    cases h : get o' path with
    | none => exact ⟨_, rfl⟩
    | some v =>
      rcases List.mem_cons.1 ho with rfl | ho
      · rw [hg] at h; cases h
      · obtain ⟨e, he⟩ := modesOf_error ho hg
        exact ⟨e, by simp only [he]; rfl⟩

theorem modesOfAll_ok {get : String → String → Option (Option String)} : ∀ {modes : SubTree},
    (∀ o p, HasMode modes o p → ∃ v, get o p = some v) →
    ∃ r, modesOfAll get modes = .ok r ∧ ∀ x, x ∈ r ↔ ∃ o p, HasMode modes o p ∧ ∃ v, get o p = some v ∧ v.getD "" = x
  | [], _ => ⟨[], rfl, by simp [HasMode]⟩
  | (path, owners) :: rest, hall => by
    obtain ⟨r, h1, h2⟩ := modesOf_ok (get := get) (path := path) (l := owners.map Prod.fst) (by
      intro o ho
      obtain ⟨e, he, rfl⟩ := List.mem_map.1 ho
      exact hall _ _ ⟨_, List.mem_cons_self, rfl, e, he, rfl⟩)
    obtain ⟨r', h3, h4⟩ := modesOfAll_ok (get := get) (modes := rest) (by
      rintro o p ⟨q, hq, h⟩
      exact hall o p ⟨q, List.mem_cons_of_mem _ hq, h⟩)
    refine ⟨r ++ r', by simp only [modesOfAll, h1, h3, ok_bind], fun x => ?_⟩
    rw [List.mem_append, h2, h4]
    constructor
    · rintro (⟨o, ho, v, h⟩ | ⟨o, p, ⟨q, hq, h⟩, h'⟩)
      · obtain ⟨e, he, rfl⟩ := List.mem_map.1 ho
        exact ⟨e.1, path, ⟨_, List.mem_cons_self, rfl, e, he, rfl⟩, v, h⟩
      · exact ⟨o, p, ⟨q, List.mem_cons_of_mem _ hq, h⟩, h'⟩
    · rintro ⟨o, p, ⟨q, hq, rfl, e, he, rfl⟩, v, h⟩
      rcases List.mem_cons.1 hq with rfl | hq
      · exact .inl ⟨e.1, List.mem_map.2 ⟨e, he, rfl⟩, v, h⟩
      · exact .inr ⟨e.1, q.1, ⟨q, hq, rfl, e, he, rfl⟩, v, h⟩

theorem modesOfAll_error {get : String → String → Option (Option String)} : ∀ {modes : SubTree} {o p : String},
    HasMode modes o p → get o p = none → ∃ e, modesOfAll get modes = .error (.exc e)
  | [], _, _, h, _ => by simp [HasMode] at h
  | (path, owners) :: rest, o, p, ⟨q, hq, hp, e, he, ho⟩, hg => by
    by_cases hf : ∃ o' ∈ owners.map Prod.fst, get o' path = none
    · obtain ⟨o', ho', hg'⟩ := hf
      obtain ⟨x, hx⟩ := modesOf_error ho' hg'
      exact ⟨x, by simp only [modesOfAll, hx, error_bind]⟩
    · obtain ⟨r, h1, -⟩ := modesOf_ok (get := get) (path := path) (l := owners.map Prod.fst) (by
        intro o' ho'
        rw [← Option.ne_none_iff_exists']
        exact fun h => hf ⟨o', ho', h⟩)
      rcases List.mem_cons.1 hq with rfl | hq
      · subst hp
        exact absurd ⟨o, List.mem_map.2 ⟨e, he, ho⟩, hg⟩ hf
      · obtain ⟨x, hx⟩ := modesOfAll_error (modes := rest) ⟨q, hq, hp, e, he, ho⟩ hg
        exact ⟨x, by simp only [modesOfAll, h1, hx, ok_bind, error_bind]⟩

/-- **C107** The profiles selected are the thermal modes of all objects that have one. If one of them cannot be asked, nothing
is configured, and it is tried again later. -/
theorem C107_profiles {modes : SubTree} {get : String → String → Option (Option String)} :
    (∀ sel, getSelectedProfiles (some modes) get = .ok sel →
      (∀ o p, HasMode modes o p → get o p ≠ none) ∧
      ∀ x, x ∈ sel ↔ ∃ o p, HasMode modes o p ∧ (get o p = some (some x) ∨ (x = "" ∧ get o p = some none))) ∧
    ((∃ o p, HasMode modes o p ∧ get o p = none) → ∃ e, getSelectedProfiles (some modes) get = .error (.exc e)) ∧
    ((∀ o p, HasMode modes o p → get o p ≠ none) → ∃ sel, getSelectedProfiles (some modes) get = .ok sel) := by
  refine ⟨fun sel h => ?_, ?_, ?_⟩
  · have hall : ∀ o p, HasMode modes o p → get o p ≠ none := by
      intro o p hm hn
      obtain ⟨e, he⟩ := modesOfAll_error hm hn
      simp only [getSelectedProfiles, he] at h
      cases h
    refine ⟨hall, fun x => ?_⟩
    obtain ⟨r, h1, h2⟩ := modesOfAll_ok (fun o p hm => Option.ne_none_iff_exists'.1 (hall o p hm))
    simp only [getSelectedProfiles, h1] at h
    cases h
    rw [h2]
    refine exists_congr fun o => exists_congr fun p => and_congr_right fun _ => ?_
    constructor
    · rintro ⟨v, hv, rfl⟩
      cases v with
      | none => exact .inr ⟨rfl, hv⟩
      | some y => exact .inl hv
    · rintro (hv | ⟨rfl, hv⟩)
      · exact ⟨_, hv, rfl⟩
      · exact ⟨_, hv, rfl⟩
  · rintro ⟨o, p, hm, hg⟩
    exact modesOfAll_error hm hg
  · intro hall
    obtain ⟨r, h1, -⟩ := modesOfAll_ok (fun o p hm => Option.ne_none_iff_exists'.1 (hall o p hm))
    exact ⟨r, h1⟩

/-- **C107** If the mapper does not answer, be it about configurations or about thermal modes, nothing is configured. -/
theorem C107_no_answer {b : ConfBus} (hb : b.subTree = none ∨ b.modes = none) (h : HashOrder) (r : Bool × DbusCfg) :
    busInit b h ≠ .ok r := by
  intro hr
  unfold busInit at hr
  rcases hb with hb | hb
  · rw [hb] at hr
    cases hr
  · have hg : ∃ e, getSelectedProfiles b.modes b.mode = .error e := by rw [hb]; exact ⟨_, rfl⟩
    obtain ⟨e, hg⟩ := hg
    revert hr
    cases b.subTree with
    | none => intro hr; cases hr
    | some reply =>
      cases reply with
      | nil => intro hr; cases hr
      | cons x xs =>
        intro hr
        obtain ⟨_, -, hr⟩ := bind_eq_ok.1 hr
        rw [hg] at hr
        cases hr

/-- **C107** With no thermal mode on the bus there is no selection: every configuration applies, whatever profiles
it names, those for different modes side by side. -/
theorem C107_no_modes (get : String → String → Option (Option String)) (objs : List ConfObj) (i : String) (p : ConfProps) :
    getSelectedProfiles (some []) get = .ok [] ∧ (Active [] objs i p ↔ ∃ o ∈ objs, o.find? i = some p) :=
  ⟨rfl, ⟨fun ⟨o, ho, h, _⟩ => ⟨o, ho, h⟩, fun ⟨o, ho, h⟩ => ⟨o, ho, h, .inl rfl⟩⟩⟩

/-- **C107** (finding) A service with configurations but no object manager is asked at the empty path. That call fails, so
nothing at all is configured as long as the service is there, the configurations of other services included. -/
theorem C107_without_manager {objs : List BusObject} {b : ConfBus} {reply : SubTree} (hs : b.subTree = some reply)
    (hk : MapperKnows objs reply) {o : BusObject} (ho : o ∈ objs) (hc : o.Configures)
    (hno : ∀ m ∈ objs, m.service = o.service → ¬ m.Manages) (hempty : b.managed o.service "" = none) (h : HashOrder) :
    ∃ e, busInit b h = .error (.exc e) := by
  obtain ⟨h1, h2⟩ := owners_iff hk o.service
  have hv := h1.2 ⟨o, ho, rfl, hc⟩
  have hp : (noted (ownersOf reply) o.service).2 = "" := by
    rcases h2 with ⟨m, hm, e, hma, -⟩ | ⟨-, h⟩
    · exact absurd hma (hno m hm e)
    · exact h
  obtain ⟨x, hx⟩ := collectFrom_error (managed := b.managed) (m := {}) (es := h.order (ownersOf reply).entries)
    ⟨_, (h.perm _).mem_iff.2 (mem_of_noted hv), hv, by dsimp only; rw [hp]; exact hempty⟩
  unfold busInit
  rw [hs]
  cases reply with
  | nil => exact ⟨_, rfl⟩
  | cons r rs =>
    dsimp only
    rw [hx]
    exact ⟨x, rfl⟩

/-! ## Sensors -/

/-- `i` at `path` is a sensor or a control -/
def servesAt (path i : String) : Prop := (i = valueInterface ∧ ¬ "pwm".toList <:+: path.toList) ∨ i = pwmInterface

omit F in
theorem noteSensor_eq (path : String) (m : OMap String String) (i : String) :
    (servesAt path i → noteSensor path m i = m.insert path i) ∧ (¬ servesAt path i → noteSensor path m i = m) := by
  unfold servesAt noteSensor
  have hv : ¬ valueInterface = pwmInterface := by decide
  rw [← containsSub_iff]
  by_cases h1 : i = valueInterface
  · subst h1
    by_cases h2 : containsSub path "pwm" = true
    · simp [h2, hv]
    · simp [h2]
  · by_cases h2 : i = pwmInterface
    · subst h2
      have hv' : ¬ pwmInterface = valueInterface := fun e => hv e.symm
      simp [hv']
    · simp [h1, h2]

/-- what is known of the sensors noted -/
structure SensorsNoted (l : List (String × String)) (m : OMap String String) : Prop where
  wf : m.WF
  only : ∀ p i, m.find? p = some i → (p, i) ∈ l ∧ servesAt p i
  all : ∀ p i, (p, i) ∈ l → servesAt p i → ∃ j, m.find? p = some j

omit F in
theorem noteSensor_noted {l : List (String × String)} {m : OMap String String} (h : SensorsNoted l m) (path i : String) :
    SensorsNoted (l ++ [(path, i)]) (noteSensor path m i) := by
  by_cases hs : servesAt path i
  · rw [(noteSensor_eq path m i).1 hs]
    refine ⟨OMap.wf_insert h.wf _ _, fun p j hj => ?_, fun p j hj hsj => ?_⟩
    · rw [OMap.find?_insert] at hj
      split_ifs at hj with hp
      · cases hj; subst hp; exact ⟨by simp, hs⟩
      · exact ⟨List.mem_append_left _ (h.only p j hj).1, (h.only p j hj).2⟩
    · rw [OMap.find?_insert]
      split_ifs with hp
      · exact ⟨_, rfl⟩
      · rcases List.mem_append.1 hj with hj | hj
        · exact h.all p j hj hsj
        · simp at hj; exact absurd hj.1 hp
  · rw [(noteSensor_eq path m i).2 hs]
    refine ⟨h.wf, fun p j hj => ⟨List.mem_append_left _ (h.only p j hj).1, (h.only p j hj).2⟩, fun p j hj hsj => ?_⟩
    rcases List.mem_append.1 hj with hj | hj
    · exact h.all p j hj hsj
    · simp at hj; obtain ⟨rfl, rfl⟩ := hj; exact absurd hsj hs

omit F in
theorem noteSensors_noted (path : String) : ∀ (is : List String) {l : List (String × String)} {m : OMap String String},
    SensorsNoted l m → SensorsNoted (l ++ is.map (fun i => (path, i))) (is.foldl (noteSensor path) m)
  | [], l, m, h => by simpa using h
  | i :: is, l, m, h => by
    have := noteSensors_noted path is (noteSensor_noted h path i)
    simpa using this

omit F in
theorem sensorsOfReply_noted : ∀ (reply : List (String × List String)) {l : List (String × String)} {m : OMap String String},
    SensorsNoted l m → SensorsNoted (l ++ reply.flatMap (fun o => o.2.map (fun i => (o.1, i))))
      (reply.foldl (fun m o => o.2.foldl (noteSensor o.1) m) m)
  | [], l, m, h => by simpa using h
  | o :: reply, l, m, h => by
    have := sensorsOfReply_noted reply (noteSensors_noted o.1 o.2 h)
    simpa using this

/-- **C107** The sensors that inputs are looked up in are those on the bus, each path once: the sensors to be read whose path
does not contain `pwm`, and the controls of fans. -/
theorem C107_sensors {objs : List BusObject} {b : ConfBus} {reply : SubTree} (hk : MapperKnows objs reply) (h : HashOrder) :
    (∀ p i, (p, i) ∈ (b.view h reply).sensors → ∃ o ∈ objs, o.path = p ∧ o.Serves i) ∧
    (∀ o ∈ objs, ∀ i, o.Serves i → ∃ j, (o.path, j) ∈ (b.view h reply).sensors) ∧
    ((b.view h reply).sensors.map Prod.fst).Nodup := by
  have hn := sensorsOfReply_noted (reply.map (fun p => (p.1, p.2.flatMap Prod.snd))) (l := []) (m := {})
    ⟨OMap.wf_empty, by simp, by simp⟩
  rw [List.nil_append] at hn
  change SensorsNoted _ (sensorsOfReply (reply.map (fun p => (p.1, p.2.flatMap Prod.snd)))) at hn
  have hmem : ∀ e, e ∈ (b.view h reply).sensors ↔
      e ∈ (sensorsOfReply (reply.map (fun p => (p.1, p.2.flatMap Prod.snd)))).entries := fun e => (h.perm _).mem_iff
  have hl : ∀ p i, (p, i) ∈ (reply.map (fun p => (p.1, p.2.flatMap Prod.snd))).flatMap (fun o => o.2.map (fun i => (o.1, i))) ↔
      ∃ s, ∃ q ∈ reply, q.1 = p ∧ ∃ e ∈ q.2, e.1 = s ∧ i ∈ e.2 := by
    intro p i
    simp only [List.mem_flatMap, List.mem_map, Prod.mk.injEq]
    constructor
    · rintro ⟨_, ⟨q, hq, rfl⟩, j, hj, rfl, rfl⟩
      obtain ⟨e, he, hi⟩ := List.mem_flatMap.1 hj
      exact ⟨e.1, q, hq, rfl, e, he, rfl, hi⟩
    · rintro ⟨s, q, hq, rfl, e, he, -, hi⟩
      exact ⟨_, ⟨q, hq, rfl⟩, i, List.mem_flatMap.2 ⟨e, he, hi⟩, rfl, rfl⟩
  refine ⟨fun p i hi => ?_, fun o ho i hi => ?_, ?_⟩
  · obtain ⟨h1, h2⟩ := hn.only p i ((OMap.mem_entries_iff hn.wf p i).1 ((hmem _).1 hi))
    have ha : i ∈ askedFor := by
      rcases h2 with ⟨rfl, -⟩ | rfl <;> simp [askedFor, valueInterface, pwmInterface]
    obtain ⟨s, hs⟩ := (hl p i).1 h1
    obtain ⟨o, ho, -, rfl, hh⟩ := (hk s p i ha).1 hs
    exact ⟨o, ho, rfl, hh, h2⟩
  · have ha : i ∈ askedFor := by
      rcases hi.2 with ⟨rfl, -⟩ | rfl <;> simp [askedFor]
    have := (hk o.service o.path i ha).2 ⟨o, ho, rfl, rfl, hi.1⟩
    obtain ⟨j, hj⟩ := hn.all o.path i ((hl _ _).2 ⟨_, this⟩) hi.2
    exact ⟨j, (hmem _).2 ((OMap.mem_entries_iff hn.wf _ _).2 hj)⟩
  · exact (((h.perm _).map Prod.fst).nodup_iff).2 (OMap.wf_nodup hn.wf)

/-! ## What is configured -/

theorem active_objs {sel : List String} {objs : List BusObject} {l : List ConfObj}
    (hp : l.Perm ((objs.filter (fun o => o.Configures)).map BusObject.interfaces)) {i : String}
    (hi : i = pidInterface ∨ i = zoneInterface ∨ i = stepwiseInterface) (p : ConfProps) :
    Active sel l i p ↔ ∃ o ∈ objs, o.interfaces.find? i = some p ∧ Selected sel p := by
  unfold Active
  constructor
  · rintro ⟨o, ho, h⟩
    obtain ⟨x, hx, rfl⟩ := List.mem_map.1 (hp.mem_iff.1 ho)
    exact ⟨x, (List.mem_filter.1 hx).1, h⟩
  · rintro ⟨x, hx, h⟩
    refine ⟨x.interfaces, hp.mem_iff.2 (List.mem_map.2 ⟨x, List.mem_filter.2 ⟨hx, ?_⟩, rfl⟩), h⟩
    rw [decide_eq_true_eq]
    have : x.interfaces.find? i ≠ none := by rw [h.1]; simp
    rcases hi with rfl | rfl | rfl
    · exact .inl this
    · exact .inr (.inl this)
    · exact .inr (.inr this)

/-- **C107** What the services offer is what is configured: after a successful reading, the profiles selected are `sel`,
every zone on the bus for these is there with its settings, every loop is there in each of its zones, and all zones are from
the bus. -/
theorem C107_configured {objs : List BusObject} {b : ConfBus} {reply : SubTree} (hs : b.subTree = some reply)
    (hk : MapperKnows objs reply) (hm : ManagersAnswer objs b.managed) (ha : Arranged objs)
    (hne : ∃ o ∈ objs, o.Configures) (hw : ∀ o ∈ objs, OMap.WF o.interfaces) {h : HashOrder} {r : Bool} {c : DbusCfg}
    (hok : busInit b h = .ok (r, c)) :
    ∃ sel, getSelectedProfiles b.modes b.mode = .ok sel ∧
      (DistinctZones sel (objs.map BusObject.interfaces) →
        (∀ o ∈ objs, ∀ z, o.interfaces.find? "xyz.openbmc_project.Configuration.Pid.Zone" = some z → Selected sel z →
          ∃ n i d, Attr z "Name" TextValue n ∧ c.numbers.find? n = some i ∧ c.zones.find? i = some d ∧ ZoneSettings z d) ∧
        ∀ i d, c.zones.find? i = some d → ∃ o ∈ objs, ∃ z n,
          o.interfaces.find? "xyz.openbmc_project.Configuration.Pid.Zone" = some z ∧ Selected sel z ∧
          Attr z "Name" TextValue n ∧ c.numbers.find? n = some i ∧ ZoneSettings z d) ∧
      (∀ o ∈ objs, ∀ p zones zone name, o.interfaces.find? "xyz.openbmc_project.Configuration.Pid" = some p →
        Selected sel p → Attr p "Zones" NamesValue zones → zone ∈ zones → p.find? "SetPointOffset" = none →
        Attr p "Name" TextValue name →
        ∃ names, PidNames (b.view h reply) p names ∧ (names ≠ [] →
          ∃ i conf info, c.numbers.find? zone = some i ∧ c.pids.find? i = some conf ∧
            conf.find? (sensorNameToDbusName name) = some info)) ∧
      ∀ o ∈ objs, ∀ p zones zone name inputs acceptable,
        o.interfaces.find? "xyz.openbmc_project.Configuration.Stepwise" = some p → Selected sel p →
        Attr p "Zones" NamesValue zones → zone ∈ zones → Attr p "Name" TextValue name →
        Attr p "Inputs" NamesValue inputs → AttrOr p "MissingIsAcceptable" NamesValue [] acceptable →
        stepNames (b.view h reply) acceptable inputs ≠ [] →
        ∃ i conf info, c.numbers.find? zone = some i ∧ c.pids.find? i = some conf ∧
          conf.find? (sensorNameToDbusName name) = some info := by
  obtain ⟨l, hp, hb⟩ := C107_collected hs hk hm ha hne h
  rw [hb] at hok
  obtain ⟨sel, h1, h2⟩ := bind_eq_ok.1 hok
  have hwl : ∀ o ∈ l, OMap.WF o := by
    intro o ho
    obtain ⟨x, hx, rfl⟩ := List.mem_map.1 (hp.mem_iff.1 ho)
    exact hw x (List.mem_filter.1 hx).1
  refine ⟨sel, h1, fun hd => ?_, ?_, ?_⟩
  · have hdl : DistinctZones sel l := by
      unfold DistinctZones at hd ⊢
      refine (hp.symm.pairwise ?_ ?_)
      · exact hd.sublist (List.filter_sublist.map _)
      · intro o o' hoo z z' n a b' c' d' e f
        exact hoo z' z n c' d' a b' f e
    obtain ⟨a1, a2⟩ := C82_settings hwl hdl h2
    refine ⟨fun o ho z hz hsel => a2 z ((active_objs hp (.inr (.inl rfl)) z).2 ⟨o, ho, hz, hsel⟩), fun i d hi => ?_⟩
    obtain ⟨z, n, hA, hrest⟩ := a1 i d hi
    obtain ⟨o, ho, hz, hsel⟩ := (active_objs hp (.inr (.inl rfl)) z).1 hA
    exact ⟨o, ho, z, n, hz, hsel, hrest⟩
  · intro o ho p zones zone name hf hsel hz hmem hso hname
    obtain ⟨names, i, conf, a1, a2, a3, a4, -⟩ :=
      C83_present hwl h2 ((active_objs hp (.inl rfl) p).2 ⟨o, ho, hf, hsel⟩) hz hmem
    refine ⟨names, a1, fun hne => ?_⟩
    obtain ⟨info, hi⟩ := a4 hso hne name hname
    exact ⟨i, conf, info, a2, a3, hi⟩
  · intro o ho p zones zone name inputs acceptable hf hsel hz hmem hname hin hac hne
    exact C84_present hwl h2 ((active_objs hp (.inr (.inr rfl)) p).2 ⟨o, ho, hf, hsel⟩) hz hmem hname hin hac hne

end

namespace Ex
section
variable [F : FloatModel]

/-- a mapper that knows the objects -/
def mapperOf (objs : List BusObject) : SubTree :=
  objs.map (fun o => (o.path, [(o.service, o.interfaces.entries.map Prod.fst)]))

instance (top path : String) : Decidable (BelowPath top path) := by unfold BelowPath; infer_instance
instance (o : BusObject) : Decidable o.Manages := by unfold BusObject.Manages BusObject.Has; infer_instance

/-- object managers of these objects -/
def managersOf (objs : List BusObject) (service path : String) : Option (List (String × ConfObj)) :=
  if ∃ m ∈ objs, m.Manages ∧ m.service = service ∧ m.path = path then
    some ((objs.filter (fun o => o.service = service ∧ BelowPath path o.path)).map (fun o => (o.path, o.interfaces)))
  else none

/-- a bus with these objects -/
def busOf107 (objs : List BusObject) (modes : SubTree) (mode : String → String → Option (Option String)) : ConfBus :=
  ⟨false, some (mapperOf objs), managersOf objs, some modes, mode,
    fun p => some (fun path => p.toList.dropLast.isSuffixOf path.toList), fun _ _ _ => .ok 80⟩

theorem mapper_knows (objs : List BusObject) : MapperKnows objs (mapperOf objs) := by
  intro service path i _
  constructor
  · rintro ⟨p, hp, rfl, s, hs, rfl, hi⟩
    obtain ⟨o, ho, rfl⟩ := List.mem_map.1 hp
    simp only [List.mem_singleton] at hs
    subst hs
    refine ⟨o, ho, rfl, rfl, ?_⟩
    intro hn
    obtain ⟨e, he, h⟩ := List.mem_map.1 hi
    exact (OMap.lookupL_none_iff i _).1 hn e he h
  · rintro ⟨o, ho, rfl, rfl, hh⟩
    refine ⟨_, List.mem_map.2 ⟨o, ho, rfl⟩, rfl, _, List.mem_singleton.2 rfl, rfl, ?_⟩
    by_contra hc
    exact hh ((OMap.lookupL_none_iff i _).2 (fun e he h => hc (List.mem_map.2 ⟨e, he, h⟩)))

theorem managers_answer (objs : List BusObject) : ManagersAnswer objs (managersOf objs) := by
  intro m hm hma
  refine ⟨_, if_pos ⟨m, hm, hma, rfl, rfl⟩, fun path obj => ?_⟩
  simp only [List.mem_map, List.mem_filter, decide_eq_true_eq, Prod.mk.injEq]
  constructor
  · rintro ⟨o, ⟨ho, h1, h2⟩, rfl, rfl⟩
    exact ⟨o, ho, h1, rfl, rfl, h2⟩
  · rintro ⟨o, ho, h1, rfl, rfl, h2⟩
    exact ⟨o, ⟨ho, h1, h2⟩, rfl, rfl⟩

end

section
attribute [local instance] binary64

/-- an object with these interfaces and no properties -/
def plain107 (service path : String) (interfaces : List String) : BusObject :=
  ⟨service, path, ⟨interfaces.map (fun i => (i, {}))⟩⟩

/-- two services with configurations for two profiles, and sensors of a third service -/
def objs107 : List BusObject :=
  [plain107 "em" "/inventory" ["org.freedesktop.DBus.ObjectManager"],
   ⟨"em", "/inventory/board/Zone", ⟨[(zoneInterface, zoneConf "Left" [("ZoneIndex", .dbl 3)])]⟩⟩,
   ⟨"em", "/inventory/board/Fan", ⟨[(pidInterface, busFan [])]⟩⟩,
   ⟨"other", "/more/Step", ⟨[(stepwiseInterface, stepConf ["Core 2"] [("Profiles", .strs ["Acoustic"])])]⟩⟩,
   ⟨"other", "/more/Heat", ⟨[(pidInterface, heatConf ["Core 1"] [("Profiles", .strs ["Performance"])])]⟩⟩,
   plain107 "other" "/" ["org.freedesktop.DBus.ObjectManager"],
   plain107 "hwmon" "/sensors/temperature/Core_1" [valueInterface],
   plain107 "hwmon" "/sensors/temperature/Core_2" [valueInterface],
   plain107 "hwmon" "/sensors/fan_tach/Fan_1" [valueInterface],
   plain107 "hwmon" "/sensors/fan_pwm/Pwm_1" [valueInterface, pwmInterface]]

/-- the mode of the system is `m` -/
def bus107 (m : String) : ConfBus := busOf107 objs107 [("/control/thermal_mode", [("settings", [])])] (fun _ _ => some (some m))

def asListed : HashOrder := ⟨id, fun _ => .refl _⟩
def reversed : HashOrder := ⟨List.reverse, List.reverse_perm⟩

/-- loops of zone 3 with their inputs -/
def loops107 (b : ConfBus) (h : HashOrder) : Option (List (String × List SensorInput)) :=
  match busInit b h with
  | .ok (_, c) => (c.pids.find? 3).map (fun conf => conf.entries.map (fun e => (e.1, e.2.inputs)))
  | .error _ => none

/-- C107: the loop of the profile selected is there, the other one is not, in whatever order things come -/
example : loops107 (bus107 "Acoustic") asListed = some
    [("Fan_loop", [⟨"Fan_1Pwm_1", nan, false, false⟩]), ("Step_loop", [⟨"Core_2", nan, false, false⟩])] := by decide +kernel
example : loops107 (bus107 "Acoustic") reversed = some
    [("Fan_loop", [⟨"Fan_1Pwm_1", nan, false, false⟩]), ("Step_loop", [⟨"Core_2", nan, false, false⟩])] := by decide +kernel
example : loops107 (bus107 "Performance") reversed = some
    [("CPU_loop", [⟨"Core_1", nan, false, false⟩]), ("Fan_loop", [⟨"Fan_1Pwm_1", nan, false, false⟩])] := by decide +kernel

/-- C107_no_modes: without a mode on the bus both apply -/
example : loops107 (busOf107 objs107 [] (fun _ _ => none)) asListed = some
    [("CPU_loop", [⟨"Core_1", nan, false, false⟩]), ("Fan_loop", [⟨"Fan_1Pwm_1", nan, false, false⟩]),
     ("Step_loop", [⟨"Core_2", nan, false, false⟩])] := by decide +kernel

/-- a mode that is no string selects the profile with the empty name: neither loop applies -/
example : loops107 (busOf107 objs107 [("/control/thermal_mode", [("settings", [])])] (fun _ _ => some none)) asListed = some
    [("Fan_loop", [⟨"Fan_1Pwm_1", nan, false, false⟩])] := by decide +kernel

/-- C107_without_manager: the object manager of the service `other` is missing -/
example : (busInit (busOf107 (objs107.take 5) [] (fun _ _ => none)) asListed).isOk = false := by decide +kernel

/-- the hypotheses of `C107_configured` hold -/
example : Arranged objs107 := by
  refine ⟨?_, ?_, ?_, ?_, ?_⟩
  · refine List.Nodup.of_map BusObject.path ?_
    decide +kernel
  · decide +kernel
  · decide +kernel
  · decide +kernel
  · have : ∀ o ∈ objs107, ∀ o' ∈ objs107, o.path = o'.path → o = o' := by
      have hn : (objs107.map BusObject.path).Nodup := by decide +kernel
      intro o ho o' ho' e
      exact List.inj_on_of_nodup_map hn ho ho' e
    exact fun o ho o' ho' _ _ e => this o ho o' ho' e
example : ∃ o ∈ objs107, o.Configures := by decide +kernel

end
end Ex

section
attribute [local instance] binary64
open Ex

/-- **C107** (finding) A service with two object managers is only asked at the one the mapper lists last: with the same
objects on the bus, a zone and its loops are configured or not depending on the order of a hash map. -/
theorem C107_two_managers : ∃ (objs : List BusObject) (b b' : ConfBus) (reply reply' : SubTree),
    b.subTree = some reply ∧ b'.subTree = some reply' ∧ reply'.Perm reply ∧ MapperKnows objs reply ∧
    b'.managed = b.managed ∧ ManagersAnswer objs b.managed ∧
    (∀ o ∈ objs, o.Configures → ∃ m ∈ objs, m.Manages ∧ m.service = o.service ∧ BelowPath m.path o.path) ∧
    (∃ c, busInit b asListed = .ok (true, c) ∧ c.pids.contains 3 = true) ∧
    ∃ c, busInit b' asListed = .ok (false, c) ∧ c.zones.entries = [] := by
  let objs := plain107 "em" "/other" ["org.freedesktop.DBus.ObjectManager"] :: objs107
  let b := busOf107 objs [] (fun _ _ => none)
  let b' : ConfBus := ⟨b.handleMissing, some (mapperOf objs).reverse, b.managed, b.modes, b.mode, b.regex, b.threshold⟩
  refine ⟨objs, b, b', mapperOf objs, (mapperOf objs).reverse, rfl, rfl, List.reverse_perm _, mapper_knows _, rfl,
    managers_answer _, ?_, ?_, ?_⟩
  · decide +kernel
  · obtain ⟨⟨r, c⟩, h, h'⟩ := ok_of_any (x := busInit b asListed) (P := fun r : Bool × DbusCfg => r.1 && r.2.pids.contains 3)
      (by decide +kernel)
    rw [Bool.and_eq_true] at h'
    obtain ⟨rfl, h2⟩ := h'
    exact ⟨c, h, h2⟩
  · obtain ⟨⟨r, c⟩, h, h'⟩ := ok_of_any (x := busInit b' asListed) (P := fun r : Bool × DbusCfg => !r.1 && r.2.zones.isEmpty)
      (by decide +kernel)
    rw [Bool.and_eq_true, Bool.not_eq_true'] at h'
    obtain ⟨h1, h2⟩ := h'
    dsimp only at h1; subst h1
    exact ⟨c, h, by simpa [OMap.isEmpty] using h2⟩

end
end Verif
