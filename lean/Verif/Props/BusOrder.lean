import Verif.Lemmas.BusOrder
import Verif.Props.BusWritten

/-! # C135: the order in which the bus lists configurations -/

namespace Verif
open Dbl
section
variable [F : FloatModel]

/-- **C135** An unambiguous configuration over D-Bus comes to the same sensors, loops and zones in whatever order its objects and
the sensors on the bus are listed. -/
theorem C135_order {b b' : BusView} (hv : SameBus b b') (hm : b.handleMissing = false) {sel : List String}
    {objs objs' : List ConfObj} (ho : objs'.Perm objs) (hw : ∀ o ∈ objs, OMap.WF o) (hu : Unambiguous b sel objs)
    (r : Bool × DbusCfg) : dbusInit b sel objs = .ok r ↔ dbusInit b' sel objs' = .ok r :=
  ⟨dbusInit_order hv hm ho hw hu, dbusInit_order hv.symm (hv.missing.trans hm) ho.symm (fun o h => hw o (ho.mem_iff.1 h))
    (hu.same hv ho)⟩

/-- the sensors on the bus -/
theorem views_same {objs objs' : List BusObject} {b b' : ConfBus} {reply reply' : SubTree} (hb : Tells objs b reply)
    (hb' : Tells objs' b' reply') (ho : objs'.Perm objs) (he : SameElse b b') (h1 : OneRole objs) (h h' : HashOrder) :
    SameBus (b.view h reply) (b'.view h' reply') := by
  obtain ⟨a1, a2, a3⟩ := C107_sensors (b := b) hb.mapper h
  obtain ⟨c1, c2, c3⟩ := C107_sensors (b := b') hb'.mapper h'
  refine ⟨he.missing.symm, he.regex.symm, he.threshold.symm, ?_⟩
  refine (List.perm_ext_iff_of_nodup (List.Nodup.of_map _ c3) (List.Nodup.of_map _ a3)).2 ?_
  have key : ∀ (os : List BusObject) (l l' : List (String × String)), OneRole os →
      (∀ p i, (p, i) ∈ l → ∃ o ∈ os, o.path = p ∧ o.Serves i) → (∀ p i, (p, i) ∈ l' → ∃ o ∈ os, o.path = p ∧ o.Serves i) →
      (∀ o ∈ os, ∀ i, o.Serves i → ∃ j, (o.path, j) ∈ l') → ∀ e ∈ l, e ∈ l' := by
    rintro os l l' hr x1 x2 x3 ⟨p, i⟩ hl
    obtain ⟨o, hoo, rfl, hs⟩ := x1 p i hl
    obtain ⟨j, hj⟩ := x3 o hoo i hs
    obtain ⟨o', hoo', hp, hs'⟩ := x2 _ _ hj
    rw [hr o hoo o' hoo' i j hp.symm hs hs']
    exact hj
  have h1' : OneRole objs' := fun o hm o' hm' => h1 o (ho.mem_iff.1 hm) o' (ho.mem_iff.1 hm')
  have move : ∀ {l l' : List BusObject} (hp : l'.Perm l) (p i : String), (∃ o ∈ l', o.path = p ∧ o.Serves i) →
      ∃ o ∈ l, o.path = p ∧ o.Serves i := fun hp p i ⟨o, hm, h⟩ => ⟨o, hp.mem_iff.1 hm, h⟩
  intro e
  exact ⟨key objs _ _ h1 (fun p i hm => move ho p i (c1 p i hm)) a1 a2 e,
    key objs' _ _ h1' (fun p i hm => move ho.symm p i (a1 p i hm)) c1 c2 e⟩

/-- **C135** The same objects on the bus, with an unambiguous configuration, come to the same whatever the order in which the
mapper, the services and the hash maps list them: either no order can be read, or every attempt to start ends the same, with the
same daemon. -/
theorem C135_same {objs objs' : List BusObject} {b b' : ConfBus} {reply reply' : SubTree} (hb : Tells objs b reply)
    (hb' : Tells objs' b' reply') (ho : objs'.Perm objs) (he : SameElse b b') (h1 : OneRole objs) {h0 : HashOrder}
    {sel : List String} (hsel : getSelectedProfiles b.modes b.mode = .ok sel)
    (hu : Unambiguous (b.view h0 reply) sel (confsOf objs)) (h h' : HashOrder) :
    (∀ r, busInit b h = .ok r ↔ busInit b' h' = .ok r) ∧
    ∀ o conf f bus now w, Source conf f none →
      ((∃ r, busInit b h = .ok r) → attempt o conf f b h bus now w = attempt o conf f b' h' bus now w) ∧
      ∀ d, attempt o conf f b h bus now w = .running d ↔ attempt o conf f b' h' bus now w = .running d := by
  obtain ⟨l, hp, e1⟩ := C107_collected hb.subTree hb.mapper hb.managers hb.arranged hb.configured h
  obtain ⟨l', hp', e2⟩ := C107_collected hb'.subTree hb'.mapper hb'.managers hb'.arranged hb'.configured h'
  rw [← he.modes, ← he.mode] at e2
  rw [hsel, ok_bind] at e1 e2
  have hpc : (confsOf objs').Perm (confsOf objs) := (ho.filter _).map _
  have hwl : ∀ o ∈ l, OMap.WF o := by
    intro o hm
    obtain ⟨x, hx, rfl⟩ := List.mem_map.1 (hp.mem_iff.1 hm)
    exact hb.sorted x (List.mem_filter.1 hx).1
  have hu1 : Unambiguous (b.view h reply) sel l := hu.same (view_same b h0 h reply) hp
  have hll : l'.Perm l := hp'.trans (hpc.trans hp.symm)
  have key : ∀ r, busInit b h = .ok r ↔ busInit b' h' = .ok r := by
    intro r
    rw [e1, e2]
    exact C135_order (views_same hb hb' ho he h1 h h') hb.missing hll hwl hu1 r
  refine ⟨key, fun o conf f bus now w hs => ?_⟩
  have same : (∃ r, busInit b h = .ok r) → attempt o conf f b h bus now w = attempt o conf f b' h' bus now w := by
    rintro ⟨r, hr⟩
    rw [attempt_bus hs, attempt_bus hs, hr, (key r).1 hr]
  refine ⟨same, fun d => ?_⟩
  cases hr : busInit b h with
  | ok r => rw [same ⟨r, hr⟩]
  | error e =>
    cases hr' : busInit b' h' with
    | ok r' => rw [(key r').2 hr'] at hr; cases hr
    | error e' =>
      rw [attempt_bus hs, attempt_bus hs, hr, hr']
      cases e <;> cases e' <;> simp

end

namespace Ex
section
attribute [local instance] binary64

/-! A checker for examples -/

def strs135 (p : ConfProps) (k : String) : List String :=
  match p.find? k with
  | some (.strs l) => l
  | _ => []
def text135 (p : ConfProps) (k : String) : Option String :=
  match p.find? k with
  | some (.str s) => some s
  | _ => none

theorem strs_of {p : ConfProps} {k : String} {l : List String} (h : Attr p k NamesValue l) : strs135 p k = l := by
  obtain ⟨v, hv, rfl⟩ := h
  simp only [strs135, hv]
theorem text_of {p : ConfProps} {k s : String} (h : Attr p k TextValue s) : text135 p k = some s := by
  obtain ⟨v, hv, rfl⟩ := h
  simp only [text135, hv]

/-- name, type and path of what is read -/
def reads135 (b : BusView) (i : String) (base : ConfProps) : List (String × String × String) :=
  let type := if i = pidInterface then (text135 base "Class").getD "" else "temp"
  if type = "fan" then []
  else ((strs135 base "Inputs").flatMap (Matching b)).map (fun x => (sensorNameFromPath x.1, type, x.1))

theorem reads_of {b : BusView} {i : String} {base : ConfProps} {n type path : String} (h : ReadsAs b i base n type path) :
    (n, type, path) ∈ reads135 b i base := by
  obtain ⟨h1, h2, h3, h4, h5⟩ := h
  have ht : (if i = pidInterface then (text135 base "Class").getD "" else "temp") = type ∧ type ≠ "fan" := by
    rcases h1 with ⟨rfl, h1, hf⟩ | ⟨rfl, rfl⟩
    · rw [if_pos rfl, text_of h1]; exact ⟨rfl, hf⟩
    · exact ⟨by rw [if_neg (by decide)], by decide⟩
  unfold reads135
  dsimp only
  rw [ht.1, if_neg ht.2, strs_of h2, (C85_sensor_name _ _).1 h5]
  exact List.mem_map.2 ⟨_, List.mem_flatMap.2 ⟨_, h3, h4⟩, rfl⟩

/-- name and paths of the fans -/
def fans135 (b : BusView) (base : ConfProps) : List (String × String × String) :=
  if text135 base "Class" = some "fan" then
    match pairFans ((strs135 base "Inputs").flatMap (Matching b)) ((strs135 base "Outputs").flatMap (Matching b)) with
    | .ok pairs => pairs.map (fun x => (sensorNameFromPath x.1.1 ++ sensorNameFromPath x.2.1, x.1.1, x.2.1))
    | .error _ => []
  else []

theorem fans_of {b : BusView} {base : ConfProps} {fan pwm n : String} (h : FanPair b base fan pwm) (hn : FanNamed fan pwm n) :
    (n, fan, pwm) ∈ fans135 b base := by
  obtain ⟨h1, h2, h3, h4, h5⟩ := h
  unfold fans135
  rw [if_pos (text_of h1), strs_of h2, strs_of h3, pairFans_iff.2 h4, fanNamed_iff.1 hn]
  exact List.mem_map.2 ⟨_, h5, rfl⟩

def flags135 (base : ConfProps) : Bool :=
  (base.find? "InputUnavailableAsFailed").isNone && (base.find? "IgnoreFailIfHostOff").isNone

theorem flags_of {base base' : ConfProps} (h : flags135 base = true) (h' : flags135 base' = true) (u x : Bool) :
    FailureOptions base u x ↔ FailureOptions base' u x := by
  have key : ∀ p : ConfProps, flags135 p = true → (FailureOptions p u x ↔ u = true ∧ x = false) := by
    intro p hp
    simp only [flags135, Bool.and_eq_true, Option.isNone_iff_eq_none] at hp
    constructor
    · rintro ⟨h1, h2⟩
      simp only [AttrOr, Attr, hp.1, hp.2, reduceCtorEq, false_and, exists_false, false_or, true_and] at h1 h2
      exact ⟨h1, h2⟩
    · rintro ⟨rfl, rfl⟩
      exact ⟨.inr ⟨hp.1, rfl⟩, .inr ⟨hp.2, rfl⟩⟩
  rw [key _ h, key _ h']

def agree135 (b : BusView) (i : String) (base : ConfProps) (i' : String) (base' : ConfProps) : Bool :=
  ((strs135 base "Zones").all (fun z => !(strs135 base' "Zones").contains z) ||
    (text135 base "Name").map sensorNameToDbusName ≠ (text135 base' "Name").map sensorNameToDbusName) &&
  flags135 base && flags135 base' &&
  (reads135 b i base).all (fun x => (reads135 b i' base').all (fun y => x.1 ≠ y.1 || x.2 = y.2)) &&
  (fans135 b base).all (fun x => (fans135 b base').all (fun y => x.1 ≠ y.1 || x.2 = y.2)) &&
  (fans135 b base).all (fun x => (reads135 b i' base').all (fun y => x.1 ≠ y.1)) &&
  (fans135 b base').all (fun x => (reads135 b i base).all (fun y => x.1 ≠ y.1))

theorem agree_of {b : BusView} {i : String} {base : ConfProps} {i' : String} {base' : ConfProps}
    (h : agree135 b i base i' base' = true) : LoopsAgree b i base i' base' := by
  simp only [agree135, Bool.and_eq_true, Bool.or_eq_true, List.all_eq_true, Bool.not_eq_true', decide_eq_true_eq] at h
  obtain ⟨⟨⟨⟨⟨⟨h1, h2⟩, h3⟩, h4⟩, h5⟩, h6⟩, h7⟩ := h
  refine ⟨?_, ?_, ?_, ?_, ?_⟩
  · intro zones zones' zone n n' t a1 a2 a3 a4 a5 a6 a7 a8
    rcases h1 with h1 | h1
    · have := h1 zone (by rw [strs_of a1]; exact a3)
      rw [strs_of a2] at this
      simp [a4] at this
    · rw [text_of a5, text_of a6] at h1
      refine h1 ?_
      simp only [Option.map_some, ← (C83_search_name _ _).1 a7, ← (C83_search_name _ _).1 a8]
  · intro n type path type' path' a1 a2
    rcases h4 _ (reads_of a1) _ (reads_of a2) with h | h
    · exact absurd rfl h
    · injection h with e1 e2
      exact ⟨e1, e2, flags_of h2 h3⟩
  · intro fan pwm fan' pwm' n a1 a2 a3 a4
    rcases h5 _ (fans_of a1 a3) _ (fans_of a2 a4) with h | h
    · exact absurd rfl h
    · injection h with e1 e2
      exact ⟨e1, e2⟩
  · intro fan pwm n type path a1 a2 a3
    exact h6 _ (fans_of a1 a2) _ (reads_of a3) rfl
  · intro fan pwm n type path a1 a2 a3
    exact h7 _ (fans_of a1 a2) _ (reads_of a3) rfl

/-! Two zones -/

def left135 : ConfProps := zoneConf "Left" [("ZoneIndex", .dbl 3)]
def right135 : ConfProps := zoneConf "Right" [("ZoneIndex", .dbl 5)]
def fan135 : ConfProps := busFan []
def step135 : ConfProps := stepConf ["Core 1"] []
def heat135 : ConfProps := heatConf ["Core 1"] []
/-- a table for the other zone, of the same name, with the same sensor -/
def other135 : ConfProps :=
  ⟨[("Name", .str "Step loop"), ("Class", .str "Floor"), ("Zones", .strs ["Right"]), ("Inputs", .strs ["Core 1"]),
    ("Reading", .dbls [20, 40]), ("Output", .dbls [40, 80])]⟩

def objs135 : List BusObject :=
  [plain107 "em" "/inventory" ["org.freedesktop.DBus.ObjectManager"],
   ⟨"em", "/inventory/board/Left", ⟨[(zoneInterface, left135)]⟩⟩,
   ⟨"em", "/inventory/board/Right", ⟨[(zoneInterface, right135)]⟩⟩,
   ⟨"em", "/inventory/board/Fan", ⟨[(pidInterface, fan135)]⟩⟩,
   ⟨"em", "/inventory/board/Step", ⟨[(stepwiseInterface, step135)]⟩⟩,
   ⟨"em", "/inventory/board/Other", ⟨[(stepwiseInterface, other135)]⟩⟩,
   ⟨"em", "/inventory/board/Heat", ⟨[(pidInterface, heat135)]⟩⟩,
   plain107 "hwmon" "/xyz/openbmc_project/sensors/temperature/Core_1" [valueInterface],
   plain107 "hwmon" "/xyz/openbmc_project/sensors/fan_tach/Fan_1" [valueInterface],
   plain107 "hwmon" "/xyz/openbmc_project/control/fanpwm/Pwm_1" [pwmInterface]]

def conf135 (objs : List BusObject) : ConfBus := busOf107 objs [] (fun _ _ => none)
def view135 : BusView := (conf135 objs135).view asListed (mapperOf objs135)

theorem confs135 : confsOf objs135 = [⟨[(zoneInterface, left135)]⟩, ⟨[(zoneInterface, right135)]⟩, ⟨[(pidInterface, fan135)]⟩,
    ⟨[(stepwiseInterface, step135)]⟩, ⟨[(stepwiseInterface, other135)]⟩, ⟨[(pidInterface, heat135)]⟩] := by
  rfl

theorem active135 {i : String} {base : ConfProps} (h : Active [] (confsOf objs135) i base) :
    (i = zoneInterface ∧ (base = left135 ∨ base = right135)) ∨ (i = pidInterface ∧ (base = fan135 ∨ base = heat135)) ∨
      (i = stepwiseInterface ∧ (base = step135 ∨ base = other135)) := by
  obtain ⟨o, ho, h, -⟩ := h
  rw [confs135] at ho
  simp only [List.mem_cons, List.not_mem_nil, or_false] at ho
  rcases ho with rfl | rfl | rfl | rfl | rfl | rfl <;> obtain ⟨rfl, rfl⟩ := find_one115 h <;> simp

theorem number135 {zone : ConfProps} {q : ℚ} {hq} {k : Int} (hz : zone.find? "ZoneIndex" = some (.dbl (.fin q hq)))
    (h : GivesNumber zone k) : Truncates q k := by
  obtain ⟨q', h', h1, h2⟩ := h
  rw [hz] at h1
  injection h1 with h1; injection h1 with h1; injection h1 with h1
  subst h1
  exact h2

theorem fin_of135 {d : Dbl} {q : ℚ} (h : (match d with | .fin x _ => decide (x = q) | _ => false) = true) : ∃ h, d = .fin q h := by
  cases d with
  | fin x hx =>
    have := of_decide_eq_true h
    subst this
    exact ⟨hx, rfl⟩
  | _ => cases h

/-- C135: the configuration is unambiguous -/
theorem unambiguous135 : Unambiguous view135 [] (confsOf objs135) := by
  have three : Truncates 3 3 := truncates_iff.2 (by decide +kernel)
  have five : Truncates 5 5 := truncates_iff.2 (by decide +kernel)
  obtain ⟨h3, e3⟩ : ∃ h, (3 : Dbl) = .fin 3 h := fin_of135 (by decide +kernel)
  obtain ⟨h5, e5⟩ : ∃ h, (5 : Dbl) = .fin 5 h := fin_of135 (by decide +kernel)
  refine ⟨fun z h => ?_, ?_, fun i hi zone base h => ?_, ?_, fun base h => ?_, fun i hi base h k hk names hn n hm => ?_⟩
  · rcases active135 h with ⟨-, rfl | rfl⟩ | ⟨h, -⟩ | ⟨h, -⟩
    · exact ⟨3, 3, _, by rw [← e3]; rfl, three⟩
    · exact ⟨5, 5, _, by rw [← e5]; rfl, five⟩
    · exact absurd h (by decide)
    · exact absurd h (by decide)
  · have key : (confsOf objs135).Pairwise (fun o o' => (o.find? zoneInterface).isNone = true ∨
        (o'.find? zoneInterface).isNone = true ∨ (o.find? zoneInterface = some left135 ∧ o'.find? zoneInterface = some right135)) := by
      rw [confs135]
      refine .cons ?_ (.cons ?_ ?_)
      · intro o ho
        rw [List.mem_cons] at ho
        rcases ho with rfl | ho
        · exact .inr (.inr ⟨rfl, rfl⟩)
        · exact .inr (.inl (by revert o; decide +kernel))
      · intro o ho
        exact .inr (.inl (by revert o; decide +kernel))
      · exact List.Pairwise.imp (fun h => .inl h) (R := fun o _ => (o.find? zoneInterface).isNone = true) (by decide +kernel)
    refine key.imp ?_
    rintro o o' h z z' h1 - h2 -
    rcases h with h | h | ⟨h, h'⟩
    · rw [h1] at h; cases h
    · rw [h2] at h; cases h
    · rw [h1] at h; rw [h2] at h'
      cases h; cases h'
      refine ⟨fun n hn hn' => ?_, fun k hk hk' => ?_⟩
      · have e1 := attr_unique text_unique hn (y := "Left") ⟨_, rfl, rfl⟩
        have e2 := attr_unique text_unique hn' (y := "Right") ⟨_, rfl, rfl⟩
        rw [e1] at e2
        exact absurd e2 (by decide)
      · have e1 := truncates_unique (number135 (q := 3) (hq := h3) (by rw [← e3]; rfl) hk) three
        have e2 := truncates_unique (number135 (q := 5) (hq := h5) (by rw [← e5]; rfl) hk') five
        omega
  · obtain ⟨hA, zones, hz, hm⟩ := h
    have hz' := strs_of hz
    have hl : ∀ z ∈ zones, z = "Left" ∨ z = "Right" := by
      rw [← hz']
      rcases active135 hA with ⟨-, rfl | rfl⟩ | ⟨-, rfl | rfl⟩ | ⟨-, rfl | rfl⟩ <;> decide +kernel
    rcases hl _ hm with rfl | rfl
    · exact ⟨left135, ⟨⟨[(zoneInterface, left135)]⟩, by rw [confs135]; simp, rfl, .inl rfl⟩, _, rfl, rfl⟩
    · exact ⟨right135, ⟨⟨[(zoneInterface, right135)]⟩, by rw [confs135]; simp, rfl, .inl rfl⟩, _, rfl, rfl⟩
  · have key : (confsOf objs135).Pairwise (fun o o' => ∀ i ∈ loopInterfaces, ∀ i' ∈ loopInterfaces,
        (o.find? i).all (fun base => (o'.find? i').all (fun base' => agree135 view135 i base i' base')) = true) := by
      decide +kernel
    refine key.imp ?_
    intro o o' h i hi i' hi' base base' h1 _ h2 _
    have := h i hi i' hi'
    rw [h1, h2] at this
    exact agree_of this
  · rcases active135 h with ⟨h, -⟩ | ⟨-, rfl | rfl⟩ | ⟨h, -⟩
    · exact absurd h (by decide)
    · rfl
    · rfl
    · exact absurd h (by decide)
  · have e := strs_of hn
    rw [← e] at hm
    have key : ∀ o ∈ confsOf objs135, ∀ i ∈ loopInterfaces, (o.find? i).all (fun base =>
        ["Inputs", "Outputs", "MissingIsAcceptable"].all (fun k => (strs135 base k).all
          (fun n => (Matching view135 n).length ≤ 1))) = true := by
      decide +kernel
    obtain ⟨o, ho, hf, -⟩ := h
    have := key o ho i hi
    rw [hf] at this
    simp only [Option.all_some, List.all_eq_true, decide_eq_true_eq] at this
    exact this k hk n hm

theorem arranged_of {objs : List BusObject} (h1 : (objs.map BusObject.path).Nodup)
    (h2 : ∀ o ∈ objs, o.Configures → ∃ m ∈ objs, m.Manages ∧ m.service = o.service)
    (h3 : ∀ m ∈ objs, ∀ m' ∈ objs, m.Manages → m'.Manages → m.service = m'.service → m.path = m'.path)
    (h4 : ∀ o ∈ objs, o.Configures → ∀ m ∈ objs, m.Manages → m.service = o.service → BelowPath m.path o.path) : Arranged objs :=
  ⟨.of_map _ h1, h2, h3, h4, fun _ ho _ ho' _ _ e => List.inj_on_of_nodup_map h1 ho ho' e⟩

theorem Arranged.perm {objs objs' : List BusObject} (h : Arranged objs) (hp : objs'.Perm objs) : Arranged objs' :=
  ⟨hp.nodup_iff.2 h.distinct, fun o ho hc => let ⟨m, hm, h⟩ := h.manager o (hp.mem_iff.1 ho) hc; ⟨m, hp.mem_iff.2 hm, h⟩,
    fun m hm m' hm' => h.only m (hp.mem_iff.1 hm) m' (hp.mem_iff.1 hm'),
    fun o ho hc m hm => h.below o (hp.mem_iff.1 ho) hc m (hp.mem_iff.1 hm),
    fun o ho o' ho' => h.paths o (hp.mem_iff.1 ho) o' (hp.mem_iff.1 ho')⟩

theorem arranged135 : Arranged objs135 :=
  arranged_of (by decide +kernel) (by decide +kernel) (by decide +kernel) (by decide +kernel)

/-- C135: what is told in any order of the objects -/
theorem tells135 {objs : List BusObject} (hp : objs.Perm objs135) : Tells objs (conf135 objs) (mapperOf objs) :=
  ⟨rfl, mapper_knows _, managers_answer _, Arranged.perm arranged135 hp, by
    obtain ⟨o, ho, h⟩ : ∃ o ∈ objs135, o.Configures := by decide +kernel
    exact ⟨o, hp.mem_iff.2 ho, h⟩, by
    intro o ho
    have : o.interfaces.entries.length ≤ 1 := by
      have key : ∀ o ∈ objs135, o.interfaces.entries.length ≤ 1 := by decide +kernel
      exact key o (hp.mem_iff.1 ho)
    unfold OMap.WF
    match h : o.interfaces.entries with
    | [] => simp
    | [e] => simp
    | _ :: _ :: _ => rw [h] at this; simp at this, rfl⟩

theorem role135 : OneRole objs135 := by
  intro o ho o' ho' i i' e h h'
  have hn : (objs135.map BusObject.path).Nodup := by decide +kernel
  have := List.inj_on_of_nodup_map hn ho ho' e
  subst this
  have key : ∀ o ∈ objs135, (o.interfaces.find? valueInterface).isNone = true ∨ (o.interfaces.find? pwmInterface).isNone = true := by
    decide +kernel
  obtain ⟨h1, h2⟩ := h
  obtain ⟨h1', h2'⟩ := h'
  rcases key o ho with k | k <;> rw [Option.isNone_iff_eq_none] at k <;> rcases h2 with ⟨rfl, -⟩ | rfl <;>
    rcases h2' with ⟨rfl, -⟩ | rfl <;> first | rfl | exact absurd k h1 | exact absurd k h1'

/-- C135: every order of the objects and every order of hash maps comes to the same daemon -/
theorem C135_two_zones {objs : List BusObject} (hp : objs.Perm objs135) (h : HashOrder) (o : Opts) {conf : String}
    {f : StartFiles} (hs : Source conf f none) (bus : BuildBus) (now : Int) (w : World) :
    attempt o conf f (conf135 objs135) asListed bus now w = attempt o conf f (conf135 objs) h bus now w := by
  have hok : (match busInit (conf135 objs135) asListed with | .ok _ => true | .error _ => false) = true := by decide +kernel
  refine (C135_same (tells135 (.refl _)) (tells135 hp) hp ⟨rfl, rfl, rfl, rfl, rfl⟩ role135 (sel := []) (by decide +kernel)
    (h0 := asListed) unambiguous135 asListed h).2 o conf f bus now w hs |>.1 ?_
  cases hr : busInit (conf135 objs135) asListed with
  | ok r => exact ⟨r, rfl⟩
  | error e => rw [hr] at hok; cases hok

example : ranZones (attempt {} "" nofiles108 (conf135 objs135) asListed bus98 0 world99) = some [3, 5] := by decide +kernel
example : ranZones (attempt {} "" nofiles108 (conf135 objs135.reverse) reversed bus98 0 world99) = some [3, 5] := by
  rw [← C135_two_zones (List.reverse_perm _) reversed {} nofiles108_source]; decide +kernel

/-! What is decided by the order -/

/-- the loops of a zone with their set points or outputs -/
def shown135 (objs : List ConfObj) (i : Int) : Option (List (String × List SensorInput × Dbl)) :=
  match dbusInit view135 [] objs with
  | .ok (_, c) => (c.pids.find? i).map (fun conf => conf.entries.map (fun e => (e.1, e.2.inputs, e.2.setpoint)))
  | .error _ => none

/-- zones without a number -/
def unnumbered135 : List ConfObj := [⟨[(zoneInterface, zoneConf "Left" [])]⟩, ⟨[(zoneInterface, zoneConf "Right" [])]⟩,
  ⟨[(pidInterface, fan135)]⟩, ⟨[(stepwiseInterface, other135)]⟩]

/-- **Finding** Zones without a number are numbered as they are listed: with the bus listing the same two zones in the other
order, their numbers are swapped. -/
theorem C135_unnumbered :
    (shown135 unnumbered135 0).map (List.map Prod.fst) = some ["Fan_loop"] ∧
    (shown135 unnumbered135 1).map (List.map Prod.fst) = some ["Step_loop"] ∧
    (shown135 unnumbered135.reverse 0).map (List.map Prod.fst) = some ["Step_loop"] ∧
    (shown135 unnumbered135.reverse 1).map (List.map Prod.fst) = some ["Fan_loop"] := by
  decide +kernel

/-- two loops of the same name, once with a space and once with an underscore, in one zone -/
def twice135 : List ConfObj := [⟨[(zoneInterface, left135)]⟩, ⟨[(pidInterface, heat135)]⟩,
  ⟨[(pidInterface, ⟨[("Name", .str "CPU_loop"), ("Class", .str "temp"), ("Zones", .strs ["Left"]), ("Inputs", .strs ["Core 1"]),
    ("SetPoint", .dbl 40)] ++ numbersConf⟩)]⟩]

/-- **Finding** Of two loops of a zone with the same name, only the one listed last is there, with no report. -/
theorem C135_same_name :
    shown135 twice135 3 = some [("CPU_loop", [⟨"Core_1", nan, false, false⟩], 40)] ∧
    shown135 twice135.reverse 3 = some [("CPU_loop", [⟨"Core_1", nan, false, false⟩], -10)] := by
  decide +kernel

end
end Ex
end Verif
