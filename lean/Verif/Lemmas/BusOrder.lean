import Verif.Lemmas.BusWritten
import Verif.Lemmas.Patches
import Verif.Props.OnBus
import Verif.Spec.BusOrder

/-! # Lemmas about the order of configurations on D-Bus -/

namespace Verif
section
variable [F : FloatModel]

/-! ## What configurations say about sensors -/

/-- settings of an input -/
def setInput (type path : String) (f : InputFlags) (c : SensorConfig) : SensorConfig :=
  { c with type := type, readPath := path, timeout := 0, ignoreDbusMinMax := true,
           unavailableAsFailed := f.unavailableAsFailed, ignoreFailIfHostOff := f.ignoreFailIfHostOff }

/-- settings of a fan -/
def setFan (fan pwm : String) (c : SensorConfig) : SensorConfig :=
  { c with type := "fan", readPath := fan, writePath := pwm, max := 255, min := 0 }

/-- settings for sensors -/
abbrev SensorNotes [FloatModel] := List (String × (SensorConfig → SensorConfig))

/-- the sensors after some settings -/
def sensorSetAll (m : OMap String SensorConfig) (l : SensorNotes) : OMap String SensorConfig :=
  l.foldl (fun m p => sensorSet m p.1 p.2) m

theorem sensorSetAll_append (m : OMap String SensorConfig) (l l' : SensorNotes) :
    sensorSetAll m (l ++ l') = sensorSetAll (sensorSetAll m l) l' := List.foldl_append ..

/-- settings for the inputs found -/
def heatNotes (cls : String) (f : InputFlags) (l : List (String × String)) : SensorNotes :=
  if isThermalType cls then l.map (fun x => (sensorNameFromPath x.1, setInput cls x.1 f)) else []

/-- settings for fans -/
def fanNotes (l : List ((String × String) × (String × String))) : SensorNotes :=
  l.map (fun x => (sensorNameFromPath x.1.1 ++ sensorNameFromPath x.2.1, setFan x.1.1 x.2.1))

/-- whether all sensors found can be read -/
def checkFound : List (String × String) → Res Unit
  | [] => .ok ()
  | x :: l => if x.2 ≠ valueInterface then .error (.exc "sensor with wrong interface") else checkFound l

/-- whether all controls are controls -/
def checkFans : List ((String × String) × (String × String)) → Res Unit
  | [] => .ok ()
  | x :: l => if x.2.2 ≠ pwmInterface then .error (.exc "fan pwm control with wrong interface") else checkFans l

/-- settings for the fans of a loop -/
def fanPart (cls : String) (found outputs : List (String × String)) : Res SensorNotes :=
  if cls = "fan" then do
    let pairs ← pairFans found outputs
    let _ ← checkFans pairs
    .ok (fanNotes pairs)
  else .ok []

/-- settings for the sensors of a PID configuration, and the sensors that may be missing -/
def pidNotes (b : BusView) (base : ConfProps) (cls : String) : Res (List String × SensorNotes) := do
  let inputs ← base.req "Inputs" ConfVariant.getStrs
  let acceptable ← base.opt "MissingIsAcceptable" [] ConfVariant.getStrs
  let outputs ← outputNames base cls
  let f ← inputFlags base
  let found ← b.findAll inputs
  let outputs ← b.findAll outputs
  let missing ← b.findAll acceptable
  let _ ← checkFound found
  let missing ← acceptableNames missing
  let fans ← fanPart cls found outputs
  .ok (missing, heatNotes cls f found ++ fans)

theorem findInputs_eq {b : BusView} (hm : b.handleMissing = false) (cls : String) (acc : List String) (f : InputFlags) :
    ∀ (ns : List String) (s : InputState), findInputs b cls acc f s ns =
      (b.findAll ns).map (fun l => { s with found := s.found ++ l })
  | [], s => by simp [findInputs, BusView.findAll, Except.map]
  | n :: ns, s => by
    simp only [findInputs, findInput, BusView.findAll]
    cases b.find (sensorNameToDbusName n) with
    | error e => rfl
    | ok found =>
      rw [ok_bind, ok_bind, if_pos (by simp [hm]), ok_bind, findInputs_eq hm cls acc f ns]
      cases b.findAll ns with
      | error e => rfl
      | ok l => simp [Except.map, ok_bind, List.append_assoc]

theorem noteFound_eq (cls : String) (f : InputFlags) : ∀ (l : List (String × String)) (s : InputState), noteFound cls f s l =
    (checkFound l).map (fun _ => ⟨s.found, s.archived ++ (heatNotes cls f l).map Prod.fst, sensorSetAll s.sensors (heatNotes cls f l)⟩)
  | [], s => by simp [noteFound, checkFound, Except.map, heatNotes, sensorSetAll]
  | (path, i) :: l, s => by
    simp only [noteFound, checkFound]
    by_cases hi : i ≠ valueInterface
    · rw [if_pos hi, if_pos hi]; rfl
    · rw [if_neg hi, if_neg hi, noteFound_eq cls f l]
      congr 1
      funext _
      by_cases ht : isThermalType cls = true
      · simp only [ht, if_true, heatNotes, List.map_cons, sensorSetAll, List.foldl_cons]
        congr 1
        simp
      · simp [ht, heatNotes, sensorSetAll]

theorem noteFans_eq : ∀ (l : List ((String × String) × (String × String))) (s : InputState), noteFans s l =
    (checkFans l).map (fun _ => ⟨s.found, s.archived ++ (fanNotes l).map Prod.fst, sensorSetAll s.sensors (fanNotes l)⟩)
  | [], s => by simp [noteFans, checkFans, Except.map, fanNotes, sensorSetAll]
  | ((fp, fi), (pp, pi)) :: l, s => by
    simp only [noteFans, checkFans]
    by_cases hi : pi ≠ pwmInterface
    · rw [if_pos hi, if_pos hi]; rfl
    · rw [if_neg hi, if_neg hi, noteFans_eq l]
      congr 1
      funext _
      simp only [fanNotes, List.map_cons, sensorSetAll, List.foldl_cons]
      congr 1
      simp

theorem pidInputs_eq {b : BusView} (hm : b.handleMissing = false) (sensors : OMap String SensorConfig) (base : ConfProps)
    (cls : String) : pidInputs b sensors base cls =
      (pidNotes b base cls).map (fun r => (r.2.map Prod.fst, r.1, sensorSetAll sensors r.2)) := by
  simp only [pidInputs, pidNotes]
  cases base.req "Inputs" ConfVariant.getStrs with
  | error e => rfl
  | ok inputs =>
  cases base.opt "MissingIsAcceptable" [] ConfVariant.getStrs with
  | error e => rfl
  | ok acceptable =>
  cases outputNames base cls with
  | error e => rfl
  | ok outputs =>
  cases inputFlags base with
  | error e => rfl
  | ok f =>
  simp only [ok_bind]
  rw [findInputs_eq hm]
  cases b.findAll inputs with
  | error e => rfl
  | ok found =>
  simp only [Except.map, ok_bind]
  cases b.findAll outputs with
  | error e => rfl
  | ok outputs =>
  cases b.findAll acceptable with
  | error e => rfl
  | ok missing =>
  simp only [ok_bind]
  rw [noteFound_eq]
  simp only [List.nil_append]
  cases checkFound found with
  | error e => rfl
  | ok _ =>
  simp only [Except.map, ok_bind]
  cases acceptableNames missing with
  | error e => rfl
  | ok missing =>
  simp only [ok_bind, fanInputs, fanPart]
  by_cases hc : cls = "fan"
  · rw [if_pos hc, if_pos hc]
    cases pairFans found outputs with
    | error e => rfl
    | ok pairs =>
      simp only [ok_bind]
      rw [noteFans_eq]
      cases checkFans pairs with
      | error e => rfl
      | ok _ => simp [Except.map, ok_bind, sensorSetAll_append]
  · rw [if_neg hc, if_neg hc]
    simp [ok_bind]

/-- settings for the sensors of a stepwise configuration -/
def stepNotes (b : BusView) (f : InputFlags) : List String → Res SensorNotes
  | [] => .ok []
  | n :: ns => do
    let found ← b.find (sensorNameToDbusName n)
    if found ≠ [] then do
      let rest ← stepNotes b f ns
      .ok (found.map (fun x => (sensorNameFromPath x.1, setInput "temp" x.1 f)) ++ rest)
    else .ok []

theorem noteStepInputs_eq (f : InputFlags) : ∀ (l : List (String × String)) (s : List String × OMap String SensorConfig),
    noteStepInputs f s l = (s.1 ++ l.map (fun x => sensorNameFromPath x.1),
      sensorSetAll s.2 (l.map (fun x => (sensorNameFromPath x.1, setInput "temp" x.1 f))))
  | [], s => by simp [noteStepInputs, sensorSetAll]
  | (path, i) :: l, s => by
    rw [noteStepInputs, noteStepInputs_eq f l]
    simp only [List.map_cons, sensorSetAll, List.foldl_cons]
    congr 1
    simp

theorem stepInputs_eq {b : BusView} (hm : b.handleMissing = false) (acc : List String) (f : InputFlags) :
    ∀ (ns : List String) (s : List String × OMap String SensorConfig), stepInputs b acc f s ns =
      (stepNotes b f ns).map (fun l => (s.1 ++ l.map Prod.fst, sensorSetAll s.2 l))
  | [], s => by simp [stepInputs, stepNotes, Except.map, sensorSetAll]
  | n :: ns, s => by
    simp only [stepInputs, stepNotes]
    cases b.find (sensorNameToDbusName n) with
    | error e => rfl
    | ok found =>
      simp only [ok_bind]
      by_cases hf : found ≠ []
      · rw [if_pos hf, if_pos hf, stepInputs_eq hm acc f ns, noteStepInputs_eq]
        cases stepNotes b f ns with
        | error e => rfl
        | ok l => simp [Except.map, ok_bind, sensorSetAll_append, Function.comp_def]
      · rw [if_neg hf, if_neg hf, if_pos (by simp [hm])]
        simp [Except.map, sensorSetAll]

/-! ## Configurations change only what is theirs -/

theorem Confined.fixed {N : OMap String Int} {A : Patch → Prop} {l : List Patch} (h : ∀ p ∈ l, A p) :
    Confined N A (fun c => .ok (Patch.all c l)) := by
  refine ⟨fun c r _ hr => ⟨l, h, ?_⟩, fun c p _ hf => ?_⟩
  · injection hr with hr; exact hr.symm
  · exact congrArg Except.ok (Patch.all_app (fun q hq => hf q (h q hq)) c)

/-- a loop as it is, if it is there -/
def loopAt (c : DbusCfg) (i : Int) (n : String) : ControllerInfo :=
  (((c.pids.find? i).getD {}).find? n).getD ControllerInfo.zero

theorem loopAt_app {c : DbusCfg} {p : Patch} {i : Int} {n : String} (h : ∀ x, p.Free (.loop i n x)) :
    loopAt (Patch.app c p) i n = loopAt c i n := by
  cases p with
  | note m f => rfl
  | zone j d => rfl
  | touch j =>
    by_cases e : j = i
    · subst e; simp [loopAt, Patch.app, OMap.find?_insert_self]
    · simp only [loopAt, Patch.app]; rw [OMap.find?_insert_ne _ (Ne.symm e)]
  | loop j m y =>
    by_cases e : j = i
    · subst e
      have := h ControllerInfo.zero rfl
      simp only [loopAt, Patch.app, OMap.find?_insert_self, Option.getD_some]
      rw [OMap.find?_insert_ne _ (Ne.symm this)]
    · simp only [loopAt, Patch.app]; rw [OMap.find?_insert_ne _ (Ne.symm e)]

theorem Confined.loop {N : OMap String Int} {A : Patch → Prop} {i : Int} {n : String} (h : ∀ x, A (.loop i n x))
    (g : ControllerInfo → Res ControllerInfo) :
    Confined N A (fun c => g (loopAt c i n) >>= fun x => .ok (Patch.app c (.loop i n x))) := by
  refine ⟨fun c r _ hr => ?_, fun c p _ hf => ?_⟩
  · obtain ⟨x, -, hr⟩ := bind_eq_ok.1 hr
    injection hr with hr
    exact ⟨[.loop i n x], by simpa using h x, hr.symm⟩
  · rw [loopAt_app (fun x => hf _ (h x))]
    cases g (loopAt c i n) with
    | error e => rfl
    | ok x => exact congrArg Except.ok (Patch.comm (hf _ (h x)) c)

theorem Confined.zone {N : OMap String Int} {A : Patch → Prop} {i : Int} (h : ∀ d, A (.zone i d))
    (g : ZoneConfig → Res ZoneConfig) :
    Confined N A (fun c => g ((c.zones.find? i).getD ZoneConfig.zero) >>= fun d => .ok (Patch.app c (.zone i d))) := by
  refine ⟨fun c r _ hr => ?_, fun c p _ hf => ?_⟩
  · obtain ⟨x, -, hr⟩ := bind_eq_ok.1 hr
    injection hr with hr
    exact ⟨[.zone i x], by simpa using h x, hr.symm⟩
  · have : ((Patch.app c p).zones.find? i).getD ZoneConfig.zero = (c.zones.find? i).getD ZoneConfig.zero := by
      cases p with
      | zone j d =>
        have := hf _ (h ZoneConfig.zero)
        simp only [Patch.Free] at this
        simp only [Patch.app]
        rw [OMap.find?_insert_ne _ (Ne.symm this)]
      | _ => rfl
    rw [this]
    cases g ((c.zones.find? i).getD ZoneConfig.zero) with
    | error e => rfl
    | ok x => exact congrArg Except.ok (Patch.comm (hf _ (h x)) c)

theorem Confined.congr {N : OMap String Int} {A : Patch → Prop} {s t : DbusCfg → Res DbusCfg} (h : Confined N A t)
    (e : ∀ c, c.numbers = N → s c = t c) : Confined N A s :=
  ⟨fun c r hn hr => h.out c r hn (by rw [← e c hn]; exact hr),
   fun c p hn hf => by rw [e c hn, e _ (by rw [Patch.app_numbers, hn])]; exact h.free c p hn hf⟩

theorem getZone_known {name : String} {N : OMap String Int} {i : Int} (h : N.find? name = some i) :
    getZoneIndex name N = .ok (i, N) := by
  unfold getZoneIndex
  rw [h]

theorem addZone_confined {N : OMap String Int} {A : Patch → Prop} {zone : ConfProps}
    (h : ∀ name, Attr zone "Name" TextValue name → ∃ i, N.find? name = some i ∧ ∀ d, A (.zone i d)) :
    Confined N A (fun c => addZone c zone) := by
  unfold addZone
  refine Confined.bind _ fun name hname => ?_
  obtain ⟨i, hi, hA⟩ := h name ((confReq_iff getStr_iff).1 hname)
  refine (Confined.zone hA (zoneDetails zone)).congr fun c hn => ?_
  dsimp only
  rw [hn, getZone_known hi, ok_bind]
  subst hn
  rfl

/-- settings of sensors as changes -/
def notePatches (l : SensorNotes) : List Patch := l.map (fun x => .note x.1 x.2)

theorem all_notes (l : SensorNotes) : ∀ c : DbusCfg,
    Patch.all c (notePatches l) = { c with sensors := sensorSetAll c.sensors l } := by
  induction l with
  | nil => intro c; rfl
  | cons x l ih =>
    intro c
    show Patch.all (Patch.app c (.note x.1 x.2)) (notePatches l) = _
    rw [ih]
    rfl

theorem addPid_confined {b : BusView} (hm : b.handleMissing = false) {base : ConfProps} {name cls zone : String}
    {N : OMap String Int} {A : Patch → Prop} (hoff : base.find? "SetPointOffset" = none) {i : Int}
    (hi : N.find? zone = some i) (hA : ∀ x, A (.loop i name x)) (ht : A (.touch i))
    (hnote : ∀ r, pidNotes b base cls = .ok r → ∀ x ∈ r.2, A (.note x.1 x.2)) :
    Confined N A (fun c => addPid b base name cls c zone) := by
  have e : ∀ c : DbusCfg, c.numbers = N → addPid b base name cls c zone = (pidNotes b base cls >>= fun r =>
      (Except.ok (Patch.all c (notePatches r.2 ++ [.touch i])) : Res DbusCfg) >>= fun c =>
        if r.2.map Prod.fst = [] then .ok c
        else base.opt "TempToMargin" [] ConfVariant.getDbls >>= fun margins =>
          populatePidInfo b base { loopAt c i name with inputs := spliceInputs (r.2.map Prod.fst) margins r.1 } none {} >>=
            fun x => .ok (Patch.app c (.loop i name x))) := by
    intro c hn
    unfold addPid
    rw [hn, getZone_known hi, ok_bind]
    dsimp only
    rw [pidInputs_eq hm]
    cases pidNotes b base cls with
    | error e => rfl
    | ok r =>
      simp only [Except.map, ok_bind]
      have hc : Patch.all c (notePatches r.2 ++ [.touch i]) = { c with
          numbers := N, pids := c.pids.insert i ((c.pids.find? i).getD {}), sensors := sensorSetAll c.sensors r.2 } := by
        rw [Patch.all, List.foldl_append]
        change Patch.app (Patch.all c (notePatches r.2)) (.touch i) = _
        rw [all_notes, ← hn]
        rfl
      rw [hc]
      unfold finishPid
      by_cases ha : r.2.map Prod.fst = []
      · rw [if_pos ha, if_pos ha]
      · rw [if_neg ha, if_neg ha]
        simp only [offsetType, hoff, ok_bind]
        cases base.opt "TempToMargin" [] ConfVariant.getDbls with
        | error e => rfl
        | ok margins =>
          simp only [ok_bind, addPidLoops, loopAt, OMap.find?_insert_self, Option.getD_some]
          change (do let conf ← populatePidInfo b base _ none {} >>= _; _) = _
          cases populatePidInfo b base { ((((c.pids.find? i).getD {}).find? name).getD ControllerInfo.zero) with
            inputs := spliceInputs (r.2.map Prod.fst) margins r.1 } none {} with
          | error e => rfl
          | ok x => simp [ok_bind, Patch.app, OMap.find?_insert_self]
  refine Confined.congr ?_ e
  refine Confined.bind _ fun r hr => ?_
  refine Confined.then (Confined.fixed ?_) ?_
  · intro p hp
    rcases List.mem_append.1 hp with h | h
    · obtain ⟨x, hx, rfl⟩ := List.mem_map.1 h
      exact hnote r hr x hx
    · rw [List.mem_singleton.1 h]; exact ht
  · by_cases ha : r.2.map Prod.fst = []
    · simp only [if_pos ha]; exact Confined.nothing N A
    · simp only [if_neg ha]
      refine Confined.bind _ fun margins _ => ?_
      exact Confined.loop hA (fun x => populatePidInfo b base { x with inputs := _ } none {})

theorem addStepwise_confined {b : BusView} (hm : b.handleMissing = false) {base : ConfProps} {name zone : String}
    {N : OMap String Int} {A : Patch → Prop} {i : Int} (hi : N.find? zone = some i) (hA : ∀ x, A (.loop i name x))
    (ht : A (.touch i)) (hnote : ∀ names f r, Attr base "Inputs" NamesValue names → inputFlags base = .ok f →
      stepNotes b f names = .ok r → ∀ x ∈ r, A (.note x.1 x.2)) :
    Confined N A (fun c => addStepwise b base name c zone) := by
  have e : ∀ c : DbusCfg, c.numbers = N → addStepwise b base name c zone =
      (base.req "Inputs" ConfVariant.getStrs >>= fun names =>
      base.opt "MissingIsAcceptable" [] ConfVariant.getStrs >>= fun acceptable =>
      inputFlags base >>= fun f => stepNotes b f names >>= fun r =>
      (Except.ok (Patch.all c (notePatches r ++ [.touch i])) : Res DbusCfg) >>= fun c =>
        if r.map Prod.fst = [] then .ok c
        else stepAcceptable b acceptable >>= fun missing =>
          populateStepwise base (loopAt c i name) (r.map Prod.fst) missing >>=
            fun x => .ok (Patch.app c (.loop i name x))) := by
    intro c hn
    unfold addStepwise
    rw [hn, getZone_known hi, ok_bind]
    dsimp only
    cases base.req "Inputs" ConfVariant.getStrs with
    | error e => rfl
    | ok names =>
    cases base.opt "MissingIsAcceptable" [] ConfVariant.getStrs with
    | error e => rfl
    | ok acceptable =>
    cases inputFlags base with
    | error e => rfl
    | ok f =>
    simp only [ok_bind]
    rw [stepInputs_eq hm]
    cases stepNotes b f names with
    | error e => rfl
    | ok r =>
      simp only [Except.map, ok_bind, List.nil_append]
      have hc : Patch.all c (notePatches r ++ [.touch i]) = { c with
          numbers := N, pids := c.pids.insert i ((c.pids.find? i).getD {}), sensors := sensorSetAll c.sensors r } := by
        rw [Patch.all, List.foldl_append]
        change Patch.app (Patch.all c (notePatches r)) (.touch i) = _
        rw [all_notes, ← hn]
        rfl
      rw [hc]
      unfold finishStepwise
      by_cases ha : r.map Prod.fst = []
      · rw [if_pos ha, if_pos ha]
      · rw [if_neg ha, if_neg ha]
        cases stepAcceptable b acceptable with
        | error e => rfl
        | ok missing =>
          simp only [ok_bind, loopAt, OMap.find?_insert_self, Option.getD_some]
          cases populateStepwise base ((((c.pids.find? i).getD {}).find? name).getD ControllerInfo.zero)
            (r.map Prod.fst) missing with
          | error e => rfl
          | ok x => simp [ok_bind, Patch.app, OMap.find?_insert_self]
  refine Confined.congr ?_ e
  refine Confined.bind _ fun names hnames => ?_
  refine Confined.bind _ fun acceptable _ => ?_
  refine Confined.bind _ fun f hf => ?_
  refine Confined.bind _ fun r hr => ?_
  refine Confined.then (Confined.fixed ?_) ?_
  · intro p hp
    rcases List.mem_append.1 hp with h | h
    · obtain ⟨x, hx, rfl⟩ := List.mem_map.1 h
      exact hnote names f r ((confReq_iff getStrs_iff).1 hnames) hf hr x hx
    · rw [List.mem_singleton.1 h]; exact ht
  · by_cases ha : r.map Prod.fst = []
    · simp only [if_pos ha]; exact Confined.nothing N A
    · simp only [if_neg ha]
      refine Confined.bind _ fun missing _ => ?_
      exact Confined.loop hA (fun x => populateStepwise base x _ missing)

/-! ## Numbers of zones -/

/-- the configured name and number of a zone -/
def Wish (o : ConfObj) (n : String) (k : Int) : Prop :=
  ∃ z, o.find? zoneInterface = some z ∧ Attr z "Name" TextValue n ∧
    ∃ d, z.find? "ZoneIndex" = some (.dbl d) ∧ castOr "cast to int64_t" d.toI64 = .ok k

theorem presetZone_wish {o : ConfObj} {n : String} {k : Int} (h : Wish o n k) {m : OMap String Int} (hn : m.find? n = none)
    (hk : k ∉ m.entries.map Prod.snd) : presetZone m o = .ok (m.insert n k) := by
  obtain ⟨z, hz, hname, d, hd, hc⟩ := h
  unfold presetZone
  simp only [hz, (confReq_iff getStr_iff).2 hname, ok_bind, hd, hc, setZoneIndex, hn, freeIndex_unused hk]

theorem presetZone_none {o : ConfObj} (h : o.find? zoneInterface = none) (m : OMap String Int) : presetZone m o = .ok m := by
  simp only [presetZone, h]

/-- all zones have names and numbers of their own -/
structure WishesApart (os : List ConfObj) : Prop where
  wish : ∀ o ∈ os, o.find? zoneInterface ≠ none → ∃ n k, Wish o n k
  apart : os.Pairwise (fun o o' => ∀ n k n' k', Wish o n k → Wish o' n' k' → n ≠ n' ∧ k ≠ k')

theorem WishesApart.perm {os os' : List ConfObj} (h : WishesApart os) (hp : os.Perm os') : WishesApart os' := by
  refine ⟨fun o ho => h.wish o (hp.mem_iff.2 ho), hp.pairwise h.apart ?_⟩
  intro o o' hoo n k n' k' h1 h2
  exact ⟨fun e => (hoo _ _ _ _ h2 h1).1 e.symm, fun e => (hoo _ _ _ _ h2 h1).2 e.symm⟩

theorem wish_unique {o : ConfObj} {n n' : String} {k k' : Int} (h : Wish o n k) (h' : Wish o n' k') : n = n' ∧ k = k' := by
  obtain ⟨z, hz, h1, d, h2, h3⟩ := h
  obtain ⟨z', hz', h1', d', h2', h3'⟩ := h'
  rw [hz] at hz'; cases hz'
  rw [h2] at h2'; cases h2'
  rw [h3] at h3'; cases h3'
  exact ⟨attr_unique text_unique h1 h1', rfl⟩

theorem presetZones_wishes : ∀ {os : List ConfObj} {m : OMap String Int}, WishesApart os → m.WF →
    (∀ o ∈ os, ∀ n k, Wish o n k → m.find? n = none ∧ ∀ n', m.find? n' ≠ some k) →
    ∃ r, presetZones m os = .ok r ∧ r.WF ∧
      ∀ n k, r.find? n = some k ↔ m.find? n = some k ∨ ∃ o ∈ os, Wish o n k
  | [], m, _, hw, _ => ⟨m, rfl, hw, by simp⟩
  | o :: os, m, ha, hw, hf => by
    have ha' : WishesApart os := ⟨fun o ho => ha.wish o (by simp [ho]), (List.pairwise_cons.1 ha.apart).2⟩
    cases hz : o.find? zoneInterface with
    | none =>
      obtain ⟨r, h1, h2, h3⟩ := presetZones_wishes ha' hw (fun o ho => hf o (by simp [ho]))
      refine ⟨r, by rw [presetZones, presetZone_none hz, ok_bind, h1], h2, fun n k => ?_⟩
      rw [h3]
      have : ¬ Wish o n k := fun ⟨z, hz', _⟩ => by rw [hz] at hz'; cases hz'
      simp [this]
    | some z =>
      obtain ⟨n, k, hnk⟩ := ha.wish o (by simp) (by simp [hz])
      obtain ⟨f1, f2⟩ := hf o (by simp) n k hnk
      have hk : k ∉ m.entries.map Prod.snd := by
        intro hmem
        obtain ⟨⟨n', k'⟩, he, rfl⟩ := List.mem_map.1 hmem
        exact f2 n' ((OMap.mem_entries_iff hw _ _).1 he)
      have hp := presetZone_wish hnk f1 hk
      obtain ⟨r, h1, h2, h3⟩ := presetZones_wishes (m := m.insert n k) ha' (OMap.wf_insert hw _ _) (by
        intro o' ho' n' k' hw'
        have hne := (List.pairwise_cons.1 ha.apart).1 o' ho' n k n' k' hnk hw'
        obtain ⟨g1, g2⟩ := hf o' (by simp [ho']) n' k' hw'
        refine ⟨by rw [OMap.find?_insert_ne m hne.1.symm]; exact g1, fun x => ?_⟩
        by_cases e : x = n
        · subst e
          rw [OMap.find?_insert_self]
          intro hx
          injection hx with hx
          exact hne.2 hx
        · rw [OMap.find?_insert_ne m e]; exact g2 x)
      refine ⟨r, by rw [presetZones, hp, ok_bind, h1], h2, fun x y => ?_⟩
      rw [h3]
      have hx : Wish o x y ↔ x = n ∧ y = k := by
        constructor
        · exact fun h => wish_unique h hnk
        · rintro ⟨rfl, rfl⟩; exact hnk
      by_cases e : x = n
      · subst e
        rw [OMap.find?_insert_self, f1]
        simp only [Option.some.injEq, List.mem_cons, exists_eq_or_imp, hx, reduceCtorEq, true_and, false_or]
        exact or_congr_left eq_comm
      · rw [OMap.find?_insert_ne m e]
        simp [hx, e]

omit F in
theorem omap_same {K V : Type} [DecidableEq K] [LT K] [DecidableLT K] [OMap.StrictOrd K] {m m' : OMap K V} (h : m.WF)
    (h' : m'.WF) (he : ∀ i, m.find? i = m'.find? i) : m = m' := by
  obtain ⟨l⟩ := m
  obtain ⟨l'⟩ := m'
  have hp : List.Perm l l' := (List.perm_ext_iff_of_nodup (List.Nodup.of_map _ (OMap.wf_nodup h))
    (List.Nodup.of_map _ (OMap.wf_nodup h'))).2 (fun e => by
      have := OMap.mem_entries_iff h e.1 e.2
      rw [he e.1, ← OMap.mem_entries_iff h' e.1 e.2] at this
      exact this)
  have := hp.eq_of_pairwise (le := fun a b : K × V => a.1 < b.1)
    (fun a b _ _ h1 h2 => absurd (OMap.StrictOrd.trans h1 h2) (OMap.StrictOrd.irrefl _))
    (show l.Pairwise (fun a b => a.1 < b.1) from h) (show l'.Pairwise (fun a b => a.1 < b.1) from h')
  rw [this]

theorem presetZones_perm {os os' : List ConfObj} (ha : WishesApart os) (hp : os.Perm os') :
    ∃ r, presetZones {} os = .ok r ∧ presetZones {} os' = .ok r ∧ ∀ n k, r.find? n = some k ↔ ∃ o ∈ os, Wish o n k := by
  obtain ⟨r, h1, h2, h3⟩ := presetZones_wishes ha OMap.wf_empty (by simp)
  obtain ⟨r', h1', h2', h3'⟩ := presetZones_wishes (ha.perm hp) OMap.wf_empty (by simp)
  have e : r = r' := by
    refine omap_same h2 h2' fun n => ?_
    refine Option.ext fun k => ?_
    rw [h3, h3']
    simp only [hp.mem_iff]
  subst e
  exact ⟨r, h1, h1', fun n k => by rw [h3]; simp⟩

/-! ## Objects -/

theorem pidNotes_mem {b : BusView} {base : ConfProps} {cls : String} (hcls : Attr base "Class" TextValue cls)
    {r : List String × SensorNotes} (h : pidNotes b base cls = .ok r) : ∀ x ∈ r.2,
    (∃ path f, x.2 = setInput cls path f ∧ inputFlags base = .ok f ∧ ReadsAs b pidInterface base x.1 cls path) ∨
      ∃ fan pwm, x.2 = setFan fan pwm ∧ FanPair b base fan pwm ∧ FanNamed fan pwm x.1 := by
  obtain ⟨inputs, h1, h⟩ := bind_eq_ok.1 h
  obtain ⟨acceptable, h2, h⟩ := bind_eq_ok.1 h
  obtain ⟨outputs, h3, h⟩ := bind_eq_ok.1 h
  obtain ⟨f, h4, h⟩ := bind_eq_ok.1 h
  obtain ⟨found, h5, h⟩ := bind_eq_ok.1 h
  obtain ⟨outs, h6, h⟩ := bind_eq_ok.1 h
  obtain ⟨miss, h7, h⟩ := bind_eq_ok.1 h
  obtain ⟨_, h8, h⟩ := bind_eq_ok.1 h
  obtain ⟨missing, h9, h⟩ := bind_eq_ok.1 h
  obtain ⟨fans, h10, h⟩ := bind_eq_ok.1 h
  injection h with h
  subst h
  have hin := (confReq_iff getStrs_iff).1 h1
  obtain rfl := findAll_ok h5
  obtain rfl := findAll_ok h6
  intro x hx
  rcases List.mem_append.1 hx with hx | hx
  · left
    unfold heatNotes at hx
    split_ifs at hx with ht
    · obtain ⟨y, hy, rfl⟩ := List.mem_map.1 hx
      obtain ⟨name, hname, hy⟩ := List.mem_flatMap.1 hy
      refine ⟨y.1, f, rfl, h4, .mk (.inl ⟨rfl, hcls, ?_⟩) hin hname hy ((C85_sensor_name _ _).2 rfl)⟩
      rintro rfl
      exact absurd ht (by decide)
    · simp at hx
  · right
    unfold fanPart at h10
    split_ifs at h10 with hc
    · subst hc
      obtain ⟨pairs, h11, h10⟩ := bind_eq_ok.1 h10
      obtain ⟨_, -, h10⟩ := bind_eq_ok.1 h10
      injection h10 with h10
      subst h10
      obtain ⟨y, hy, rfl⟩ := List.mem_map.1 hx
      rw [outputNames, if_pos rfl] at h3
      obtain ⟨⟨fan, i⟩, ⟨pwm, j⟩⟩ := y
      exact ⟨fan, pwm, rfl, .mk hcls hin ((confReq_iff getStrs_iff).1 h3) (pairFans_ok h11) hy,
        _, _, (C85_sensor_name _ _).2 rfl, (C85_sensor_name _ _).2 rfl, rfl⟩
    · injection h10 with h10
      subst h10
      simp at hx

theorem stepNotes_mem {b : BusView} {base : ConfProps} {f : InputFlags} : ∀ {names all : List String} {r : SensorNotes},
    Attr base "Inputs" NamesValue all → (∀ n ∈ names, n ∈ all) → stepNotes b f names = .ok r → ∀ x ∈ r,
    ∃ path, x.2 = setInput "temp" path f ∧ ReadsAs b stepwiseInterface base x.1 "temp" path
  | [], all, r, _, _, h => by injection h with h; simp [← h]
  | n :: names, all, r, hin, hs, h => by
    obtain ⟨found, h1, h⟩ := bind_eq_ok.1 h
    obtain rfl := bfind_ok h1
    split_ifs at h with hf
    · obtain ⟨rest, h2, h⟩ := bind_eq_ok.1 h
      injection h with h
      subst h
      intro x hx
      rcases List.mem_append.1 hx with hx | hx
      · obtain ⟨y, hy, rfl⟩ := List.mem_map.1 hx
        exact ⟨y.1, rfl, .mk (.inr ⟨rfl, rfl⟩) hin (hs n (by simp)) hy ((C85_sensor_name _ _).2 rfl)⟩
      · exact stepNotes_mem hin (fun m hm => hs m (by simp [hm])) h2 x hx
    · injection h with h
      simp [← h]

/-- what an object may change -/
def Changes (b : BusView) (N : OMap String Int) (o : ConfObj) : Patch → Prop
  | .note n f => ∃ i ∈ loopInterfaces, ∃ base, o.find? i = some base ∧
      ((∃ type path fl, f = setInput type path fl ∧ inputFlags base = .ok fl ∧ ReadsAs b i base n type path) ∨
        ∃ fan pwm, f = setFan fan pwm ∧ FanPair b base fan pwm ∧ FanNamed fan pwm n)
  | .touch _ => True
  | .loop k n _ => ∃ i ∈ loopInterfaces, ∃ base zones zone name, o.find? i = some base ∧ Attr base "Zones" NamesValue zones ∧
      zone ∈ zones ∧ N.find? zone = some k ∧ Attr base "Name" TextValue name ∧ n = sensorNameToDbusName name
  | .zone k _ => ∃ z n, o.find? zoneInterface = some z ∧ Attr z "Name" TextValue n ∧ N.find? n = some k

theorem withInterface_confined {N : OMap String Int} {A : Patch → Prop} {o : ConfObj} {i : String}
    {f : DbusCfg → ConfProps → Res DbusCfg} (h : ∀ p, o.find? i = some p → Confined N A (fun c => f c p)) :
    Confined N A (withInterface o i f) := by
  cases hf : o.find? i with
  | none => exact (Confined.nothing N A).congr (fun c _ => by simp only [withInterface, hf])
  | some p => exact (h p hf).congr (fun c _ => by simp only [withInterface, hf])

theorem addObject_confined {b : BusView} (hm : b.handleMissing = false) {N : OMap String Int} {o : ConfObj}
    (hz : ∀ z n, o.find? zoneInterface = some z → Attr z "Name" TextValue n → ∃ k, N.find? n = some k)
    (hl : ∀ i ∈ loopInterfaces, ∀ base zones, o.find? i = some base → Attr base "Zones" NamesValue zones →
      ∀ zone ∈ zones, ∃ k, N.find? zone = some k)
    (hp : ∀ base, o.find? pidInterface = some base → base.find? "SetPointOffset" = none) :
    Confined N (Changes b N o) (fun c => addObject b c o) := by
  unfold addObject
  refine Confined.then (withInterface_confined fun z hf => ?_) (Confined.then (withInterface_confined fun base hf => ?_)
    (withInterface_confined fun base hf => ?_))
  · refine addZone_confined fun name hn => ?_
    obtain ⟨k, hk⟩ := hz z name hf hn
    exact ⟨k, hk, fun d => ⟨z, name, hf, hn, hk⟩⟩
  · unfold addPidObject
    refine Confined.bind _ fun name hname => ?_
    refine Confined.bind _ fun cls hcls => ?_
    refine Confined.bind _ fun zones hzones => ?_
    have hname := (confReq_iff getStr_iff).1 hname
    have hcls := (confReq_iff getStr_iff).1 hcls
    have hzones := (confReq_iff getStrs_iff).1 hzones
    refine Confined.each (fun _ => rfl) (fun _ _ _ => rfl) fun zone hzone => ?_
    obtain ⟨k, hk⟩ := hl _ (by simp [loopInterfaces]) base zones hf hzones zone hzone
    refine addPid_confined hm (hp base hf) hk (fun x => ?_) trivial ?_
    · exact ⟨_, by simp [loopInterfaces], base, zones, zone, name, hf, hzones, hzone, hk, hname, rfl⟩
    · intro r hr x hx
      refine ⟨_, by simp [loopInterfaces], base, hf, ?_⟩
      rcases pidNotes_mem hcls hr x hx with ⟨path, f, h1, h2, h3⟩ | h
      · exact .inl ⟨cls, path, f, h1, h2, h3⟩
      · exact .inr h
  · unfold addStepwiseObject
    refine Confined.bind _ fun name hname => ?_
    refine Confined.bind _ fun zones hzones => ?_
    have hname := (confReq_iff getStr_iff).1 hname
    have hzones := (confReq_iff getStrs_iff).1 hzones
    refine Confined.each (fun _ => rfl) (fun _ _ _ => rfl) fun zone hzone => ?_
    obtain ⟨k, hk⟩ := hl _ (by simp [loopInterfaces]) base zones hf hzones zone hzone
    refine addStepwise_confined hm hk (fun x => ?_) trivial ?_
    · exact ⟨_, by simp [loopInterfaces], base, zones, zone, name, hf, hzones, hzone, hk, hname, rfl⟩
    · intro names f r hin hfl hr x hx
      refine ⟨_, by simp [loopInterfaces], base, hf, ?_⟩
      obtain ⟨path, h1, h2⟩ := stepNotes_mem hin (fun _ h => h) hr x hx
      exact .inl ⟨"temp", path, f, h1, hfl, h2⟩

theorem flags_same {base base' : ConfProps} {f f' : InputFlags} (h : inputFlags base = .ok f) (h' : inputFlags base' = .ok f')
    (he : ∀ u x, FailureOptions base u x ↔ FailureOptions base' u x) : f = f' := by
  have h1 := (he _ _).1 (inputFlags_says h)
  have h2 := inputFlags_says h'
  obtain ⟨u, i⟩ := f
  obtain ⟨u', i'⟩ := f'
  rw [show u = u' from attrOr_unique flag_unique h1.unavailable h2.unavailable,
    show i = i' from attrOr_unique flag_unique h1.hostOff h2.hostOff]

/-- objects that do not contradict each other change different things, or change them alike -/
theorem changes_free {b : BusView} {N : OMap String Int} {o o' : ConfObj}
    (hinj : ∀ n n' k, N.find? n = some k → N.find? n' = some k → n = n')
    (hz : ∀ z z' n, o.find? zoneInterface = some z → o'.find? zoneInterface = some z' → Attr z "Name" TextValue n →
      ¬ Attr z' "Name" TextValue n)
    (hl : ∀ i ∈ loopInterfaces, ∀ i' ∈ loopInterfaces, ∀ base base', o.find? i = some base → o'.find? i' = some base' →
      LoopsAgree b i base i' base') {p q : Patch} (hp : Changes b N o p) (hq : Changes b N o' q) : p.Free q := by
  cases p <;> cases q <;> simp only [Patch.Free]
  · rename_i n f m g
    rintro rfl x
    obtain ⟨i, hi, base, h1, h2⟩ := hp
    obtain ⟨i', hi', base', h1', h2'⟩ := hq
    have ha := hl i hi i' hi' base base' h1 h1'
    rcases h2 with ⟨type, path, fl, rfl, h3, h4⟩ | ⟨fan, pwm, rfl, h3, h4⟩
    · rcases h2' with ⟨type', path', fl', rfl, h3', h4'⟩ | ⟨fan', pwm', rfl, h3', h4'⟩
      · obtain ⟨rfl, rfl, h5⟩ := ha.sensors _ _ _ _ _ h4 h4'
        rw [flags_same h3 h3' h5]
      · exact absurd h4 (ha.nofan _ _ _ _ _ h3' h4')
    · rcases h2' with ⟨type', path', fl', rfl, h3', h4'⟩ | ⟨fan', pwm', rfl, h3', h4'⟩
      · exact absurd h4' (ha.fan _ _ _ _ _ h3 h4)
      · obtain ⟨rfl, rfl⟩ := ha.fans _ _ _ _ _ h3 h3' h4 h4'
        rfl
  · rename_i k n x k' n' x'
    rintro rfl rfl
    obtain ⟨i, hi, base, zones, zone, name, h1, h2, h3, h4, h5, h6⟩ := hp
    obtain ⟨i', hi', base', zones', zone', name', h1', h2', h3', h4', h5', h6'⟩ := hq
    obtain rfl := hinj _ _ _ h4 h4'
    exact (hl i hi i' hi' base base' h1 h1').named _ _ _ _ _ n h2 h2' h3 h3' h5 h5' ((C83_search_name _ _).2 h6)
      ((C83_search_name _ _).2 h6')
  · rename_i k d k' d'
    rintro rfl
    obtain ⟨z, n, h1, h2, h3⟩ := hp
    obtain ⟨z', n', h1', h2', h3'⟩ := hq
    obtain rfl := hinj _ _ _ h3 h3'
    exact hz z z' n h1 h1' h2 h2'

theorem addObjects_perm {b : BusView} {N : OMap String Int} {A : ConfObj → Patch → Prop} {os os' : List ConfObj}
    (hp : os.Perm os') : (∀ o ∈ os, Confined N (A o) (fun c => addObject b c o)) →
    os.Pairwise (fun o o' => ∀ p q, A o p → A o' q → p.Free q) → ∀ {c r : DbusCfg}, c.numbers = N →
    addObjects b c os = .ok r → addObjects b c os' = .ok r := by
  induction hp with
  | nil => exact fun _ _ _ _ _ h => h
  | cons a hp ih =>
    intro hc hd c r hn h
    obtain ⟨c1, h1, h⟩ := bind_eq_ok.1 h
    rw [addObjects, h1, ok_bind]
    exact ih (fun o ho => hc o (by simp [ho])) (List.pairwise_cons.1 hd).2 ((hc a (by simp)).numbers hn h1) h
  | swap x y l =>
    intro hc hd c r hn h
    obtain ⟨c1, h1, h⟩ := bind_eq_ok.1 h
    obtain ⟨c2, h2, h⟩ := bind_eq_ok.1 h
    obtain ⟨c3, h3, h4⟩ := (hc y (by simp)).comm (hc x (by simp))
      ((List.pairwise_cons.1 hd).1 x (by simp)) hn h1 h2
    rw [addObjects, h3, ok_bind, addObjects, h4, ok_bind]
    exact h
  | trans h1 h2 ih1 ih2 =>
    intro hc hd c r hn h
    refine ih2 (fun o ho => hc o (h1.mem_iff.2 ho)) (h1.pairwise hd ?_) hn (ih1 hc hd hn h)
    intro x y hxy p q hp hq
    exact (hxy q p hq hp).symm

/-! ## The order of sensors -/

omit F in
theorem perm_short {α : Type} {l l' : List α} (hp : l.Perm l') (h : l.length ≤ 1) : l = l' := by
  match l, h with
  | [], _ => exact (List.nil_perm.1 hp).symm
  | [a], _ => exact List.singleton_perm.1 hp

theorem SameBus.only {b b' : BusView} (h : SameBus b b') {n : String} (h1 : (Matching b n).length ≤ 1) :
    Matching b' n = Matching b n := (perm_short (h.matching n).symm h1).symm

theorem SameBus.find {b b' : BusView} (h : SameBus b b') {n : String} (h1 : (Matching b n).length ≤ 1) :
    b.find (sensorNameToDbusName n) = b'.find (sensorNameToDbusName n) := by
  unfold BusView.find
  unfold Matching at h1
  rw [h.regex]
  split at h1
  · rename_i p hp
    rw [hp]
    exact congrArg Except.ok (perm_short (h.sensors.symm.filter _) h1)
  · rename_i hp
    rw [hp]

/-- the views agree on the names of the list -/
def FindsAlike (b b' : BusView) (names : List String) : Prop :=
  ∀ n ∈ names, b.find (sensorNameToDbusName n) = b'.find (sensorNameToDbusName n)

theorem findAll_same {b b' : BusView} : ∀ {names : List String}, FindsAlike b b' names → b.findAll names = b'.findAll names
  | [], _ => rfl
  | n :: names, h => by
    rw [BusView.findAll, BusView.findAll, h n (by simp), findAll_same (fun m hm => h m (by simp [hm]))]

theorem stepNotes_same {b b' : BusView} {f : InputFlags} : ∀ {names : List String}, FindsAlike b b' names →
    stepNotes b f names = stepNotes b' f names
  | [], _ => rfl
  | n :: names, h => by
    rw [stepNotes, stepNotes, h n (by simp), stepNotes_same (fun m hm => h m (by simp [hm]))]

theorem stepAcceptable_same {b b' : BusView} (hm : b.handleMissing = b'.handleMissing) : ∀ {names : List String},
    FindsAlike b b' names → stepAcceptable b names = stepAcceptable b' names
  | [], _ => rfl
  | n :: names, h => by
    rw [stepAcceptable, stepAcceptable, h n (by simp), hm, stepAcceptable_same hm (fun m hm => h m (by simp [hm]))]

/-- the views agree on all names in the configuration -/
def NamesAlike (b b' : BusView) (base : ConfProps) : Prop :=
  ∀ k ∈ ["Inputs", "Outputs", "MissingIsAcceptable"], ∀ names, Attr base k NamesValue names → FindsAlike b b' names

omit F in
theorem bind_same {α β : Type} {x : Res α} {f g : α → Res β} (h : ∀ a, x = .ok a → f a = g a) : (x >>= f) = (x >>= g) := by
  cases hx : x with
  | error e => rfl
  | ok a => exact h a hx

theorem acceptable_alike {b b' : BusView} {base : ConfProps} (h : NamesAlike b b' base) {names : List String}
    (hn : base.opt "MissingIsAcceptable" [] ConfVariant.getStrs = .ok names) : FindsAlike b b' names := by
  rcases (confOpt_iff getStrs_iff).1 hn with h1 | ⟨-, rfl⟩
  · exact h _ (by simp) _ h1
  · intro n hn
    simp at hn

theorem pidNotes_same {b b' : BusView} {base : ConfProps} (h : NamesAlike b b' base) (cls : String) :
    pidNotes b base cls = pidNotes b' base cls := by
  unfold pidNotes
  refine bind_same fun inputs h1 => ?_
  refine bind_same fun acceptable h2 => ?_
  refine bind_same fun outputs h3 => ?_
  have ho : FindsAlike b b' outputs := by
    unfold outputNames at h3
    split_ifs at h3
    · exact h _ (by simp) _ ((confReq_iff getStrs_iff).1 h3)
    · injection h3 with h3
      intro n hn
      simp [← h3] at hn
  rw [findAll_same (h _ (by simp) _ ((confReq_iff getStrs_iff).1 h1)), findAll_same ho, findAll_same (acceptable_alike h h2)]

theorem addPid_same {b b' : BusView} (hv : SameBus b b') (hm : b.handleMissing = false) {base : ConfProps}
    (h : NamesAlike b b' base) (hoff : base.find? "SetPointOffset" = none) (name cls : String) (c : DbusCfg) (zone : String) :
    addPid b base name cls c zone = addPid b' base name cls c zone := by
  unfold addPid
  rw [pidInputs_eq hm, pidInputs_eq (hv.missing.trans hm), pidNotes_same h]
  refine bind_same fun x _ => ?_
  refine bind_same fun y _ => ?_
  unfold finishPid
  by_cases ha : y.1 = []
  · simp only [if_pos ha]
  · simp only [if_neg ha, offsetType, hoff, ok_bind]
    rfl

theorem addStepwise_same {b b' : BusView} (hv : SameBus b b') (hm : b.handleMissing = false) {base : ConfProps}
    (h : NamesAlike b b' base) (name : String) (c : DbusCfg) (zone : String) :
    addStepwise b base name c zone = addStepwise b' base name c zone := by
  unfold addStepwise
  refine bind_same fun x _ => ?_
  refine bind_same fun names h1 => ?_
  refine bind_same fun acceptable h2 => ?_
  refine bind_same fun f _ => ?_
  rw [stepInputs_eq hm, stepInputs_eq (hv.missing.trans hm), stepNotes_same (h _ (by simp) _ ((confReq_iff getStrs_iff).1 h1))]
  refine bind_same fun y _ => ?_
  unfold finishStepwise
  rw [stepAcceptable_same hv.missing.symm (acceptable_alike h h2)]

theorem overZones_same {f g : DbusCfg → String → Res DbusCfg} (h : ∀ c z, f c z = g c z) : ∀ (zs : List String) (c : DbusCfg),
    overZones f c zs = overZones g c zs
  | [], _ => rfl
  | z :: zs, c => by
    rw [overZones, overZones, h]
    exact bind_same fun c _ => overZones_same h zs c

theorem withInterface_same {o : ConfObj} {i : String} {f g : DbusCfg → ConfProps → Res DbusCfg}
    (h : ∀ p, o.find? i = some p → ∀ c, f c p = g c p) (c : DbusCfg) : withInterface o i f c = withInterface o i g c := by
  unfold withInterface
  cases hf : o.find? i with
  | none => rfl
  | some p => exact h p hf c

theorem addObject_same {b b' : BusView} (hv : SameBus b b') (hm : b.handleMissing = false) {o : ConfObj}
    (h : ∀ i ∈ loopInterfaces, ∀ base, o.find? i = some base → NamesAlike b b' base)
    (hp : ∀ base, o.find? pidInterface = some base → base.find? "SetPointOffset" = none) (c : DbusCfg) :
    addObject b c o = addObject b' c o := by
  unfold addObject
  refine bind_same fun c1 _ => ?_
  rw [withInterface_same (f := addPidObject b) (g := addPidObject b')]
  · refine bind_same fun c2 _ => withInterface_same (fun base hf c => ?_) c2
    unfold addStepwiseObject
    refine bind_same fun name _ => ?_
    refine bind_same fun zones _ => ?_
    exact overZones_same (fun c z => addStepwise_same hv hm (h _ (by simp [loopInterfaces]) base hf) _ c z) _ _
  · intro base hf c
    unfold addPidObject
    refine bind_same fun name _ => ?_
    refine bind_same fun cls _ => ?_
    refine bind_same fun zones _ => ?_
    exact overZones_same (fun c z => addPid_same hv hm (h _ (by simp [loopInterfaces]) base hf) (hp base hf) _ _ c z) _ _

theorem addObjects_same {b b' : BusView} : ∀ {os : List ConfObj}, (∀ o ∈ os, ∀ c, addObject b c o = addObject b' c o) →
    ∀ c, addObjects b c os = addObjects b' c os
  | [], _, _ => rfl
  | o :: os, h, c => by
    rw [addObjects, addObjects, h o (by simp)]
    exact bind_same fun c _ => addObjects_same (fun o ho => h o (by simp [ho])) c

/-! ## Profiles -/

theorem filterObjects_perm {sel : List String} {l l' : List ConfObj} (hp : l.Perm l') : ∀ {os : List ConfObj},
    filterObjects sel l = .ok os → ∃ os', filterObjects sel l' = .ok os' ∧ os.Perm os' := by
  induction hp with
  | nil => exact fun h => ⟨_, h, .refl _⟩
  | cons o hp ih =>
    intro os h
    obtain ⟨es, h1, h⟩ := bind_eq_ok.1 h
    obtain ⟨rest, h2, h⟩ := bind_eq_ok.1 h
    injection h with h
    obtain ⟨rest', h3, h4⟩ := ih h2
    refine ⟨_, by rw [filterObjects, h1, ok_bind, h3, ok_bind], ?_⟩
    rw [← h]
    split_ifs
    · exact h4
    · exact h4.cons _
  | swap x y l =>
    intro os h
    obtain ⟨es, h1, h⟩ := bind_eq_ok.1 h
    obtain ⟨rest, h2, h⟩ := bind_eq_ok.1 h
    obtain ⟨es2, h3, h2⟩ := bind_eq_ok.1 h2
    obtain ⟨rest2, h4, h2⟩ := bind_eq_ok.1 h2
    injection h with h
    injection h2 with h2
    refine ⟨_, by rw [filterObjects, h3, ok_bind, filterObjects, h1, ok_bind, h4, ok_bind, ok_bind], ?_⟩
    rw [← h, ← h2]
    split_ifs
    · exact .refl _
    · exact .refl _
    · exact .refl _
    · exact .swap ..
  | trans _ _ ih1 ih2 =>
    intro os h
    obtain ⟨os1, h1, h2⟩ := ih1 h
    obtain ⟨os2, h3, h4⟩ := ih2 h1
    exact ⟨os2, h3, h2.trans h4⟩

theorem applyProfiles_perm {sel : List String} {l l' os : List ConfObj} (hp : l.Perm l') (h : applyProfiles sel l = .ok os) :
    ∃ os', applyProfiles sel l' = .ok os' ∧ os.Perm os' := by
  unfold applyProfiles at h ⊢
  split_ifs at h ⊢
  · injection h with h
    exact ⟨l', rfl, h ▸ hp⟩
  · exact filterObjects_perm hp h

/-- what holds of the selected parts of any two objects holds of any two objects left -/
theorem applied_pairwise {sel : List String} {objs os : List ConfObj} (hw : ∀ o ∈ objs, OMap.WF o)
    (h : applyProfiles sel objs = .ok os) {R S : ConfObj → ConfObj → Prop} (hd : objs.Pairwise R)
    (hRS : ∀ o o' x x' : ConfObj, R o o' → (∀ i p, x.find? i = some p ↔ o.find? i = some p ∧ Selected sel p) →
      (∀ i p, x'.find? i = some p ↔ o'.find? i = some p ∧ Selected sel p) → S x x') : os.Pairwise S := by
  unfold applyProfiles at h
  by_cases hs : sel = []
  · rw [if_pos (by simpa using hs)] at h
    injection h with h
    subst h
    exact hd.imp (fun {o o'} hoo => hRS o o' o o' hoo (fun i p => by simp [Selected, hs]) (fun i p => by simp [Selected, hs]))
  · rw [if_neg (by simpa using hs)] at h
    rw [filterObjects_ok hs h]
    refine List.Pairwise.filter _ (List.pairwise_map.2 ?_)
    refine List.pairwise_iff_forall_sublist.2 ?_
    intro o o' hsub
    have ho := hsub.subset (List.mem_cons_self)
    have ho' := hsub.subset (List.mem_cons_of_mem _ List.mem_cons_self)
    exact hRS o o' _ _ (List.pairwise_iff_forall_sublist.1 hd hsub) (kept_find? (hw o ho)) (kept_find? (hw o' ho'))

/-! ## All together -/

/-- no name in the configuration stands for several sensors -/
def NamesSingle (b : BusView) (base : ConfProps) : Prop :=
  ∀ k ∈ ["Inputs", "Outputs", "MissingIsAcceptable"], ∀ names, Attr base k NamesValue names → ∀ n ∈ names,
    (Matching b n).length ≤ 1

theorem NamesSingle.alike {b b' : BusView} (hv : SameBus b b') {base : ConfProps} (h : NamesSingle b base) :
    NamesAlike b b' base := fun k hk names hn n hm => hv.find (h k hk names hn n hm)

theorem NamesSingle.same {b b' : BusView} (hv : SameBus b b') {base : ConfProps} (h : NamesSingle b base) :
    NamesSingle b' base := fun k hk names hn n hm => by
  rw [hv.only (h k hk names hn n hm)]
  exact h k hk names hn n hm

theorem ReadsAs.same {b b' : BusView} (hv : SameBus b b') {i : String} {base : ConfProps} (hs : NamesSingle b base)
    {n type path : String} (h : ReadsAs b' i base n type path) : ReadsAs b i base n type path := by
  obtain ⟨h1, h2, h3, h4, h5⟩ := h
  rw [hv.only (hs _ (by simp) _ h2 _ h3)] at h4
  exact .mk h1 h2 h3 h4 h5

theorem FanPair.same {b b' : BusView} (hv : SameBus b b') {base : ConfProps} (hs : NamesSingle b base) {fan pwm : String}
    (h : FanPair b' base fan pwm) : FanPair b base fan pwm := by
  obtain ⟨h1, h2, h3, h4, h5⟩ := h
  refine .mk h1 h2 h3 ?_ h5
  rw [← List.flatMap_congr (fun n hn => hv.only (hs _ (by simp) _ h2 n hn)),
    ← List.flatMap_congr (fun n hn => hv.only (hs _ (by simp) _ h3 n hn))]
  exact h4

theorem LoopsAgree.same {b b' : BusView} (hv : SameBus b b') {i i' : String} {base base' : ConfProps} (hs : NamesSingle b base)
    (hs' : NamesSingle b base') (h : LoopsAgree b i base i' base') : LoopsAgree b' i base i' base' :=
  ⟨h.named, fun _ _ _ _ _ a b => h.sensors _ _ _ _ _ (a.same hv hs) (b.same hv hs'),
   fun _ _ _ _ _ a b c d => h.fans _ _ _ _ _ (a.same hv hs) (b.same hv hs') c d,
   fun _ _ _ _ _ a b c => h.fan _ _ _ _ _ (a.same hv hs) b (c.same hv hs'),
   fun _ _ _ _ _ a b c => h.nofan _ _ _ _ _ (a.same hv hs') b (c.same hv hs)⟩

theorem LoopsAgree.symm {b : BusView} {i i' : String} {base base' : ConfProps} (h : LoopsAgree b i base i' base') :
    LoopsAgree b i' base' i base :=
  ⟨fun _ _ _ _ _ _ a b c d e f g k => h.named _ _ _ _ _ _ b a d c f e k g,
   fun _ _ _ _ _ a b => by
    obtain ⟨h1, h2, h3⟩ := h.sensors _ _ _ _ _ b a
    exact ⟨h1.symm, h2.symm, fun u x => (h3 u x).symm⟩,
   fun _ _ _ _ _ a b c d => by
    obtain ⟨h1, h2⟩ := h.fans _ _ _ _ _ b a d c
    exact ⟨h1.symm, h2.symm⟩,
   h.nofan, h.fan⟩

theorem Unambiguous.same {b b' : BusView} (hv : SameBus b b') {sel : List String} {objs objs' : List ConfObj}
    (ho : objs'.Perm objs) (h : Unambiguous b sel objs) : Unambiguous b' sel objs' := by
  have hA : ∀ i p, Active sel objs' i p → Active sel objs i p := fun i p => active_perm ho
  have hA' : ∀ i p, Active sel objs i p → Active sel objs' i p := fun i p => active_perm ho.symm
  refine ⟨fun z hz => h.numbered z (hA _ _ hz), ?_, ?_, ?_, fun base hb => h.plain base (hA _ _ hb),
    fun i hi base hb => (NamesSingle.same hv (h.single i hi base (hA _ _ hb)))⟩
  · refine ho.symm.pairwise h.zones ?_
    intro o o' hoo z z' h1 h2 h3 h4
    obtain ⟨a1, a2⟩ := hoo z' z h3 h4 h1 h2
    exact ⟨fun n hn hn' => a1 n hn' hn, fun k hk hk' => a2 k hk' hk⟩
  · rintro i hi zone base ⟨hb, hz⟩
    obtain ⟨zp, hzp, hn⟩ := h.known i hi zone base ⟨hA _ _ hb, hz⟩
    exact ⟨zp, hA' _ _ hzp, hn⟩
  · refine ho.symm.pairwise (R := fun o o' => ∀ i ∈ loopInterfaces, ∀ i' ∈ loopInterfaces, ∀ base base',
      o.find? i = some base → Selected sel base → o'.find? i' = some base' → Selected sel base' → LoopsAgree b' i base i' base') ?_ ?_
    · refine List.Pairwise.imp_of_mem ?_ h.loops
      intro o o' hm hm' hoo i hi i' hi' base base' h1 h2 h3 h4
      exact (hoo i hi i' hi' base base' h1 h2 h3 h4).same hv (h.single i hi base ⟨o, hm, h1, h2⟩)
        (h.single i' hi' base' ⟨o', hm', h3, h4⟩)
    · intro o o' hoo i hi i' hi' base base' h1 h2 h3 h4
      exact (hoo i' hi' i hi base' base h3 h4 h1 h2).symm

theorem presetZones_named : ∀ {os : List ConfObj} {m m' : OMap String Int}, presetZones m os = .ok m' →
    ∀ o ∈ os, ∀ z, o.find? zoneInterface = some z → ∃ n, Attr z "Name" TextValue n
  | [], _, _, _ => by simp
  | o :: os, m, m', h => by
    obtain ⟨m1, h1, h⟩ := bind_eq_ok.1 h
    refine List.forall_mem_cons.2 ⟨fun z hz => ?_, presetZones_named h⟩
    unfold presetZone at h1
    rw [hz] at h1
    obtain ⟨n, hn, -⟩ := bind_eq_ok.1 h1
    exact ⟨n, (confReq_iff getStr_iff).1 hn⟩

theorem dbusInit_order {b b' : BusView} (hv : SameBus b b') (hm : b.handleMissing = false) {sel : List String}
    {objs objs' : List ConfObj} (ho : objs'.Perm objs) (hw : ∀ o ∈ objs, OMap.WF o) (hu : Unambiguous b sel objs)
    {r : Bool × DbusCfg} (h : dbusInit b sel objs = .ok r) : dbusInit b' sel objs' = .ok r := by
  obtain ⟨os, h1, h⟩ := bind_eq_ok.1 h
  obtain ⟨N, h2, h⟩ := bind_eq_ok.1 h
  obtain ⟨c, h3, h⟩ := bind_eq_ok.1 h
  obtain ⟨os', h4, hp⟩ := applyProfiles_perm ho.symm h1
  have hact := C81_profiles hw h1
  have hact' : ∀ o ∈ os, ∀ i p, o.find? i = some p → Active sel objs i p := fun o hoo i p hf => (hact i p).1 ⟨o, hoo, hf⟩
  have hwish : ∀ o ∈ os, ∀ z, o.find? zoneInterface = some z → ∃ n k, Wish o n k ∧ Attr z "Name" TextValue n := by
    intro o hoo z hz
    obtain ⟨n, hn⟩ := presetZones_named h2 o hoo z hz
    obtain ⟨k, q, hq, hk, ht⟩ := hu.numbered z (hact' o hoo _ z hz)
    obtain ⟨q', hq', k', he, a⟩ := presetZones_needs h2 o hoo z hz _ hk
    exact ⟨n, k', ⟨z, hz, hn, _, hk, toI64_iff.2 ⟨q', hq', he, a⟩⟩, hn⟩
  have hapart : WishesApart os := by
    refine ⟨fun o hoo hne => ?_, applied_pairwise hw h1 hu.zones ?_⟩
    · obtain ⟨z, hz⟩ := Option.ne_none_iff_exists'.1 hne
      obtain ⟨n, k, hnk, -⟩ := hwish o hoo z hz
      exact ⟨n, k, hnk⟩
    · rintro o o' x x' hR hx hx' n k n' k' ⟨z, hz, hn, d, hd, hk⟩ ⟨z', hz', hn', d', hd', hk'⟩
      obtain ⟨a1, a2⟩ := (hx _ _).1 hz
      obtain ⟨a3, a4⟩ := (hx' _ _).1 hz'
      obtain ⟨b1, b2⟩ := hR z z' a1 a2 a3 a4
      obtain ⟨q, hq, rfl, ht, -, -⟩ := toI64_iff.1 hk
      obtain ⟨q', hq', rfl, ht', -, -⟩ := toI64_iff.1 hk'
      refine ⟨?_, ?_⟩
      · rintro rfl
        exact b1 n hn hn'
      · rintro rfl
        exact b2 k ⟨q, hq, hd, ht⟩ ⟨q', hq', hd', ht'⟩
  obtain ⟨N', p1, p2, p3⟩ := presetZones_perm hapart hp
  rw [h2] at p1
  cases p1
  have hinj : ∀ n n' k, N.find? n = some k → N.find? n' = some k → n = n' := fun n n' k a b =>
    numbered_inj (presetZones_numbered h2 ⟨[], .start⟩) a b
  have hzk : ∀ o ∈ os, ∀ z n, o.find? zoneInterface = some z → Attr z "Name" TextValue n → ∃ k, N.find? n = some k := by
    intro o hoo z n hz hn
    obtain ⟨n', k, hk, hn'⟩ := hwish o hoo z hz
    obtain rfl := attr_unique text_unique hn hn'
    exact ⟨k, (p3 _ _).2 ⟨o, hoo, hk⟩⟩
  have hplain : ∀ o ∈ os, ∀ base, o.find? pidInterface = some base → base.find? "SetPointOffset" = none :=
    fun o hoo base hf => hu.plain base (hact' o hoo _ base hf)
  have hconf : ∀ o ∈ os, Confined N (Changes b N o) (fun c => addObject b c o) := by
    intro o hoo
    refine addObject_confined hm (hzk o hoo) ?_ (hplain o hoo)
    intro i hi base zones hf hzs zone hz
    obtain ⟨zp, hA, hn⟩ := hu.known i hi zone base ⟨hact' o hoo _ base hf, zones, hzs, hz⟩
    obtain ⟨o', ho', hz'⟩ := (hact _ _).2 hA
    exact hzk o' ho' zp zone hz' hn
  have hfree : os.Pairwise (fun o o' => ∀ p q, Changes b N o p → Changes b N o' q → p.Free q) := by
    have hd := applied_pairwise (S := fun x x' => (∀ z z' n, x.find? zoneInterface = some z →
        x'.find? zoneInterface = some z' → Attr z "Name" TextValue n → ¬ Attr z' "Name" TextValue n)) hw h1 hu.zones (by
      intro o o' x x' hR hx hx' z z' n hz hz' hn hn'
      obtain ⟨a1, a2⟩ := (hx _ _).1 hz
      obtain ⟨a3, a4⟩ := (hx' _ _).1 hz'
      exact (hR z z' a1 a2 a3 a4).1 n hn hn')
    have hl := applied_pairwise (S := fun x x' => ∀ i ∈ loopInterfaces, ∀ i' ∈ loopInterfaces, ∀ base base',
        x.find? i = some base → x'.find? i' = some base' → LoopsAgree b i base i' base') hw h1 hu.loops (by
      intro o o' x x' hR hx hx' i hi i' hi' base base' hf hf'
      obtain ⟨a1, a2⟩ := (hx _ _).1 hf
      obtain ⟨a3, a4⟩ := (hx' _ _).1 hf'
      exact hR i hi i' hi' base base' a1 a2 a3 a4)
    exact (hd.and hl).imp (fun {o o'} hoo p q hp hq => changes_free hinj hoo.1 hoo.2 hp hq)
  have hadd := addObjects_perm hp hconf hfree rfl h3
  have hsame : ∀ o ∈ os', ∀ c, addObject b c o = addObject b' c o := by
    intro o hoo c
    have hoo := hp.mem_iff.2 hoo
    exact addObject_same hv hm (fun i hi base hf => NamesSingle.alike hv (hu.single i hi base (hact' o hoo _ base hf)))
      (hplain o hoo) c
  rw [addObjects_same hsame] at hadd
  unfold dbusInit
  rw [h4, ok_bind, p2, ok_bind, hadd, ok_bind]
  exact h

end
end Verif
