import Verif.Spec.OnBus
import Verif.Props.DbusInit

/-! # Properties of the sensors of configurations over D-Bus (C114) -/

namespace Verif
open Dbl
section
variable [F : FloatModel]

/-- what is new among the sensors are fans, and sensors of type `cls` with the flags `f`, which are noted -/
structure Marks (cls : String) (f : InputFlags) (a : List String) (m : OMap String SensorConfig) (a' : List String)
    (m' : OMap String SensorConfig) : Prop where
  names : ∀ n ∈ a, n ∈ a'
  wf : m.WF → m'.WF
  sensors : ∀ n s, m'.find? n = some s → m.find? n = some s ∨ s.type = "fan" ∨
    (n ∈ a' ∧ s.type = cls ∧ s.unavailableAsFailed = f.unavailableAsFailed ∧ s.ignoreFailIfHostOff = f.ignoreFailIfHostOff)

theorem Marks.refl (cls : String) (f : InputFlags) (a : List String) (m : OMap String SensorConfig) : Marks cls f a m a m :=
  ⟨fun _ h => h, id, fun _ _ h => .inl h⟩

theorem Marks.trans {cls : String} {f : InputFlags} {a a' a'' : List String} {m m' m'' : OMap String SensorConfig}
    (h : Marks cls f a m a' m') (h' : Marks cls f a' m' a'' m'') : Marks cls f a m a'' m'' := by
  refine ⟨fun n hn => h'.names n (h.names n hn), fun hw => h'.wf (h.wf hw), fun n s hs => ?_⟩
  rcases h'.sensors n s hs with g | g | g
  · rcases h.sensors n s g with k | k | ⟨k, l⟩
    · exact .inl k
    · exact .inr (.inl k)
    · exact .inr (.inr ⟨h'.names n k, l⟩)
  · exact .inr (.inl g)
  · exact .inr (.inr g)

theorem marks_note {cls : String} {f : InputFlags} {a : List String} {m : OMap String SensorConfig} (n path : String) :
    Marks cls f a m (a ++ [n]) (noteInput m n cls path f) := by
  refine ⟨fun n' h => List.mem_append_left _ h, fun hw => OMap.wf_insert hw _ _, fun n' s hs => ?_⟩
  by_cases e : n' = n
  · subst e
    rw [noteInput, OMap.find?_insert_self] at hs
    injection hs with hs
    subst hs
    exact .inr (.inr ⟨by simp, rfl, rfl, rfl⟩)
  · rw [noteInput, OMap.find?_insert_ne _ e] at hs
    exact .inl hs

theorem findInputs_marks {b : BusView} {cls : String} {acc : List String} {f : InputFlags} : ∀ {ns : List String}
    {s s' : InputState}, findInputs b cls acc f s ns = .ok s' → Marks cls f s.archived s.sensors s'.archived s'.sensors
  | [], s, s', h => by
    injection h with h
    subst h
    exact .refl _ _ _ _
  | n :: ns, s, s', h => by
    obtain ⟨s1, h1, h⟩ := bind_eq_ok.1 h
    refine .trans ?_ (findInputs_marks h)
    obtain ⟨l, -, h1⟩ := bind_eq_ok.1 h1
    split_ifs at h1 <;> injection h1 with h1 <;> subst h1
    · exact .refl _ _ _ _
    · exact .refl _ _ _ _
    · exact marks_note _ _

theorem noteFound_marks {cls : String} {f : InputFlags} : ∀ {l : List (String × String)} {s s' : InputState},
    noteFound cls f s l = .ok s' → Marks cls f s.archived s.sensors s'.archived s'.sensors
  | [], s, s', h => by
    injection h with h
    subst h
    exact .refl _ _ _ _
  | (path, i) :: l, s, s', h => by
    rw [noteFound] at h
    dsimp only at h
    split at h
    · cases h
    · refine .trans ?_ (noteFound_marks h)
      split
      · exact marks_note _ _
      · exact .refl _ _ _ _

theorem noteFans_marks {cls : String} {f : InputFlags} : ∀ {l : List ((String × String) × (String × String))}
    {s s' : InputState}, noteFans s l = .ok s' → Marks cls f s.archived s.sensors s'.archived s'.sensors
  | [], s, s', h => by
    injection h with h
    subst h
    exact .refl _ _ _ _
  | ((fp, fi), (pp, pi)) :: l, s, s', h => by
    rw [noteFans] at h
    split at h
    · cases h
    · refine .trans ⟨fun n hn => List.mem_append_left _ hn, fun hw => OMap.wf_insert hw _ _, fun n c hc => ?_⟩ (noteFans_marks h)
      by_cases e : n = sensorNameFromPath fp ++ sensorNameFromPath pp
      · subst e
        rw [OMap.find?_insert_self] at hc
        injection hc with hc
        subst hc
        exact .inr (.inl rfl)
      · rw [OMap.find?_insert_ne _ e] at hc
        exact .inl hc

theorem inputFlags_says {base : ConfProps} {f : InputFlags} (h : inputFlags base = .ok f) :
    FailureOptions base f.unavailableAsFailed f.ignoreFailIfHostOff := by
  obtain ⟨u, hu, h⟩ := bind_eq_ok.1 h
  obtain ⟨i, hi, h⟩ := bind_eq_ok.1 h
  injection h with h
  subst h
  exact ⟨(confOpt_iff getBool_iff).1 hu, (confOpt_iff getBool_iff).1 hi⟩

theorem pidInputs_marks {b : BusView} {sensors sensors' : OMap String SensorConfig} {base : ConfProps} {cls : String}
    {archived missing : List String} (h : pidInputs b sensors base cls = .ok (archived, missing, sensors')) :
    ∃ f : InputFlags, FailureOptions base f.unavailableAsFailed f.ignoreFailIfHostOff ∧
      Marks cls f [] sensors archived sensors' := by
  obtain ⟨inputs, hi, h⟩ := bind_eq_ok.1 h
  obtain ⟨acc, hacc, h⟩ := bind_eq_ok.1 h
  obtain ⟨outs, ho, h⟩ := bind_eq_ok.1 h
  obtain ⟨f, hf, h⟩ := bind_eq_ok.1 h
  obtain ⟨s1, h1, h⟩ := bind_eq_ok.1 h
  obtain ⟨outs', h2, h⟩ := bind_eq_ok.1 h
  obtain ⟨miss, h3, h⟩ := bind_eq_ok.1 h
  obtain ⟨s2, h4, h⟩ := bind_eq_ok.1 h
  obtain ⟨miss', h5, h⟩ := bind_eq_ok.1 h
  obtain ⟨s3, h6, h⟩ := bind_eq_ok.1 h
  injection h with h
  simp only [Prod.mk.injEq] at h
  obtain ⟨rfl, rfl, rfl⟩ := h
  refine ⟨f, inputFlags_says hf, .trans (findInputs_marks h1) (.trans (noteFound_marks h4) ?_)⟩
  unfold fanInputs at h6
  split_ifs at h6
  · obtain ⟨pairs, -, h6⟩ := bind_eq_ok.1 h6
    exact noteFans_marks h6
  · injection h6 with h6
    subst h6
    exact .refl _ _ _ _

theorem noteStepInputs_marks (f : InputFlags) : ∀ {l : List (String × String)} {s : List String × OMap String SensorConfig},
    Marks "temp" f s.1 s.2 (noteStepInputs f s l).1 (noteStepInputs f s l).2
  | [], _ => .refl _ _ _ _
  | (path, i) :: l, s => by
    rw [noteStepInputs]
    exact .trans (marks_note (sensorNameFromPath path) path) (noteStepInputs_marks f
      (s := (s.1 ++ [sensorNameFromPath path], noteInput s.2 (sensorNameFromPath path) "temp" path f)))

theorem stepInputs_marks {b : BusView} {acc : List String} {f : InputFlags} : ∀ {ns : List String}
    {s s' : List String × OMap String SensorConfig}, stepInputs b acc f s ns = .ok s' → Marks "temp" f s.1 s.2 s'.1 s'.2
  | [], s, s', h => by
    injection h with h
    subst h
    exact .refl _ _ _ _
  | n :: ns, s, s', h => by
    obtain ⟨l, -, h⟩ := bind_eq_ok.1 h
    split_ifs at h
    · exact .trans (noteStepInputs_marks f) (stepInputs_marks h)
    · injection h with h
      subst h
      exact .refl _ _ _ _
    · exact stepInputs_marks h
    · exact .trans (marks_note _ _) (stepInputs_marks h)

/-! ## Which sensors are written -/

/-- all sensors that are fans, or have a control, are what `P` says -/
def Controlled (P : String → String → Prop) (m : OMap String SensorConfig) : Prop :=
  ∀ n s, m.find? n = some s → (s.writePath = "" ∧ s.type ≠ "fan") ∨ P n s.writePath

theorem Controlled.insert {P : String → String → Prop} {m : OMap String SensorConfig} (h : Controlled P m) {n : String}
    {s : SensorConfig} (hs : (s.writePath = "" ∧ s.type ≠ "fan") ∨ P n s.writePath) : Controlled P (m.insert n s) := by
  intro n' s' h'
  by_cases e : n' = n
  · subst e
    rw [OMap.find?_insert_self] at h'
    injection h' with h'
    exact h' ▸ hs
  · rw [OMap.find?_insert_ne m e] at h'
    exact h n' s' h'

theorem controlled_note {P : String → String → Prop} {m : OMap String SensorConfig} (h : Controlled P m) {cls : String}
    (hc : cls ≠ "fan") (n path : String) (f : InputFlags) : Controlled P (noteInput m n cls path f) := by
  refine h.insert ?_
  dsimp only
  cases hf : m.find? n with
  | none => exact .inl ⟨rfl, hc⟩
  | some s =>
    rcases h n s hf with ⟨g, -⟩ | g
    · exact .inl ⟨g, hc⟩
    · exact .inr g

theorem findInputs_controlled {P : String → String → Prop} {b : BusView} {cls : String} {acc : List String} {f : InputFlags} :
    ∀ {ns : List String} {s s' : InputState}, findInputs b cls acc f s ns = .ok s' → Controlled P s.sensors →
    Controlled P s'.sensors
  | [], s, s', h, hs => by
    injection h with h
    exact h ▸ hs
  | n :: ns, s, s', h, hs => by
    obtain ⟨s1, h1, h⟩ := bind_eq_ok.1 h
    refine findInputs_controlled h ?_
    obtain ⟨l, -, h1⟩ := bind_eq_ok.1 h1
    split_ifs at h1 with g1 g2 <;> injection h1 with h1 <;> subst h1
    · exact hs
    · exact hs
    · exact controlled_note hs (fun e => g2 (.inl e)) _ _ _

theorem noteFound_controlled {P : String → String → Prop} {cls : String} {f : InputFlags} : ∀ {l : List (String × String)}
    {s s' : InputState}, noteFound cls f s l = .ok s' → Controlled P s.sensors → Controlled P s'.sensors
  | [], s, s', h, hs => by
    injection h with h
    exact h ▸ hs
  | (path, i) :: l, s, s', h, hs => by
    rw [noteFound] at h
    dsimp only at h
    split at h
    · cases h
    · refine noteFound_controlled h ?_
      split
      · rename_i ht
        exact controlled_note hs (fun e => by rw [e] at ht; exact absurd ht (by decide)) _ _ _
      · exact hs

theorem noteFans_controlled {P : String → String → Prop} : ∀ {l : List ((String × String) × (String × String))}
    {s s' : InputState}, noteFans s l = .ok s' →
    (∀ x ∈ l, P (sensorNameFromPath x.1.1 ++ sensorNameFromPath x.2.1) x.2.1) → Controlled P s.sensors → Controlled P s'.sensors
  | [], s, s', h, _, hs => by
    injection h with h
    exact h ▸ hs
  | ((fp, fi), (pp, pi)) :: l, s, s', h, hl, hs => by
    rw [noteFans] at h
    split at h
    · cases h
    · have hx := hl ((fp, fi), (pp, pi)) List.mem_cons_self
      refine noteFans_controlled h (fun x hx => hl x (List.mem_cons_of_mem _ hx)) ?_
      dsimp only
      refine hs.insert (.inr ?_)
      exact hx

theorem pidInputs_controlled {P : String → String → Prop} {b : BusView} {m m' : OMap String SensorConfig} {base : ConfProps}
    {cls : String} {archived missing : List String} (hc : Attr base "Class" TextValue cls)
    (h : pidInputs b m base cls = .ok (archived, missing, m'))
    (hP : ∀ fan pwm, FanPair b base fan pwm → P (sensorNameFromPath fan ++ sensorNameFromPath pwm) pwm)
    (hs : Controlled P m) : Controlled P m' := by
  obtain ⟨inputs, hi, h⟩ := bind_eq_ok.1 h
  obtain ⟨acc, hacc, h⟩ := bind_eq_ok.1 h
  obtain ⟨outs, ho, h⟩ := bind_eq_ok.1 h
  obtain ⟨f, -, h⟩ := bind_eq_ok.1 h
  obtain ⟨s1, h1, h⟩ := bind_eq_ok.1 h
  obtain ⟨outs', h2, h⟩ := bind_eq_ok.1 h
  obtain ⟨miss, h3, h⟩ := bind_eq_ok.1 h
  obtain ⟨s2, h4, h⟩ := bind_eq_ok.1 h
  obtain ⟨miss', h5, h⟩ := bind_eq_ok.1 h
  obtain ⟨s3, h6, h⟩ := bind_eq_ok.1 h
  injection h with h
  simp only [Prod.mk.injEq] at h
  obtain ⟨rfl, rfl, rfl⟩ := h
  obtain ⟨f1, -, -⟩ := findInputs_ok h1
  rw [List.nil_append] at f1
  obtain ⟨f2, -, -, -⟩ := noteFound_ok (b := b) h4 (fun x hx => by rw [f1] at hx; exact flatMatching_mem hx)
  have hs2 := noteFound_controlled h4 (findInputs_controlled h1 hs)
  unfold fanInputs at h6
  split_ifs at h6 with hfan
  · subst hfan
    obtain ⟨pairs, hp, h6⟩ := bind_eq_ok.1 h6
    rw [outputNames, if_pos rfl] at ho
    rw [f2, f1, findAll_ok h2] at hp
    exact noteFans_controlled h6 (fun x hx => hP _ _ (.mk (i := x.1.2) (j := x.2.2) hc ((confReq_iff getStrs_iff).1 hi)
      ((confReq_iff getStrs_iff).1 ho) (pairFans_ok hp) hx)) hs2
  · injection h6 with h6
    exact h6 ▸ hs2

theorem noteStepInputs_controlled {P : String → String → Prop} (f : InputFlags) : ∀ {l : List (String × String)}
    {s : List String × OMap String SensorConfig}, Controlled P s.2 → Controlled P (noteStepInputs f s l).2
  | [], _, h => h
  | (path, i) :: l, s, h => by
    rw [noteStepInputs]
    exact noteStepInputs_controlled f (s := (s.1 ++ [sensorNameFromPath path], noteInput s.2 (sensorNameFromPath path) "temp" path f))
      (controlled_note h (by decide) _ _ _)

theorem stepInputs_controlled {P : String → String → Prop} {b : BusView} {acc : List String} {f : InputFlags} : ∀ {ns : List String}
    {s s' : List String × OMap String SensorConfig}, stepInputs b acc f s ns = .ok s' → Controlled P s.2 → Controlled P s'.2
  | [], s, s', h, hs => by
    injection h with h
    exact h ▸ hs
  | n :: ns, s, s', h, hs => by
    obtain ⟨l, -, h⟩ := bind_eq_ok.1 h
    split_ifs at h
    · exact stepInputs_controlled h (noteStepInputs_controlled f hs)
    · injection h with h
      exact h ▸ hs
    · exact stepInputs_controlled h hs
    · exact stepInputs_controlled h (controlled_note hs (by decide) _ _ _)

/-- a fan of a configuration that applies -/
def ActiveFan (b : BusView) (sel : List String) (objs : List ConfObj) (n pwm : String) : Prop :=
  ∃ base fan, Active sel objs pidInterface base ∧ FanPair b base fan pwm ∧
    n = sensorNameFromPath fan ++ sensorNameFromPath pwm

/-! ## All of it -/

/-- the flags of all sensors are from configurations that use them, and the controls from pairs -/
def SensorsFrom (b : BusView) (sel : List String) (objs : List ConfObj) (m : OMap String SensorConfig) : Prop :=
  m.WF ∧ (∀ n s, m.find? n = some s → s.type ≠ "fan" →
    ∃ base, UsesSensor b sel objs base n s.type ∧ FailureOptions base s.unavailableAsFailed s.ignoreFailIfHostOff) ∧
  Controlled (ActiveFan b sel objs) m

def Flagged (b : BusView) (sel : List String) (objs : List ConfObj) (c : DbusCfg) : Prop :=
  CfgOk b sel objs c ∧ SensorsFrom b sel objs c.sensors

theorem flagged_pid {b : BusView} {sel : List String} {objs : List ConfObj} {c c' : DbusCfg} {base : ConfProps}
    (hA : Active sel objs pidInterface base) {cls pidName zone : String} (hcl : Attr base "Class" TextValue cls)
    (hc : Flagged b sel objs c) (h : addPid b base pidName cls c zone = .ok c') :
    SensorsFrom b sel objs c'.sensors := by
  obtain ⟨⟨i, numbers⟩, -, h⟩ := bind_eq_ok.1 h
  obtain ⟨⟨archived, missing, sensors⟩, hp, h⟩ := bind_eq_ok.1 h
  obtain ⟨f, hf, hm⟩ := pidInputs_marks hp
  obtain ⟨hn, -, -⟩ := pidInputs_ok hcl hp hc.1.fit
  have e : c'.sensors = sensors := by
    dsimp only at h
    unfold finishPid at h
    split_ifs at h
    · injection h with h
      exact h ▸ rfl
    · obtain ⟨_, -, h⟩ := bind_eq_ok.1 h
      obtain ⟨_, -, h⟩ := bind_eq_ok.1 h
      obtain ⟨_, -, h⟩ := bind_eq_ok.1 h
      injection h with h
      exact h ▸ rfl
  rw [e]
  refine ⟨hm.wf hc.2.1, fun n s hs hnf => ?_, pidInputs_controlled hcl hp (fun fan pwm hfp => ⟨base, fan, hA, hfp, rfl⟩) hc.2.2.2⟩
  rcases hm.sensors n s hs with g | g | ⟨g1, g2, g3, g4⟩
  · exact hc.2.2.1 n s g hnf
  · exact absurd g hnf
  · exact ⟨base, .pid hA (g2 ▸ hcl) hnf hn g1, g3 ▸ g4 ▸ hf⟩

theorem flagged_step {b : BusView} {sel : List String} {objs : List ConfObj} {c c' : DbusCfg} {base : ConfProps}
    (hA : Active sel objs stepwiseInterface base) {pidName zone : String} (hc : Flagged b sel objs c)
    (h : addStepwise b base pidName c zone = .ok c') : SensorsFrom b sel objs c'.sensors := by
  obtain ⟨⟨i, numbers⟩, -, h⟩ := bind_eq_ok.1 h
  obtain ⟨names, hin, h⟩ := bind_eq_ok.1 h
  obtain ⟨acc, hacc, h⟩ := bind_eq_ok.1 h
  obtain ⟨f, hf, h⟩ := bind_eq_ok.1 h
  obtain ⟨⟨inputs, sensors⟩, hp, h⟩ := bind_eq_ok.1 h
  have hm := stepInputs_marks hp
  have hn := (stepInputs_ok hp).1
  dsimp only at hm hn
  rw [List.nil_append] at hn
  have e : c'.sensors = sensors := by
    dsimp only at h
    unfold finishStepwise at h
    split_ifs at h
    · injection h with h
      exact h ▸ rfl
    · obtain ⟨_, -, h⟩ := bind_eq_ok.1 h
      obtain ⟨_, -, h⟩ := bind_eq_ok.1 h
      injection h with h
      exact h ▸ rfl
  rw [e]
  refine ⟨hm.wf hc.2.1, fun n s hs hnf => ?_, stepInputs_controlled hp hc.2.2.2⟩
  rcases hm.sensors n s hs with g | g | ⟨g1, g2, g3, g4⟩
  · exact hc.2.2.1 n s g hnf
  · exact absurd g hnf
  · exact ⟨base, .step hA g2 ((confReq_iff getStrs_iff).1 hin) ((confOpt_iff getStrs_iff).1 hacc) (hn ▸ g1),
      g3 ▸ g4 ▸ inputFlags_says hf⟩

theorem overZones_flagged {b : BusView} {sel : List String} {objs : List ConfObj} {step : DbusCfg → String → Res DbusCfg}
    {zones : List String} {c c' : DbusCfg}
    (hs : ∀ z ∈ zones, ∀ c c', step c z = .ok c' → Flagged b sel objs c → Flagged b sel objs c')
    (h : overZones step c zones = .ok c') (hc : Flagged b sel objs c) : Flagged b sel objs c' := by
  induction zones generalizing c with
  | nil => injection h with h; exact h ▸ hc
  | cons z zs ih =>
    obtain ⟨c1, h1, h⟩ := bind_eq_ok.1 h
    exact ih (fun z hz => hs z (List.mem_cons_of_mem _ hz)) h (hs z List.mem_cons_self _ _ h1 hc)

theorem withInterface_flagged {b : BusView} {sel : List String} {objs : List ConfObj} {obj : ConfObj} {interface : String}
    {f : DbusCfg → ConfProps → Res DbusCfg} {c c' : DbusCfg}
    (hf : ∀ p, obj.find? interface = some p → ∀ c c', f c p = .ok c' → Flagged b sel objs c → Flagged b sel objs c')
    (h : withInterface obj interface f c = .ok c') (hc : Flagged b sel objs c) : Flagged b sel objs c' := by
  unfold withInterface at h
  split at h
  · injection h with h; exact h ▸ hc
  · rename_i p hp
    exact hf p hp _ _ h hc

theorem addObjects_flagged {b : BusView} {sel : List String} {objs : List ConfObj} : ∀ {os : List ConfObj} {c c' : DbusCfg},
    (∀ o ∈ os, ∀ interface p, o.find? interface = some p → Active sel objs interface p) →
    addObjects b c os = .ok c' → Flagged b sel objs c → Flagged b sel objs c'
  | [], c, c', _, h, hc => by
    injection h with h
    exact h ▸ hc
  | o :: os, c, c', hA, h, hc => by
    obtain ⟨c3, h1, h⟩ := bind_eq_ok.1 h
    obtain ⟨c1, h2, h1⟩ := bind_eq_ok.1 h1
    obtain ⟨c2, h3, h4⟩ := bind_eq_ok.1 h1
    refine addObjects_flagged (fun o ho => hA o (List.mem_cons_of_mem _ ho)) h ?_
    refine withInterface_flagged (fun p hp c c' hf hI => ?_) h4 (withInterface_flagged (fun p hp c c' hf hI => ?_) h3
      (withInterface_flagged (fun p hp c c' hf hI => ?_) h2 hc))
    · have hact := hA o List.mem_cons_self _ _ hp
      have hf' := hf
      obtain ⟨name, h1, hf'⟩ := bind_eq_ok.1 hf'
      obtain ⟨zones, h3, hf'⟩ := bind_eq_ok.1 hf'
      have h1 := (confReq_iff getStr_iff).1 h1
      have h3 := (confReq_iff getStrs_iff).1 h3
      exact overZones_flagged (fun z hz c c' hs hI => ⟨(addStepwise_ok h1 hact ⟨p, zones, .inr hact, h3, hz⟩
        (fun n info hl => .inr ⟨p, zones, hact, h3, hz, hl⟩) hs hI.1).1, flagged_step hact hI hs⟩) hf' hI
    · have hact := hA o List.mem_cons_self _ _ hp
      have hf' := hf
      obtain ⟨name, h1, hf'⟩ := bind_eq_ok.1 hf'
      obtain ⟨cls, h2, hf'⟩ := bind_eq_ok.1 hf'
      obtain ⟨zones, h3, hf'⟩ := bind_eq_ok.1 hf'
      have h1 := (confReq_iff getStr_iff).1 h1
      have h2 := (confReq_iff getStr_iff).1 h2
      have h3 := (confReq_iff getStrs_iff).1 h3
      exact overZones_flagged (fun z hz c c' hs hI => ⟨(addPid_ok h1 h2 hact ⟨p, zones, .inl hact, h3, hz⟩
        (fun n info hl => ⟨p, zones, hact, h3, hz, hl⟩) hs hI.1).1, flagged_pid hact h2 hI hs⟩) hf' hI
    · refine ⟨(addZone_grows hf hI.1).1, ?_⟩
      obtain ⟨_, -, hf⟩ := bind_eq_ok.1 hf
      obtain ⟨_, -, hf⟩ := bind_eq_ok.1 hf
      obtain ⟨_, -, hf⟩ := bind_eq_ok.1 hf
      injection hf with hf
      exact hf ▸ hI.2

theorem dbusInit_flagged {b : BusView} {sel : List String} {objs : List ConfObj} (hw : ∀ o ∈ objs, OMap.WF o) {r : Bool}
    {c : DbusCfg} (h : dbusInit b sel objs = .ok (r, c)) : Flagged b sel objs c := by
  obtain ⟨os, h1, h⟩ := bind_eq_ok.1 h
  obtain ⟨numbers, h2, h⟩ := bind_eq_ok.1 h
  obtain ⟨c1, h3, h⟩ := bind_eq_ok.1 h
  injection h with h
  injection h with hr hc
  subst hc
  exact addObjects_flagged (fun o ho i p hp => (C81_profiles hw h1 i p).1 ⟨o, ho, hp⟩) h3
    ⟨⟨fun n s hs => by simp at hs, presetZones_numbered h2 ⟨[], .start⟩, OMap.wf_empty, fun i conf hf => by simp at hf⟩,
      OMap.wf_empty, fun n s hs => by simp at hs, fun n s hs => by simp at hs⟩

/-- **C114** Every sensor configured over D-Bus other than a fan is an input of a configuration that applies. It has the type
this configuration is for, and counts as failed while unavailable, and while the host is off, as this configuration says. -/
theorem C114_flags {b : BusView} {sel : List String} {objs : List ConfObj} (hw : ∀ o ∈ objs, OMap.WF o) {r : Bool}
    {c : DbusCfg} (h : dbusInit b sel objs = .ok (r, c)) {n : String} {s : SensorConfig} (hs : c.sensors.find? n = some s)
    (hf : s.type ≠ "fan") :
    ∃ base, UsesSensor b sel objs base n s.type ∧ FailureOptions base s.unavailableAsFailed s.ignoreFailIfHostOff :=
  (dbusInit_flagged hw h).2.2.1 n s hs hf

/-- **C114** Every sensor that is a fan, or is written, is one of a fan configuration that applies: it is called after the fan
and the control there, and is written through this control. -/
theorem C114_controls {b : BusView} {sel : List String} {objs : List ConfObj} (hw : ∀ o ∈ objs, OMap.WF o) {r : Bool}
    {c : DbusCfg} (h : dbusInit b sel objs = .ok (r, c)) {n : String} {s : SensorConfig} (hs : c.sensors.find? n = some s)
    (hf : s.type = "fan" ∨ s.writePath ≠ "") :
    ∃ base fan, Active sel objs "xyz.openbmc_project.Configuration.Pid" base ∧ FanPair b base fan s.writePath ∧
      FanNamed fan s.writePath n := by
  rcases (dbusInit_flagged hw h).2.2.2 n s hs with ⟨g1, g2⟩ | ⟨base, fan, g1, g2, g3⟩
  · exact (hf.elim g2 (fun h => h g1)).elim
  · exact ⟨base, fan, g1, g2, _, _, (C85_sensor_name _ _).2 rfl, (C85_sensor_name _ _).2 rfl, g3⟩

theorem flag_unique (v : ConfVariant) (x y : Bool) (h1 : FlagValue v x) (h2 : FlagValue v y) : x = y := by
  rw [FlagValue, h1] at h2; injection h2

/-- **C114** If all configurations that use a sensor agree on a flag, the sensor has it. -/
theorem C114_agreed {b : BusView} {sel : List String} {objs : List ConfObj} (hw : ∀ o ∈ objs, OMap.WF o) {r : Bool}
    {c : DbusCfg} (h : dbusInit b sel objs = .ok (r, c)) {n : String} {s : SensorConfig} (hs : c.sensors.find? n = some s)
    (hf : s.type ≠ "fan") {u i : Bool}
    (hall : ∀ base type, UsesSensor b sel objs base n type → FailureOptions base u i) :
    s.unavailableAsFailed = u ∧ s.ignoreFailIfHostOff = i := by
  obtain ⟨base, h1, h2, h3⟩ := C114_flags hw h hs hf
  obtain ⟨g1, g2⟩ := hall base _ h1
  exact ⟨attrOr_unique flag_unique h2 g1, attrOr_unique flag_unique h3 g2⟩

end
namespace Ex
section
attribute [local instance] binary64

/-- the flags of the sensors -/
def flagsOf (objs : List ConfObj) : List (String × String × Bool × Bool) :=
  match dbusInit coreBus [] objs with
  | .ok (_, c) => c.sensors.entries.map (fun e => (e.1, e.2.type, e.2.unavailableAsFailed, e.2.ignoreFailIfHostOff))
  | .error _ => []

def kind114 : ConfObj := ⟨[(pidInterface, heatConf ["Core 1", "Core 2"] [("InputUnavailableAsFailed", .bool false)]),
  (zoneInterface, zoneConf "Left" [])]⟩

def off114 : ConfObj := ⟨[(stepwiseInterface, stepConf ["Core 2"] [("IgnoreFailIfHostOff", .bool true)])]⟩

/-- C114: the flags are as configured -/
example : flagsOf [kind114] = [("Core_1", "temp", false, false), ("Core_2", "temp", false, false)] := by decide +kernel

/-- C114: and are their defaults otherwise -/
example : flagsOf (system []) = [("Core_1", "temp", true, false), ("Core_2", "temp", true, false),
    ("Fan_1Pwm_1", "fan", false, false)] := by decide +kernel

/-- C114: the first core is used by one configuration only -/
example : UsesSensor coreBus [] [kind114, off114] (heatConf ["Core 1", "Core 2"] [("InputUnavailableAsFailed", .bool false)])
    "Core_1" "temp" :=
  .pid (names := ["Core_1", "Core_2"]) ⟨kind114, by simp, rfl, .inl rfl⟩ ⟨_, rfl, rfl⟩ (by decide)
    (by
      have := PidNames.heat (b := coreBus) (base := heatConf ["Core 1", "Core 2"] [("InputUnavailableAsFailed", .bool false)])
        (cls := "temp") (inputs := ["Core 1", "Core 2"]) (acceptable := []) ⟨_, rfl, rfl⟩ (by decide)
        ⟨_, rfl, rfl⟩ (.inr ⟨rfl, rfl⟩)
      rwa [show missingNames coreBus [] ["Core 1", "Core 2"] ++ foundNames coreBus ["Core 1", "Core 2"] = ["Core_1", "Core_2"]
        from by decide +kernel] at this) (by simp)

/-- C114_controls: the fan and its control in the configuration … -/
example : FanPair coreBus (busFan []) "/sensors/fan_tach/Fan_1" "/control/Pwm_1" ∧
    FanNamed "/sensors/fan_tach/Fan_1" "/control/Pwm_1" "Fan_1Pwm_1" :=
  ⟨.mk (inputs := ["Fan 1"]) (outputs := ["Pwm 1"]) (i := valueInterface) (j := pwmInterface)
    (pairs := [(("/sensors/fan_tach/Fan_1", valueInterface), ("/control/Pwm_1", pwmInterface))]) ⟨_, rfl, rfl⟩ ⟨_, rfl, rfl⟩
    ⟨_, rfl, rfl⟩ (.one [("/sensors/fan_tach/Fan_1", valueInterface)] ("/control/Pwm_1", pwmInterface)) (by simp),
   "Fan_1", "Pwm_1", (C85_sensor_name _ _).2 (by decide +kernel), (C85_sensor_name _ _).2 (by decide +kernel), rfl⟩

/-- … are those of the sensor -/
example : (match dbusInit coreBus [] (system []) with
    | .ok (_, c) => (c.sensors.find? "Fan_1Pwm_1").map (fun s => (s.readPath, s.writePath))
    | .error _ => none) = some ("/sensors/fan_tach/Fan_1", "/control/Pwm_1") := by decide +kernel

end
end Ex

section
attribute [local instance] binary64
open Ex

/-- **C114** (finding) If two configurations use a sensor and differ in a flag, the one read last decides, and the order is
that of a hash map: the same configurations make a sensor failed while unavailable, or not. -/
theorem C114_order : ∃ (b : BusView) (objs objs' : List ConfObj) (c c' : DbusCfg) (s s' : SensorConfig), objs'.Perm objs ∧
    dbusInit b [] objs = .ok (true, c) ∧ dbusInit b [] objs' = .ok (true, c') ∧
    c.sensors.find? "Core_2" = some s ∧ c'.sensors.find? "Core_2" = some s' ∧
    s.unavailableAsFailed = true ∧ s.ignoreFailIfHostOff = true ∧
    s'.unavailableAsFailed = false ∧ s'.ignoreFailIfHostOff = false := by
  obtain ⟨⟨r, c⟩, h1, h2⟩ := ok_of_any (x := dbusInit coreBus [] [kind114, off114])
    (P := fun r : Bool × DbusCfg => r.1 && (r.2.sensors.find? "Core_2").any
      (fun s => s.unavailableAsFailed && s.ignoreFailIfHostOff)) (by decide +kernel)
  obtain ⟨⟨r', c'⟩, h1', h2'⟩ := ok_of_any (x := dbusInit coreBus [] [off114, kind114])
    (P := fun r : Bool × DbusCfg => r.1 && (r.2.sensors.find? "Core_2").any
      (fun s => !s.unavailableAsFailed && !s.ignoreFailIfHostOff)) (by decide +kernel)
  simp only [Bool.and_eq_true, Option.any_eq_true, Bool.not_eq_true'] at h2 h2'
  obtain ⟨rfl, s, hs, e1, e2⟩ := h2
  obtain ⟨rfl, s', hs', e1', e2'⟩ := h2'
  exact ⟨coreBus, [kind114, off114], [off114, kind114], c, c', s, s', .swap _ _ _, h1, h1', hs, hs', e1, e2, e1', e2'⟩

/-- **C114** (finding) The flags in the configuration of a fan loop are not kept: failures of its fans count while the host
is off, although the configuration says that they should be ignored then. -/
theorem C114_fans : flagsOf [⟨[(pidInterface, busFan [("InputUnavailableAsFailed", .bool true),
      ("IgnoreFailIfHostOff", .bool true)]), (zoneInterface, zoneConf "Left" [])]⟩] = [("Fan_1Pwm_1", "fan", false, false)] := by
  decide +kernel

end
end Verif
