import Verif.Spec.Complete
import Verif.Props.Startup

/-!
# C109: which configurations on the bus are read
-/

namespace Verif
open Dbl
section
variable [F : FloatModel]

omit F in
theorem okBind {α β : Type} {x : Res α} {f : α → Res β} : (∃ y, (x >>= f) = .ok y) ↔ ∃ a, x = .ok a ∧ ∃ y, f a = .ok y := by
  constructor
  · rintro ⟨y, h⟩
    obtain ⟨a, h1, h2⟩ := bind_eq_ok.1 h
    exact ⟨a, h1, y, h2⟩
  · rintro ⟨a, h1, y, h2⟩
    exact ⟨y, bind_eq_ok.2 ⟨a, h1, h2⟩⟩

theorem find_total {b : BusView} {n : String} (h : ValidName b n) : b.find (sensorNameToDbusName n) = .ok (Matching b n) := by
  obtain ⟨p, hp⟩ := h
  unfold BusView.find Matching
  rw [hp]

theorem find_valid {b : BusView} {n : String} {l : List (String × String)} (h : b.find (sensorNameToDbusName n) = .ok l) :
    ValidName b n := by
  unfold BusView.find at h
  split at h
  · cases h
  · exact ⟨_, by assumption⟩

theorem findAll_iff {b : BusView} : ∀ {ns : List String}, (∃ l, b.findAll ns = .ok l) ↔ ∀ n ∈ ns, ValidName b n
  | [] => by simp [BusView.findAll]
  | n :: ns => by
    rw [List.forall_mem_cons, ← findAll_iff, BusView.findAll, okBind]
    constructor
    · rintro ⟨l, h1, h2⟩
      obtain ⟨l', h3, -⟩ := okBind.1 h2
      exact ⟨find_valid h1, l', h3⟩
    · rintro ⟨h1, l', h2⟩
      exact ⟨_, find_total h1, okBind.2 ⟨l', h2, _, rfl⟩⟩

theorem findInput_iff {b : BusView} {cls : String} {acc : List String} {f : InputFlags} {s : InputState} {n : String} :
    (∃ s', findInput b cls acc f s n = .ok s') ↔ ValidName b n := by
  constructor
  · rintro ⟨s', h⟩
    obtain ⟨l, h1, -⟩ := bind_eq_ok.1 h
    exact find_valid h1
  · intro h
    unfold findInput
    rw [find_total h, ok_bind]
    split
    · exact ⟨_, rfl⟩
    · split
      · exact ⟨_, rfl⟩
      · exact ⟨_, rfl⟩

theorem findInputs_iff {b : BusView} {cls : String} {acc : List String} {f : InputFlags} : ∀ {ns : List String}
    {s : InputState}, (∃ s', findInputs b cls acc f s ns = .ok s') ↔ ∀ n ∈ ns, ValidName b n
  | [], s => by simp [findInputs]
  | n :: ns, s => by
    rw [List.forall_mem_cons, findInputs, okBind]
    constructor
    · rintro ⟨s1, h1, h2⟩
      exact ⟨findInput_iff.1 ⟨_, h1⟩, findInputs_iff.1 h2⟩
    · rintro ⟨h1, h2⟩
      obtain ⟨s1, h1⟩ := findInput_iff (cls := cls) (acc := acc) (f := f) (s := s) |>.2 h1
      exact ⟨s1, h1, findInputs_iff.2 h2⟩

theorem noteFound_iff {cls : String} {f : InputFlags} : ∀ {l : List (String × String)} {s : InputState},
    (∃ s', noteFound cls f s l = .ok s') ↔ ∀ x ∈ l, x.2 = valueInterface
  | [], s => by simp [noteFound]
  | (path, i) :: l, s => by
    rw [List.forall_mem_cons, noteFound]
    dsimp only
    by_cases hi : i = valueInterface
    · rw [if_neg (not_not.2 hi), noteFound_iff]
      exact ⟨fun h => ⟨hi, h⟩, fun h => h.2⟩
    · rw [if_pos hi]
      constructor
      · rintro ⟨_, h⟩; cases h
      · exact fun h => absurd h.1 hi

omit F in
theorem acceptableNames_iff : ∀ {l : List (String × String)},
    (∃ r, acceptableNames l = .ok r) ↔ ∀ x ∈ l, x.2 = valueInterface
  | [] => by simp [acceptableNames]
  | (path, i) :: l => by
    rw [List.forall_mem_cons, acceptableNames]
    by_cases hi : i = valueInterface
    · rw [if_neg (not_not.2 hi), okBind, ← acceptableNames_iff]
      constructor
      · rintro ⟨r, h, -⟩; exact ⟨hi, r, h⟩
      · rintro ⟨-, r, h⟩; exact ⟨r, h, _, rfl⟩
    · rw [if_pos hi]
      constructor
      · rintro ⟨_, h⟩; cases h
      · exact fun h => absurd h.1 hi

theorem pairFans_iff {fs ps : List (String × String)} {pairs} : pairFans fs ps = .ok pairs ↔ Pairs fs ps pairs := by
  refine ⟨pairFans_ok, fun h => ?_⟩
  cases h with
  | one p => rfl
  | each hl =>
    unfold pairFans
    split
    · obtain ⟨f, rfl⟩ := List.length_eq_one_iff.1 hl
      rfl
    · rw [if_pos hl]

theorem noteFans_iff : ∀ {l : List ((String × String) × (String × String))} {s : InputState},
    (∃ s', noteFans s l = .ok s') ↔ ∀ x ∈ l, x.2.2 = pwmInterface
  | [], s => by simp [noteFans]
  | ((fp, fi), (pp, pi)) :: l, s => by
    rw [List.forall_mem_cons, noteFans]
    by_cases hi : pi = pwmInterface
    · rw [if_neg (not_not.2 hi)]
      dsimp only
      rw [noteFans_iff]
      exact ⟨fun h => ⟨hi, h⟩, fun h => h.2⟩
    · rw [if_pos hi]
      constructor
      · rintro ⟨_, h⟩; cases h
      · exact fun h => absurd h.1 hi

theorem inputFlags_iff {base : ConfProps} : (∃ f, inputFlags base = .ok f) ↔ FlagsOk base := by
  unfold inputFlags
  constructor
  · rintro ⟨f, h⟩
    obtain ⟨u, h1, h⟩ := bind_eq_ok.1 h
    obtain ⟨i, h2, h⟩ := bind_eq_ok.1 h
    exact ⟨⟨u, (confOpt_iff getBool_iff).1 h1⟩, ⟨i, (confOpt_iff getBool_iff).1 h2⟩⟩
  · rintro ⟨⟨u, h1⟩, ⟨i, h2⟩⟩
    rw [(confOpt_iff getBool_iff).2 h1, ok_bind, (confOpt_iff getBool_iff).2 h2, ok_bind]
    exact ⟨_, rfl⟩

theorem allOf_iff {b : BusView} {i : String} {ns : List String} :
    AllOf b i ns ↔ ∀ x ∈ ns.flatMap (Matching b), x.2 = i := by
  unfold AllOf
  constructor
  · intro h x hx
    obtain ⟨n, hn, hx⟩ := List.mem_flatMap.1 hx
    exact h n hn x hx
  · intro h n hn x hx
    exact h x (List.mem_flatMap.2 ⟨n, hn, hx⟩)

theorem noteFound_found {cls : String} {f : InputFlags} : ∀ {l : List (String × String)} {s s' : InputState},
    noteFound cls f s l = .ok s' → s'.found = s.found
  | [], s, s', h => by injection h with h; rw [h]
  | (path, i) :: l, s, s', h => by
    rw [noteFound] at h
    dsimp only at h
    split at h
    · cases h
    · rw [noteFound_found h]
      split <;> rfl

theorem pidInputs_iff {b : BusView} {sensors : OMap String SensorConfig} {base : ConfProps} {cls : String}
    (hc : Attr base "Class" TextValue cls) : (∃ r, pidInputs b sensors base cls = .ok r) ↔ PidInputsOk b base := by
  constructor
  · rintro ⟨r, h⟩
    obtain ⟨inputs, h1, h⟩ := bind_eq_ok.1 h
    obtain ⟨acc, h2, h⟩ := bind_eq_ok.1 h
    obtain ⟨outs, h3, h⟩ := bind_eq_ok.1 h
    obtain ⟨f, h4, h⟩ := bind_eq_ok.1 h
    obtain ⟨s1, h5, h⟩ := bind_eq_ok.1 h
    obtain ⟨fouts, h6, h⟩ := bind_eq_ok.1 h
    obtain ⟨facc, h7, h⟩ := bind_eq_ok.1 h
    obtain ⟨s2, h8, h⟩ := bind_eq_ok.1 h
    obtain ⟨miss, h9, h⟩ := bind_eq_ok.1 h
    obtain ⟨s3, h10, h⟩ := bind_eq_ok.1 h
    have h1 := (confReq_iff getStrs_iff).1 h1
    have h2 := (confOpt_iff getStrs_iff).1 h2
    have hf1 : s1.found = inputs.flatMap (Matching b) := by simpa using (findInputs_ok h5).1
    refine ⟨⟨inputs, h1, findInputs_iff.1 ⟨_, h5⟩, allOf_iff.2 ?_⟩, ⟨acc, h2, findAll_iff.1 ⟨_, h7⟩, allOf_iff.2 ?_⟩,
      inputFlags_iff.1 ⟨_, h4⟩, ?_⟩
    · rw [← hf1]; exact noteFound_iff.1 ⟨_, h8⟩
    · rw [← findAll_ok h7]; exact acceptableNames_iff.1 ⟨_, h9⟩
    · intro hfan inputs' hi'
      have := attr_unique text_unique hc hfan
      subst this
      have := attr_unique names_unique hi' h1
      subst this
      unfold outputNames at h3
      rw [if_pos rfl] at h3
      unfold fanInputs at h10
      rw [if_pos rfl] at h10
      obtain ⟨pairs, h11, h12⟩ := bind_eq_ok.1 h10
      rw [noteFound_found h8, hf1, findAll_ok h6] at h11
      exact ⟨outs, pairs, (confReq_iff getStrs_iff).1 h3, findAll_iff.1 ⟨_, h6⟩, pairFans_iff.1 h11, noteFans_iff.1 ⟨_, h12⟩⟩
  · rintro ⟨⟨inputs, a1, a2, a3⟩, ⟨acc, b1, b2, b3⟩, fl, ho⟩
    obtain ⟨f, hf⟩ := inputFlags_iff.2 fl
    have hout : ∃ outs, outputNames base cls = .ok outs ∧ (∀ n ∈ outs, ValidName b n) ∧
        (cls = "fan" → ∃ pairs, Pairs (inputs.flatMap (Matching b)) (outs.flatMap (Matching b)) pairs ∧
          ∀ p ∈ pairs, p.2.2 = pwmInterface) := by
      unfold outputNames
      by_cases e : cls = "fan"
      · rw [if_pos e]
        obtain ⟨outs, pairs, o1, o2, o3, o4⟩ := ho (e ▸ hc) inputs a1
        exact ⟨outs, (confReq_iff getStrs_iff).2 o1, o2, fun _ => ⟨pairs, o3, o4⟩⟩
      · rw [if_neg e]
        exact ⟨[], rfl, by simp, fun e' => absurd e' e⟩
    obtain ⟨outs, o1, o2, o3⟩ := hout
    obtain ⟨s1, h5⟩ := findInputs_iff (cls := cls) (acc := acc) (f := f) (s := ⟨[], [], sensors⟩) |>.2 a2
    have hf1 : s1.found = inputs.flatMap (Matching b) := by simpa using (findInputs_ok h5).1
    obtain ⟨fouts, h6⟩ := findAll_iff.2 o2
    obtain ⟨facc, h7⟩ := findAll_iff.2 b2
    obtain ⟨s2, h8⟩ := noteFound_iff (cls := cls) (f := f) (s := s1) |>.2 (allOf_iff.1 a3)
    rw [← hf1] at h8
    obtain ⟨miss, h9⟩ := (acceptableNames_iff (l := facc)).2 (by rw [findAll_ok h7]; exact allOf_iff.1 b3)
    have h10 : ∃ s3, fanInputs cls fouts s2 = .ok s3 := by
      unfold fanInputs
      by_cases e : cls = "fan"
      · rw [if_pos e]
        obtain ⟨pairs, p1, p2⟩ := o3 e
        rw [noteFound_found h8, hf1, findAll_ok h6, pairFans_iff.2 p1, ok_bind]
        exact noteFans_iff.2 p2
      · rw [if_neg e]
        exact ⟨_, rfl⟩
    obtain ⟨s3, h10⟩ := h10
    unfold pidInputs
    rw [(confReq_iff getStrs_iff).2 a1, ok_bind, (confOpt_iff getStrs_iff).2 b1, ok_bind, o1, ok_bind, hf, ok_bind, h5, ok_bind,
      h6, ok_bind, h7, ok_bind, h8, ok_bind, h9, ok_bind, h10, ok_bind]
    exact ⟨_, rfl⟩

/-! ## Settings -/

theorem populatePid_total {b : BusView} {base : ConfProps} {info i : ControllerInfo} {x : Dbl} {off : Option String}
    {sensors : OMap String SensorConfig} (hi : PidSettings base i) (hx : SetPointAttr base x)
    (ho : ∀ t, off = some t → ∃ j c y, info.inputs.head? = some j ∧ sensors.find? j.name = some c ∧
      b.threshold (thresholdInterface t) c.readPath t = .ok y) :
    ∃ info', populatePidInfo b base info off sensors = .ok info' := by
  have hs : ∃ sp, pidSetpoint base i.type = .ok sp := by
    unfold pidSetpoint
    by_cases e : i.type = "fan"
    · exact ⟨0, by rw [if_pos e]⟩
    · rcases hx with ⟨h1, -⟩ | ⟨cls, -, -, h1⟩
      · exact absurd (attr_unique text_unique hi.type h1) e
      · exact ⟨x, by rw [if_neg e]; exact (confReq_iff toDbl_iff).2 h1⟩
  obtain ⟨sp, hs⟩ := hs
  have ho : ∃ sp', offsetSetpoint b sp info.inputs sensors off = .ok sp' := by
    cases off with
    | none => exact ⟨_, rfl⟩
    | some t =>
      obtain ⟨j, c, y, h1, h2, h3⟩ := ho t rfl
      cases hin : info.inputs with
      | nil => rw [hin] at h1; cases h1
      | cons k rest =>
        rw [hin] at h1
        injection h1 with h1
        subst h1
        refine ⟨sp + y, ?_⟩
        unfold offsetSetpoint
        dsimp only
        rw [(OMap.atKey_ok_iff _ _ _).2 h2, ok_bind]
        show (b.threshold (thresholdInterface t) c.readPath t >>= _) = _
        rw [h3, ok_bind]
  obtain ⟨sp', ho⟩ := ho
  unfold populatePidInfo pidConfFromDbus
  rw [(confReq_iff getStr_iff).2 hi.type, ok_bind, hs, ok_bind, (confOpt_iff getPercent_iff).2 hi.failSafePercent, ok_bind, ho,
    ok_bind, (confReq_iff toDbl_iff).2 hi.proportionalCoeff, ok_bind, (confReq_iff toDbl_iff).2 hi.integralCoeff, ok_bind,
    (confReq_iff toDbl_iff).2 hi.feedFwdOffset, ok_bind, (confReq_iff toDbl_iff).2 hi.feedFwdGain, ok_bind,
    (confReq_iff toDbl_iff).2 hi.integralMax, ok_bind, (confReq_iff toDbl_iff).2 hi.integralMin, ok_bind,
    (confReq_iff toDbl_iff).2 hi.outMax, ok_bind, (confReq_iff toDbl_iff).2 hi.outMin, ok_bind,
    (confReq_iff toDbl_iff).2 hi.slewNeg, ok_bind, (confReq_iff toDbl_iff).2 hi.slewPos, ok_bind,
    (confOpt_iff getBool_iff).2 hi.checkHysterWithSetpt, ok_bind, (confOpt_iff toDbl_iff).2 hi.negativeHysteresis, ok_bind,
    (confOpt_iff toDbl_iff).2 hi.positiveHysteresis, ok_bind, (confOpt_iff toDbl_iff).2 hi.derivativeCoeff, ok_bind]
  exact ⟨_, rfl⟩

theorem offsetType_iff {base : ConfProps} : (∃ o, offsetType base = .ok o) ↔
    (base.find? "SetPointOffset" = none ∨ ∃ t, Attr base "SetPointOffset" TextValue t ∧
      t ∈ ["CriticalLow", "CriticalHigh", "WarningLow", "WarningHigh"]) := by
  constructor
  · rintro ⟨o, h⟩
    rcases offsetType_ok h with ⟨-, h⟩ | ⟨t, -, h⟩
    · exact .inl h
    · exact .inr ⟨t, h⟩
  · rintro (h | ⟨t, ⟨v, hv, rfl⟩, ht⟩)
    · exact ⟨none, by unfold offsetType; rw [h]⟩
    · refine ⟨some t, ?_⟩
      unfold offsetType
      rw [hv]
      show (if t ∈ thresholdTypes then _ else _) = _
      exact if_pos ht

theorem searchable_cons {b : BusView} {n : String} {ns : List String} : Searchable b (n :: ns) ↔
    ValidName b n ∧ (b.handleMissing = true ∨ Matching b n ≠ [] → Searchable b ns) := by
  constructor
  · intro h
    refine ⟨h [] n ns rfl (.inr (by simp)), fun hb before m after he hm => ?_⟩
    refine h (n :: before) m after (by rw [he]; rfl) ?_
    rcases hm with hm | hm
    · exact .inl hm
    · rcases hb with hb | hb
      · exact .inl hb
      · exact .inr (List.forall_mem_cons.2 ⟨hb, hm⟩)
  · rintro ⟨hv, hr⟩ before m after he hb
    cases before with
    | nil => injection he with h1 h2; exact h1 ▸ hv
    | cons k before =>
      injection he with h1 h2
      subst h1
      refine hr ?_ before m after h2 ?_
      · exact hb.imp id fun h => h _ List.mem_cons_self
      · exact hb.imp id fun h x hx => h x (List.mem_cons_of_mem _ hx)

theorem stepInputs_iff {b : BusView} {acc : List String} {f : InputFlags} : ∀ {ns : List String}
    {s : List String × OMap String SensorConfig}, (∃ s', stepInputs b acc f s ns = .ok s') ↔ Searchable b ns
  | [], s => by simp [stepInputs, Searchable]
  | n :: ns, s => by
    have step : ValidName b n → stepInputs b acc f s (n :: ns) =
        (if Matching b n ≠ [] then stepInputs b acc f (noteStepInputs f s (Matching b n)) ns
          else if !b.handleMissing then .ok s
          else if n ∈ acc then stepInputs b acc f s ns
          else stepInputs b acc f (s.1 ++ [sensorNameToDbusName n],
            noteInput s.2 (sensorNameToDbusName n) "temp" (getSensorPath "temp" (sensorNameToDbusName n)) f) ns) := by
      intro hv
      rw [stepInputs, find_total hv, ok_bind]
    constructor
    · intro h
      have hv : ValidName b n := by
        obtain ⟨s', h⟩ := h
        obtain ⟨l, h1, -⟩ := bind_eq_ok.1 h
        exact find_valid h1
      rw [step hv] at h
      refine searchable_cons.2 ⟨hv, fun hb => ?_⟩
      by_cases hm : Matching b n = []
      · have hh : b.handleMissing = true := hb.resolve_right (not_not.2 hm)
        rw [if_neg (not_not.2 hm), if_neg (by simp [hh])] at h
        split at h
        · exact stepInputs_iff.1 h
        · exact stepInputs_iff.1 h
      · rw [if_pos hm] at h
        exact stepInputs_iff.1 h
    · intro h
      obtain ⟨hv, tail⟩ := searchable_cons.1 h
      rw [step hv]
      by_cases hm : Matching b n = []
      · rw [if_neg (not_not.2 hm)]
        by_cases hh : b.handleMissing = true
        · rw [if_neg (by simp [hh])]
          split
          · exact stepInputs_iff.2 (tail (.inl hh))
          · exact stepInputs_iff.2 (tail (.inl hh))
        · rw [if_pos (by simpa using hh)]
          exact ⟨_, rfl⟩
      · rw [if_pos hm]
        exact stepInputs_iff.2 (tail (.inr hm))

theorem stepAcceptable_iff {b : BusView} : ∀ {ns : List String}, (∃ r, stepAcceptable b ns = .ok r) ↔ Searchable b ns
  | [] => by simp [stepAcceptable, Searchable]
  | n :: ns => by
    rw [searchable_cons, ← stepAcceptable_iff]
    constructor
    · rintro ⟨r, h⟩
      obtain ⟨l, h1, h⟩ := bind_eq_ok.1 h
      refine ⟨find_valid h1, fun hb => ?_⟩
      rw [bfind_ok h1] at h
      rw [if_neg (by rintro ⟨h2, h3⟩; rcases hb with hb | hb <;> simp_all)] at h
      obtain ⟨r', h2, -⟩ := bind_eq_ok.1 h
      exact ⟨r', h2⟩
    · rintro ⟨hv, hr⟩
      rw [stepAcceptable, find_total hv, ok_bind]
      by_cases hc : Matching b n = [] ∧ (!b.handleMissing) = true
      · rw [if_pos hc]
        exact ⟨_, rfl⟩
      · rw [if_neg hc, okBind]
        obtain ⟨r, h⟩ := hr (by
          by_cases hh : b.handleMissing = true
          · exact .inl hh
          · exact .inr fun e => hc ⟨e, by simpa using hh⟩)
        exact ⟨r, h, _, rfl⟩

theorem stepTables_iff {base : ConfProps} {s : StepwiseInfo} : (∃ s', stepTables base s = .ok s') ↔
    ∃ rs os, Attr base "Reading" NumbersValue rs ∧ Attr base "Output" NumbersValue os ∧ 1 ≤ rs.length ∧ rs.length ≤ 20 ∧
      rs.length = os.length := by
  constructor
  · rintro ⟨s', h⟩
    obtain ⟨⟨rs, os, h1, h2, h3, h4, h5, -⟩, -⟩ := stepTables_ok h
    exact ⟨rs, os, h1, h2, h3, h4, h5⟩
  · rintro ⟨rs, os, h1, h2, h3, h4, h5⟩
    unfold stepTables
    rw [(confReq_iff getDbls_iff).2 h1, ok_bind, if_neg (by unfold maxStepwisePoints; omega), if_neg (by rintro rfl; simp at h3),
      (confReq_iff getDbls_iff).2 h2, ok_bind, if_neg (by omega)]
    exact ⟨_, rfl⟩

theorem populateStepwise_iff {base : ConfProps} {info : ControllerInfo} {inputs missing : List String} :
    (∃ i, populateStepwise base info inputs missing = .ok i) ↔
      (∃ l, AttrOr base "TempToMargin" NumbersValue [] l) ∧ (∃ c, Attr base "Class" TextValue c) ∧
      (∃ x, AttrOr base "PositiveHysteresis" NumberValue 0 x) ∧ (∃ x, AttrOr base "NegativeHysteresis" NumberValue 0 x) ∧
      ∃ rs os, Attr base "Reading" NumbersValue rs ∧ Attr base "Output" NumbersValue os ∧ 1 ≤ rs.length ∧ rs.length ≤ 20 ∧
        rs.length = os.length := by
  constructor
  · rintro ⟨i, h⟩
    obtain ⟨l, h1, h⟩ := bind_eq_ok.1 h
    obtain ⟨c, h2, h⟩ := bind_eq_ok.1 h
    obtain ⟨x, h3, h⟩ := bind_eq_ok.1 h
    obtain ⟨y, h4, h⟩ := bind_eq_ok.1 h
    obtain ⟨s, h5, -⟩ := bind_eq_ok.1 h
    exact ⟨⟨l, (confOpt_iff getDbls_iff).1 h1⟩, ⟨c, (confReq_iff getStr_iff).1 h2⟩, ⟨x, (confOpt_iff toDbl_iff).1 h3⟩,
      ⟨y, (confOpt_iff toDbl_iff).1 h4⟩, stepTables_iff.1 ⟨s, h5⟩⟩
  · rintro ⟨⟨l, h1⟩, ⟨c, h2⟩, ⟨x, h3⟩, ⟨y, h4⟩, h5⟩
    unfold populateStepwise
    rw [(confOpt_iff getDbls_iff).2 h1, ok_bind, (confReq_iff getStr_iff).2 h2, ok_bind, (confOpt_iff toDbl_iff).2 h3, ok_bind,
      (confOpt_iff toDbl_iff).2 h4, ok_bind, okBind]
    obtain ⟨s, h⟩ := stepTables_iff.2 h5
    exact ⟨s, h, _, rfl⟩

/-! ## Zone numbers -/

omit F in
theorem freeIndex_total {used : List Int} {wanted : Int} (hw : wanted + used.length ≤ int64Max) :
    ∃ r, freeIndex used wanted = .ok r := by
  cases he : freeIndex used wanted with
  | ok r => exact ⟨r, rfl⟩
  | error e =>
    exfalso
    obtain ⟨-, hall⟩ := freeIndex_err (by omega) he
    have hsub : (List.range (used.length + 1)).map (fun (k : Nat) => wanted + (k : Int)) ⊆ used := by
      intro k hk
      obtain ⟨j, hj, rfl⟩ := List.mem_map.1 hk
      have hj' := List.mem_range.1 hj
      exact hall (wanted + j) (by omega) (by omega)
    have hnd : ((List.range (used.length + 1)).map (fun (k : Nat) => wanted + (k : Int))).Nodup :=
      (List.nodup_map_iff (fun a b e => by simpa using e)).2 List.nodup_range
    have := (hnd.subperm hsub).length_le
    simp at this

omit F in
theorem insertL_length {K V : Type} [DecidableEq K] [LT K] [DecidableLT K] (k : K) (v : V) : ∀ l : List (K × V),
    (OMap.insertL k v l).length ≤ l.length + 1
  | [] => by simp [OMap.insertL]
  | (k', v') :: l => by
    rw [OMap.insertL]
    have := insertL_length k v l
    split_ifs <;> simp <;> omega

omit F in
theorem setZone_total {name : String} {m : OMap String Int} {wanted : Int} (h : wanted + m.entries.length ≤ int64Max) :
    ∃ r m', setZoneIndex name m wanted = .ok (r, m') ∧ m'.entries.length ≤ m.entries.length + 1 := by
  unfold setZoneIndex
  cases hf : m.find? name with
  | some i => exact ⟨i, m, rfl, by omega⟩
  | none =>
    obtain ⟨r, hr⟩ := freeIndex_total (used := m.entries.map Prod.snd) (wanted := wanted) (by simpa using h)
    dsimp only
    rw [hr, ok_bind]
    exact ⟨r, _, rfl, insertL_length _ _ _⟩

omit F in
theorem getZone_total {name : String} {m : OMap String Int} (h : (m.entries.length : Int) ≤ int64Max) :
    ∃ r m', getZoneIndex name m = .ok (r, m') ∧ m'.entries.length ≤ m.entries.length + 1 := by
  rw [getZone_eq]
  exact setZone_total (by omega)

theorem cycle_total {zone : ConfProps} {k : String} {d n : Nat} (h : CycleAttr zone k d n) (d' : Nat) :
    ∃ n', cycleTimeFromDbus zone k d' = .ok n' := by
  unfold cycleTimeFromDbus
  rcases h with ⟨q, hq, ⟨v, hv, hn⟩, h1, h2, h3⟩ | ⟨-, h | ⟨x, ⟨v, hv, hn⟩, h1⟩⟩
  · rw [hv]
    dsimp only
    rw [(toDbl_iff _ _).2 hn, ok_bind]
    split
    · have : castOr "cast to uint64_t" (Dbl.fin q hq).toU64 = .ok (n : Int) :=
        castOr_castInt.2 ⟨q, hq, rfl, h2, by omega, by omega⟩
      rw [this, ok_bind]
      exact ⟨_, rfl⟩
    · exact ⟨_, rfl⟩
  · rw [h]; exact ⟨_, rfl⟩
  · rw [hv]
    dsimp only
    rw [(toDbl_iff _ _).2 hn, ok_bind, if_neg h1]
    exact ⟨_, rfl⟩

/-- the cycle time without the default -/
theorem cycle_default {zone : ConfProps} {k : String} {d n : Nat} (h : CycleAttr zone k d n) (d' : Nat) :
    ∃ n', CycleAttr zone k d' n' := by
  obtain ⟨n', h'⟩ := cycle_total h d'
  exact ⟨n', cycle_ok h'⟩

theorem zoneDetails_iff {zone : ConfProps} {d : ZoneConfig} : (∃ d', zoneDetails zone d = .ok d') ↔
    ∃ c, ZoneSettings zone c := by
  constructor
  · rintro ⟨d', h⟩
    obtain ⟨m, h1, h⟩ := bind_eq_ok.1 h
    obtain ⟨fs, h2, h⟩ := bind_eq_ok.1 h
    obtain ⟨cy, h3, h⟩ := bind_eq_ok.1 h
    obtain ⟨th, h4, h⟩ := bind_eq_ok.1 h
    obtain ⟨acc, h5, h⟩ := bind_eq_ok.1 h
    obtain ⟨cy', h3⟩ := cycle_default (cycle_ok h3) 100
    obtain ⟨th', h4⟩ := cycle_default (cycle_ok h4) 1000
    exact ⟨⟨m, fs, ⟨cy', th'⟩, acc⟩, (confReq_iff toDbl_iff).1 h1, (confOpt_iff getPercent_iff).1 h2, h3, h4,
      (confOpt_iff getBool_iff).1 h5⟩
  · rintro ⟨c, h⟩
    obtain ⟨cy, hcy⟩ := cycle_total h.cycle d.cycleTime.cycleIntervalTimeMS
    obtain ⟨th, hth⟩ := cycle_total h.thermals d.cycleTime.updateThermalsTimeMS
    unfold zoneDetails
    rw [(confReq_iff toDbl_iff).2 h.minThermalOutput, ok_bind, (confOpt_iff getPercent_iff).2 h.failsafePercent, ok_bind, hcy,
      ok_bind, hth, ok_bind, (confOpt_iff getBool_iff).2 h.accumulateSetPoint, ok_bind]
    exact ⟨_, rfl⟩

/-! ## Configurations -/

theorem pidNames_unique {b : BusView} {base : ConfProps} {l l' : List String} (h : PidNames b base l) (h' : PidNames b base l') :
    l = l' := by
  have key : ∀ {c c' : String}, Attr base "Class" TextValue c → Attr base "Class" TextValue c' → c = c' :=
    fun h h' => attr_unique text_unique h h'
  cases h with
  | heat a1 a2 a3 a4 =>
    cases h' with
    | heat b1 b2 b3 b4 => rw [attr_unique names_unique a3 b3, attrOr_unique names_unique a4 b4]
    | fan b1 b2 b3 b4 => have := key a1 b1; subst this; simp at a2
    | other b1 b2 b3 b4 => have := key a1 b1; subst this; exact absurd (List.mem_cons_of_mem _ a2) b2
  | fan a1 a2 a3 a4 =>
    cases h' with
    | heat b1 b2 b3 b4 => have := key a1 b1; subst this; simp at b2
    | fan b1 b2 b3 b4 =>
      have h1 := attr_unique names_unique a2 b2
      have h2 := attr_unique names_unique a3 b3
      subst h1 h2
      have := (pairFans_iff.2 a4).symm.trans (pairFans_iff.2 b4)
      injection this with this
      rw [this]
    | other b1 b2 b3 b4 => have := key a1 b1; subst this; simp at b2
  | other a1 a2 a3 a4 =>
    cases h' with
    | heat b1 b2 b3 b4 => have := key a1 b1; subst this; exact absurd (List.mem_cons_of_mem _ b2) a2
    | fan b1 b2 b3 b4 => have := key a1 b1; subst this; simp at a2
    | other b1 b2 b3 b4 => rw [attr_unique names_unique a3 b3, attrOr_unique names_unique a4 b4]

/-- what a PID configuration with inputs needs -/
def PidRest (base : ConfProps) : Prop :=
  (∃ info x, PidSettings base info ∧ SetPointAttr base x) ∧ (∃ l, AttrOr base "TempToMargin" NumbersValue [] l) ∧
    (base.find? "SetPointOffset" = none ∨ ∃ t, Attr base "SetPointOffset" TextValue t ∧
      t ∈ ["CriticalLow", "CriticalHigh", "WarningLow", "WarningHigh"])

theorem addPid_needs {b : BusView} {base : ConfProps} {c c' : DbusCfg} {name cls zone : String}
    (hcls : Attr base "Class" TextValue cls) (hfit : AllFit b c.sensors) (h : addPid b base name cls c zone = .ok c') :
    PidInputsOk b base ∧ ∀ names, PidNames b base names → names ≠ [] → PidRest base := by
  obtain ⟨⟨i, numbers'⟩, hg, h⟩ := bind_eq_ok.1 h
  obtain ⟨⟨archived, missing, sensors'⟩, hp, h⟩ := bind_eq_ok.1 h
  dsimp only at h
  refine ⟨(pidInputs_iff hcls).1 ⟨_, hp⟩, fun names hn hne => ?_⟩
  obtain ⟨hn', -, -⟩ := pidInputs_ok hcls hp hfit
  have := pidNames_unique hn hn'
  subst this
  unfold finishPid at h
  rw [if_neg hne] at h
  obtain ⟨off, ho, h⟩ := bind_eq_ok.1 h
  obtain ⟨margins, hmg, h⟩ := bind_eq_ok.1 h
  obtain ⟨conf', hl, h⟩ := bind_eq_ok.1 h
  refine ⟨?_, ⟨margins, (confOpt_iff getDbls_iff).1 hmg⟩, offsetType_iff.1 ⟨off, ho⟩⟩
  cases off with
  | none =>
    obtain ⟨info, h1, -⟩ := bind_eq_ok.1 hl
    obtain ⟨p1, -, p3, -⟩ := populatePid_ok h1
    exact ⟨info, _, p1, p3 rfl⟩
  | some t =>
    have hs : spliceInputs names margins missing ≠ [] := splice_ne hne
    cases hin : spliceInputs names margins missing with
    | nil => exact absurd hin hs
    | cons x rest =>
      unfold addPidLoops at hl
      dsimp only at hl
      rw [hin] at hl
      obtain ⟨info, h1, -⟩ := bind_eq_ok.1 hl
      obtain ⟨p1, -, -, p4⟩ := populatePid_ok h1
      obtain ⟨x, -, -, -, q, -⟩ := p4 t rfl
      exact ⟨info, x, p1, q⟩

theorem addOffsetLoops_total {b : BusView} {base : ConfProps} {i : ControllerInfo} {x : Dbl} {t : String}
    {sensors : OMap String SensorConfig} (hi : PidSettings base i) (hx : SetPointAttr base x) (hfit : AllFit b sensors)
    (ht : ∀ n c, SensorFits b n c → ∃ y, b.threshold (thresholdInterface t) c.readPath t = .ok y) :
    ∀ {rest : List SensorInput} {conf : PIDConf}, (∀ x ∈ rest, sensors.find? x.name ≠ none) →
    (∀ n info, conf.find? n = some info → ∀ x ∈ info.inputs, sensors.find? x.name ≠ none) →
    ∃ conf', addOffsetLoops b base t sensors conf rest = .ok conf'
  | [], conf, _, _ => ⟨conf, rfl⟩
  | k :: rest, conf, hr, hc => by
    obtain ⟨hk, hr⟩ := List.forall_mem_cons.1 hr
    have hin : ∀ x ∈ ((conf.find? k.name).getD ControllerInfo.zero).inputs ++ [k], sensors.find? x.name ≠ none := by
      intro x hx
      rcases List.mem_append.1 hx with hx | hx
      · cases hf : conf.find? k.name with
        | none => rw [hf] at hx; simp [ControllerInfo.zero] at hx
        | some info => rw [hf] at hx; exact hc _ _ hf x hx
      · rw [List.mem_singleton.1 hx]; exact hk
    have hhead : ∃ j, (((conf.find? k.name).getD ControllerInfo.zero).inputs ++ [k]).head? = some j ∧
        sensors.find? j.name ≠ none := by
      cases hl : ((conf.find? k.name).getD ControllerInfo.zero).inputs with
      | nil => exact ⟨k, rfl, hk⟩
      | cons j l => exact ⟨j, rfl, hin j (by rw [hl]; simp)⟩
    obtain ⟨j, hj, hjs⟩ := hhead
    obtain ⟨s, hs⟩ := Option.ne_none_iff_exists'.1 hjs
    obtain ⟨y, hy⟩ := ht _ _ (hfit _ _ hs)
    obtain ⟨info', h1⟩ := populatePid_total (b := b)
      (info := { (conf.find? k.name).getD ControllerInfo.zero with
        inputs := ((conf.find? k.name).getD ControllerInfo.zero).inputs ++ [k] }) (off := some t) (sensors := sensors) hi hx
      (by rintro t' ht'; injection ht' with ht'; subst ht'; exact ⟨j, s, y, hj, hs, hy⟩)
    unfold addOffsetLoops
    dsimp only
    rw [h1, ok_bind]
    refine addOffsetLoops_total hi hx hfit ht hr ?_
    intro n info hf x hx
    by_cases e : n = k.name
    · subst e
      rw [OMap.find?_insert_self] at hf
      injection hf with hf
      subst hf
      rw [(populatePid_ok h1).2.1] at hx
      exact hin x hx
    · rw [OMap.find?_insert_ne conf e] at hf
      exact hc n info hf x hx

theorem addPid_total {b : BusView} {sel : List String} {objs : List ConfObj} {base : ConfProps} {c : DbusCfg}
    {name cls zone : String} (hcls : Attr base "Class" TextValue cls) (hc : CfgOk b sel objs c) (hin : PidInputsOk b base)
    (hrest : ∀ names, PidNames b base names → names ≠ [] → PidRest base)
    (ht : ∀ t, Attr base "SetPointOffset" TextValue t →
      ∀ n c, SensorFits b n c → ∃ y, b.threshold (thresholdInterface t) c.readPath t = .ok y)
    (hl : (c.numbers.entries.length : Int) ≤ int64Max) :
    ∃ c', addPid b base name cls c zone = .ok c' ∧ c'.numbers.entries.length ≤ c.numbers.entries.length + 1 := by
  obtain ⟨i, numbers', hg, hlen⟩ := getZone_total (name := zone) hl
  obtain ⟨⟨archived, missing, sensors'⟩, hp⟩ := (pidInputs_iff (sensors := c.sensors) hcls).2 hin
  obtain ⟨hn, -, notes⟩ := pidInputs_ok hcls hp hc.fit
  have hconf := (openConf hc hg).mono notes.keys
  unfold addPid
  rw [hg, ok_bind]
  dsimp only
  rw [hp, ok_bind]
  dsimp only
  unfold finishPid
  by_cases ha : archived = []
  · rw [if_pos ha]
    exact ⟨_, rfl, hlen⟩
  · rw [if_neg ha]
    obtain ⟨⟨info, x, hi, hx⟩, ⟨margins, hm⟩, ho⟩ := hrest _ hn ha
    obtain ⟨off, hoff⟩ := offsetType_iff.2 ho
    rw [hoff, ok_bind, (confOpt_iff getDbls_iff).2 hm, ok_bind]
    have hs : ∀ x ∈ spliceInputs archived margins missing, sensors'.find? x.name ≠ none := by
      intro x hx
      rcases notes.names _ (splice_name hx) with h | h
      · cases h
      · exact h
    have : ∃ conf', addPidLoops b base name sensors' ((c.pids.find? i).getD {}) (spliceInputs archived margins missing) off =
        .ok conf' := by
      unfold addPidLoops
      cases off with
      | none =>
        dsimp only
        obtain ⟨info', h1⟩ := populatePid_total (b := b)
          (info := { (((c.pids.find? i).getD {}).find? name).getD ControllerInfo.zero with
            inputs := spliceInputs archived margins missing }) (off := none) (sensors := sensors') hi hx
          (by rintro t' ht'; cases ht')
        rw [h1, ok_bind]
        exact ⟨_, rfl⟩
      | some t =>
        rcases offsetType_ok hoff with ⟨h1, -⟩ | ⟨t', h1, h2, -⟩
        · cases h1
        · injection h1 with h1
          subst h1
          exact addOffsetLoops_total hi hx (notes.fit hc.fit) (ht _ h2) hs (fun n info hf => (hconf.2 n info hf).sensors)
    obtain ⟨conf', h1⟩ := this
    rw [h1, ok_bind]
    exact ⟨_, rfl, hlen⟩

theorem addStepwise_iff {b : BusView} {base : ConfProps} {c : DbusCfg} {name zone : String}
    (hl : (c.numbers.entries.length : Int) ≤ int64Max ∨ ∃ c', addStepwise b base name c zone = .ok c') :
    (∃ c', addStepwise b base name c zone = .ok c' ∧ ((c.numbers.entries.length : Int) ≤ int64Max →
      c'.numbers.entries.length ≤ c.numbers.entries.length + 1)) ↔
    FlagsOk base ∧ ∃ inputs acceptable, Attr base "Inputs" NamesValue inputs ∧
      AttrOr base "MissingIsAcceptable" NamesValue [] acceptable ∧ Searchable b inputs ∧
      (stepNames b acceptable inputs ≠ [] → Searchable b acceptable ∧
      (∃ l, AttrOr base "TempToMargin" NumbersValue [] l) ∧ (∃ c, Attr base "Class" TextValue c) ∧
      (∃ x, AttrOr base "PositiveHysteresis" NumberValue 0 x) ∧ (∃ x, AttrOr base "NegativeHysteresis" NumberValue 0 x) ∧
      ∃ rs os, Attr base "Reading" NumbersValue rs ∧ Attr base "Output" NumbersValue os ∧ 1 ≤ rs.length ∧ rs.length ≤ 20 ∧
        rs.length = os.length) := by
  constructor
  · rintro ⟨c', h, -⟩
    obtain ⟨⟨i, numbers'⟩, hg, h⟩ := bind_eq_ok.1 h
    obtain ⟨names, h1, h⟩ := bind_eq_ok.1 h
    obtain ⟨acc, h2, h⟩ := bind_eq_ok.1 h
    obtain ⟨f, h3, h⟩ := bind_eq_ok.1 h
    obtain ⟨⟨inputs, sensors⟩, h4, h⟩ := bind_eq_ok.1 h
    refine ⟨inputFlags_iff.1 ⟨f, h3⟩, names, acc, (confReq_iff getStrs_iff).1 h1, (confOpt_iff getStrs_iff).1 h2,
      stepInputs_iff.1 ⟨_, h4⟩, fun hne => ?_⟩
    have hi : inputs = stepNames b acc names := by simpa using (stepInputs_ok h4).1
    dsimp only at h
    unfold finishStepwise at h
    rw [if_neg (hi ▸ hne)] at h
    obtain ⟨miss, h5, h⟩ := bind_eq_ok.1 h
    obtain ⟨info, h6, h⟩ := bind_eq_ok.1 h
    exact ⟨stepAcceptable_iff.1 ⟨_, h5⟩, populateStepwise_iff.1 ⟨_, h6⟩⟩
  · rintro ⟨hfl, names, acc, h1, h2, h3, h4⟩
    obtain ⟨f, hf⟩ := inputFlags_iff.2 hfl
    have hg : ∃ i numbers', getZoneIndex zone c.numbers = .ok (i, numbers') ∧
        ((c.numbers.entries.length : Int) ≤ int64Max → numbers'.entries.length ≤ c.numbers.entries.length + 1) := by
      by_cases hl' : (c.numbers.entries.length : Int) ≤ int64Max
      · obtain ⟨i, n', hg, hlen⟩ := getZone_total (name := zone) hl'
        exact ⟨i, n', hg, fun _ => hlen⟩
      · obtain ⟨c', h⟩ := hl.resolve_left hl'
        obtain ⟨⟨i, numbers'⟩, hg, h⟩ := bind_eq_ok.1 h
        exact ⟨i, numbers', hg, fun h => absurd h hl'⟩
    obtain ⟨i, numbers', hg, hlen⟩ := hg
    obtain ⟨⟨inputs, sensors⟩, h5⟩ := (stepInputs_iff (acc := acc) (f := f) (s := ([], c.sensors))).2 h3
    have hi : inputs = stepNames b acc names := by simpa using (stepInputs_ok h5).1
    unfold addStepwise
    rw [hg, ok_bind]
    dsimp only
    rw [(confReq_iff getStrs_iff).2 h1, ok_bind, (confOpt_iff getStrs_iff).2 h2, ok_bind, hf, ok_bind, h5, ok_bind]
    dsimp only
    unfold finishStepwise
    by_cases hne : inputs = []
    · rw [if_pos hne]
      exact ⟨_, rfl, hlen⟩
    · rw [if_neg hne]
      obtain ⟨h6, h7⟩ := h4 (hi ▸ hne)
      obtain ⟨miss, h8⟩ := stepAcceptable_iff.2 h6
      rw [h8, ok_bind]
      obtain ⟨info, h9⟩ := (populateStepwise_iff
        (info := (((c.pids.find? i).getD {}).find? name).getD ControllerInfo.zero) (inputs := inputs) (missing := miss)).2 h7
      rw [h9, ok_bind]
      exact ⟨_, rfl, hlen⟩

theorem namedZones_eq {p : ConfProps} {zs : List String} (h : Attr p "Zones" NamesValue zs) : namedZones (some p) = zs.length := by
  obtain ⟨v, hv, rfl⟩ := h
  unfold namedZones
  dsimp only
  rw [hv]

theorem overZones_total {step : DbusCfg → String → Res DbusCfg} {I : DbusCfg → Prop} {N : Int} {zs : List String} {c : DbusCfg}
    (hs : ∀ z ∈ zs, ∀ c, I c → (c.numbers.entries.length : Int) ≤ N →
      ∃ c', step c z = .ok c' ∧ c'.numbers.entries.length ≤ c.numbers.entries.length + 1 ∧ I c')
    (hI : I c) (hl : (c.numbers.entries.length + zs.length : Int) ≤ N) :
    ∃ c', overZones step c zs = .ok c' ∧ c'.numbers.entries.length ≤ c.numbers.entries.length + zs.length := by
  induction zs generalizing c with
  | nil => exact ⟨c, rfl, by simp⟩
  | cons z zs ih =>
    obtain ⟨h1, h2⟩ := List.forall_mem_cons.1 hs
    simp only [List.length_cons, Nat.cast_add, Nat.cast_one] at hl
    obtain ⟨c1, e1, l1, i1⟩ := h1 c hI (by omega)
    obtain ⟨c2, e2, l2⟩ := ih h2 i1 (by omega)
    refine ⟨c2, ?_, by simp only [List.length_cons]; omega⟩
    rw [overZones, e1, ok_bind, e2]

theorem addPidObject_total {b : BusView} {sel : List String} {objs : List ConfObj} {c : DbusCfg} {base : ConfProps}
    (hA : Active sel objs pidInterface base) (hcomp : CompletePid b base)
    (ht : ∀ t, Attr base "SetPointOffset" TextValue t →
      ∀ n c, SensorFits b n c → ∃ y, b.threshold (thresholdInterface t) c.readPath t = .ok y) (hc : CfgOk b sel objs c)
    (hl : (c.numbers.entries.length + namedZones (some base) : Int) ≤ int64Max) :
    ∃ c', addPidObject b c base = .ok c' ∧
      c'.numbers.entries.length ≤ c.numbers.entries.length + namedZones (some base) := by
  obtain ⟨⟨name, hname⟩, ⟨cls, hcls⟩, zs, hz, hrest⟩ := hcomp
  unfold addPidObject
  rw [(confReq_iff getStr_iff).2 hname, ok_bind, (confReq_iff getStr_iff).2 hcls, ok_bind, (confReq_iff getStrs_iff).2 hz, ok_bind,
    namedZones_eq hz]
  rw [namedZones_eq hz] at hl
  refine overZones_total (I := CfgOk b sel objs) ?_ hc hl
  intro z hzm c hc hl
  obtain ⟨h1, h2⟩ := hrest (List.ne_nil_of_mem hzm)
  obtain ⟨c', e, l⟩ := addPid_total (name := sensorNameToDbusName name) (zone := z) hcls hc h1 h2 ht hl
  exact ⟨c', e, l, (addPid_ok hname hcls hA ⟨base, zs, .inl hA, hz, hzm⟩ (fun n info h => ⟨base, zs, hA, hz, hzm, h⟩)
    e hc).1⟩

theorem addPidObject_needs {b : BusView} {sel : List String} {objs : List ConfObj} {c c' : DbusCfg} {base : ConfProps}
    (hc : CfgOk b sel objs c) (h : addPidObject b c base = .ok c') : CompletePid b base := by
  obtain ⟨name, h1, h⟩ := bind_eq_ok.1 h
  obtain ⟨cls, h2, h⟩ := bind_eq_ok.1 h
  obtain ⟨zs, h3, h⟩ := bind_eq_ok.1 h
  have h2 := (confReq_iff getStr_iff).1 h2
  refine ⟨⟨name, (confReq_iff getStr_iff).1 h1⟩, ⟨cls, h2⟩, zs, (confReq_iff getStrs_iff).1 h3, fun hne => ?_⟩
  cases zs with
  | nil => exact absurd rfl hne
  | cons z zs =>
    obtain ⟨c1, h4, -⟩ := bind_eq_ok.1 h
    exact addPid_needs h2 hc.fit h4

theorem addStepwiseObject_total {b : BusView} {c : DbusCfg} {base : ConfProps} (hcomp : CompleteStep b base)
    (hl : (c.numbers.entries.length + namedZones (some base) : Int) ≤ int64Max) :
    ∃ c', addStepwiseObject b c base = .ok c' ∧
      c'.numbers.entries.length ≤ c.numbers.entries.length + namedZones (some base) := by
  obtain ⟨⟨name, hname⟩, zs, hz, hrest⟩ := hcomp
  unfold addStepwiseObject
  rw [(confReq_iff getStr_iff).2 hname, ok_bind, (confReq_iff getStrs_iff).2 hz, ok_bind, namedZones_eq hz]
  rw [namedZones_eq hz] at hl
  refine overZones_total (I := fun _ => True) ?_ trivial hl
  intro z hzm c _ hl
  obtain ⟨c', e, l⟩ := (addStepwise_iff (b := b) (base := base) (c := c) (name := sensorNameToDbusName name) (zone := z)
    (.inl hl)).2 (hrest (List.ne_nil_of_mem hzm))
  exact ⟨c', e, l hl, trivial⟩

theorem addStepwiseObject_needs {b : BusView} {c c' : DbusCfg} {base : ConfProps} (h : addStepwiseObject b c base = .ok c') :
    CompleteStep b base := by
  obtain ⟨name, h1, h⟩ := bind_eq_ok.1 h
  obtain ⟨zs, h3, h⟩ := bind_eq_ok.1 h
  refine ⟨⟨name, (confReq_iff getStr_iff).1 h1⟩, zs, (confReq_iff getStrs_iff).1 h3, fun hne => ?_⟩
  cases zs with
  | nil => exact absurd rfl hne
  | cons z zs =>
    obtain ⟨c1, h4, -⟩ := bind_eq_ok.1 h
    refine (addStepwise_iff (.inr ⟨c1, h4⟩)).1 ⟨c1, h4, fun hl => ?_⟩
    obtain ⟨⟨i, numbers'⟩, hg, h4⟩ := bind_eq_ok.1 h4
    obtain ⟨r, m', hg', hlen⟩ := getZone_total (name := z) hl
    rw [hg] at hg'
    injection hg' with hg'
    obtain ⟨-, rfl⟩ := Prod.mk.inj hg'
    obtain ⟨names, -, h4⟩ := bind_eq_ok.1 h4
    obtain ⟨acc, -, h4⟩ := bind_eq_ok.1 h4
    obtain ⟨f, -, h4⟩ := bind_eq_ok.1 h4
    obtain ⟨⟨inputs, sensors⟩, -, h4⟩ := bind_eq_ok.1 h4
    dsimp only at h4
    unfold finishStepwise at h4
    split at h4
    · injection h4 with h4
      rw [← h4]; exact hlen
    · obtain ⟨miss, -, h4⟩ := bind_eq_ok.1 h4
      obtain ⟨info, -, h4⟩ := bind_eq_ok.1 h4
      injection h4 with h4
      rw [← h4]; exact hlen

theorem addZone_total {c : DbusCfg} {zone : ConfProps} (h : CompleteZone zone)
    (hl : (c.numbers.entries.length : Int) ≤ int64Max) :
    ∃ c', addZone c zone = .ok c' ∧ c'.numbers.entries.length ≤ c.numbers.entries.length + 1 := by
  obtain ⟨name, hname⟩ := h.name
  obtain ⟨i, m', hg, hlen⟩ := getZone_total (name := name) hl
  obtain ⟨d, hd⟩ := (zoneDetails_iff (d := (c.zones.find? i).getD ZoneConfig.zero)).2 h.settings
  unfold addZone
  rw [(confReq_iff getStr_iff).2 hname, ok_bind, hg, ok_bind]
  dsimp only
  rw [hd, ok_bind]
  exact ⟨_, rfl, hlen⟩

theorem addZone_needs {c c' : DbusCfg} {zone : ConfProps} (h : addZone c zone = .ok c') :
    (∃ n, Attr zone "Name" TextValue n) ∧ ∃ s, ZoneSettings zone s := by
  obtain ⟨name, h1, h⟩ := bind_eq_ok.1 h
  obtain ⟨⟨i, numbers⟩, h2, h⟩ := bind_eq_ok.1 h
  obtain ⟨d, h3, h⟩ := bind_eq_ok.1 h
  exact ⟨⟨name, (confReq_iff getStr_iff).1 h1⟩, zoneDetails_iff.1 ⟨d, h3⟩⟩

theorem toI64_iff {d : Dbl} {k : Int} : castOr "cast to int64_t" d.toI64 = .ok k ↔
    ∃ q h, d = .fin q h ∧ Truncates q k ∧ -(2 ^ 63) ≤ k ∧ k ≤ 2 ^ 63 - 1 := castOr_castInt

theorem presetZones_needs : ∀ {os : List ConfObj} {m m' : OMap String Int}, presetZones m os = .ok m' →
    ∀ o ∈ os, ∀ z, o.find? zoneInterface = some z → ∀ d, z.find? "ZoneIndex" = some (.dbl d) →
      ∃ q h k, d = .fin q h ∧ Truncates q k ∧ -(2 ^ 63) ≤ k ∧ k ≤ 2 ^ 63 - 1
  | [], _, _, _ => by simp
  | o :: os, m, m', h => by
    obtain ⟨m1, h1, h⟩ := bind_eq_ok.1 h
    refine List.forall_mem_cons.2 ⟨fun z hz d hd => ?_, presetZones_needs h⟩
    unfold presetZone at h1
    rw [hz] at h1
    obtain ⟨name, -, h1⟩ := bind_eq_ok.1 h1
    dsimp only at h1
    rw [hd] at h1
    obtain ⟨k, h1, -⟩ := bind_eq_ok.1 h1
    obtain ⟨q, hq, h2⟩ := toI64_iff.1 h1
    exact ⟨q, hq, k, h2⟩

theorem presetZone_total {m : OMap String Int} {o : ConfObj} (h : ∀ z, o.find? zoneInterface = some z → CompleteZone z)
    (hk : ∀ z q hq k, o.find? zoneInterface = some z → z.find? "ZoneIndex" = some (.dbl (.fin q hq)) → Truncates q k →
      k < 2 ^ 62) (hl : m.entries.length < 2 ^ 62) :
    ∃ m', presetZone m o = .ok m' ∧ m'.entries.length ≤ m.entries.length + 1 := by
  unfold presetZone
  cases hz : o.find? zoneInterface with
  | none => exact ⟨m, rfl, by omega⟩
  | some z =>
    obtain ⟨⟨name, hname⟩, -, hi⟩ := h z hz
    dsimp only
    rw [(confReq_iff getStr_iff).2 hname, ok_bind]
    split
    · rename_i d hd
      obtain ⟨q, hq, k, rfl, hk1, hk2, hk3⟩ := hi d hd
      have := hk z q hq k hz hd hk1
      rw [toI64_iff.2 ⟨q, hq, rfl, hk1, hk2, hk3⟩, ok_bind]
      obtain ⟨r, m', e, l⟩ := setZone_total (name := name) (m := m) (wanted := k) (by unfold int64Max; omega)
      rw [e, ok_bind]
      exact ⟨m', rfl, l⟩
    · exact ⟨m, rfl, by omega⟩

theorem presetZones_total : ∀ {os : List ConfObj} {m : OMap String Int},
    (∀ o ∈ os, ∀ z, o.find? zoneInterface = some z → CompleteZone z) →
    (∀ o ∈ os, ∀ z q hq k, o.find? zoneInterface = some z → z.find? "ZoneIndex" = some (.dbl (.fin q hq)) → Truncates q k →
      k < 2 ^ 62) → m.entries.length + os.length ≤ 2 ^ 62 →
    ∃ m', presetZones m os = .ok m' ∧ m'.entries.length ≤ m.entries.length + os.length
  | [], m, _, _, _ => ⟨m, rfl, by simp⟩
  | o :: os, m, h, hk, hl => by
    obtain ⟨a1, a2⟩ := List.forall_mem_cons.1 h
    obtain ⟨b1, b2⟩ := List.forall_mem_cons.1 hk
    simp only [List.length_cons] at hl
    obtain ⟨m1, e1, l1⟩ := presetZone_total (m := m) a1 b1 (by omega)
    obtain ⟨m2, e2, l2⟩ := presetZones_total a2 b2 (m := m1) (by omega)
    refine ⟨m2, ?_, by simp only [List.length_cons]; omega⟩
    rw [presetZones, e1, ok_bind, e2]

theorem withInterface_total {obj : ConfObj} {interface : String} {f : DbusCfg → ConfProps → Res DbusCfg} {c : DbusCfg} {k : Nat}
    (hf : ∀ p, obj.find? interface = some p → ∃ c', f c p = .ok c' ∧
      c'.numbers.entries.length ≤ c.numbers.entries.length + k) :
    ∃ c', withInterface obj interface f c = .ok c' ∧ c'.numbers.entries.length ≤ c.numbers.entries.length + k := by
  unfold withInterface
  cases h : obj.find? interface with
  | none => exact ⟨c, rfl, by omega⟩
  | some p => exact hf p h

theorem addObjects_total {b : BusView} {sel : List String} {objs : List ConfObj}
    (ht : ThresholdsKnown b sel objs) : ∀ {os : List ConfObj} {c : DbusCfg},
    (∀ o ∈ os, ∀ interface p, o.find? interface = some p → Active sel objs interface p) →
    (∀ o ∈ os, ∀ z, o.find? zoneInterface = some z → CompleteZone z) →
    (∀ o ∈ os, ∀ p, o.find? pidInterface = some p → CompletePid b p) →
    (∀ o ∈ os, ∀ p, o.find? stepwiseInterface = some p → CompleteStep b p) → CfgOk b sel objs c →
    (c.numbers.entries.length + (os.map zonesNamed).sum : Int) ≤ int64Max → ∃ c', addObjects b c os = .ok c'
  | [], c, _, _, _, _, _, _ => ⟨c, rfl⟩
  | o :: os, c, hA, hz, hp, hst, hc, hl => by
    obtain ⟨z1, z2⟩ := List.forall_mem_cons.1 hz
    obtain ⟨p1, p2⟩ := List.forall_mem_cons.1 hp
    obtain ⟨s1, s2⟩ := List.forall_mem_cons.1 hst
    obtain ⟨A1, A2⟩ := List.forall_mem_cons.1 hA
    simp only [List.map_cons, List.sum_cons, zonesNamed] at hl
    push_cast at hl
    obtain ⟨c1, e1, l1⟩ := withInterface_total (obj := o) (interface := zoneInterface) (f := addZone) (c := c) (k := 1)
      (fun z h => addZone_total (z1 z h) (by omega))
    obtain ⟨i1, -, -⟩ := withInterface_ok (I := CfgOk b sel objs) (Q := fun _ _ => True)
      (fun p _ c c' hf hI => ⟨(addZone_grows hf hI).1, (addZone_grows hf hI).2, trivial⟩) e1 hc
    obtain ⟨c2, e2, l2⟩ := withInterface_total (obj := o) (interface := pidInterface) (f := addPidObject b) (c := c1)
      (k := namedZones (o.find? pidInterface)) (fun p h => by
        have h' : o.find? "xyz.openbmc_project.Configuration.Pid" = some p := h
        rw [h'] at hl
        rw [h]
        exact addPidObject_total (A1 _ _ h) (p1 p h) (fun t hb => ht p t (A1 _ _ h) hb) i1 (by omega))
    obtain ⟨i2, -, -⟩ := withInterface_ok (I := CfgOk b sel objs) (Q := fun p c => PidPresent b p c)
      (fun p hp c c' hf hI => addPidObject_ok (A1 _ _ hp) hf hI) e2 i1
    have l2' : c2.numbers.entries.length ≤ c1.numbers.entries.length +
      namedZones (o.find? "xyz.openbmc_project.Configuration.Pid") := l2
    obtain ⟨c3, e3, l3⟩ := withInterface_total (obj := o) (interface := stepwiseInterface) (f := addStepwiseObject b) (c := c2)
      (k := namedZones (o.find? stepwiseInterface)) (fun p h => by
        have h' : o.find? "xyz.openbmc_project.Configuration.Stepwise" = some p := h
        rw [h'] at hl
        rw [h]
        exact addStepwiseObject_total (s1 p h) (by omega))
    obtain ⟨i3, -, -⟩ := withInterface_ok (I := CfgOk b sel objs) (Q := fun p c => StepPresent b p c)
      (fun p hp c c' hf hI => addStepwiseObject_ok (A1 _ _ hp) hf hI) e3 i2
    have l3' : c3.numbers.entries.length ≤ c2.numbers.entries.length +
      namedZones (o.find? "xyz.openbmc_project.Configuration.Stepwise") := l3
    obtain ⟨c4, e4⟩ := addObjects_total ht A2 z2 p2 s2 i3 (by omega)
    refine ⟨c4, ?_⟩
    rw [addObjects, addObject, e1, ok_bind, e2, ok_bind, e3, ok_bind, e4]

theorem withInterface_some {obj : ConfObj} {interface : String} {f : DbusCfg → ConfProps → Res DbusCfg} {c c' : DbusCfg}
    {p : ConfProps} (h : withInterface obj interface f c = .ok c') (hp : obj.find? interface = some p) : f c p = .ok c' := by
  unfold withInterface at h
  rw [hp] at h
  exact h

theorem addObjects_needs {b : BusView} {sel : List String} {objs : List ConfObj} : ∀ {os : List ConfObj} {c c' : DbusCfg},
    (∀ o ∈ os, ∀ interface p, o.find? interface = some p → Active sel objs interface p) →
    CfgOk b sel objs c → addObjects b c os = .ok c' → ∀ o ∈ os,
    (∀ z, o.find? zoneInterface = some z → (∃ n, Attr z "Name" TextValue n) ∧ ∃ s, ZoneSettings z s) ∧
    (∀ p, o.find? pidInterface = some p → CompletePid b p) ∧
    ∀ p, o.find? stepwiseInterface = some p → CompleteStep b p
  | [], _, _, _, _, _ => by simp
  | o :: os, c, c', hA, hc, h => by
    obtain ⟨A1, A2⟩ := List.forall_mem_cons.1 hA
    obtain ⟨c3, h1, h⟩ := bind_eq_ok.1 h
    obtain ⟨c1, e1, h1⟩ := bind_eq_ok.1 h1
    obtain ⟨c2, e2, e3⟩ := bind_eq_ok.1 h1
    obtain ⟨i1, -, -⟩ := withInterface_ok (I := CfgOk b sel objs) (Q := fun _ _ => True)
      (fun p _ c c' hf hI => ⟨(addZone_grows hf hI).1, (addZone_grows hf hI).2, trivial⟩) e1 hc
    obtain ⟨i2, -, -⟩ := withInterface_ok (I := CfgOk b sel objs) (Q := fun p c => PidPresent b p c)
      (fun p hp c c' hf hI => addPidObject_ok (A1 _ _ hp) hf hI) e2 i1
    obtain ⟨i3, -, -⟩ := withInterface_ok (I := CfgOk b sel objs) (Q := fun p c => StepPresent b p c)
      (fun p hp c c' hf hI => addStepwiseObject_ok (A1 _ _ hp) hf hI) e3 i2
    exact List.forall_mem_cons.2 ⟨⟨fun z hz => addZone_needs (withInterface_some e1 hz),
      fun p hp => addPidObject_needs i1 (withInterface_some e2 hp),
      fun p hp => addStepwiseObject_needs (withInterface_some e3 hp)⟩, addObjects_needs A2 i3 h⟩

theorem cfgOk_start {b : BusView} {sel : List String} {objs : List ConfObj} {numbers : OMap String Int}
    (h : ∃ h, Numbered h numbers) : CfgOk b sel objs { numbers := numbers } :=
  ⟨fun n c h => by simp at h, h, OMap.wf_empty, fun i conf h => by simp at h⟩

theorem kept_named {sel : List String} {o : ConfObj} (hw : o.WF) :
    zonesNamed (⟨keptEntries sel o.entries⟩ : ConfObj) ≤ zonesNamed o := by
  have key : ∀ k, namedZones ((⟨keptEntries sel o.entries⟩ : ConfObj).find? k) ≤ namedZones (o.find? k) := by
    intro k
    cases h : (⟨keptEntries sel o.entries⟩ : ConfObj).find? k with
    | none => simp [namedZones]
    | some p => rw [((kept_find? hw k p).1 h).1]
  unfold zonesNamed
  have h1 := key "xyz.openbmc_project.Configuration.Pid"
  have h2 := key "xyz.openbmc_project.Configuration.Stepwise"
  omega

theorem applied_named {sel : List String} {objs os : List ConfObj} (hw : ∀ o ∈ objs, OMap.WF o)
    (h : applyProfiles sel objs = .ok os) : os.length ≤ objs.length ∧ (os.map zonesNamed).sum ≤ (objs.map zonesNamed).sum := by
  unfold applyProfiles at h
  by_cases hs : sel = []
  · rw [if_pos (by simp [hs])] at h
    injection h with h
    rw [h]
    exact ⟨le_rfl, le_rfl⟩
  · rw [if_neg (by simpa using hs)] at h
    rw [filterObjects_ok hs h]
    clear h
    induction objs with
    | nil => simp
    | cons o l ih =>
      obtain ⟨h1, h2⟩ := List.forall_mem_cons.1 hw
      have := ih h2
      have hk := kept_named (sel := sel) h1
      rw [List.map_cons]
      by_cases he : (keptEntries sel o.entries).isEmpty = true
      · rw [List.filter_cons_of_neg (by simpa using he)]
        simp only [List.length_cons, List.map_cons, List.sum_cons]
        omega
      · rw [List.filter_cons_of_pos (by simpa using he)]
        simp only [List.length_cons, List.map_cons, List.sum_cons]
        omega

theorem length_named (os : List ConfObj) : os.length ≤ (os.map zonesNamed).sum := by
  induction os with
  | nil => simp
  | cons o l ih =>
    simp only [List.length_cons, List.map_cons, List.sum_cons]
    have : 1 ≤ zonesNamed o := by unfold zonesNamed; omega
    omega

/-- **C109** If everything that applies is complete, the configuration is read. -/
theorem C109_reads {b : BusView} {sel : List String} {objs : List ConfObj} (hw : ∀ o ∈ objs, OMap.WF o)
    (hcomp : Complete b sel objs) (ht : ThresholdsKnown b sel objs) (hf : FewZones sel objs) :
    ∃ r c, dbusInit b sel objs = .ok (r, c) := by
  obtain ⟨os, ha⟩ := (C81_total sel objs).2 hcomp.profiles
  have hA : ∀ o ∈ os, ∀ interface p, o.find? interface = some p → Active sel objs interface p :=
    fun o ho i p hp => (C81_profiles hw ha i p).1 ⟨o, ho, hp⟩
  obtain ⟨n1, n2⟩ := applied_named hw ha
  have n3 := length_named os
  have hfew := hf.few
  have hz : ∀ o ∈ os, ∀ z, o.find? zoneInterface = some z → CompleteZone z :=
    fun o ho z h => hcomp.zones z (hA o ho _ _ h)
  obtain ⟨numbers, e1, l1⟩ := presetZones_total (os := os) (m := {}) hz
    (fun o ho z q hq k h1 h2 h3 => by
      obtain ⟨name, hname⟩ := (hz o ho z h1).name
      exact hf.small name k ⟨z, q, hq, hA o ho _ _ h1, hname, h2, h3⟩) (by
      have : (({} : OMap String Int)).entries.length = 0 := rfl
      omega)
  have l0 : (({} : OMap String Int)).entries.length = 0 := rfl
  obtain ⟨c, e2⟩ := addObjects_total (c := { numbers := numbers }) ht hA hz (fun o ho p h => hcomp.pids p (hA o ho _ _ h))
    (fun o ho p h => hcomp.steps p (hA o ho _ _ h))
    (cfgOk_start (presetZones_numbered e1 ⟨[], .start⟩)) (by
      dsimp only
      unfold int64Max
      omega)
  refine ⟨!(c.pids.isEmpty || c.zones.isEmpty), c, ?_⟩
  unfold dbusInit
  rw [ha, ok_bind, e1, ok_bind, e2, ok_bind]

/-- **C109** And only then: one configuration that applies and is not complete, and nothing is read, for any zone. -/
theorem C109_needs {b : BusView} {sel : List String} {objs : List ConfObj} (hw : ∀ o ∈ objs, OMap.WF o) {r : Bool}
    {c : DbusCfg} (h : dbusInit b sel objs = .ok (r, c)) : Complete b sel objs := by
  obtain ⟨os, ha, h⟩ := bind_eq_ok.1 h
  obtain ⟨numbers, e1, h⟩ := bind_eq_ok.1 h
  obtain ⟨c1, e2, h⟩ := bind_eq_ok.1 h
  have hA : ∀ o ∈ os, ∀ interface p, o.find? interface = some p → Active sel objs interface p :=
    fun o ho i p hp => (C81_profiles hw ha i p).1 ⟨o, ho, hp⟩
  have key := addObjects_needs hA (cfgOk_start (presetZones_numbered e1 ⟨[], .start⟩)) e2
  refine ⟨(C81_total sel objs).1 ⟨os, ha⟩, fun z hz => ?_, fun p hp => ?_, fun p hp => ?_⟩
  · obtain ⟨o, ho, hz⟩ := (C81_profiles hw ha _ z).2 hz
    obtain ⟨h1, h2⟩ := (key o ho).1 z hz
    exact ⟨h1, h2, presetZones_needs e1 o ho z hz⟩
  · obtain ⟨o, ho, hp⟩ := (C81_profiles hw ha _ p).2 hp
    exact (key o ho).2.1 p hp
  · obtain ⟨o, ho, hp⟩ := (C81_profiles hw ha _ p).2 hp
    exact (key o ho).2.2 p hp

/-! ## The order of the sensors -/

theorem SameBus.symm {b b' : BusView} (h : SameBus b b') : SameBus b' b :=
  ⟨h.missing.symm, h.regex.symm, h.threshold.symm, h.sensors.symm⟩

theorem SameBus.matching {b b' : BusView} (h : SameBus b b') (n : String) : (Matching b' n).Perm (Matching b n) := by
  unfold Matching
  rw [h.regex]
  split
  · exact h.sensors.filter _
  · exact List.Perm.refl _

theorem SameBus.matchings {b b' : BusView} (h : SameBus b b') (ns : List String) :
    (ns.flatMap (Matching b')).Perm (ns.flatMap (Matching b)) := by
  induction ns with
  | nil => simp
  | cons n ns ih =>
    rw [List.flatMap_cons, List.flatMap_cons]
    exact (h.matching n).append ih

theorem SameBus.empty {b b' : BusView} (h : SameBus b b') (n : String) : Matching b' n = [] ↔ Matching b n = [] :=
  ⟨fun e => by have := h.matching n; rw [e] at this; exact this.symm.eq_nil,
    fun e => by have := h.matching n; rw [e] at this; exact this.eq_nil⟩

theorem SameBus.valid {b b' : BusView} (h : SameBus b b') {n : String} (hv : ValidName b n) : ValidName b' n := by
  unfold ValidName
  rw [h.regex]
  exact hv

theorem SameBus.searchable {b b' : BusView} (h : SameBus b b') {ns : List String} (hs : Searchable b ns) : Searchable b' ns := by
  intro before n after he hb
  refine h.valid (hs before n after he ?_)
  rw [h.missing] at hb
  exact hb.imp id fun hb m hm e => hb m hm ((h.empty m).2 e)

theorem SameBus.allOf {b b' : BusView} (h : SameBus b b') {i : String} {ns : List String} (hs : AllOf b i ns) : AllOf b' i ns :=
  fun n hn s hsm => hs n hn s ((h.matching n).mem_iff.1 hsm)

theorem SameBus.found {b b' : BusView} (h : SameBus b b') (ns : List String) : (foundNames b' ns).Perm (foundNames b ns) :=
  (h.matchings ns).map _

theorem SameBus.missingNames {b b' : BusView} (h : SameBus b b') (acc ns : List String) :
    missingNames b' acc ns = missingNames b acc ns := by
  unfold Verif.missingNames
  rw [h.missing]
  split
  · congr 1
    refine List.filter_congr fun n _ => ?_
    simp only [h.empty n]
  · rfl

theorem SameBus.stepNames {b b' : BusView} (h : SameBus b b') (acc ns : List String) :
    (stepNames b' acc ns).Perm (stepNames b acc ns) := by
  unfold Verif.stepNames
  rw [h.missing]
  split
  · induction ns with
    | nil => simp
    | cons n ns ih =>
      rw [List.flatMap_cons, List.flatMap_cons]
      refine List.Perm.append ?_ ih
      simp only [h.empty n]
      split
      · exact List.Perm.refl _
      · exact h.found _
  · have : (fun n => decide (Matching b' n ≠ [])) = fun n => decide (Matching b n ≠ []) := by
      funext n
      simp only [ne_eq, h.empty n]
    rw [this]
    exact h.found _

omit F in
theorem pairs_perm {α β : Type} {fs fs' : List α} {ps ps' : List β} {l : List (α × β)} (h : Pairs fs ps l) (hf : fs'.Perm fs)
    (hp : ps'.Perm ps) : ∃ l', Pairs fs' ps' l' ∧ l'.length = l.length ∧ ∀ x' ∈ l', ∃ x ∈ l, x.2 = x'.2 := by
  cases h with
  | one p =>
    have := List.perm_singleton.1 hp
    subst this
    refine ⟨_, .one _ _, by simpa using hf.length_eq, ?_⟩
    intro x' hx'
    obtain ⟨f, hfm, rfl⟩ := List.mem_map.1 hx'
    exact ⟨(f, p), List.mem_map.2 ⟨f, hf.mem_iff.1 hfm, rfl⟩, rfl⟩
  | each hl =>
    refine ⟨_, .each (by rw [hf.length_eq, hp.length_eq, hl]), by
      rw [List.length_zip, List.length_zip, hf.length_eq, hp.length_eq], ?_⟩
    intro x' hx'
    have h1 : x'.2 ∈ ps := hp.mem_iff.1 (List.of_mem_zip hx').2
    rw [← List.map_snd_zip (l₁ := fs) (l₂ := ps) (by omega)] at h1
    obtain ⟨x, hx, e⟩ := List.mem_map.1 h1
    exact ⟨x, hx, e⟩

theorem SameBus.names {b b' : BusView} (h : SameBus b b') {base : ConfProps} {l : List String} (hn : PidNames b base l) :
    ∃ l', PidNames b' base l' ∧ l'.length = l.length := by
  cases hn with
  | heat a1 a2 a3 a4 =>
    refine ⟨_, .heat a1 a2 a3 a4, ?_⟩
    rw [List.length_append, List.length_append, h.missingNames, (h.found _).length_eq]
  | fan a1 a2 a3 a4 =>
    obtain ⟨l', p1, p2, -⟩ := pairs_perm a4 (h.matchings _) (h.matchings _)
    refine ⟨_, .fan a1 a2 a3 p1, ?_⟩
    rw [List.length_map, List.length_map, p2]
  | other a1 a2 a3 a4 => exact ⟨_, .other a1 a2 a3 a4, by rw [h.missingNames]⟩

theorem SameBus.pid {b b' : BusView} (h : SameBus b b') {base : ConfProps} (hc : CompletePid b base) : CompletePid b' base := by
  obtain ⟨hn, hcls, zs, hz, hr⟩ := hc
  refine ⟨hn, hcls, zs, hz, fun hne => ?_⟩
  obtain ⟨⟨⟨inputs, a1, a2, a3⟩, ⟨acc, b1, b2, b3⟩, fl, ho⟩, hrest⟩ := hr hne
  refine ⟨⟨⟨inputs, a1, fun n hn => h.valid (a2 n hn), h.allOf a3⟩, ⟨acc, b1, fun n hn => h.valid (b2 n hn), h.allOf b3⟩, fl,
    fun hfan inputs' hi' => ?_⟩, fun names hnames hne => ?_⟩
  · obtain ⟨outs, pairs, o1, o2, o3, o4⟩ := ho hfan inputs' hi'
    obtain ⟨pairs', p1, -, p3⟩ := pairs_perm o3 (h.matchings _) (h.matchings _)
    refine ⟨outs, pairs', o1, fun n hn => h.valid (o2 n hn), p1, fun x' hx' => ?_⟩
    obtain ⟨x, hx, e⟩ := p3 x' hx'
    rw [← e]
    exact o4 x hx
  · obtain ⟨names0, n1, n2⟩ := h.symm.names hnames
    refine hrest names0 n1 fun e => hne ?_
    rw [e] at n2
    exact List.length_eq_zero_iff.1 n2.symm

theorem SameBus.step {b b' : BusView} (h : SameBus b b') {base : ConfProps} (hc : CompleteStep b base) : CompleteStep b' base := by
  obtain ⟨hn, zs, hz, hr⟩ := hc
  refine ⟨hn, zs, hz, fun hne => ?_⟩
  obtain ⟨fl, inputs, acc, a1, a2, a3, a4⟩ := hr hne
  refine ⟨fl, inputs, acc, a1, a2, h.searchable a3, fun hne => ?_⟩
  obtain ⟨c1, c2⟩ := a4 fun e => hne (by have := h.stepNames acc inputs; rw [e] at this; exact this.eq_nil)
  exact ⟨h.searchable c1, c2⟩

theorem active_perm {sel : List String} {objs objs' : List ConfObj} (h : objs'.Perm objs) {i : String} {p : ConfProps}
    (hA : Active sel objs' i p) : Active sel objs i p := by
  obtain ⟨o, ho, hp⟩ := hA
  exact ⟨o, h.mem_iff.1 ho, hp⟩

theorem SameBus.complete {b b' : BusView} (h : SameBus b b') {sel : List String} {objs objs' : List ConfObj}
    (ho : objs'.Perm objs) (hc : Complete b sel objs) : Complete b' sel objs' :=
  ⟨hc.profiles.imp id fun hp o hm => hp o (ho.mem_iff.1 hm), fun z hz => hc.zones z (active_perm ho hz),
    fun p hp => h.pid (hc.pids p (active_perm ho hp)), fun p hp => h.step (hc.steps p (active_perm ho hp))⟩

theorem SameBus.fits {b b' : BusView} (h : SameBus b b') {n : String} {c : SensorConfig} (hf : SensorFits b' n c) :
    SensorFits b n c := by
  cases hf with
  | found i a1 a2 a3 a4 a5 => exact .found i (h.sensors.mem_iff.1 a1) a2 a3 a4 a5
  | missing a1 a2 a3 a4 a5 => exact .missing (h.missing ▸ a1) a2 a3 a4 a5
  | fan a1 a2 a3 a4 a5 a6 a7 => exact .fan (h.sensors.mem_iff.1 a1) (h.sensors.mem_iff.1 a2) a3 a4 a5 a6 a7

theorem SameBus.thresholds {b b' : BusView} (h : SameBus b b') {sel : List String} {objs objs' : List ConfObj}
    (ho : objs'.Perm objs) (ht : ThresholdsKnown b sel objs) : ThresholdsKnown b' sel objs' := by
  intro p t hA hp n c hf
  rw [h.threshold]
  exact ht p t (active_perm ho hA) hp n c (h.fits hf)

theorem fewZones_perm {sel : List String} {objs objs' : List ConfObj} (ho : objs'.Perm objs) (hf : FewZones sel objs) :
    FewZones sel objs' := by
  refine ⟨?_, fun n k ⟨z, q, hq, hA, h⟩ => hf.small n k ⟨z, q, hq, active_perm ho hA, h⟩⟩
  rw [(ho.map zonesNamed).sum_eq]
  exact hf.few

/-- **C109** Whether the configuration is read does not depend on the order in which the sensors and the configurations are
listed. -/
theorem C109_order {b b' : BusView} (h : SameBus b b') {sel : List String} {objs objs' : List ConfObj} (ho : objs'.Perm objs)
    (hw : ∀ o ∈ objs, OMap.WF o) (ht : ThresholdsKnown b sel objs) (hf : FewZones sel objs) :
    (∃ r c, dbusInit b sel objs = .ok (r, c)) ↔ ∃ r c, dbusInit b' sel objs' = .ok (r, c) := by
  have hw' : ∀ o ∈ objs', OMap.WF o := fun o hm => hw o (ho.mem_iff.1 hm)
  constructor
  · rintro ⟨r, c, hok⟩
    exact C109_reads hw' (h.complete ho (C109_needs hw hok)) (h.thresholds ho ht) (fewZones_perm ho hf)
  · rintro ⟨r, c, hok⟩
    exact C109_reads hw (h.symm.complete ho.symm (C109_needs hw' hok)) ht hf

theorem view_same (b : ConfBus) (h h' : HashOrder) (reply : SubTree) : SameBus (b.view h reply) (b.view h' reply) :=
  ⟨rfl, rfl, rfl, (h'.perm _).trans (h.perm _).symm⟩

/-- **C109** The daemon runs from a complete configuration on the bus that makes sense, if every sensor can be made. -/
theorem C109_runs {o : Opts} {conf : String} {f : StartFiles} (hsrc : Source conf f none) {objs : List BusObject}
    {b : ConfBus} {reply : SubTree} (hs : b.subTree = some reply) (hk : MapperKnows objs reply)
    (hm : ManagersAnswer objs b.managed) (ha : Arranged objs) (hw : ∀ o ∈ objs, OMap.WF o.interfaces)
    (hmiss : b.handleMissing = false) {sel : List String} (hsel : getSelectedProfiles b.modes b.mode = .ok sel)
    (hb : BusSuits objs sel) {h0 : HashOrder} (hcomp : Complete (b.view h0 reply) sel (confsOf objs))
    (ht : ThresholdsKnown (b.view h0 reply) sel (confsOf objs)) (hf : FewZones sel (confsOf objs))
    (hz : ∃ base zones zone, (Active sel (confsOf objs) "xyz.openbmc_project.Configuration.Pid" base ∨
      Active sel (confsOf objs) "xyz.openbmc_project.Configuration.Stepwise" base) ∧ Attr base "Zones" NamesValue zones ∧
      zone ∈ zones) (h : HashOrder) {bus : BuildBus} {now : Int} {w : World}
    (hmake : ∀ c, busInit b h = .ok (true, c) → ∀ n s, c.sensors.find? n = some s → CanMake o bus now n s)
    (hfi : o.tuningEnabled = true → ∀ path, w.files path ≠ .blank) :
    ∃ d, attempt o conf f b h bus now w = .running d := by
  obtain ⟨base, zones, zone, hA, hzs, hzm⟩ := hz
  have hobj : ∃ x ∈ objs, x.Configures ∧ (x.interfaces.find? pidInterface = some base ∨
      x.interfaces.find? stepwiseInterface = some base) ∧ Selected sel base := by
    rcases hA with ⟨x, hx, h1, h2⟩ | ⟨x, hx, h1, h2⟩
    · obtain ⟨y, hy, rfl⟩ := List.mem_map.1 hx
      exact ⟨y, (List.mem_filter.1 hy).1, by simpa using (List.mem_filter.1 hy).2, .inl h1, h2⟩
    · obtain ⟨y, hy, rfl⟩ := List.mem_map.1 hx
      exact ⟨y, (List.mem_filter.1 hy).1, by simpa using (List.mem_filter.1 hy).2, .inr h1, h2⟩
  obtain ⟨x, hx, hxc, hxi, hxs⟩ := hobj
  have hne : ∃ o ∈ objs, o.Configures := ⟨x, hx, hxc⟩
  obtain ⟨l, hp, he⟩ := C107_collected hs hk hm ha hne h
  have hwc : ∀ o ∈ confsOf objs, OMap.WF o := by
    intro o ho
    obtain ⟨y, hy, rfl⟩ := List.mem_map.1 ho
    exact hw y (List.mem_filter.1 hy).1
  have hwl : ∀ o ∈ l, OMap.WF o := fun o ho => hwc o (hp.mem_iff.1 ho)
  obtain ⟨r, c, hok⟩ := C109_reads hwl ((view_same b h0 h reply).complete hp hcomp)
    ((view_same b h0 h reply).thresholds hp ht) (fewZones_perm hp hf)
  have hdl : DistinctZones sel l := by
    have hd := hb.distinct
    unfold DistinctZones at hd ⊢
    refine (hp.symm.pairwise ?_ ?_)
    · exact hd.sublist (List.filter_sublist.map _)
    · intro o o' hoo z z' n a b' c' d' e f
      exact hoo z' z n c' d' a b' f e
  have hr : r = true := by
    refine (C86_usable hwl hdl hok).2 ⟨?_, base, zones, zone, ?_, hzs, hzm⟩
    · obtain ⟨o', ho', z, z1, z2, -⟩ := hb.zones x hx base hxi hxs zones zone hzs hzm
      exact ⟨z, (active_objs hp (.inr (.inl rfl)) z).2 ⟨o', ho', z1, z2⟩⟩
    · exact hA.imp (active_perm hp.symm) (active_perm hp.symm)
  subst hr
  have hbok : busInit b h = .ok (true, c) := by rw [he, hsel, ok_bind, hok]
  exact C108_bus_runs hsrc hs hk hm ha hne hw hmiss hsel hb hbok (hmake c hbok) hfi

/-- **C109** (finding) A single configuration that applies and is not complete keeps the daemon from controlling anything, the
zones of complete configurations included. -/
theorem C109_stops {o : Opts} {conf : String} {f : StartFiles} (hsrc : Source conf f none) {objs : List BusObject}
    {b : ConfBus} {reply : SubTree} (hs : b.subTree = some reply) (hk : MapperKnows objs reply)
    (hm : ManagersAnswer objs b.managed) (ha : Arranged objs) (hw : ∀ o ∈ objs, OMap.WF o.interfaces)
    {sel : List String} (hsel : getSelectedProfiles b.modes b.mode = .ok sel) (h : HashOrder) {x : BusObject} (hx : x ∈ objs)
    {p : ConfProps} (hp : Selected sel p)
    (hbad : (x.interfaces.find? "xyz.openbmc_project.Configuration.Pid.Zone" = some p ∧ ¬ CompleteZone p) ∨
      (x.interfaces.find? "xyz.openbmc_project.Configuration.Pid" = some p ∧ ¬ CompletePid (b.view h reply) p) ∨
      (x.interfaces.find? "xyz.openbmc_project.Configuration.Stepwise" = some p ∧ ¬ CompleteStep (b.view h reply) p))
    (bus : BuildBus) (now : Int) (w : World) :
    (∃ why, attempt o conf f b h bus now w = .retry why) ∨ ∃ why, attempt o conf f b h bus now w = .undefined why := by
  have hxc : x.Configures := by
    rcases hbad with ⟨h1, -⟩ | ⟨h1, -⟩ | ⟨h1, -⟩
    · exact .inr (.inl (by unfold BusObject.Has; rw [h1]; simp))
    · exact .inl (by unfold BusObject.Has; rw [h1]; simp)
    · exact .inr (.inr (by unfold BusObject.Has; rw [h1]; simp))
  obtain ⟨l, hpl, he⟩ := C107_collected hs hk hm ha ⟨x, hx, hxc⟩ h
  rw [hsel, ok_bind] at he
  have hwl : ∀ o ∈ l, OMap.WF o := by
    intro o ho
    obtain ⟨y, hy, rfl⟩ := List.mem_map.1 (hpl.mem_iff.1 ho)
    exact hw y (List.mem_filter.1 hy).1
  rw [attempt_bus hsrc, he]
  cases hi : dbusInit (b.view h reply) sel l with
  | ok rc =>
    exfalso
    obtain ⟨r, c⟩ := rc
    have hcomp := C109_needs hwl hi
    have hA : ∀ i, (i = pidInterface ∨ i = zoneInterface ∨ i = stepwiseInterface) → x.interfaces.find? i = some p →
        Active sel l i p := fun i hi' h1 => (active_objs hpl hi' p).2 ⟨x, hx, h1, hp⟩
    rcases hbad with ⟨h1, h2⟩ | ⟨h1, h2⟩ | ⟨h1, h2⟩
    · exact h2 (hcomp.zones p (hA _ (.inr (.inl rfl)) h1))
    · exact h2 (hcomp.pids p (hA _ (.inl rfl) h1))
    · exact h2 (hcomp.steps p (hA _ (.inr (.inr rfl)) h1))
  | error e =>
    cases e with
    | exc why => exact .inl ⟨why, rfl⟩
    | ub why => exact .inr ⟨why, rfl⟩

end

namespace Ex
section
attribute [local instance] binary64

/-- C109: a configuration that is read is complete … -/
theorem complete109 : Complete (conf108.view asListed (mapperOf objs108)) [] (confsOf objs108) := by
  obtain ⟨⟨r, c⟩, h, -⟩ := ok_of_any (x := dbusInit (conf108.view asListed (mapperOf objs108)) [] (confsOf objs108))
    (P := fun _ : Bool × DbusCfg => true) (by decide +kernel)
  exact C109_needs (by
    intro o ho
    have : o.entries.length ≤ 1 := by revert o; decide +kernel
    unfold OMap.WF
    match h : o.entries with
    | [] => simp
    | [e] => simp
    | _ :: _ :: _ => rw [h] at this; simp at this) h

theorem thresholds109 (h : HashOrder) : ThresholdsKnown (conf108.view h (mapperOf objs108)) [] (confsOf objs108) :=
  fun _ _ _ _ _ _ _ => ⟨80, rfl⟩

theorem few109 : FewZones [] (confsOf objs108) := by
  refine ⟨by decide +kernel, ?_⟩
  rintro n k ⟨z, q, hq, ⟨o, ho, hz, -⟩, -, hi, ht⟩
  have key : ∀ o ∈ confsOf objs108, (o.find? zoneInterface).all (fun z => (z.find? "ZoneIndex").all (fun v =>
      match v with
      | .dbl d => match d.toI64 with
        | some k => decide (k < 2 ^ 62)
        | none => false
      | _ => true)) = true := by decide +kernel
  have h1 := key o ho
  rw [hz, Option.all_some, hi, Option.all_some] at h1
  dsimp only at h1
  cases h2 : (Dbl.fin q hq).toI64 with
  | none => rw [h2] at h1; cases h1
  | some k' =>
    rw [h2] at h1
    have h3 : castOr "cast to int64_t" (Dbl.fin q hq).toI64 = .ok k' := by rw [h2]; rfl
    obtain ⟨q', hq', e, ht', -⟩ := toI64_iff.1 h3
    injection e with e
    subst e
    rw [← truncates_iff.1 ht, truncates_iff.1 ht']
    exact of_decide_eq_true h1

/-- … so it is read in any order, and the daemon runs from it -/
example (h : HashOrder)
    (hm : ∀ c, busInit conf108 h = .ok (true, c) → ∀ n s, c.sensors.find? n = some s → CanMake {} bus98 0 n s) :
    ∃ d, attempt {} "" nofiles108 conf108 h bus98 0 world99 = .running d :=
  C109_runs nofiles108_source rfl (mapper_knows _) (managers_answer _) arranged108
    (by
      intro o ho
      have : o.interfaces.entries.length ≤ 1 := by revert o; decide +kernel
      unfold OMap.WF
      match h : o.interfaces.entries with
      | [] => simp
      | [e] => simp
      | _ :: _ :: _ => rw [h] at this; simp at this) rfl rfl busSuits108 complete109 (thresholds109 _) few109
    ⟨busFan [], ["Left"], "Left", .inl ⟨⟨[(pidInterface, busFan [])]⟩, by
      unfold confsOf
      refine List.mem_map.2 ⟨⟨"em", "/inventory/board/Fan", ⟨[(pidInterface, busFan [])]⟩⟩, List.mem_filter.2 ⟨?_, ?_⟩, rfl⟩
      · exact List.mem_cons_of_mem _ (List.mem_cons_of_mem _ List.mem_cons_self)
      · decide +kernel, rfl, .inl rfl⟩, ⟨_, rfl, rfl⟩, by simp⟩ h hm (fun h => by cases h)

/-- a loop without coefficients, added to the same bus -/
def bad109 : ConfProps :=
  ⟨[("Name", .str "More"), ("Class", .str "temp"), ("Zones", .strs ["Left"]), ("Inputs", .strs ["Core 1"]), ("SetPoint", .dbl 1)]⟩
def objs109 : List BusObject := objs108 ++ [⟨"em", "/inventory/board/More", ⟨[(pidInterface, bad109)]⟩⟩]

def retries : Started → Bool
  | .retry _ => true
  | _ => false

/-- C109_stops: the other loops of the zone, its fans included, do not run either -/
example : ranZones (attempt {} "" nofiles108 conf108 asListed bus98 0 world99) = some [3] ∧
    retries (attempt {} "" nofiles108 (busOf107 objs109 [] (fun _ _ => none)) asListed bus98 0 world99) = true := by
  decide +kernel

/-- the hypothesis of `C109_stops` holds -/
example (b : BusView) (hb : ∃ s ∈ Matching b "Core 1", s.2 = valueInterface) : ¬ CompletePid b bad109 := by
  rintro ⟨-, -, zs, ⟨v, hv, hzs⟩, hr⟩
  cases hv
  cases hzs
  obtain ⟨-, hr⟩ := hr (by simp)
  obtain ⟨s, hs, -⟩ := hb
  obtain ⟨⟨info, x, hi, -⟩, -⟩ := hr _ (.heat ⟨_, rfl, rfl⟩ (by simp) ⟨_, rfl, rfl⟩ (.inr ⟨rfl, rfl⟩)) (by
    have : s ∈ Matching b "Core 1" := hs
    intro e
    rw [List.append_eq_nil_iff] at e
    have := e.2
    unfold foundNames at this
    rw [List.map_eq_nil_iff, List.flatMap_cons, List.append_eq_nil_iff] at this
    rw [this.1] at hs
    cases hs)
  obtain ⟨v, hv, -⟩ := hi.proportionalCoeff
  have : bad109.find? "PCoefficient" = none := rfl
  rw [this] at hv
  cases hv

end
end Ex
end Verif
