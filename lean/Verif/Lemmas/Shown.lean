import Verif.Spec.Shown
import Verif.Lemmas.Controllers
import Verif.Lemmas.Remote

/-! # Lemmas: what loops show has no influence -/

namespace Verif
open Dbl
variable [F : FloatModel]

/-- both computations fail alike, or both succeed with related results -/
def RelR {α β : Type} (R : α → β → Prop) : Res α → Res β → Prop
  | .ok a, .ok b => R a b
  | .error e, .error f => e = f
  | _, _ => False

omit F in
theorem RelR.bind {α β γ δ : Type} {R : α → β → Prop} {S : γ → δ → Prop} {x : Res α} {y : Res β} {f : α → Res γ} {g : β → Res δ}
    (h : RelR R x y) (hf : ∀ a b, R a b → RelR S (f a) (g b)) : RelR S (x >>= f) (y >>= g) := by
  cases x <;> cases y
  · exact h
  · exact h.elim
  · exact h.elim
  · exact hf _ _ h

omit F in
/-- the same computation on both sides -/
theorem RelR.bind_same {α γ δ : Type} {S : γ → δ → Prop} {x : Res α} {f : α → Res γ} {g : α → Res δ}
    (hf : ∀ a, RelR S (f a) (g a)) : RelR S (x >>= f) (x >>= g) := by
  cases x
  · exact rfl
  · exact hf _

omit F in
theorem RelR.ok {α β : Type} {R : α → β → Prop} {a : α} {b : β} (h : R a b) : RelR R (.ok a) (.ok b) := h

/-- a change that neither looks at nor touches the objects of the loops -/
theorem DebugOnly.lift {a b : ZoneData} (h : DebugOnly a b) (f : ZoneData → ZoneData)
    (hf : ∀ (z : ZoneData) P, f { z with procs := P } = { f z with procs := P }) (hp : ∀ z, (f z).procs = z.procs) :
    DebugOnly (f a) (f b) := by
  refine ⟨?_, fun k => ?_⟩
  · conv_lhs => rw [h.eq, hf]
    rw [hp b]
  · rw [hp, hp]; exact h.keys k

theorem rel_enabled {a b : ZoneData} (h : DebugOnly a b) (n : String) : a.isPidProcessEnabled n = b.isPidProcessEnabled n := by
  have := h.keys n
  unfold ZoneData.isPidProcessEnabled
  cases ha : a.procs.find? n <;> cases hb : b.procs.find? n <;> rw [ha, hb] at this <;> simp_all

theorem rel_addSetPoint {a b : ZoneData} (h : DebugOnly a b) (x : Dbl) (n : String) :
    RelR DebugOnly (a.addSetPoint x n) (b.addSetPoint x n) := by
  unfold ZoneData.addSetPoint
  rw [rel_enabled h]
  refine RelR.bind_same fun e => ?_
  cases e
  · exact h
  · have he := h.eq
    have hk := h.keys
    generalize b.procs = P at he hk
    subst he
    dsimp only [Bool.not_true]
    split_ifs
    all_goals exact ⟨rfl, hk⟩

theorem rel_updateDebug {a b : ZoneData} (h : DebugOnly a b) (id l : String) (i v : Dbl) :
    RelR DebugOnly (a.updateThermalPowerDebugInterface id l i v) (b.updateThermalPowerDebugInterface id l i v) := by
  have hk := h.keys
  have he := h.eq
  unfold ZoneData.updateThermalPowerDebugInterface
  have hki := hk id
  cases ha : a.procs.find? id <;> cases hb : b.procs.find? id <;> rw [ha, hb] at hki
  · exact rfl
  · simp at hki
  · simp at hki
  · rename_i p q
    simp only [Option.map_some, Option.some.injEq] at hki
    dsimp only
    split_ifs
    all_goals
      refine ⟨?_, fun k => ?_⟩
      · dsimp only; rw [he]
      · dsimp only
        simp only [OMap.find?_insert]
        split_ifs
        · simp [hki]
        · exact hk k

theorem rel_cached {a b : ZoneData} (h : DebugOnly a b) (n : String) : a.getCachedValues n = b.getCachedValues n := by
  unfold ZoneData.getCachedValues; rw [h.cache]

/-- results of a thermal loop: the zone up to what is shown, and the rest the same -/
abbrev RelP {α : Type} (p q : ZoneData × α) : Prop := DebugOnly p.1 q.1 ∧ p.2 = q.2

theorem rel_inputOne {a b : ZoneData} (h : DebugOnly a b) (c : ThermalPid) (v : Dbl) (acc : Bool) (i : SensorInput) :
    RelR RelP (c.inputOne a v acc i) (c.inputOne b v acc i) := by
  unfold ThermalPid.inputOne
  rw [rel_cached h]
  refine RelR.bind_same fun e => ?_
  dsimp only
  by_cases hf : (!e.scaled.isFinite) = true
  · rw [if_pos hf, if_pos hf]; exact ⟨h, rfl⟩
  · rw [if_neg hf, if_neg hf]
    have key : ∀ new : Dbl, RelR RelP
        (if (!v.eqb new) = true then do
          let z ← a.updateThermalPowerDebugInterface c.id i.name new 0
          .ok (z, new, true)
        else .ok (a, new, true))
        (if (!v.eqb new) = true then do
          let z ← b.updateThermalPowerDebugInterface c.id i.name new 0
          .ok (z, new, true)
        else .ok (b, new, true)) := by
      intro new
      split_ifs
      · exact (rel_updateDebug h _ _ _ _).bind fun _ _ h' => ⟨h', rfl⟩
      · exact ⟨h, rfl⟩
    by_cases hm : c.type = .margin ∧ i.convertTempToMargin = true
    · rw [if_pos hm, if_pos hm]
      by_cases hz : (!i.convertMarginZero.isFinite) = true
      · rw [if_pos hz, if_pos hz]; exact rfl
      · rw [if_neg hz, if_neg hz]; exact key _
    · rw [if_neg hm, if_neg hm]; exact key _

theorem rel_inputLoop (c : ThermalPid) : ∀ (is : List SensorInput) {a b : ZoneData}, DebugOnly a b → ∀ (v : Dbl) (acc : Bool),
    RelR RelP (c.inputLoop a v acc is) (c.inputLoop b v acc is)
  | [], _, _, h, _, _ => ⟨h, rfl⟩
  | i :: is, a, b, h, v, acc => by
    unfold ThermalPid.inputLoop
    refine (rel_inputOne h c v acc i).bind ?_
    rintro ⟨z, v, acc⟩ ⟨z', v', acc'⟩ ⟨h1, h2⟩
    cases h2
    exact rel_inputLoop c is h1 v acc

theorem rel_inputProc {a b : ZoneData} (h : DebugOnly a b) (c : ThermalPid) :
    RelR RelP (c.inputProc a) (c.inputProc b) := by
  unfold ThermalPid.inputProc
  split_ifs
  · exact rfl
  · refine (rel_inputLoop c c.inputs h _ false).bind ?_
    rintro ⟨z, v, acc⟩ ⟨z', v', acc'⟩ ⟨h1, h2⟩
    cases h2
    exact ⟨h1, rfl⟩

theorem rel_thermalPid {a b : ZoneData} (h : DebugOnly a b) (c : ThermalPid) : RelR RelP (c.process a) (c.process b) := by
  unfold ThermalPid.process
  refine (rel_inputProc h c).bind ?_
  rintro ⟨z, v⟩ ⟨z', v'⟩ ⟨h1, h2⟩
  cases h2
  dsimp only
  refine (rel_addSetPoint h1 _ _).bind fun y y' h2 => ?_
  exact (rel_updateDebug h2 _ _ _ _).bind fun _ _ h3 => ⟨h3, rfl⟩

theorem rel_stepInput {a b : ZoneData} (h : DebugOnly a b) : ∀ (is : List String) (v : Dbl),
    StepwiseCtl.inputLoop a v is = StepwiseCtl.inputLoop b v is
  | [], _ => rfl
  | i :: is, v => by
    unfold StepwiseCtl.inputLoop
    rw [rel_cached h]
    cases b.getCachedValues i with
    | error e => rfl
    | ok e => exact rel_stepInput h is _

theorem rel_stepwise {a b : ZoneData} (h : DebugOnly a b) (c : StepwiseCtl) : RelR RelP (c.process a) (c.process b) := by
  unfold StepwiseCtl.process
  rw [rel_stepInput h]
  refine RelR.bind_same fun x => ?_
  dsimp only
  split_ifs
  · exact ⟨h.lift (fun z => z.addRPMCeiling _) (fun _ _ => rfl) (fun _ => rfl), rfl⟩
  · exact (rel_addSetPoint h _ _).bind fun _ _ h' => ⟨h', rfl⟩

theorem rel_thermalCtl {a b : ZoneData} (h : DebugOnly a b) (c : ThermalCtl) :
    RelR RelP (c.process a) (c.process b) := by
  cases c with
  | pid c =>
    refine (rel_thermalPid h c).bind ?_
    rintro ⟨z, v⟩ ⟨z', v'⟩ ⟨h1, h2⟩
    cases h2
    exact ⟨h1, rfl⟩
  | stepwise c =>
    refine (rel_stepwise h c).bind ?_
    rintro ⟨z, v⟩ ⟨z', v'⟩ ⟨h1, h2⟩
    cases h2
    exact ⟨h1, rfl⟩

theorem rel_thermalList : ∀ (cs : List ThermalCtl) {a b : ZoneData}, DebugOnly a b →
    RelR RelP (processThermalList a cs) (processThermalList b cs)
  | [], _, _, h => ⟨h, rfl⟩
  | c :: cs, a, b, h => by
    unfold processThermalList
    refine (rel_thermalCtl h c).bind ?_
    rintro ⟨z, v⟩ ⟨z', v'⟩ ⟨h1, h2⟩
    cases h2
    dsimp only
    refine (rel_thermalList cs h1).bind ?_
    rintro ⟨z, v⟩ ⟨z', v'⟩ ⟨h1, h2⟩
    cases h2
    exact ⟨h1, rfl⟩

theorem rel_markMissing {a b : ZoneData} (h : DebugOnly a b) (n r : String) :
    DebugOnly (a.markSensorMissing n r) (b.markSensorMissing n r) := by
  refine h.lift (fun z => z.markSensorMissing n r) (fun z P => ?_) (fun z => ?_)
  · unfold ZoneData.markSensorMissing; dsimp only; split_ifs <;> rfl
  · unfold ZoneData.markSensorMissing; dsimp only; split_ifs <;> rfl

theorem rel_processSensorInput {a b : ZoneData} (h : DebugOnly a b) (w : World) (now : Int) (n : String) :
    RelR DebugOnly (a.processSensorInput w now n) (b.processSensorInput w now n) := by
  unfold ZoneData.processSensorInput
  refine RelR.bind_same fun s => ?_
  refine RelR.bind_same fun r => ?_
  dsimp only
  have h1 : DebugOnly { a with cachedValuesByName := a.cachedValuesByName.insert n ⟨r.value, r.unscaled⟩ }
      { b with cachedValuesByName := b.cachedValuesByName.insert n ⟨r.value, r.unscaled⟩ } :=
    h.lift (fun z => { z with cachedValuesByName := z.cachedValuesByName.insert n ⟨r.value, r.unscaled⟩ })
      (fun _ _ => rfl) (fun _ => rfl)
  refine RelR.bind_same fun f => ?_
  split_ifs
  · refine RelR.bind_same fun _ => ?_
    exact rel_markMissing h1 _ _
  · exact rel_markMissing h1 _ _
  · exact h1.lift (fun z => { z with failSafeSensors := z.failSafeSensors.erase n }) (fun _ _ => rfl) (fun _ => rfl)

theorem rel_processSensorInputs (w : World) (now : Int) : ∀ (ns : List String) {a b : ZoneData}, DebugOnly a b →
    RelR DebugOnly (a.processSensorInputs w now ns) (b.processSensorInputs w now ns)
  | [], _, _, h => h
  | n :: ns, _, _, h => by
    unfold ZoneData.processSensorInputs
    exact (rel_processSensorInput h w now n).bind fun _ _ h1 => rel_processSensorInputs w now ns h1

theorem rel_determine {a b : ZoneData} (h : DebugOnly a b) (o : Opts) (w : World) (ids : List String) :
    RelR DebugOnly (a.determineMaxSetPointRequest o w ids) (b.determineMaxSetPointRequest o w ids) := by
  have he := h.eq
  have hk := h.keys
  generalize b.procs = P at he hk
  subst he
  rw [determine_eq, determine_eq]
  split_ifs
  · refine RelR.bind_same fun _ => ?_
    refine RelR.bind_same fun _ => ?_
    exact ⟨rfl, hk⟩
  · exact ⟨rfl, hk⟩

/-- zones that differ in nothing but what is shown -/
structure ZoneRel (x y : Zone) : Prop where
  fans : x.fans = y.fans
  thermals : x.thermals = y.thermals
  data : DebugOnly x.d y.d

theorem rel_processThermals {x y : Zone} (h : ZoneRel x y) (o : Opts) (w : World) :
    RelR ZoneRel (x.processThermals o w) (y.processThermals o w) := by
  unfold Zone.processThermals ZoneData.updateSensors
  have ht : x.d.thermalInputs = y.d.thermalInputs := by rw [h.data.eq]
  rw [ht, h.thermals]
  refine (rel_processSensorInputs w _ _ h.data).bind fun d e h1 => ?_
  dsimp only
  refine (rel_thermalList y.thermals (a := d.clearSetPoints.clearRPMCeilings) (b := e.clearSetPoints.clearRPMCeilings)
    (h1.lift (fun z => z.clearSetPoints.clearRPMCeilings) (fun _ _ => rfl) (fun _ => rfl))).bind ?_
  rintro ⟨z, v⟩ ⟨z', v'⟩ ⟨h2, h3⟩
  cases h3
  dsimp only
  exact (rel_determine h2 o w _).bind fun _ _ h4 => ⟨h.fans, rfl, h4⟩

theorem rel_readings {a b : ZoneData} (h : DebugOnly a b) : ∀ (is : List String), FanPid.readings a is = FanPid.readings b is
  | [] => rfl
  | i :: is => by
    unfold FanPid.readings
    rw [rel_cached h, rel_readings h is]

/-- results of writing to fans -/
abbrev RelW {α : Type} (p q : World × ZoneData × α) : Prop := p.1 = q.1 ∧ DebugOnly p.2.1 q.2.1 ∧ p.2.2 = q.2.2

theorem rel_writeFans (raw0 : Res Int) (pc : Dbl) : ∀ (ns : List String) (w : World) {a b : ZoneData}, DebugOnly a b →
    RelR (fun p q => p.1 = q.1 ∧ DebugOnly p.2 q.2) (writeFans raw0 pc w a ns) (writeFans raw0 pc w b ns)
  | [], _, _, _, h => ⟨rfl, h⟩
  | n :: ns, w, a, b, h => by
    unfold writeFans
    have hr : a.redundantWrite = b.redundantWrite := by rw [h.eq]
    rw [hr]
    refine RelR.bind_same fun r => ?_
    refine RelR.bind_same fun raw => ?_
    exact rel_writeFans raw0 pc ns _
      (h.lift (fun z => z.setOutputCache r.2.1 ⟨pc, Dbl.ofInt raw⟩) (fun _ _ => rfl) (fun _ => rfl))

theorem rel_fanPid {a b : ZoneData} (h : DebugOnly a b) (o : Opts) (w : World) (c : FanPid) :
    RelR RelW (c.process o w a) (c.process o w b) := by
  have h1 : c.setptProc a = c.setptProc b := by unfold FanPid.setptProc; rw [h.eq]
  have h2 : ∀ c : FanPid, c.inputProc a = c.inputProc b := fun c => by unfold FanPid.inputProc; rw [rel_readings h]
  have h3 : ∀ v, fanPercent o a v = fanPercent o b v := fun v => by rw [h.eq]; rfl
  unfold FanPid.process
  rw [h1]
  dsimp only
  rw [h2]
  refine RelR.bind_same fun i => ?_
  rw [h3]
  exact (rel_writeFans _ _ _ _ h).bind fun p q h4 => ⟨h4.1, h4.2, rfl⟩

theorem rel_fanList (o : Opts) : ∀ (cs : List (Option FanPid)) (w : World) {a b : ZoneData}, DebugOnly a b →
    RelR RelW (processFanList o w a cs) (processFanList o w b cs)
  | [], _, _, _, h => ⟨rfl, h, rfl⟩
  | none :: _, _, _, _, _ => rfl
  | some c :: cs, w, a, b, h => by
    unfold processFanList
    refine (rel_fanPid h o w c).bind ?_
    rintro ⟨w1, z, v⟩ ⟨w2, z', v'⟩ ⟨h1, h2, h3⟩
    cases h1; cases h3
    dsimp only
    refine (rel_fanList o cs w1 h2).bind ?_
    rintro ⟨w1, z, v⟩ ⟨w2, z', v'⟩ ⟨h1, h2, h3⟩
    cases h1; cases h3
    exact ⟨rfl, h2, rfl⟩

/-- results for a zone -/
abbrev RelZ (p q : World × Zone × Nat) : Prop := p.1 = q.1 ∧ ZoneRel p.2.1 q.2.1 ∧ p.2.2 = q.2.2

theorem rel_processFans {x y : Zone} (h : ZoneRel x y) (o : Opts) (w : World) :
    RelR (fun p q => p.1 = q.1 ∧ ZoneRel p.2 q.2) (x.processFans o w) (y.processFans o w) := by
  unfold Zone.processFans
  rw [h.fans]
  refine (rel_fanList o y.fans w h.data).bind ?_
  rintro ⟨w1, z, v⟩ ⟨w2, z', v'⟩ ⟨h1, h2, h3⟩
  cases h1; cases h3
  exact ⟨rfl, rfl, h.thermals, h2.lift (fun z => { z with redundantWrite := false }) (fun _ _ => rfl) (fun _ => rfl)⟩

theorem rel_tick {x y : Zone} (h : ZoneRel x y) (o : Opts) (w : World) (cnt : Nat) :
    RelR RelZ (x.tick o w cnt) (y.tick o w cnt) := by
  unfold Zone.tick
  have hm : x.d.manualMode = y.d.manualMode := by rw [h.data.eq]
  rw [hm]
  split_ifs
  · exact ⟨rfl, h, rfl⟩
  · have hf : x.d.fanInputs = y.d.fanInputs := by rw [h.data.eq]
    unfold ZoneData.updateFanTelemetry
    rw [hf]
    refine (rel_processSensorInputs w _ _ h.data).bind fun d e h1 => ?_
    have hz : ZoneRel { x with d := d } { y with d := e } := ⟨h.fans, h.thermals, h1⟩
    have hc : d.cycleTime = e.cycleTime := by rw [h1.eq]
    dsimp only
    rw [hc]
    have fin : ∀ {x y : Zone} (cnt : Nat), ZoneRel x y →
        RelR RelZ (do
          let (w, z) ← x.processFans o w
          .ok (w, z, cnt + z.d.cycleTime.cycleIntervalTimeMS))
          (do
          let (w, z) ← y.processFans o w
          .ok (w, z, cnt + z.d.cycleTime.cycleIntervalTimeMS)) := by
      intro x y cnt h
      refine (rel_processFans h o w).bind ?_
      rintro ⟨w1, z⟩ ⟨w2, z'⟩ ⟨h1, h2⟩
      cases h1
      refine ⟨rfl, h2, ?_⟩
      have : z.d.cycleTime = z'.d.cycleTime := by rw [h2.data.eq]
      dsimp only
      rw [this]
    split_ifs
    · refine (rel_processThermals hz o w).bind fun z z' h2 => ?_
      have : z.d.cycleTime = z'.d.cycleTime := by rw [h2.data.eq]
      rw [this]
      exact fin _ h2
    · exact fin cnt hz

/-! ## The daemon -/

theorem DebugOnly.symm {a b : ZoneData} (h : DebugOnly a b) : DebugOnly b a :=
  ⟨by rw [h.eq], fun k => (h.keys k).symm⟩

theorem ZoneRel.refl (z : Zone) : ZoneRel z z := ⟨rfl, rfl, .refl _⟩

theorem ZoneRel.symm {x y : Zone} (h : ZoneRel x y) : ZoneRel y x := ⟨h.fans.symm, h.thermals.symm, h.data.symm⟩

theorem ZoneRel.trans {x y z : Zone} (h : ZoneRel x y) (h' : ZoneRel y z) : ZoneRel x z :=
  ⟨h.fans.trans h'.fans, h.thermals.trans h'.thermals, h.data.trans h'.data⟩

/-- entries of a zone that differ in nothing but what is shown -/
def EntryRel : Option (Zone × Nat) → Option (Zone × Nat) → Prop
  | none, none => True
  | some x, some y => x.2 = y.2 ∧ ZoneRel x.1 y.1
  | _, _ => False

theorem sameButShown_iff {a b : Daemon} :
    SameButShown a b ↔ a.w = b.w ∧ ∀ i, EntryRel (a.zones.find? i) (b.zones.find? i) := by
  have key : ∀ x y : Option (Zone × Nat), (match x, y with
      | none, none => True
      | some (x, m), some (y, n) => m = n ∧ x.fans = y.fans ∧ x.thermals = y.thermals ∧
          y.d = { x.d with procs := y.d.procs } ∧
          ∀ k, (y.d.procs.find? k).map (·.enabled) = (x.d.procs.find? k).map (·.enabled)
      | _, _ => False) ↔ EntryRel x y := by
    intro x y
    rcases x with _ | ⟨x, m⟩ <;> rcases y with _ | ⟨y, n⟩
    · exact Iff.rfl
    · exact Iff.rfl
    · exact Iff.rfl
    · exact ⟨fun ⟨h1, h2, h3, h4, h5⟩ => ⟨h1, h2, h3, h4, h5⟩, fun ⟨h1, h2, h3, h4, h5⟩ => ⟨h1, h2, h3, h4, h5⟩⟩
  constructor
  · intro h
    exact ⟨h.world, fun i => (key _ _).1 (h.zones i)⟩
  · rintro ⟨h1, h2⟩
    exact ⟨h1, fun i => (key _ _).2 (h2 i)⟩

theorem EntryRel.refl (x : Option (Zone × Nat)) : EntryRel x x := by
  cases x
  · trivial
  · exact ⟨rfl, .refl _⟩

theorem SameButShown.refl (d : Daemon) : SameButShown d d := sameButShown_iff.2 ⟨rfl, fun _ => .refl _⟩

theorem SameButShown.symm {a b : Daemon} (h : SameButShown a b) : SameButShown b a := by
  obtain ⟨h1, h2⟩ := sameButShown_iff.1 h
  refine sameButShown_iff.2 ⟨h1.symm, fun i => ?_⟩
  have := h2 i
  cases hx : a.zones.find? i <;> cases hy : b.zones.find? i <;> rw [hx, hy] at this
  · trivial
  · exact this
  · exact this
  · exact ⟨this.1.symm, this.2.symm⟩

theorem SameButShown.trans {a b c : Daemon} (h : SameButShown a b) (h' : SameButShown b c) : SameButShown a c := by
  obtain ⟨h1, h2⟩ := sameButShown_iff.1 h
  obtain ⟨h3, h4⟩ := sameButShown_iff.1 h'
  refine sameButShown_iff.2 ⟨h1.trans h3, fun i => ?_⟩
  have a1 := h2 i
  have a2 := h4 i
  cases hx : a.zones.find? i <;> cases hy : b.zones.find? i <;> cases hz : c.zones.find? i <;> rw [hx, hy] at a1 <;>
    rw [hy, hz] at a2
  · trivial
  · exact a2
  · trivial
  · exact a1
  · exact a1
  · exact a1.elim
  · exact a2
  · exact ⟨a1.1.trans a2.1, a1.2.trans a2.2⟩

theorem rel_onZone {a b : Daemon} (h : SameButShown a b) (i : Int) {f g : ZoneData → ZoneData}
    (hf : ∀ x y, DebugOnly x y → DebugOnly (f x) (g y)) : SameButShown (a.onZone i f) (b.onZone i g) := by
  obtain ⟨h1, h2⟩ := sameButShown_iff.1 h
  refine sameButShown_iff.2 ⟨by rw [onZone_w, onZone_w, h1], fun j => ?_⟩
  rw [onZone_find?, onZone_find?]
  split_ifs
  · have := h2 i
    cases hx : a.zones.find? i <;> cases hy : b.zones.find? i <;> rw [hx, hy] at this
    · trivial
    · exact this
    · exact this
    · exact ⟨this.1, this.2.fans, this.2.thermals, hf _ _ this.2.data⟩
  · exact h2 j

theorem rel_setEnabled {a b : ZoneData} (h : DebugOnly a b) (l : String) (v : Bool) :
    DebugOnly (a.setEnabled l v) (b.setEnabled l v) := by
  have hk := h.keys
  have he := h.eq
  unfold ZoneData.setEnabled
  have hkl := hk l
  cases ha : a.procs.find? l <;> cases hb : b.procs.find? l <;> rw [ha, hb] at hkl
  · exact h
  · simp at hkl
  · simp at hkl
  · refine ⟨?_, fun k => ?_⟩
    · dsimp only; rw [he]
    · dsimp only
      simp only [OMap.find?_insert]
      split_ifs
      · rfl
      · exact hk k

theorem scribble_debug (z : ZoneData) (l : String) (obj : ProcObj) : DebugOnly z (z.scribble l obj) := by
  unfold ZoneData.scribble
  cases h : z.procs.find? l with
  | none => exact .refl z
  | some p =>
    refine ⟨rfl, fun k => ?_⟩
    dsimp only
    rw [OMap.find?_insert]
    split_ifs with e
    · subst e; rw [h]; rfl
    · rfl

theorem rel_scribble {a b : Daemon} (h : SameButShown a b) (i : Int) (l : String) (obj : ProcObj) :
    SameButShown (a.onZone i (fun z => z.scribble l obj)) b := by
  have : SameButShown (a.onZone i (fun z => z.scribble l obj)) (b.onZone i (fun z => z)) :=
    rel_onZone h i fun x y hxy => (scribble_debug x l obj).symm.trans hxy
  refine this.trans (sameButShown_iff.2 ⟨onZone_w _ _ _, fun j => ?_⟩)
  rw [onZone_find?]
  split_ifs with e
  · subst e
    cases b.zones.find? j
    · trivial
    · exact ⟨rfl, .refl _⟩
  · exact .refl _

omit F in
theorem sameOutcome_of_rel [FloatModel] {x y : Res Daemon} (h : RelR SameButShown x y) : SameOutcome x y := by
  cases x <;> cases y <;> exact h

theorem rel_step {a b : Daemon} (h : SameButShown a b) (o : Opts) (e : DEvent) :
    RelR SameButShown (a.step o e) (b.step o e) := by
  obtain ⟨h1, h2⟩ := sameButShown_iff.1 h
  have world : ∀ w : World, SameButShown ⟨w, a.zones⟩ ⟨w, b.zones⟩ := fun w => sameButShown_iff.2 ⟨rfl, h2⟩
  obtain ⟨aw, az⟩ := a
  obtain ⟨bw, bz⟩ := b
  dsimp only at h1 h2 world
  subst h1
  cases e with
  | outside nf nt ho rf fi bo => exact world _
  | signal n t m =>
    change RelR SameButShown (Daemon.signal o _ n t m) (Daemon.signal o _ n t m)
    unfold Daemon.signal
    dsimp only
    split
    · split
      · exact RelR.bind_same fun p => world _
      · exact h
    · exact h
  | hostWrite n t v =>
    unfold Daemon.step
    dsimp only
    split
    · exact world _
    · exact h
  | manual i v => exact rel_onZone h i fun x y hxy => hxy.lift (fun z => z.setManualMode v) (fun _ _ => rfl) (fun _ => rfl)
  | enable i l v => exact rel_onZone h i fun x y hxy => rel_setEnabled hxy l v
  | tick i =>
    unfold Daemon.step
    dsimp only
    have hi := h2 i
    cases hx : az.find? i <;> cases hy : bz.find? i <;> rw [hx, hy] at hi
    · exact h
    · exact hi.elim
    · exact hi.elim
    · rename_i x y
      obtain ⟨x, m⟩ := x
      obtain ⟨y, n⟩ := y
      obtain ⟨hm, hz⟩ := hi
      dsimp only at hm hz ⊢
      subst hm
      refine (rel_tick hz o aw m).bind ?_
      rintro ⟨w1, z1, c1⟩ ⟨w2, z2, c2⟩ ⟨h3, h4, h5⟩
      cases h3; cases h5
      refine sameButShown_iff.2 ⟨rfl, fun j => ?_⟩
      dsimp only
      rw [OMap.find?_insert, OMap.find?_insert]
      split_ifs
      · exact ⟨rfl, h4⟩
      · exact h2 j

theorem rel_runShown (o : Opts) : ∀ (es : List ShownEvent) {a b : Daemon}, SameButShown a b →
    RelR SameButShown (a.runShown o es) (b.run o (withoutWrites es))
  | [], _, _, h => h
  | .event e :: es, a, b, h => by
    unfold Daemon.runShown withoutWrites Daemon.run
    exact (rel_step h o e).bind fun _ _ h' => rel_runShown o es h'
  | .scribble i l obj :: es, a, b, h => by
    unfold Daemon.runShown withoutWrites
    exact rel_runShown o es (rel_scribble h i l obj)

end Verif
