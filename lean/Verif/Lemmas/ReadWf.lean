import Verif.Model.Whole
import Verif.Props.Startup

/-!
# Configurations that were read

The maps of a configuration, whether from the file or from the bus, list every key once and in order.
-/

namespace Verif
open Dbl
section
variable [F : FloatModel]

theorem noteInput_wf {m : OMap String SensorConfig} (h : m.WF) (n t r : String) (f : InputFlags) : (noteInput m n t r f).WF :=
  OMap.wf_insert h _ _

theorem findInputs_wf {b : BusView} {cls : String} {acc : List String} {f : InputFlags} :
    ∀ {ns : List String} {s s' : InputState}, findInputs b cls acc f s ns = .ok s' → s.sensors.WF → s'.sensors.WF
  | [], s, s', h, hw => by injection h with h; exact h ▸ hw
  | n :: ns, s, s', h, hw => by
    obtain ⟨s1, h1, h⟩ := bind_eq_ok.1 h
    refine findInputs_wf h ?_
    obtain ⟨_, -, h1⟩ := bind_eq_ok.1 h1
    split_ifs at h1 <;> injection h1 with h1 <;> rw [← h1]
    · exact hw
    · exact hw
    · exact noteInput_wf hw _ _ _ _

theorem noteFound_wf {cls : String} {f : InputFlags} : ∀ {l : List (String × String)} {s s' : InputState},
    noteFound cls f s l = .ok s' → s.sensors.WF → s'.sensors.WF
  | [], s, s', h, hw => by injection h with h; exact h ▸ hw
  | (path, i) :: l, s, s', h, hw => by
    simp only [noteFound] at h
    split_ifs at h with h1 h2
    · exact noteFound_wf h (noteInput_wf hw _ _ _ _)
    · exact noteFound_wf h hw

theorem noteFans_wf : ∀ {l : List ((String × String) × (String × String))} {s s' : InputState},
    noteFans s l = .ok s' → s.sensors.WF → s'.sensors.WF
  | [], s, s', h, hw => by injection h with h; exact h ▸ hw
  | ((fanPath, _), (pwmPath, i)) :: l, s, s', h, hw => by
    simp only [noteFans] at h
    split_ifs at h with h1
    exact noteFans_wf h (OMap.wf_insert hw _ _)

theorem pidInputs_wf {b : BusView} {m m' : OMap String SensorConfig} {base : ConfProps} {cls : String} {a x : List String}
    (h : pidInputs b m base cls = .ok (a, x, m')) (hw : m.WF) : m'.WF := by
  obtain ⟨_, -, h⟩ := bind_eq_ok.1 h
  obtain ⟨_, -, h⟩ := bind_eq_ok.1 h
  obtain ⟨_, -, h⟩ := bind_eq_ok.1 h
  obtain ⟨_, -, h⟩ := bind_eq_ok.1 h
  obtain ⟨s1, h1, h⟩ := bind_eq_ok.1 h
  obtain ⟨_, -, h⟩ := bind_eq_ok.1 h
  obtain ⟨_, -, h⟩ := bind_eq_ok.1 h
  obtain ⟨s2, h2, h⟩ := bind_eq_ok.1 h
  obtain ⟨_, -, h⟩ := bind_eq_ok.1 h
  obtain ⟨s3, h3, h⟩ := bind_eq_ok.1 h
  injection h with h
  obtain ⟨-, h⟩ := Prod.mk.inj h
  obtain ⟨-, rfl⟩ := Prod.mk.inj h
  have h2 := noteFound_wf h2 (findInputs_wf h1 hw)
  unfold fanInputs at h3
  split_ifs at h3
  · obtain ⟨_, -, h3⟩ := bind_eq_ok.1 h3
    exact noteFans_wf h3 h2
  · injection h3 with h3
    exact h3 ▸ h2

theorem noteStepInputs_wf {f : InputFlags} : ∀ {l : List (String × String)} {s : List String × OMap String SensorConfig},
    s.2.WF → (noteStepInputs f s l).2.WF
  | [], _, h => h
  | (_, _) :: l, _, h => noteStepInputs_wf (l := l) (noteInput_wf h _ _ _ _)

theorem stepInputs_wf {b : BusView} {acc : List String} {f : InputFlags} : ∀ {ns : List String}
    {s s' : List String × OMap String SensorConfig}, stepInputs b acc f s ns = .ok s' → s.2.WF → s'.2.WF
  | [], s, s', h, hw => by injection h with h; exact h ▸ hw
  | n :: ns, s, s', h, hw => by
    obtain ⟨fd, -, h⟩ := bind_eq_ok.1 h
    split_ifs at h with h1 h2 h3
    · exact stepInputs_wf h (noteStepInputs_wf hw)
    · injection h with h; exact h ▸ hw
    · exact stepInputs_wf h hw
    · exact stepInputs_wf h (noteInput_wf hw _ _ _ _)

/-- the loops of every zone are listed once and in order -/
def LoopsWf (pids : OMap Int PIDConf) : Prop := pids.WF ∧ ∀ i conf, pids.find? i = some conf → OMap.WF conf

theorem LoopsWf.insert {pids : OMap Int PIDConf} (h : LoopsWf pids) {conf : PIDConf} (hc : OMap.WF conf) (i : Int) :
    LoopsWf (pids.insert i conf) := by
  refine ⟨OMap.wf_insert h.1 _ _, fun j conf' hf => ?_⟩
  rw [OMap.find?_insert] at hf
  split_ifs at hf
  · cases hf; exact hc
  · exact h.2 _ _ hf

theorem LoopsWf.at {pids : OMap Int PIDConf} (h : LoopsWf pids) (i : Int) : OMap.WF ((pids.find? i).getD {}) := by
  cases hf : pids.find? i with
  | none => exact OMap.wf_empty
  | some conf => exact h.2 _ _ hf

theorem addOffsetLoops_wf {b : BusView} {base : ConfProps} {offset : String} {m : OMap String SensorConfig} :
    ∀ {is : List SensorInput} {conf conf' : PIDConf}, addOffsetLoops b base offset m conf is = .ok conf' → OMap.WF conf →
      OMap.WF conf'
  | [], conf, conf', h, hw => by injection h with h; exact h ▸ hw
  | i :: is, conf, conf', h, hw => by
    obtain ⟨_, -, h⟩ := bind_eq_ok.1 h
    exact addOffsetLoops_wf h (OMap.wf_insert hw _ _)

theorem addPidLoops_wf {b : BusView} {base : ConfProps} {n : String} {m : OMap String SensorConfig} {is : List SensorInput}
    {conf conf' : PIDConf} {offset : Option String} (h : addPidLoops b base n m conf is offset = .ok conf') (hw : OMap.WF conf) :
    OMap.WF conf' := by
  cases offset with
  | none =>
    obtain ⟨_, -, h⟩ := bind_eq_ok.1 h
    injection h with h
    exact h ▸ OMap.wf_insert hw _ _
  | some _ => exact addOffsetLoops_wf h hw

/-- the maps of a configuration from the bus -/
def CfgWf (c : DbusCfg) : Prop := c.sensors.WF ∧ LoopsWf c.pids

theorem addPid_wf {b : BusView} {base : ConfProps} {n cls zone : String} {c c' : DbusCfg}
    (h : addPid b base n cls c zone = .ok c') (hw : CfgWf c) : CfgWf c' := by
  obtain ⟨⟨i, numbers⟩, -, h⟩ := bind_eq_ok.1 h
  obtain ⟨⟨a, x, m⟩, h1, h⟩ := bind_eq_ok.1 h
  have hm := pidInputs_wf h1 hw.1
  dsimp only at h
  have hl := hw.2.insert (hw.2.at i) i
  unfold finishPid at h
  split_ifs at h with hc
  · injection h with h
    rw [← h]; exact ⟨hm, hl⟩
  · obtain ⟨_, -, h⟩ := bind_eq_ok.1 h
    obtain ⟨_, -, h⟩ := bind_eq_ok.1 h
    obtain ⟨conf, h2, h⟩ := bind_eq_ok.1 h
    injection h with h
    rw [← h]; exact ⟨hm, hl.insert (addPidLoops_wf h2 (hw.2.at i)) i⟩

theorem addStepwise_wf {b : BusView} {base : ConfProps} {n zone : String} {c c' : DbusCfg}
    (h : addStepwise b base n c zone = .ok c') (hw : CfgWf c) : CfgWf c' := by
  obtain ⟨⟨i, numbers⟩, -, h⟩ := bind_eq_ok.1 h
  obtain ⟨_, -, h⟩ := bind_eq_ok.1 h
  obtain ⟨_, -, h⟩ := bind_eq_ok.1 h
  obtain ⟨_, -, h⟩ := bind_eq_ok.1 h
  obtain ⟨⟨a, m⟩, h1, h⟩ := bind_eq_ok.1 h
  have hm := stepInputs_wf h1 hw.1
  dsimp only at h hm
  have hl := hw.2.insert (hw.2.at i) i
  unfold finishStepwise at h
  split_ifs at h with hc
  · injection h with h
    rw [← h]; exact ⟨hm, hl⟩
  · obtain ⟨_, -, h⟩ := bind_eq_ok.1 h
    obtain ⟨_, -, h⟩ := bind_eq_ok.1 h
    injection h with h
    rw [← h]; exact ⟨hm, hl.insert (OMap.wf_insert (hw.2.at i) _ _) i⟩

theorem overZones_wf {step : DbusCfg → String → Res DbusCfg} (hs : ∀ c c' z, step c z = .ok c' → CfgWf c → CfgWf c') :
    ∀ {zs : List String} {c c' : DbusCfg}, overZones step c zs = .ok c' → CfgWf c → CfgWf c'
  | [], c, c', h, hw => by injection h with h; exact h ▸ hw
  | z :: zs, c, c', h, hw => by
    obtain ⟨c1, h1, h⟩ := bind_eq_ok.1 h
    exact overZones_wf hs h (hs _ _ _ h1 hw)

theorem addObjects_wf {b : BusView} : ∀ {os : List ConfObj} {c c' : DbusCfg}, addObjects b c os = .ok c' → CfgWf c → CfgWf c'
  | [], c, c', h, hw => by injection h with h; exact h ▸ hw
  | o :: os, c, c', h, hw => by
    obtain ⟨c1, h1, h⟩ := bind_eq_ok.1 h
    refine addObjects_wf h ?_
    obtain ⟨c2, h2, h1⟩ := bind_eq_ok.1 h1
    obtain ⟨c3, h3, h1⟩ := bind_eq_ok.1 h1
    have t2 : CfgWf c2 := by
      unfold withInterface at h2
      split at h2
      · injection h2 with h2; exact h2 ▸ hw
      · obtain ⟨_, -, h2⟩ := bind_eq_ok.1 h2
        obtain ⟨⟨_, _⟩, -, h2⟩ := bind_eq_ok.1 h2
        obtain ⟨_, -, h2⟩ := bind_eq_ok.1 h2
        injection h2 with h2
        rw [← h2]; exact hw
    have t3 : CfgWf c3 := by
      unfold withInterface at h3
      split at h3
      · injection h3 with h3; exact h3 ▸ t2
      · obtain ⟨_, -, h3⟩ := bind_eq_ok.1 h3
        obtain ⟨_, -, h3⟩ := bind_eq_ok.1 h3
        obtain ⟨_, -, h3⟩ := bind_eq_ok.1 h3
        exact overZones_wf (fun _ _ _ h => addPid_wf h) h3 t2
    unfold withInterface at h1
    split at h1
    · injection h1 with h1; exact h1 ▸ t3
    · obtain ⟨_, -, h1⟩ := bind_eq_ok.1 h1
      obtain ⟨_, -, h1⟩ := bind_eq_ok.1 h1
      exact overZones_wf (fun _ _ _ h => addStepwise_wf h) h1 t3

theorem busInit_wf {b : ConfBus} {o : HashOrder} {r : Bool} {c : DbusCfg} (h : busInit b o = .ok (r, c)) : CfgWf c := by
  unfold busInit at h
  split at h
  · cases h
  · cases h
  · obtain ⟨_, -, h⟩ := bind_eq_ok.1 h
    obtain ⟨_, -, h⟩ := bind_eq_ok.1 h
    obtain ⟨_, -, h⟩ := bind_eq_ok.1 h
    obtain ⟨_, -, h⟩ := bind_eq_ok.1 h
    obtain ⟨c', h1, h⟩ := bind_eq_ok.1 h
    injection h with h
    obtain ⟨-, rfl⟩ := Prod.mk.inj h
    exact addObjects_wf h1 ⟨OMap.wf_empty, OMap.wf_empty, fun i conf h => by cases h⟩

/-- Whatever was read, from the file or from the bus: sensors, zones and the loops of every zone are listed once and in order. -/
theorem read_wf {r : Found} {c : Config} (h : r.read = .got c) :
    c.sensors.WF ∧ c.pids.WF ∧ ∀ e ∈ c.pids.entries, OMap.WF e.2 := by
  have key : c.sensors.WF ∧ LoopsWf c.pids := by
    unfold Found.read at h
    dsimp only at h
    generalize (if r.conf ≠ "" then r.conf else searchConfigurationPath r.files) = path at h
    split_ifs at h with he
    · split at h
      · rename_i hc
        cases h
        obtain ⟨-, h1, h2, h3⟩ := configFromFile_spec hc
        exact ⟨h1, h2, h3⟩
      · cases h
      · cases h
    · split at h
      · rename_i hc
        cases h
        exact busInit_wf hc
      · cases h
      · cases h
      · cases h
  exact ⟨key.1, key.2.1, fun e he => key.2.2 e.1 e.2 ((OMap.mem_entries_iff key.2.1 _ _).1 he)⟩

end
end Verif
