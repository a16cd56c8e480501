import Verif.Spec.Host
import Verif.Spec.Sensors
import Verif.Spec.Example
import Verif.Spec.BuildSensors
import Verif.Lemmas.Num
import Verif.Lemmas.Fold
import Verif.Lemmas.Str
import Verif.Lemmas.OMap

/-!
# C54 to C57 and C65

Fan redundancy, host sensors, the host-off exemption, host state tracking and the classification of paths.
-/

namespace Verif
open Dbl

/-! ## C54 -/

theorem statusFailed_iff (s : String) : statusFailed s = true ↔ SaysFailed s := containsSub_iff s "Failed"

theorem populateLoop_mem (groups : String → List String) (path : String) : ∀ (first : List (Option (String × Option String)))
    (acc failed : List String),
    populateLoop acc (first.map (fun a => a.map (fun p => ⟨p.2, some (groups p.1)⟩))) = .ok failed →
    (path ∈ failed ↔ path ∈ acc ∨ ∃ obj s, (obj, some s) ∈ beforeGap first ∧ SaysFailed s ∧ path ∈ groups obj)
  | [], acc, failed, h => by cases h; simp [beforeGap]
  | none :: rest, acc, failed, h => by cases h; simp [beforeGap]
  | some (obj, st) :: rest, acc, failed, h => by
    change (if (!statusFailed (st.getD "")) = true then populateLoop acc _ else populateLoop (groups obj ++ acc) _) = _ at h
    have hs : statusFailed (st.getD "") = true ↔ ∃ s, st = some s ∧ SaysFailed s := by
      cases st with
      | none => simp only [Option.getD_none, reduceCtorEq, false_and, exists_false, iff_false]; decide
      | some s => simp [statusFailed_iff]
    simp only [beforeGap, List.mem_cons, Prod.mk.injEq]
    by_cases hc : statusFailed (st.getD "") = true
    · rw [if_neg (by simp [hc])] at h
      obtain ⟨s, e, hf⟩ := hs.1 hc
      have := populateLoop_mem groups path rest _ _ h
      rw [this, List.mem_append]
      constructor
      · rintro ((h1 | h1) | ⟨o, s', h1, h2, h3⟩)
        · exact .inr ⟨obj, s, .inl ⟨rfl, e.symm⟩, hf, h1⟩
        · exact .inl h1
        · exact .inr ⟨o, s', .inr h1, h2, h3⟩
      · rintro (h1 | ⟨o, s', h1 | h1, h2, h3⟩)
        · exact .inl (.inr h1)
        · obtain ⟨rfl, _⟩ := h1; exact .inl (.inl h3)
        · exact .inr ⟨o, s', h1, h2, h3⟩
    · rw [if_pos (by simpa using hc)] at h
      have := populateLoop_mem groups path rest _ _ h
      rw [this]
      constructor
      · rintro (h1 | ⟨o, s', h1, h2, h3⟩)
        · exact .inl h1
        · exact .inr ⟨o, s', .inr h1, h2, h3⟩
      · rintro (h1 | ⟨o, s', h1 | h1, h2, h3⟩)
        · exact .inl h1
        · exact absurd (hs.2 ⟨s', h1.2.symm, h2⟩) hc
        · exact .inr ⟨o, s', h1, h2, h3⟩

theorem redundancyInit_mem {groups : String → List String} {first : FirstAnswers} {failed : List String} (path : String)
    (h : redundancyInit (first.map (·.map (fun a => a.map (fun p => ⟨p.2, some (groups p.1)⟩)))) = .ok failed) :
    path ∈ failed ↔ ∃ obj s, (obj, some s) ∈ usable first ∧ SaysFailed s ∧ path ∈ groups obj := by
  cases first with
  | none => cases h; simp [usable, beforeGap]
  | some l => simpa [usable] using populateLoop_mem groups path l [] _ h

theorem populateLoop_ok (groups : String → List String) : ∀ (first : List (Option (String × Option String))) (acc : List String),
    ∃ failed, populateLoop acc (first.map (fun a => a.map (fun p => ⟨p.2, some (groups p.1)⟩))) = .ok failed
  | [], acc => ⟨_, rfl⟩
  | none :: _, acc => ⟨_, rfl⟩
  | some (obj, st) :: rest, acc => by
    change ∃ failed, (if (!statusFailed (st.getD "")) = true then populateLoop acc _ else populateLoop (groups obj ++ acc) _) = _
    split_ifs
    · exact populateLoop_ok groups rest _
    · exact populateLoop_ok groups rest _

/-- **C54.** Whatever the bus answers at the start, even nothing at all, the daemon starts to follow the groups. -/
theorem C54_starts (groups : String → List String) (first : FirstAnswers) : ∃ failed, Groups groups first [] failed := by
  cases first with
  | none => exact ⟨[], .start rfl⟩
  | some l =>
    obtain ⟨failed, h⟩ := populateLoop_ok groups l []
    exact ⟨failed, .start h⟩

theorem redundancySignal_mem (failed : List String) (s : String) (c : List String) (path : String) :
    path ∈ redundancySignal failed (some s) (some c) ↔ if path ∈ c then SaysFailed s else path ∈ failed := by
  unfold redundancySignal
  simp only
  rw [← statusFailed_iff]
  by_cases h : statusFailed s = true <;> by_cases hc : path ∈ c <;> simp [h, hc]

/-- **C54.** With groups that do not overlap, a fan of a group is in the failed set exactly when the group's last status
says `Failed`, after any reports. -/
theorem C54_last_status {groups : String → List String} {first : FirstAnswers} {h : List GroupReport} {failed : List String}
    (hg : Groups groups first h failed) {obj path : String} (hp : path ∈ groups obj)
    (hd : ∀ obj', path ∈ groups obj' → obj' = obj) : path ∈ failed ↔ GroupFailed first obj h := by
  induction hg with
  | start h0 =>
    rw [redundancyInit_mem path h0]
    simp only [GroupFailed, List.filterMap_nil, List.getLast?_nil]
    constructor
    · rintro ⟨o, s, h1, h2, h3⟩
      cases hd o h3
      exact ⟨s, h1, h2⟩
    · rintro ⟨s, h1, h2⟩
      exact ⟨obj, s, h1, h2, hp⟩
  | @report h failed r _ ih =>
    unfold GroupFailed at ih ⊢
    rw [List.filterMap_append]
    cases hs : r.status with
    | none =>
      have : r.says obj = none := by simp [GroupReport.says, hs]
      simpa [this, redundancySignal] using ih
    | some s =>
      cases ha : r.answered with
      | false =>
        have : r.says obj = none := by simp [GroupReport.says, ha]
        simpa [this, redundancySignal] using ih
      | true =>
        rw [if_pos rfl, redundancySignal_mem]
        by_cases ho : r.obj = obj
        · have : r.says obj = some s := by simp [GroupReport.says, ha, hs, ho]
          rw [if_pos (by rw [ho]; exact hp)]
          simp [this]
        · have : r.says obj = none := by simp [GroupReport.says, ho]
          rw [if_neg (fun hc => ho (hd _ hc))]
          simpa [this] using ih

/-- **C54.** A fan that is in no group is never in the failed set. -/
theorem C54_outsider {groups : String → List String} {first : FirstAnswers} {h : List GroupReport} {failed : List String}
    (hg : Groups groups first h failed) {path : String} (hp : ∀ obj, path ∉ groups obj) : path ∉ failed := by
  induction hg with
  | start h0 =>
    rw [redundancyInit_mem path h0]
    rintro ⟨o, s, _, _, h3⟩
    exact hp o h3
  | @report h failed r _ ih =>
    cases hs : r.status with
    | none => simpa [redundancySignal] using ih
    | some s =>
      cases ha : r.answered with
      | false => simpa [redundancySignal] using ih
      | true => rw [if_pos rfl, redundancySignal_mem, if_neg (hp _)]; exact ih

/-- two objects with a common fan -/
def exOverlap : String → List String
  | "/a" => ["/fan0", "/fan1"]
  | "/b" => ["/fan1", "/fan2"]
  | _ => []

/-- **C54**: that groups do not overlap is needed. Group `/a` last said `Failed`, its fan is not failed. -/
theorem C54_overlap : ∃ h failed, Groups exOverlap none h failed ∧ "/fan1" ∈ exOverlap "/a" ∧ GroupFailed none "/a" h ∧
    "/fan1" ∉ failed :=
  ⟨_, _, .report ⟨"/b", some "x.Full", true⟩ (.report ⟨"/a", some "x.Failed", true⟩ (.start (failed := []) rfl)),
    by decide, by show SaysFailed "x.Failed"; exact ⟨"x.".toList, [], by decide⟩, by decide⟩

/-- two groups without a common fan -/
def exGroups : String → List String
  | "/a" => ["/fan0", "/fan1"]
  | "/b" => ["/fan2"]
  | _ => []

example : Groups exGroups (some [some ("/a", some "x.Failed"), some ("/b", none), none]) [⟨"/a", none, true⟩, ⟨"/b", some "x.Failed", true⟩]
    ["/fan2", "/fan0", "/fan1"] :=
  .report ⟨"/b", some "x.Failed", true⟩ (.report ⟨"/a", none, true⟩ (.start (failed := ["/fan0", "/fan1"]) (by decide +kernel)))
example : ∀ obj', "/fan2" ∈ exGroups obj' → obj' = "/b" := by
  intro obj' h
  unfold exGroups at h
  split at h <;> simp_all

/-! ## C57 -/

theorem endsWith_iff (s suffix : String) : endsWith s suffix = true ↔ suffix.toList <:+ s.toList :=
  List.isSuffixOf_iff_suffix

theorem signal_status (m : HostMonitor) (msg : HostMsg) : (m.signal msg).monitoring = m.monitoring ∧
    ((m.signal msg).powerStatusOn = true ↔
      match (if m.monitoring then stateIn msg else none) with
      | some s => Running s
      | none => m.powerStatusOn = true) := by
  unfold HostMonitor.signal HostMonitor.handleStateChange stateIn
  cases hm : m.monitoring with
  | false => simp [hm]
  | true =>
    cases msg with
    | none => simp [hm]
    | some v =>
      cases hf : v.find? "CurrentHostState" with
      | none => simp [hm, hf]
      | some s =>
        simp only [if_true, hf, Option.bind_some, Running, ← endsWith_iff]
        by_cases hc : endsWith s ".Running" ≠ m.powerStatusOn
        · rw [if_pos hc]; exact ⟨rfl, Iff.rfl⟩
        · rw [if_neg hc]; exact ⟨hm, by rw [not_not.1 hc]⟩

theorem events_status : ∀ (es : List HostEvent) (m : HostMonitor),
    (es.foldl HostMonitor.event m).powerStatusOn = true ↔
      match (heardStates m.monitoring es).getLast? with
      | some s => Running s
      | none => m.powerStatusOn = true
  | [], m => by simp [heardStates]
  | e :: es, m => by
    rw [List.foldl_cons, events_status es]
    cases e with
    | start => simp [HostMonitor.event, heardStates, HostMonitor.startMonitoring]
    | stop => simp [HostMonitor.event, heardStates, HostMonitor.stopMonitoring]
    | signal msg =>
      obtain ⟨h1, h2⟩ := signal_status m msg
      simp only [HostMonitor.event, heardStates, h1, List.getLast?_append]
      cases hl : (heardStates m.monitoring es).getLast? with
      | some s => simp
      | none =>
        simp only [Option.none_or]
        rw [h2]
        cases m.monitoring <;> cases stateIn msg <;> simp

/-- **C57.** Whatever happens, the host counts as on exactly when the last state reported to the monitor (a signal
received while it listened, else the answer at its creation) ends in `.Running`. -/
theorem C57_last_state (reply : Option String) (es : List HostEvent) :
    (es.foldl HostMonitor.event (HostMonitor.ctor reply)).powerStatusOn = true ↔
      match (heardStates false es).getLast? with
      | some s => Running s
      | none => ∃ s, reply = some s ∧ Running s := by
  rw [events_status]
  have : (HostMonitor.ctor reply).powerStatusOn = true ↔ ∃ s, reply = some s ∧ Running s := by
    cases reply with
    | none => simp [HostMonitor.ctor]
    | some s => simp [HostMonitor.ctor, Running, endsWith_iff]
  rw [this]
  rfl

/-- **C57.** Messages without a host state change nothing. -/
theorem C57_other_messages (m : HostMonitor) {msg : HostMsg} (h : stateIn msg = none) : m.signal msg = m := by
  unfold HostMonitor.signal
  split_ifs
  · cases msg with
    | none => rfl
    | some v =>
      unfold HostMonitor.handleStateChange
      have h' : v.find? "CurrentHostState" = none := h
      simp only [h']
  · rfl

/-- a signal that the host is in state `s` -/
def hostIs (s : String) : HostEvent := .signal (some (({} : OMap String String).insert "CurrentHostState" s))

/-- **C57**, limit of the claim: a change between creation and `startMonitoring`, or while stopped, is missed. The monitor is
created while the host is off, the host starts, monitoring starts: the host still counts as off. -/
theorem C57_missed_before_start :
    ([hostIs "x.Running", .start].foldl HostMonitor.event (HostMonitor.ctor (some "x.Off"))).powerStatusOn = false := by
  decide +kernel

example : ([.start, hostIs "x.Running", .signal none].foldl HostMonitor.event (HostMonitor.ctor (some "x.Off"))).powerStatusOn = true ∧
    heardStates false [.start, hostIs "x.Running", .signal none] = ["x.Running"] := by decide +kernel

section
variable [F : FloatModel]

/-! ## C55 -/

theorem mul_pow10_zero (v : Dbl) : v * Dbl.pow10 0 = v := by
  have : (Dbl.pow10 0 : Dbl) = 1 := by
    rw [Dbl.pow10, F.pow10_zero, one_eq]
    exact ofRat_rep _
  rw [this, one_eq]
  cases v with
  | fin q hq =>
    change ofRat (q * 1) = _
    rw [mul_one]
    exact ofRat_rep hq
  | nan => rfl
  | ninf =>
    change infOfSign ((-1) * (if (1 : Rat) < 0 then -1 else if (0 : Rat) < 1 then 1 else 0)) = _
    norm_num [infOfSign]
  | pinf =>
    change infOfSign (1 * (if (1 : Rat) < 0 then -1 else if (0 : Rat) < 1 then 1 else 0)) = _
    norm_num [infOfSign]

/-- **C55.** After any writes a host sensor reads the last value written with its time; a new one reads 0. -/
theorem C55_reads_last {now : Int} {name : String} {timeout : Int} {ign : Bool} {h : List (Int × Dbl)} {s : Sensor}
    (hw : Written (createHostSensor now name timeout ign) h s) (w : World) (t : Int) :
    s.read w t = .ok (match h.getLast? with
      | some (t', v) => ⟨v, t', v⟩
      | none => ⟨0, now, 0⟩) ∧ s.name = name ∧ s.timeout = timeout ∧ s.ignoreFailIfHostOff = ign := by
  have key : ∃ v u, s.impl = .host v u ∧ (v, u) = (match h.getLast? with
      | some (t', v) => (v, t')
      | none => (0, now)) ∧ s.name = name ∧ s.timeout = timeout ∧ s.ignoreFailIfHostOff = ign := by
    induction hw with
    | start => exact ⟨_, _, rfl, by simp [mul_pow10_zero], rfl, rfl, rfl⟩
    | @write h s t' v _ ih =>
      obtain ⟨v', u', e, _, a, b, c⟩ := ih
      refine ⟨v, t', ?_, by simp, ?_, ?_, ?_⟩ <;> simp [Sensor.hostWrite, e, a, b, c, mul_pow10_zero]
  obtain ⟨v, u, e, e2, a, b, c⟩ := key
  refine ⟨?_, a, b, c⟩
  unfold Sensor.read
  rw [e]
  cases hl : h.getLast? with
  | none => rw [hl] at e2; cases e2; rfl
  | some x => rw [hl] at e2; cases e2; rfl

/-- **C55.** A host sensor is failed exactly when the last value written is not finite, unless it ignores failures and the
host is off. -/
theorem C55_failed {now : Int} {name : String} {timeout : Int} {ign : Bool} {h : List (Int × Dbl)} {s : Sensor}
    (hw : Written (createHostSensor now name timeout ign) h s) (w : World) :
    ∃ b, s.getFailed w = .ok b ∧ (b = true ↔ (∃ t v, h.getLast? = some (t, v) ∧ v.isFinite = false) ∧
      ¬ (ign = true ∧ w.hostOn = false)) := by
  obtain ⟨h1, -, -, hi⟩ := C55_reads_last hw w 0
  have himp : ∃ v u, s.impl = .host v u := by
    clear h1 hi
    clear * - hw
    induction hw with
    | start => exact ⟨_, _, rfl⟩
    | write t v _ ih =>
      obtain ⟨v', u', e⟩ := ih
      exact ⟨v * Dbl.pow10 0, t, by simp [Sensor.hostWrite, e]⟩
  obtain ⟨v, u, e⟩ := himp
  unfold Sensor.read at h1
  rw [e] at h1
  simp only [Except.ok.injEq] at h1
  unfold Sensor.getFailed
  rw [e, hi]
  refine ⟨_, rfl, ?_⟩
  cases hl : h.getLast? with
  | none =>
    rw [hl] at h1
    cases h1
    simp [isFinite, zero_eq]
  | some x =>
    obtain ⟨t', v'⟩ := x
    rw [hl] at h1
    cases h1
    simp only [Option.some.injEq, Prod.mk.injEq]
    cases hf : v.isFinite <;> cases ign <;> cases w.hostOn <;> simp [hf]

/-- **C55.** A fan command to a host sensor is rejected. -/
theorem C55_rejects_commands {w : World} {name : String} {s : Sensor} {v : Dbl} {u : Int} (h : w.getSensor name = .ok s)
    (hs : s.impl = .host v u) (x : Dbl) (force : Bool) : ∃ what, w.writeSensor name x force = .error (.exc what) := by
  refine ⟨"Not Implemented.", ?_⟩
  unfold World.writeSensor
  rw [h, ok_bind]
  simp only [hs]

/-! ## C56 -/

/-- **C56.** A sensor that ignores failures while the host is off is not failed then. -/
theorem C56_off {w : World} {s : Sensor} (hi : s.ignoreFailIfHostOff = true) (hw : w.hostOn = false) {b : Bool}
    (h : s.getFailed w = .ok b) : b = false := by
  unfold Sensor.getFailed at h
  rw [hi, hw] at h
  rcases hs : s.impl with (_ | _ | _ | _) | _ <;> rw [hs] at h <;> simp_all

/-- **C56.** While the host runs the exemption makes no difference. -/
theorem C56_on {w : World} {s : Sensor} (hw : w.hostOn = true) (i : Bool) :
    s.getFailed w = { s with ignoreFailIfHostOff := i }.getFailed w := by
  unfold Sensor.getFailed
  rw [hw]
  rcases s.impl with (_ | _ | _ | _) | _ <;> cases i <;> cases s.ignoreFailIfHostOff <;> simp

/-- **C56.** A sensor without the exemption does not depend on the host state. -/
theorem C56_unexempted {w : World} {s : Sensor} (hi : s.ignoreFailIfHostOff = false) (b : Bool) :
    s.getFailed { w with hostOn := b } = s.getFailed w := by
  unfold Sensor.getFailed
  rw [hi]
  rcases s.impl with (_ | _ | _ | _) | _ <;> simp

theorem external_type {c : SensorConfig} (h : ExternalSensor c) : getReadInterfaceType c.readPath = .external := by
  unfold getReadInterfaceType
  have h2 := (containsSub_iff c.readPath "/xyz/openbmc_project/extsensors/").2 h.2
  rw [if_neg, if_pos h2]
  rintro (e | e) <;> rw [e] at h2 <;> revert h2 <;> decide +kernel

/-- **C56.** Every configured sensor keeps its exemption, except external ones, which never get it. -/
theorem C56_built {o : Opts} {bus : BuildBus} {now : Int} {name : String} {c : SensorConfig} {s : Sensor}
    (h : buildSensor o bus now name c = .ok (some s)) :
    (ExternalSensor c → s.ignoreFailIfHostOff = false ∧ ∃ v u, s.impl = .host v u) ∧
    (¬ ExternalSensor c → s.ignoreFailIfHostOff = c.ignoreFailIfHostOff ∧ ∃ r wr, s.impl = .pluggable r wr) ∧
    s.name = name ∧ s.timeout = c.timeout := by
  unfold buildSensor at h
  obtain ⟨ri, _, h⟩ := bind_eq_ok.1 h
  have hmem : c.type ∈ ["temp", "margin", "power", "powersum"] ↔
      (c.type = "temp" ∨ c.type = "margin" ∨ c.type = "power" ∨ c.type = "powersum") := by simp
  by_cases h1 : c.type = "fan"
  · rw [if_pos h1] at h
    obtain ⟨wi, _, h⟩ := bind_eq_ok.1 h
    cases h
    refine ⟨fun he => ?_, fun _ => ⟨rfl, _, _, rfl⟩, rfl, rfl⟩
    have := he.1
    rw [h1] at this
    simp at this
  · rw [if_neg h1] at h
    by_cases h2 : c.type = "temp" ∨ c.type = "margin" ∨ c.type = "power" ∨ c.type = "powersum"
    · rw [if_pos h2] at h
      by_cases h3 : getReadInterfaceType c.readPath = .external
      · rw [if_pos h3] at h
        cases h
        refine ⟨fun _ => ⟨rfl, _, _, rfl⟩, fun he => absurd ⟨hmem.2 h2, ?_⟩ he, rfl, rfl⟩
        unfold getReadInterfaceType at h3
        split_ifs at h3 with a b
        exact (containsSub_iff _ _).1 b
      · rw [if_neg h3] at h
        cases h
        exact ⟨fun he => absurd (external_type he) h3, fun _ => ⟨rfl, _, _, rfl⟩, rfl, rfl⟩
    · rw [if_neg h2] at h
      cases h

/-! ## C65 -/

end

theorem ext_infix {p : String} (h : "/xyz/openbmc_project/extsensors/".toList <:+: p.toList) :
    "/xyz/openbmc_project/".toList <:+: p.toList :=
  List.IsInfix.trans ⟨[], "extsensors/".toList, by decide⟩ h

theorem not_none_of {pat p : String} (hp : containsSub "" pat = false ∧ containsSub "None" pat = false)
    (h : pat.toList <:+: p.toList) : ¬ (p = "" ∨ p = "None") := by
  rintro (rfl | rfl)
  · rw [(containsSub_iff _ _).2 h] at hp; cases hp.1
  · rw [(containsSub_iff _ _).2 h] at hp; cases hp.2

/-- **C65.** Every read path has exactly the documented class: external before D-Bus before sysfs. -/
theorem C65_read (p : String) (t : IOType) : getReadInterfaceType p = t ↔ ReadKind p t := by
  have hx : ∀ {pat : String}, pat ∈ ["/xyz/openbmc_project/extsensors/", "/xyz/openbmc_project/", "/sys/"] →
      pat.toList <:+: p.toList → ¬ (p = "" ∨ p = "None") := by
    intro pat hm h
    refine not_none_of ?_ h
    clear h
    revert pat
    decide +kernel
  unfold getReadInterfaceType
  simp only [containsSub_iff]
  constructor
  · intro h
    split_ifs at h with a b c d <;> subst h
    · exact .none a
    · exact .external b
    · exact .dbus c b
    · exact .sysfs d c
    · exact .unknown (fun e => a (.inl e)) (fun e => a (.inr e)) d c
  · intro h
    cases h with
    | none h => rw [if_pos h]
    | external h => rw [if_neg (hx (by simp) h), if_pos h]
    | dbus h h2 => rw [if_neg (hx (by simp) h), if_neg h2, if_pos h]
    | sysfs h h2 => rw [if_neg (hx (by simp) h), if_neg (fun e => h2 (ext_infix e)), if_neg h2, if_pos h]
    | unknown h1 h2 h3 h4 =>
      rw [if_neg (by rintro (e | e); exacts [h1 e, h2 e]), if_neg (fun e => h4 (ext_infix e)), if_neg h4, if_neg h3]

/-- **C65.** Every write path has exactly the documented class; an empty path or `None` means no writer. -/
theorem C65_write (p : String) (t : IOType) : getWriteInterfaceType p = t ↔ WriteKind p t := by
  have hx : ∀ {pat : String}, pat ∈ ["/xyz/openbmc_project/", "/sys/"] →
      pat.toList <:+: p.toList → ¬ (p = "" ∨ p = "None") := by
    intro pat hm h
    refine not_none_of ?_ h
    clear h
    revert pat
    decide +kernel
  unfold getWriteInterfaceType
  simp only [containsSub_iff]
  constructor
  · intro h
    split_ifs at h with a b c <;> subst h
    · exact .none a
    · exact .sysfs b
    · exact .dbus c b
    · exact .unknown (fun e => a (.inl e)) (fun e => a (.inr e)) b c
  · intro h
    cases h with
    | none h => rw [if_pos h]
    | sysfs h => rw [if_neg (hx (by simp) h), if_pos h]
    | dbus h h2 => rw [if_neg (hx (by simp) h), if_neg h2, if_pos h]
    | unknown h1 h2 h3 h4 => rw [if_neg (by rintro (e | e); exacts [h1 e, h2 e]), if_neg h3, if_neg h4]

/-- **C65.** What a configured fan or sensor is then built from: the reader and the writer have the class of the paths. -/
theorem C65_built [F : FloatModel] {o : Opts} {bus : BuildBus} {now : Int} {name : String} {c : SensorConfig} {s : Sensor} {r : Reader}
    {wr : Writer} (h : buildSensor o bus now name c = .ok (some s)) (hs : s.impl = .pluggable r wr) :
    (ReadKind c.readPath .dbusPassive ↔ ∃ p, r = .passive p) ∧
    (ReadKind c.readPath .sysfs ↔ ∃ p, r = .sysfs p) ∧
    (ReadKind c.readPath .external ↔ r = .null) ∧
    (c.type = "fan" → (WriteKind c.writePath .sysfs ↔ ∃ p, (∃ a b, wr = .sysfsPercent p a b) ∨ wr = .sysfsRaw p) ∧
      (WriteKind c.writePath .dbusActive ↔ (∃ a b, wr = .dbusPercent c.writePath a b (-1)) ∨ wr = .dbusRaw c.writePath (-1))) ∧
    (c.type ≠ "fan" → wr = .readOnlyNoExcept) := by
  unfold buildSensor at h
  obtain ⟨ri, hr, h⟩ := bind_eq_ok.1 h
  have hrd : (ReadKind c.readPath .dbusPassive ↔ ∃ p, ri = .passive p) ∧
      (ReadKind c.readPath .sysfs ↔ ∃ p, ri = .sysfs p) ∧ (ReadKind c.readPath .external ↔ ri = .null) := by
    simp only [← C65_read]
    unfold buildReader at hr
    cases ht : getReadInterfaceType c.readPath <;> rw [ht] at hr <;> simp only at hr
    case dbusPassive =>
      split at hr
      · cases hr; simp
      · cases hr
    case sysfs =>
      obtain ⟨q, -, hr⟩ := bind_eq_ok.1 hr
      cases hr
      simp
    all_goals cases hr; simp
  obtain ⟨a1, a2, a3⟩ := hrd
  by_cases h1 : c.type = "fan"
  · rw [if_pos h1] at h
    obtain ⟨wi, hw, h⟩ := bind_eq_ok.1 h
    cases h
    cases hs
    refine ⟨a1, a2, a3, fun _ => ?_, fun hne => absurd h1 hne⟩
    simp only [← C65_write]
    unfold buildWriter at hw
    cases ht : getWriteInterfaceType c.writePath <;> rw [ht] at hw <;> simp only at hw
    case dbusActive =>
      split_ifs at hw <;> cases hw <;> simp
    case sysfs =>
      obtain ⟨q, -, hw⟩ := bind_eq_ok.1 hw
      split_ifs at hw <;> cases hw <;> simp
    all_goals cases hw; simp
  · rw [if_neg h1] at h
    by_cases h2 : c.type = "temp" ∨ c.type = "margin" ∨ c.type = "power" ∨ c.type = "powersum"
    · rw [if_pos h2] at h
      by_cases h3 : getReadInterfaceType c.readPath = .external
      · rw [if_pos h3] at h
        cases h
        cases hs
      · rw [if_neg h3] at h
        cases h
        cases hs
        exact ⟨a1, a2, a3, fun he => absurd he h1, fun _ => rfl⟩
    · rw [if_neg h2] at h
      cases h

section
attribute [local instance] binary64

def exWritten : Sensor := ((createHostSensor 5 "inlet" 2 true).hostWrite 10 (37 : Dbl)).hostWrite 20 nan
example : Written (createHostSensor 5 "inlet" 2 true) [(10, (37 : Dbl)), (20, nan)] exWritten :=
  .write 20 nan (.write 10 37 .start)
example : (match exWritten.getFailed Ex.world with | .ok b => b | _ => false) = true ∧
    (match exWritten.getFailed { Ex.world with hostOn := false } with | .ok b => b | _ => true) = false := by decide +kernel

def exExternal : SensorConfig :=
  ⟨"temp", "/xyz/openbmc_project/extsensors/temperature/inlet", "", 0, 0, 2, false, false, true⟩
/-- the configured exemption of an external sensor is lost -/
example (o : Opts) (bus : BuildBus) : ∃ s, buildSensor o bus 5 "inlet" exExternal = .ok (some s) ∧
    exExternal.ignoreFailIfHostOff = true ∧ s.ignoreFailIfHostOff = false :=
  ⟨createHostSensor 5 "inlet" 2 false, by
    unfold buildSensor buildReader
    have h1 : getReadInterfaceType exExternal.readPath = .external := by decide +kernel
    rw [h1]
    rfl, rfl, rfl⟩
example : getReadInterfaceType "/xyz/openbmc_project/sensors/temperature/sys/cpu" = .dbusPassive ∧
    getReadInterfaceType "/sys/devices/fan1_input" = .sysfs ∧ getReadInterfaceType "None" = .none ∧
    getWriteInterfaceType "/xyz/openbmc_project/control/fanpwm/Pwm_1" = .dbusActive ∧
    getWriteInterfaceType "/dev/null" = .unknown := by decide +kernel

end
end Verif
