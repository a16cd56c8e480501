import Verif.Lemmas.Register
import Verif.Props.Daemon

/-! # Paths of files: property C105 -/

namespace Verif
open Dbl
section
variable [F : FloatModel]

omit F in
theorem stands_unique {dirs : Dirs} {p q q' : String} (h : Stands dirs p q) (h' : Stands dirs p q') : q = q' := by
  have := fixup_iff.2 h
  rw [fixup_iff.2 h'] at this
  cases this; rfl

theorem kind_run {o : Opts} {dirs : Dirs} {c : SensorConfig} {n : String} : ∀ {es : List DEvent} {d d' : Daemon} {s : Sensor},
    d.run o es = .ok d' → d.w.sensors.find? n = some s → Kind dirs c s.impl →
    ∃ s', d'.w.sensors.find? n = some s' ∧ Kind dirs c s'.impl
  | [], _, _, s, h, hs, hk => by cases h; exact ⟨s, hs, hk⟩
  | _ :: _, _, _, _, h, hs, hk => by
    obtain ⟨d1, h1, h2⟩ := bind_eq_ok.1 h
    obtain ⟨s1, hs1, hst⟩ := step_sensor h1 hs
    exact kind_run h2 hs1 (kind_step hk hst)

/-- **C105** Every sensor read from a file is read from the file its path stands for, all the time: with `**` in the path,
the first entry of the directory before it, as it was when the daemon was launched. -/
theorem C105_read {o : Opts} {bus : BuildBus} {now : Int} {w : World} {sensors : OMap String SensorConfig}
    {pids : OMap Int PIDConf} {configs : OMap Int ZoneConfig} {d0 d : Daemon} (hw : sensors.WF)
    (hl : Daemon.launch o bus now w sensors pids configs = .ok d0) {es : List DEvent} (hr : d0.run o es = .ok d)
    {n : String} {c : SensorConfig} (hc : sensors.find? n = some c) (ht : KnownType c.type) (hk : ReadKind c.readPath .sysfs) :
    ∃ q s, Stands bus.dirs c.readPath q ∧ d.w.sensors.find? n = some s ∧
      ∀ (w' : World) (t v : Int), w'.files q = .number v → -(2 ^ 63) ≤ v → v < 2 ^ 63 →
        s.read w' t = .ok ⟨ofInt v, t, ofInt v⟩ := by
  obtain ⟨m, zones, h⟩ := launch_spec hl
  obtain ⟨s0, hs0, hm⟩ := (C98_as_configured hw h.made n).2 c hc ht
  obtain ⟨s, hs, hks⟩ := kind_run (d := d0) hr (by rw [h.world]; exact hs0) (madeFrom_kind hm)
  obtain ⟨a, b, e, impl⟩ := s
  cases hks with
  | host v u he => cases readKind_unique hk (.external he.2)
  | dbus p h1 _ => cases readKind_unique hk h1
  | @sysfs q wr h1 h2 h3 =>
    refine ⟨q, _, h2, hs, fun w' t v hv h4 h5 => ?_⟩
    have : Max.max (-(2 ^ 63)) (Min.min v (2 ^ 63 - 1)) = v := by omega
    simp only [Sensor.read, sysfsRead, hv, this]
  | silent _ h2 _ _ _ => exact absurd hk h2

/-- **C105** Every fan written through a file is written through the file its path stands for, all the time. -/
theorem C105_write {o : Opts} {bus : BuildBus} {now : Int} {w : World} {sensors : OMap String SensorConfig}
    {pids : OMap Int PIDConf} {configs : OMap Int ZoneConfig} {d0 d : Daemon} (hw : sensors.WF)
    (hl : Daemon.launch o bus now w sensors pids configs = .ok d0) {es : List DEvent} (hr : d0.run o es = .ok d)
    {n : String} {c : SensorConfig} (hc : sensors.find? n = some c) (ht : c.type = "fan") (hk : WriteKind c.writePath .sysfs) :
    ∃ q, Stands bus.dirs c.writePath q ∧ targetOf d.w n = some q := by
  obtain ⟨m, zones, h⟩ := launch_spec hl
  obtain ⟨s0, hs0, hm⟩ := (C98_as_configured hw h.made n).2 c hc (by rw [ht]; simp)
  have hne : ∀ {k}, WriteKind c.writePath k → k = .sysfs := fun h' => by
    rw [← (C65_write _ _).2 h', ← (C65_write _ _).2 hk]
  rw [run_target hr n, h.world]
  unfold targetOf
  dsimp only
  rw [hs0]
  cases hm with
  | fan _ _ h3 =>
    cases h3 with
    | sysfsPercent _ h5 _ => exact ⟨_, h5, rfl⟩
    | sysfsRaw _ h5 _ => exact ⟨_, h5, rfl⟩
    | dbusPercent h4 _ => cases hne h4
    | dbusRaw h4 _ => cases hne h4
    | nothing h4 => rcases h4 with h4 | h4 <;> cases hne h4
  | external he =>
    have := he.1
    rw [ht] at this
    simp at this
  | thermal h1 _ _ =>
    rw [ht] at h1
    simp at h1

/-- **C105** What the first `**` stands for does not help the second: such a path still contains it, so it names a file with
asterisks in its name. -/
theorem C105_second_glob {dirs : Dirs} {a b q : String} (ha : ¬ "**".toList <:+: (a ++ "*").toList)
    (hb : "**".toList <:+: b.toList) (h : Stands dirs (a ++ "**" ++ b) q) : "**".toList <:+: q.toList := by
  have key : ∀ x : String, "**".toList <:+: (x ++ b).toList := by
    intro x
    rw [String.toList_append]
    exact hb.trans (List.suffix_append _ _).isInfix
  cases hd : dirs a with
  | none =>
    have := fixup_split (dirs := dirs) (b := b) ha
    rw [fixup_iff.2 h, hd] at this
    cases this
  | some l =>
    cases l with
    | nil => rw [stands_unique h (.empty ha hd)]; exact key _
    | cons x xs => rw [stands_unique h (.entry ha hd)]; exact key _

/-- **C105** One sensor whose path has a directory before `**` that does not exist, used or not, and the daemon controls no
fan at all. -/
theorem C105_missing_directory {o : Opts} {bus : BuildBus} {now : Int} {w : World} {sensors : OMap String SensorConfig}
    {pids : OMap Int PIDConf} {configs : OMap Int ZoneConfig} (hw : sensors.WF) {n a b : String} {c : SensorConfig}
    (hc : sensors.find? n = some c) (hp : c.readPath = a ++ "**" ++ b) (ha : ¬ "**".toList <:+: (a ++ "*").toList)
    (hk : ReadKind c.readPath .sysfs) (hd : bus.dirs a = none) (d : Daemon) :
    Daemon.launch o bus now w sensors pids configs ≠ .ok d := by
  intro hl
  obtain ⟨m, zones, h⟩ := launch_spec hl
  obtain ⟨q, hq⟩ := ((C98_all_or_nothing hw).1 ⟨m, h.made⟩ n c hc).2.1 hk
  have := fixup_split (dirs := bus.dirs) (b := b) ha
  rw [← hp, fixup_iff.2 hq, hd] at this
  cases this

end

namespace Ex
section
attribute [local instance] binary64

/-- a temperature and a fan behind directories whose names change from boot to boot -/
def sensors105 : OMap String SensorConfig :=
  [("fan0", ⟨"fan", "/xyz/openbmc_project/sensors/fan_tach/fan0", "/sys/devices/pwm/hwmon/**/pwm1", 0, 255, 0, false, true, false⟩),
    ("cpu", ⟨"temp", "/sys/devices/adc/hwmon/**/temp1_input", "", 0, 0, 0, false, true, false⟩)].foldl
    (fun m e => m.insert e.1 e.2) {}
def dirs105 (p : String) : Option (List String) :=
  if p = "/sys/devices/pwm/hwmon/" then some ["hwmon3"]
  else if p = "/sys/devices/adc/hwmon/" then some ["hwmon7", "hwmon8"] else none
def bus105 : BuildBus := { bus98 with
  dirs := dirs105 }
def files105 (path : String) : FileContent := if path = "/sys/devices/adc/hwmon/hwmon7/temp1_input" then .number 45 else .missing
def run105 (es : List DEvent) : Res Daemon := do
  let d ← Daemon.launch {} bus105 0 { world99 with
    files := files105 } sensors105 pids99 zones99
  d.run {} es

/-- C105: the first entry of each directory is used -/
example : ∃ d, run105 [.tick 1, .tick 1, .tick 1] = .ok d ∧
    decide (targetOf d.w "fan0" = some "/sys/devices/pwm/hwmon/hwmon3/pwm1" ∧
      d.w.trace.map Effect.path = List.replicate 3 "/sys/devices/pwm/hwmon/hwmon3/pwm1") = true :=
  ok_of_any (P := fun d : Daemon => decide (targetOf d.w "fan0" = some "/sys/devices/pwm/hwmon/hwmon3/pwm1" ∧
    d.w.trace.map Effect.path = List.replicate 3 "/sys/devices/pwm/hwmon/hwmon3/pwm1")) (by decide +kernel)

/-- C105: if the directory is not there, nothing is launched -/
example (w : World) (d : Daemon) : Daemon.launch {} bus98 0 w sensors105 pids99 zones99 ≠ .ok d := by
  refine C105_missing_directory (n := "cpu") (a := "/sys/devices/adc/hwmon/") (b := "/temp1_input")
    (c := ⟨"temp", "/sys/devices/adc/hwmon/**/temp1_input", "", 0, 0, 0, false, true, false⟩) ?_ (by decide +kernel)
    (by decide +kernel) (by rw [← findSub_isSome]; decide +kernel) ((C65_read _ _).1 (by decide +kernel)) rfl d
  unfold sensors105
  simp only [List.foldl]
  repeat apply OMap.wf_insert
  exact OMap.wf_empty

/-- C105: the second `**` stays -/
example : Stands (fun _ => some ["x"]) "/sys/a/**/b/**/c" "/sys/a/x/b/**/c" :=
  fixup_iff.1 (by decide +kernel)

end
end Ex
end Verif
