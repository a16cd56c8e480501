import Mathlib.Tactic.FinCases
import Verif.Lemmas.FileOrder

/-! # C134: what does not matter in a configuration file -/

namespace Verif
open Dbl
section
variable [F : FloatModel]

/-- **C134** Two configuration files with the same sensors, zones and loops, in whatever order and with whatever else in them,
come to the same: either both cannot be used, or every attempt to start ends the same with both, with the same daemon. -/
theorem C134_same {o : Opts} {conf conf' path path' : String} {f f' : StartFiles} (hs : Source conf f (some path))
    (hs' : Source conf' f' (some path')) {data data' : Json} (hj : f.json path = some data) (hj' : f'.json path' = some data')
    (h : FileAlike data data') :
    (WellFormed data ↔ WellFormed data') ∧
    (WellFormed data → ∀ b b' h h' bus now w, attempt o conf f b h bus now w = attempt o conf' f' b' h' bus now w) ∧
    ∀ b b' h h' bus now w d, attempt o conf f b h bus now w = .running d ↔ attempt o conf' f' b' h' bus now w = .running d := by
  have key : ∀ c, configFromFile f path = .ok c ↔ configFromFile f' path' = .ok c :=
    fun c => ⟨h.config hj hj', h.symm.config hj' hj⟩
  have one : (∃ c, configFromFile f path = .ok c) ↔ WellFormed data := by
    rw [configFromFile_iff]
    exact ⟨fun ⟨x, h1, h2⟩ => by rw [hj] at h1; cases h1; exact h2, fun h => ⟨data, hj, h⟩⟩
  have two : (∃ c, configFromFile f' path' = .ok c) ↔ WellFormed data' := by
    rw [configFromFile_iff]
    exact ⟨fun ⟨x, h1, h2⟩ => by rw [hj'] at h1; cases h1; exact h2, fun h => ⟨data', hj', h⟩⟩
  have same : WellFormed data → ∀ b b' h h' bus now w,
      attempt o conf f b h bus now w = attempt o conf' f' b' h' bus now w := by
    intro hw b b' h h' bus now w
    obtain ⟨c, hc⟩ := one.2 hw
    rw [attempt_file hs, attempt_file hs', hc, (key c).1 hc]
  have iff : WellFormed data ↔ WellFormed data' := by
    rw [← one, ← two]
    exact ⟨fun ⟨c, hc⟩ => ⟨c, (key c).1 hc⟩, fun ⟨c, hc⟩ => ⟨c, (key c).2 hc⟩⟩
  refine ⟨iff, same, fun b b' h h' bus now w d => ?_⟩
  by_cases hw : WellFormed data
  · rw [same hw b b' h h']
  · have n1 : ∀ c, configFromFile f path ≠ .ok c := fun c hc => hw (one.1 ⟨c, hc⟩)
    have n2 : ∀ c, configFromFile f' path' ≠ .ok c := fun c hc => hw (iff.2 (two.1 ⟨c, hc⟩))
    rw [attempt_file hs, attempt_file hs']
    cases h1 : configFromFile f path with
    | ok c => exact absurd h1 (n1 c)
    | error e =>
      cases h2 : configFromFile f' path' with
      | ok c => exact absurd h2 (n2 c)
      | error e' => cases e <;> cases e' <;> simp

end

namespace Ex
section
attribute [local instance] binary64

/-- settings are looked up by name -/
theorem same_of {ks : List String} {j j' : Json} (h : ∀ k ∈ ks, j.find? k = j'.find? k) : SameSettings ks j j' :=
  fun k hk v => by rw [member_iff, member_iff, h k hk]

def sensor134 (name : String) (more : List (String × Json)) : Json := .obj (more ++
  [("max", .int 255), ("min", .int 0), ("name", .str name),
   ("readPath", .str ("/xyz/openbmc_project/sensors/fan_tach/" ++ name)), ("type", .str "fan")])
def loop134 (name type input : String) (more : List (String × Json)) : Json := .obj (more ++
  [("inputs", .arr [.str input]), ("name", .str name),
   ("pid", .obj (more ++ [("feedFwdGainCoeff", .int 1), ("feedFwdOffsetCoeff", .int 0), ("integralCoeff", .int 0),
     ("integralLimit_max", .int 0), ("integralLimit_min", .int 0), ("outLim_max", .int 100), ("outLim_min", .int 0),
     ("proportionalCoeff", .int 0), ("samplePeriod", .int 1), ("slewNeg", .int 0), ("slewPos", .int 0)])),
   ("setpoint", .int 70), ("type", .str type)])
def zone134 (i : Int) (loops : List Json) (more : List (String × Json)) : Json := .obj (more ++
  [("failsafePercent", .int 75), ("id", .int i), ("minThermalOutput", .int 20), ("pids", .arr loops)])

/-- a file, and one with everything in another order and with remarks -/
def file134 : Json := .obj [("sensors", .arr [sensor134 "fan0" [], sensor134 "fan1" []]),
  ("zones", .arr [zone134 0 [loop134 "a" "fan" "fan0" [], loop134 "b" "fan" "fan0" []] [],
    zone134 1 [loop134 "a" "fan" "fan1" []] []])]
def remark134 : List (String × Json) := [("comment", .str "left"), ("timeOut", .int 5)]
def other134 : Json := .obj [("comment", .null), ("zones", .arr [zone134 1 [loop134 "a" "fan" "fan1" remark134] [],
    zone134 0 [loop134 "b" "fan" "fan0" [], loop134 "a" "fan" "fan0" []] remark134]),
  ("sensors", .arr [sensor134 "fan1" remark134, sensor134 "fan0" []])]

theorem named134 {e : Json} {a n : String} (he : e.find? "name" = some (.str a)) (h : Named e n) : n = a := by
  obtain ⟨v, h1, h2⟩ := h
  rw [member_iff, he] at h1
  cases h1
  cases h2
  rfl

theorem numbered134 {e : Json} {a n : Int} (ha : 0 ≤ a) (ha' : a < 5) (he : e.find? "id" = some (.int a)) (h : Numbering e n) :
    n = a := by
  obtain ⟨v, h1, h2⟩ := h
  rw [member_iff, he] at h1
  cases h1
  obtain ⟨g1, g2, ⟨i, g3, g4⟩ | ⟨q, hq, g3, -⟩⟩ := h2
  · cases g3
    omega
  · cases g3

theorem loop134_alike (n t i : String) (m m' : List (String × Json))
    (h1 : ∀ k ∈ ["name", "type", "inputs", "tempToMargin", "missingIsAcceptable", "setpoint", "FailSafePercent"],
      (loop134 n t i m).find? k = (loop134 n t i m').find? k)
    (h2 : ∃ p p', (loop134 n t i m).find? "pid" = some p ∧ (loop134 n t i m').find? "pid" = some p' ∧ NumbersAlike p p') :
    LoopAlike (loop134 n t i m) (loop134 n t i m') := by
  obtain ⟨p, p', a, b, c⟩ := h2
  exact ⟨same_of h1, p, p', member_iff.2 a, member_iff.2 b, c⟩

/-- C134: the two files are alike, and both can be used -/
theorem alike134 : FileAlike file134 other134 := by
  refine ⟨⟨_, _, member_iff.2 rfl, member_iff.2 rfl, ⟨⟨_, .swap _ _ _, ?_⟩, ?_⟩⟩,
    _, _, member_iff.2 rfl, member_iff.2 rfl, ⟨⟨_, .swap _ _ _, ?_⟩, ?_⟩⟩
  · refine .cons (same_of ?_) (.cons (same_of ?_) .nil) <;> (intro k hk; fin_cases hk <;> rfl)
  · refine .cons ?_ (.cons (by simp) .nil)
    intro b hb n hn
    rw [List.mem_singleton] at hb
    subst hb
    have h1 := named134 (a := "fan0") rfl hn.1
    have h2 := named134 (a := "fan1") rfl hn.2
    rw [h1] at h2
    exact absurd h2 (by decide)
  · have hl : ∀ i, LoopAlike (loop134 "a" "fan" i []) (loop134 "a" "fan" i remark134) := fun i =>
      loop134_alike _ _ _ _ _ (by intro k hk; fin_cases hk <;> rfl)
        ⟨_, _, rfl, rfl, same_of (by intro k hk; fin_cases hk <;> rfl)⟩
    have hr : ∀ n t i, LoopAlike (loop134 n t i []) (loop134 n t i []) := fun n t i =>
      loop134_alike _ _ _ _ _ (fun _ _ => rfl) ⟨_, _, rfl, rfl, fun _ _ _ => Iff.rfl⟩
    refine .cons ⟨same_of fun _ _ => ?_, _, _, member_iff.2 rfl, member_iff.2 rfl, ⟨⟨_, .refl _, .cons (hl _) .nil⟩, by simp⟩⟩
      (.cons ⟨same_of ?_, _, _, member_iff.2 rfl, member_iff.2 rfl,
        ⟨⟨_, .swap _ _ _, .cons (hr _ _ _) (.cons (hr _ _ _) .nil)⟩, ?_⟩⟩ .nil)
    · rename_i k hk
      fin_cases hk <;> rfl
    · intro k hk; fin_cases hk <;> rfl
    · refine .cons ?_ (.cons (by simp) .nil)
      intro b hb n hn
      rw [List.mem_singleton] at hb
      subst hb
      have h1 := named134 (a := "a") rfl hn.1
      have h2 := named134 (a := "b") rfl hn.2
      rw [h1] at h2
      exact absurd h2 (by decide)
  · refine .cons ?_ (.cons (by simp) .nil)
    intro b hb n hn
    rw [List.mem_singleton] at hb
    subst hb
    have h1 := numbered134 (a := 0) (by decide) (by decide) rfl hn.1
    have h2 := numbered134 (a := 1) (by decide) (by decide) rfl hn.2
    rw [h1] at h2
    exact absurd h2 (by decide)

/-- files at "/c" -/
def at134 (data : Json) : StartFiles := files108 ["/c"] (some data) (by decide) (by decide)

example : ranZones (attempt {} "/c" (at134 file134) noConfig asListed bus98 0 world99) = some [0, 1] := by decide +kernel
example (d : Daemon) : attempt {} "/c" (at134 file134) noConfig asListed bus98 0 world99 = .running d ↔
    attempt {} "/c" (at134 other134) noConfig asListed bus98 0 world99 = .running d :=
  (C134_same (.given (by decide) (by decide +kernel)) (.given (by decide) (by decide +kernel)) rfl rfl alike134).2.2 _ _ _ _ _ _ _ _

/-- two entries for one sensor -/
def twice134 (a b : Int) : List Json :=
  [.obj [("name", .str "cpu"), ("readPath", .str "/t"), ("timeout", .int a), ("type", .str "temp")],
   .obj [("name", .str "cpu"), ("readPath", .str "/t"), ("timeout", .int b), ("type", .str "temp")]]

/-- **C134, finding.** Names that repeat are not reported: of two entries for a sensor the later one counts, so then the order
does matter. -/
theorem C134_repeated :
    ((sensorsFromList {} (twice134 5 7)).toOption.bind (·.find? "cpu")).map SensorConfig.timeout = some 7 ∧
    ((sensorsFromList {} (twice134 7 5)).toOption.bind (·.find? "cpu")).map SensorConfig.timeout = some 5 := by
  decide +kernel

/-- **C134, finding.** A misspelt optional setting is not reported: "timeOut" leaves the default. -/
theorem C134_misspelt (n : String) (t : Int) : SensorAlike
    (.obj [("name", .str n), ("readPath", .str "/t"), ("timeOut", .int t), ("type", .str "temp")])
    (.obj [("name", .str n), ("readPath", .str "/t"), ("type", .str "temp")]) :=
  same_of (by intro k hk; fin_cases hk <;> rfl)

end
end Ex
end Verif
