import Verif.Spec.Switches
import Verif.Props.Startup
import Std.Data.String.ToInt

/-!
# C110: the switches of the daemon
-/

namespace Verif

theorem exists_ok_iff {f : EtcFiles} {p : String} {b : Bool} : f.exists p = .ok b ↔ f.Known p ∧ (b = true ↔ f.There p) := by
  unfold EtcFiles.exists EtcFiles.Known EtcFiles.There
  cases f.kind p <;> cases b <;> simp

theorem exists_known {f : EtcFiles} {p : String} (h : f.Known p) : ∃ b, f.exists p = .ok b := by
  unfold EtcFiles.exists
  unfold EtcFiles.Known at h
  cases hk : f.kind p <;> simp_all

theorem accepted_iff {a : Args} {f : EtcFiles} : Accepted a f ↔
    ¬ a.conf.any (fun p => f.kind p ≠ .file) = true ∧ ¬ a.log.any (fun p => f.kind p ≠ .dir) = true := by
  constructor
  · rintro ⟨h1, h2⟩
    constructor
    · cases hc : a.conf with
      | none => simp
      | some p => simp [h1 p hc]
    · cases hc : a.log with
      | none => simp
      | some p => simp [h2 p hc]
  · rintro ⟨h1, h2⟩
    exact ⟨fun p hp => by simpa [hp] using h1, fun p hp => by simpa [hp] using h2⟩

/-- what `main` ends up with -/
theorem mainStart_iff {a : Args} {f : EtcFiles} {s : Switches} :
    mainStart a f = .go s ↔ Accepted a f ∧ readSwitches a f = .ok s := by
  rw [accepted_iff]
  unfold mainStart
  generalize Option.any (fun p => decide (f.kind p ≠ .file)) a.conf = x
  generalize Option.any (fun p => decide (f.kind p ≠ .dir)) a.log = y
  cases x <;> cases y <;> cases readSwitches a f <;> simp

theorem switches_ok {a : Args} {f : EtcFiles} {s : Switches} (h : readSwitches a f = .ok s) :
    loggingSwitch a f = .ok (s.logging, s.loggingPath) ∧ s.conf = a.conf.getD "" ∧
    ∃ t d c, f.exists "/etc/thermal.d/tuning" = .ok t ∧ f.exists "/etc/thermal.d/debugging" = .ok d ∧
      f.exists "/etc/thermal.d/corelogging" = .ok c ∧ s.tuning = (a.tuning || t) ∧ s.debug = (a.debug || d) ∧
      s.core = (a.core || c) := by
  unfold readSwitches at h
  obtain ⟨l, h1, h⟩ := bind_eq_ok.1 h
  obtain ⟨t, h2, h⟩ := bind_eq_ok.1 h
  obtain ⟨d, h3, h⟩ := bind_eq_ok.1 h
  obtain ⟨c, h4, h⟩ := bind_eq_ok.1 h
  cases h
  exact ⟨h1, rfl, t, d, c, h2, h3, h4, rfl, rfl, rfl⟩

theorem loggingSwitch_ok {a : Args} {f : EtcFiles} {on : Bool} {p : String} (h : loggingSwitch a f = .ok (on, p)) :
    (on = true ↔ a.log ≠ none ∨ f.loggingLine ≠ none) ∧ (on = true → LogsTo a f p) ∧ (on = false → p = "") := by
  unfold loggingSwitch at h
  obtain ⟨d, h1, h⟩ := bind_eq_ok.1 h
  have hd : (a.log = some d) ∨ (a.log = none ∧ f.temp = some d) := by
    unfold defaultLogDir at h1
    cases hl : a.log with
    | some q => simp only [hl] at h1; cases h1; exact .inl rfl
    | none =>
      simp only [hl] at h1
      cases ht : f.temp with
      | some q => simp only [ht] at h1; cases h1; exact .inr ⟨rfl, rfl⟩
      | none => simp only [ht] at h1; cases h1
  cases hl : f.loggingLine with
  | none =>
    simp only [hl] at h
    cases h
    cases ha : a.log with
    | none => simp
    | some q => simp; exact .option ha (by simp [hl])
  | some l =>
    simp only [hl] at h
    obtain ⟨b, h2, h⟩ := bind_eq_ok.1 h
    cases h
    obtain ⟨-, h3⟩ := exists_ok_iff.1 h2
    refine ⟨by simp, fun _ => ?_, by simp⟩
    cases b with
    | true => exact .line hl (h3.1 rfl)
    | false =>
      have hn : ¬ f.There l := fun ht => by cases h3.2 ht
      rcases hd with hd | ⟨hd, ht⟩
      · exact .option hd (fun l' hl' => by rw [hl] at hl'; cases hl'; exact hn)
      · exact .temp hd hl hn ht

/-- The daemon goes on exactly if the command line is accepted and the file system answers. -/
theorem C110_goes (a : Args) (f : EtcFiles) : (∃ s, mainStart a f = .go s) ↔ Accepted a f ∧ Answered a f := by
  constructor
  · rintro ⟨s, h⟩
    obtain ⟨ha, hs⟩ := mainStart_iff.1 h
    obtain ⟨h1, -, t, d, c, h2, h3, h4, -⟩ := switches_ok hs
    refine ⟨ha, ?_, ?_, ?_⟩
    · intro hl ht
      unfold loggingSwitch defaultLogDir at h1
      simp [hl, ht, error_bind] at h1
    · intro l hl
      unfold loggingSwitch at h1
      obtain ⟨d, -, h1⟩ := bind_eq_ok.1 h1
      simp only [hl] at h1
      obtain ⟨b, h5, -⟩ := bind_eq_ok.1 h1
      exact (exists_ok_iff.1 h5).1
    · simp only [List.mem_cons, List.not_mem_nil, or_false]
      rintro x (rfl | rfl | rfl)
      · exact (exists_ok_iff.1 h2).1
      · exact (exists_ok_iff.1 h3).1
      · exact (exists_ok_iff.1 h4).1
  · rintro ⟨ha, hk⟩
    obtain ⟨t, h2⟩ := exists_known (hk.switches "tuning" (by simp))
    obtain ⟨d, h3⟩ := exists_known (hk.switches "debugging" (by simp))
    obtain ⟨c, h4⟩ := exists_known (hk.switches "corelogging" (by simp))
    have h1 : ∃ l, loggingSwitch a f = .ok l := by
      have hd : ∃ d, defaultLogDir a f = .ok d := by
        unfold defaultLogDir
        cases hl : a.log with
        | some q => exact ⟨q, rfl⟩
        | none =>
          cases ht : f.temp with
          | some q => exact ⟨q, rfl⟩
          | none => exact absurd ht (hk.temp hl)
      obtain ⟨d, hd⟩ := hd
      unfold loggingSwitch
      rw [hd, ok_bind]
      cases hl : f.loggingLine with
      | none => exact ⟨_, rfl⟩
      | some l =>
        obtain ⟨b, hb⟩ := exists_known (hk.line l hl)
        exact ⟨_, by dsimp only; rw [hb]; rfl⟩
    obtain ⟨l, h1⟩ := h1
    refine ⟨⟨a.conf.getD "", l.2, l.1, a.tuning || t, a.debug || d, a.core || c⟩, mainStart_iff.2 ⟨ha, ?_⟩⟩
    unfold readSwitches
    rw [h1, ok_bind]
    have h2' : f.exists "/etc/thermal.d/tuning" = .ok t := h2
    have h3' : f.exists "/etc/thermal.d/debugging" = .ok d := h3
    have h4' : f.exists "/etc/thermal.d/corelogging" = .ok c := h4
    rw [h2', ok_bind, h3', ok_bind, h4', ok_bind]

/-- The command line is refused exactly if a path in it is not what it should be. -/
theorem C110_usage (a : Args) (f : EtcFiles) : mainStart a f = .usage ↔ ¬ Accepted a f := by
  rw [accepted_iff]
  unfold mainStart
  generalize Option.any (fun p => decide (f.kind p ≠ .file)) a.conf = x
  generalize Option.any (fun p => decide (f.kind p ≠ .dir)) a.log = y
  cases x <;> cases y <;> cases readSwitches a f <;> simp

/-- Every switch is on exactly if its option is given or its file is there; logging also if its file can be opened. -/
theorem C110_switches {a : Args} {f : EtcFiles} {s : Switches} (h : mainStart a f = .go s) :
    (s.tuning = true ↔ a.tuning = true ∨ f.There "/etc/thermal.d/tuning") ∧
    (s.debug = true ↔ a.debug = true ∨ f.There "/etc/thermal.d/debugging") ∧
    (s.core = true ↔ a.core = true ∨ f.There "/etc/thermal.d/corelogging") ∧
    (s.logging = true ↔ a.log ≠ none ∨ f.loggingLine ≠ none) := by
  obtain ⟨-, hs⟩ := mainStart_iff.1 h
  obtain ⟨h1, -, t, d, c, h2, h3, h4, e1, e2, e3⟩ := switches_ok hs
  refine ⟨?_, ?_, ?_, (loggingSwitch_ok h1).1⟩
  · rw [e1, Bool.or_eq_true, (exists_ok_iff.1 h2).2]
  · rw [e2, Bool.or_eq_true, (exists_ok_iff.1 h3).2]
  · rw [e3, Bool.or_eq_true, (exists_ok_iff.1 h4).2]

/-- Where log files go is determined. -/
theorem C110_log_path {a : Args} {f : EtcFiles} {s : Switches} (h : mainStart a f = .go s) (hl : s.logging = true) :
    LogsTo a f s.loggingPath ∧ ∀ p, LogsTo a f p → p = s.loggingPath := by
  obtain ⟨-, hs⟩ := mainStart_iff.1 h
  have h1 := (loggingSwitch_ok (switches_ok hs).1).2.1 hl
  refine ⟨h1, fun p h2 => ?_⟩
  generalize s.loggingPath = q at h1
  cases h1 with
  | line e t =>
    cases h2 with
    | line e' _ => rw [e] at e'; cases e'; rfl
    | option e' t' => exact absurd t (t' _ e)
    | temp e' e'' t' _ => rw [e] at e''; cases e''; exact absurd t t'
  | option e t =>
    cases h2 with
    | line e' t' => exact absurd t' (t _ e')
    | option e' t' => rw [e] at e'; cases e'; rfl
    | temp e' e'' t' _ => rw [e] at e'; cases e'
  | temp e e1 t e2 =>
    cases h2 with
    | line e' t' => rw [e1] at e'; cases e'; exact absurd t' t
    | option e' t' => rw [e] at e'; cases e'
    | temp e' e'' t' e3 => rw [e2] at e3; cases e3; rfl

/-- The directory given with `-l` exists; so does the place the file in /etc names. -/
theorem C110_log_there {a : Args} {f : EtcFiles} {s : Switches} (h : mainStart a f = .go s) (hl : s.logging = true)
    (ht : ∀ p, f.temp = some p → f.kind p = .dir) : f.There s.loggingPath := by
  cases (C110_log_path h hl).1 with
  | line _ t => exact t
  | option e _ => exact .inr ((mainStart_iff.1 h).1.log _ e)
  | temp _ _ _ e => exact .inr (ht _ e)

/-- The first start reads the file given with `-c`. -/
theorem C110_given [FloatModel] {a : Args} {f : EtcFiles} {g : StartFiles} {s : Switches} {p : String} (h : mainStart a f = .go s)
    (hc : a.conf = some p) (hf : SameFiles f g) : Source s.conf g (some p) := by
  obtain ⟨ha, hs⟩ := mainStart_iff.1 h
  have hk := ha.conf p hc
  have e : s.conf = p := by rw [(switches_ok hs).2.1, hc]; rfl
  rw [e]
  refine .given ?_ ((hf p).2 (.inl hk))
  rintro rfl
  rw [f.empty] at hk
  cases hk

/-- Log files of different zones are different, and none is a log file of a loop. -/
theorem C110_zone_files (p : String) (i j : Int) (n : String) : (zoneLogFile p i = zoneLogFile p j → i = j) ∧
    zoneLogFile p i ≠ coreFile p n ∧ zoneLogFile p i ≠ coeffsFile p n := by
  refine ⟨fun h => ?_, fun h => ?_, fun h => ?_⟩
  · rw [← String.toList_inj] at h
    simp only [zoneLogFile, String.toList_append, List.append_assoc, List.append_cancel_left_eq] at h
    have h' : (toString i).toList = (toString j).toList := List.append_cancel_right (bs := ".log".toList) h
    exact Int.repr_injective (String.toList_inj.1 h')
  · rw [← String.toList_inj] at h
    simp [zoneLogFile, coreFile] at h
  · rw [← String.toList_inj] at h
    simp [zoneLogFile, coeffsFile] at h

/-- Finding: with core logging alone, the files go to the root directory. -/
theorem C110_core_alone {a : Args} {f : EtcFiles} {s : Switches} (h : mainStart a f = .go s) (hl : a.log = none)
    (hf : f.loggingLine = none) (clean : String) : s.logging = false ∧ coreFile s.loggingPath clean = "/pidcore." ++ clean ∧
      coeffsFile s.loggingPath clean = "/pidcoeffs." ++ clean := by
  obtain ⟨-, hs⟩ := mainStart_iff.1 h
  obtain ⟨h1, -, h2⟩ := loggingSwitch_ok (switches_ok hs).1
  have : s.logging = false := by
    cases e : s.logging with
    | false => rfl
    | true => rcases h1.1 e with h | h <;> contradiction
  rw [h2 this]
  exact ⟨this, by simp [coreFile, ← String.toList_inj], by simp [coeffsFile, ← String.toList_inj]⟩

/-- Finding: if the file in /etc names a file instead of a directory, nothing is logged for any loop, although `-l` names a
directory. `canOpen` says which files can be opened: none below a file. -/
theorem C110_not_a_directory [FloatModel] {a : Args} {f : EtcFiles} {s : Switches} {l : String} (h : mainStart a f = .go s)
    (hl : f.loggingLine = some l) (hk : f.kind l = .file) {canOpen : String → Bool}
    (ho : ∀ n, canOpen (l ++ "/" ++ n) = false) (name : String) :
    s.logging = true ∧ (∀ i, canOpen (zoneLogFile s.loggingPath i) = false) ∧
      (logInit ⟨s.core, s.loggingPath, canOpen⟩ name {}).1 = [] := by
  have h4 := (C110_switches h).2.2.2.2 (.inr (by simp [hl]))
  have e := (C110_log_path h h4).2 l (.line hl (.inl hk))
  rw [← e]
  refine ⟨h4, fun i => ?_, ?_⟩
  · have := ho ("zone_" ++ toString i ++ ".log")
    have e : zoneLogFile l i = l ++ "/" ++ ("zone_" ++ toString i ++ ".log") := by
      simp [zoneLogFile, ← String.toList_inj]
    rw [e, this]
  · have e (c : String) : coreFile l c = l ++ "/" ++ ("pidcore." ++ c) := by simp [coreFile, ← String.toList_inj]
    unfold logInit
    simp only [e, ho]
    split_ifs <;> simp_all [OMap.find?_empty]
    all_goals (split <;> simp_all [OMap.find?_empty])

/-- Finding: without `-l` the daemon needs a directory for temporary files, even if nothing is logged. -/
theorem C110_needs_temp {a : Args} {f : EtcFiles} (hl : a.log = none) (ht : f.temp = none) (s : Switches) :
    mainStart a f ≠ .go s := fun h => ((C110_goes a f).1 ⟨s, h⟩).2.temp hl ht

namespace Ex

/-- a file system with a directory for temporary files, a directory /var/log and a file /etc/motd -/
def etc110 (line : Option String) : EtcFiles where
  kind p := if p = "/tmp" ∨ p = "/var/log" then .dir
    else if p = "/etc/motd" ∨ p = "/etc/thermal.d/tuning" ∨ p = "/conf.json" then .file else .missing
  empty := by decide +kernel
  temp := some "/tmp"
  loggingLine := line

/-- C110: an option given, a file that is there, and what the file in /etc says -/
example : mainStart { conf := some "/conf.json", log := some "/var/log" } (etc110 none) =
    .go ⟨"/conf.json", "/var/log", true, true, false, false⟩ := by decide +kernel
example : mainStart { log := some "/var/log" } (etc110 (some "/tmp")) = .go ⟨"", "/tmp", true, true, false, false⟩ := by
  decide +kernel
example : mainStart {} (etc110 (some "/nowhere")) = .go ⟨"", "/tmp", true, true, false, false⟩ := by decide +kernel
example : mainStart { log := some "/etc/motd" } (etc110 none) = .usage := by decide +kernel
/-- the findings -/
example : mainStart { core := true } (etc110 none) = .go ⟨"", "", false, true, false, true⟩ ∧
    coreFile "" "cpu" = "/pidcore.cpu" := by decide +kernel
example : mainStart { log := some "/var/log" } (etc110 (some "/etc/motd")) =
    .go ⟨"", "/etc/motd", true, true, false, false⟩ := by decide +kernel
example : mainStart {} { etc110 none with
    temp := none } = .terminated := by decide +kernel
example : zoneLogFile "/tmp" 1 = "/tmp/zone_1.log" := by decide +kernel

end Ex
end Verif
