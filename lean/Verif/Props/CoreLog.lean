import Verif.Spec.Pid
import Verif.Spec.CoreLog
import Verif.Lemmas.OMap
import Verif.Lemmas.Dbl
import Mathlib.Data.List.Induction
import Verif.Base.Binary64

/-! # Core log: C70, C71, C76 -/

namespace Verif
open Dbl
section
variable [F : FloatModel]

theorem same_iff (a b : PidCoreContext) : a.same b = true ↔ ¬ Changed a b := by
  unfold PidCoreContext.same Changed PidCoreContext.values
  simp only [Bool.and_eq_true, eqb_iff, not_or, not_not, List.cons.injEq, List.mem_cons, List.not_mem_nil, or_false, and_true]
  constructor
  · rintro ⟨⟨⟨⟨⟨⟨⟨⟨⟨⟨⟨⟨⟨⟨⟨h1, h2⟩, h3⟩, h4⟩, h5⟩, h6⟩, h7⟩, h8⟩, h9⟩, h10⟩, h11⟩, h12⟩, h13⟩, h14⟩, h15⟩, h16⟩
    refine ⟨⟨h1.1, h2.1, h3.1, h4.1, h5.1, h6.1, h7.1, h8.1, h9.1, h10.1, h11.1, h12.1, h13.1, h14.1, h15.1, h16.1⟩,
      h1.1 ▸ h1.2.symm, h2.1 ▸ h2.2.symm, h3.1 ▸ h3.2.symm, h4.1 ▸ h4.2.symm, h5.1 ▸ h5.2.symm, h6.1 ▸ h6.2.symm,
      h7.1 ▸ h7.2.symm, h8.1 ▸ h8.2.symm, h9.1 ▸ h9.2.symm, h10.1 ▸ h10.2.symm, h11.1 ▸ h11.2.symm, h12.1 ▸ h12.2.symm,
      h13.1 ▸ h13.2.symm, h14.1 ▸ h14.2.symm, h15.1 ▸ h15.2.symm, h16.1 ▸ h16.2.symm⟩
  · rintro ⟨⟨h1, h2, h3, h4, h5, h6, h7, h8, h9, h10, h11, h12, h13, h14, h15, h16⟩,
      n1, n2, n3, n4, n5, n6, n7, n8, n9, n10, n11, n12, n13, n14, n15, n16⟩
    rw [h1, h2, h3, h4, h5, h6, h7, h8, h9, h10, h11, h12, h13, h14, h15, h16]
    exact ⟨⟨⟨⟨⟨⟨⟨⟨⟨⟨⟨⟨⟨⟨⟨⟨rfl, Ne.symm n1⟩, rfl, Ne.symm n2⟩, rfl, Ne.symm n3⟩, rfl, Ne.symm n4⟩, rfl, Ne.symm n5⟩,
      rfl, Ne.symm n6⟩, rfl, Ne.symm n7⟩, rfl, Ne.symm n8⟩, rfl, Ne.symm n9⟩, rfl, Ne.symm n10⟩, rfl, Ne.symm n11⟩,
      rfl, Ne.symm n12⟩, rfl, Ne.symm n13⟩, rfl, Ne.symm n14⟩, rfl, Ne.symm n15⟩, rfl, Ne.symm n16⟩

theorem values_inj {a b : PidCoreContext} (h : a.values = b.values) : a = b := by
  cases a; cases b; simpa [PidCoreContext.values] using h

theorem not_changed_eq {a b : PidCoreContext} (h : ¬ Changed a b) : a = b :=
  values_inj (by by_contra hc; exact h (.inl hc))

/-- what `LogInit` does -/
theorem logInit_cases (env : CoreLogEnv) (name : String) (logs : CoreLogs) :
    ((logInit env name logs).1.length ≤ 1 ∧ (logInit env name logs).2.2 = logs ∧
      (logs.find? name = none ∨ env.enabled = false ∨ strClean name = "" ∨ name = "")) ∨
    (env.enabled = true ∧ ∃ log, logs.find? name = some log ∧ (logInit env name logs).1 = [] ∧
      (logInit env name logs).2.2 = logs.insert name { log with lastLog := 0, lastContext := PidCoreContext.zero }) ∨
    (env.enabled = true ∧ strClean name ≠ "" ∧ logs.find? name = none ∧ (∀ e ∈ logs.entries, e.2.nameClean ≠ strClean name) ∧
      (logInit env name logs).1 = [coreFile env.loggingPath (strClean name), coeffsFile env.loggingPath (strClean name)] ∧
      (logInit env name logs).2.2 = logs.insert name ⟨name, strClean name, 0, PidCoreContext.zero⟩) := by
  unfold logInit
  by_cases h1 : env.enabled = true
  swap
  · left; simp [h1]
  by_cases h2 : name = ""
  · left; simp [h1, h2]
  by_cases h3 : strClean name = ""
  · left; simp [h1, h2, h3]
  simp only [h1, h2, h3, Bool.not_true, Bool.false_eq_true, if_false]
  cases h4 : logs.find? name with
  | some log => right; left; exact ⟨trivial, log, rfl, rfl, rfl⟩
  | none =>
    dsimp only
    by_cases h5 : logs.entries.any (fun e => decide (e.2.nameClean = strClean name)) = true
    · left; simp only [h5, if_true]; simp
    · rw [if_neg h5]
      by_cases h6 : env.canOpen (coreFile env.loggingPath (strClean name)) = true
      swap
      · left; simp [h6]
      by_cases h7 : env.canOpen (coeffsFile env.loggingPath (strClean name)) = true
      swap
      · left; simp [h6, h7]
      right; right
      rw [if_neg (by simp [h6]), if_neg (by simp [h7])]
      refine ⟨trivial, h3, rfl, ?_, rfl, rfl⟩
      intro e he hc
      exact h5 (List.any_eq_true.2 ⟨e, he, by simp [hc]⟩)

/-- what must hold when `LogInit` opens a file -/
theorem logInit_opened {env : CoreLogEnv} {name : String} {logs : CoreLogs} {f : String} (hf : f ∈ (logInit env name logs).1) :
    strClean name ≠ "" ∧ logs.find? name = none ∧ (∀ e ∈ logs.entries, e.2.nameClean ≠ strClean name) ∧
      (f = coreFile env.loggingPath (strClean name) ∨ f = coeffsFile env.loggingPath (strClean name)) := by
  unfold logInit at hf
  by_cases h1 : env.enabled = true
  swap
  · simp [h1] at hf
  by_cases h2 : name = ""
  · simp [h1, h2] at hf
  by_cases h3 : strClean name = ""
  · simp [h1, h2, h3] at hf
  simp only [h1, h2, h3, Bool.not_true, Bool.false_eq_true, if_false] at hf
  cases h4 : logs.find? name with
  | some log => rw [h4] at hf; cases hf
  | none =>
    rw [h4] at hf
    dsimp only at hf
    by_cases h5 : logs.entries.any (fun e => decide (e.2.nameClean = strClean name)) = true
    · rw [if_pos h5] at hf; cases hf
    rw [if_neg h5] at hf
    refine ⟨h3, rfl, fun e he hc => h5 (List.any_eq_true.2 ⟨e, he, by simp [hc]⟩), ?_⟩
    by_cases h6 : env.canOpen (coreFile env.loggingPath (strClean name)) = true
    swap
    · simp [h6] at hf
    by_cases h7 : env.canOpen (coeffsFile env.loggingPath (strClean name)) = true
    · simpa [h6, h7] using hf
    · left; simpa [h6, h7] using hf

/-- files are opened by `LogInit` only -/
theorem pidNamed_opened {env : CoreLogEnv} {logs : CoreLogs} {name : String} {now : Int} {info : PidInfo}
    {input setpoint : Dbl} {f : String} (hf : f ∈ (pidNamed env logs name now info input setpoint).opened) :
    f ∈ (logInit env name logs).1 := by
  unfold pidNamed at hf
  dsimp only at hf
  cases hi : info.initialized
  · rw [hi] at hf
    simp only [Bool.not_false, if_true] at hf
    split at hf <;> exact hf
  · rw [hi] at hf
    simp only [Bool.not_true, Bool.false_eq_true, if_false] at hf
    split at hf <;> cases hf

structure CInv (enabled : Bool) (h : List CoreCall) (logs : CoreLogs) : Prop where
  wf : logs.WF
  log : ∀ n l, logs.find? n = some l → enabled = true ∧ l.nameClean = strClean n ∧ strClean n ≠ "" ∧
    (∃ c, (callsOf n h).getLast? = some c ∧ c.context = l.lastContext) ∧
    (∃ w, (writtenOf (callsOf n h)).getLast? = some w ∧ w.now = l.lastLog)
  apart : ∀ n l m k, logs.find? n = some l → logs.find? m = some k → l.nameClean = k.nameClean → n = m
  has : ∀ n, (∃ l, logs.find? n = some l) ↔ HasLog n h

theorem callsOf_snoc_ne {n : String} {c : CoreCall} (h : List CoreCall) (hn : c.name ≠ n) : callsOf n (h ++ [c]) = callsOf n h := by
  simp [callsOf, List.filter_append, hn]

theorem callsOf_snoc {c : CoreCall} (h : List CoreCall) : callsOf c.name (h ++ [c]) = callsOf c.name h ++ [c] := by
  simp [callsOf, List.filter_append]

theorem hasLog_snoc (n : String) (h : List CoreCall) (c : CoreCall) :
    HasLog n (h ++ [c]) ↔ HasLog n h ∨ (c.name = n ∧ c.opened.length = 2) := by
  simp [HasLog, or_and_right, exists_or]

/-- what a call finds: the log after `LogInit` -/
theorem afterInit {enabled : Bool} {path : String} {h : List CoreCall} {logs : CoreLogs} (i : CInv enabled h logs)
    (canOpen : String → Bool) (name : String) (fresh : Bool) {ini : List String × Bool × CoreLogs}
    (hini : ini = if fresh then logInit ⟨enabled, path, canOpen⟩ name logs else ([], false, logs)) :
    ini.2.2.WF ∧ (∀ n, n ≠ name → ini.2.2.find? n = logs.find? n) ∧
    ((ini.2.2.find? name = none ∧ logs.find? name = none ∧ ini.1.length ≠ 2) ∨
     (∃ l, ini.2.2.find? name = some l ∧ enabled = true ∧ l.nameClean = strClean name ∧ strClean name ≠ "" ∧
        (fresh = true → l.lastLog = 0) ∧ (fresh = false → logs.find? name = some l) ∧
        (logs.find? name = none → ini.1.length = 2) ∧ (∀ k, logs.find? name = some k → ini.1.length ≠ 2) ∧
        (∀ m k, m ≠ name → logs.find? m = some k → k.nameClean ≠ strClean name))) := by
  subst hini
  have ap : ∀ l0, logs.find? name = some l0 → ∀ m k, m ≠ name → logs.find? m = some k → k.nameClean ≠ strClean name := by
    intro l0 h0 m k hm hk hc
    exact hm (i.apart m k name l0 hk h0 (by rw [hc, (i.log name l0 h0).2.1]))
  cases fresh with
  | false =>
    rw [if_neg (by decide)]
    refine ⟨i.wf, fun _ _ => rfl, ?_⟩
    cases hf : logs.find? name with
    | none => left; exact ⟨rfl, rfl, by simp⟩
    | some l =>
      right
      obtain ⟨e1, e2, e3, -⟩ := i.log name l hf
      exact ⟨l, rfl, e1, e2, e3, by simp, fun _ => rfl, by simp, by simp, ap l hf⟩
  | true =>
    rw [if_pos rfl]
    rcases logInit_cases ⟨enabled, path, canOpen⟩ name logs with ⟨h1, h2, h3⟩ | ⟨h1, log, h2, h3, h4⟩ | ⟨h1, h2, h3, h4, h5, h6⟩
    · rw [h2]
      refine ⟨i.wf, fun _ _ => rfl, ?_⟩
      have hnone : logs.find? name = none := by
        rcases h3 with h3 | h3 | h3 | h3
        · exact h3
        · cases hf : logs.find? name with
          | none => rfl
          | some l => rw [(i.log name l hf).1] at h3; cases h3
        · cases hf : logs.find? name with
          | none => rfl
          | some l => exact absurd h3 (i.log name l hf).2.2.1
        · cases hf : logs.find? name with
          | none => rfl
          | some l => exact absurd (by rw [h3]; rfl) (i.log name l hf).2.2.1
      left
      exact ⟨hnone, hnone, by omega⟩
    · rw [h4, h3]
      obtain ⟨e1, e2, e3, -⟩ := i.log name log h2
      refine ⟨OMap.wf_insert i.wf _ _, fun n hn => OMap.find?_insert_ne _ hn _, .inr ⟨{ log with lastLog := 0, lastContext := PidCoreContext.zero }, ?_, e1, e2, e3, fun _ => rfl, by simp, ?_, by simp, ap log h2⟩⟩
      · simp [OMap.find?_insert]
      · simp [h2]
    · rw [h6, h5]
      refine ⟨OMap.wf_insert i.wf _ _, fun n hn => OMap.find?_insert_ne _ hn _, .inr ⟨⟨name, strClean name, 0, PidCoreContext.zero⟩, ?_, h1, rfl, h2, fun _ => rfl, by simp, fun _ => rfl, by simp [h3], ?_⟩⟩
      · simp [OMap.find?_insert]
      · intro m k _ hk
        exact h4 (m, k) ((OMap.mem_entries_iff i.wf m k).2 hk)

theorem cInv {enabled : Bool} {path : String} {h : List CoreCall} {logs : CoreLogs} (hr : CoreRun enabled path h logs) :
    CInv enabled h logs := by
  induction hr with
  | start =>
    have e0 : ∀ n : String, ((({} : CoreLogs)).find? n) = none := fun _ => rfl
    exact ⟨OMap.wf_empty, by simp [e0], by simp [e0], by simp [e0, HasLog]⟩
  | @call h logs canOpen name now info input setpoint r _ hp i =>
    unfold pidNamed at hp
    dsimp only at hp
    obtain ⟨awf, aother, acase⟩ := afterInit (path := path) i canOpen name (!info.initialized) rfl
    generalize (if (!info.initialized) = true then logInit ⟨enabled, path, canOpen⟩ name logs else ([], false, logs)) = ini at *
    rcases acase with ⟨a1, a2, a3⟩ | ⟨l, a1, a2, a3, a4, a5, a6, a7, a7', a8⟩
    · rw [a1] at hp
      dsimp only at hp
      subst hp
      dsimp only
      have same : ∀ n, ini.2.2.find? n = logs.find? n := by
        intro n
        by_cases hn : n = name
        · rw [hn, a1, a2]
        · exact aother n hn
      refine ⟨awf, ?_, ?_, ?_⟩
      · intro n l hl
        rw [same] at hl
        have hn : name ≠ n := by rintro rfl; rw [a2] at hl; cases hl
        rw [callsOf_snoc_ne h hn]
        exact i.log n l hl
      · intro n l m k hl hk
        rw [same] at hl hk
        exact i.apart n l m k hl hk
      · intro n
        rw [same, i.has, hasLog_snoc]
        simp [a3]
    · rw [a1] at hp
      dsimp only at hp
      subst hp
      dsimp only
      have find : ∀ n, (ini.2.2.insert name (logContext l now (pidContext info input setpoint)).2).find? n =
          if n = name then some (logContext l now (pidContext info input setpoint)).2 else logs.find? n := by
        intro n
        rw [OMap.find?_insert]
        split_ifs with hn
        · rfl
        · exact aother n hn
      have clean : (logContext l now (pidContext info input setpoint)).2.nameClean = strClean name := by
        unfold logContext
        dsimp only
        split_ifs <;> exact a3
      refine ⟨OMap.wf_insert awf _ _, ?_, ?_, ?_⟩
      · intro n l' hl'
        rw [find] at hl'
        by_cases hn : n = name
        · subst hn
          rw [if_pos rfl] at hl'
          obtain rfl := Option.some.inj hl'
          refine ⟨a2, clean, a4, ?_⟩
          rw [callsOf_snoc (c := ⟨n, now, !info.initialized, pidContext info input setpoint,
            (logContext l now (pidContext info input setpoint)).1, ini.1⟩) h]
          unfold writtenOf
          rw [List.filter_append]
          dsimp only
          by_cases hw : (logContext l now (pidContext info input setpoint)).1.isSome = true
          · refine ⟨⟨_, by rw [List.getLast?_append_cons]; rfl, ?_⟩, ⟨⟨n, now, !info.initialized, pidContext info input setpoint,
            (logContext l now (pidContext info input setpoint)).1, ini.1⟩, by simp [hw], ?_⟩⟩
            · revert hw; unfold logContext; dsimp only; split_ifs <;> simp
            · revert hw; unfold logContext; dsimp only; split_ifs <;> simp
          · have hsame : (logContext l now (pidContext info input setpoint)).2 = l ∧ l.lastLog ≠ 0 ∧
                l.lastContext.same (pidContext info input setpoint) = true := by
              revert hw
              unfold logContext
              dsimp only
              by_cases b1 : l.lastContext.same (pidContext info input setpoint) = true <;>
                by_cases b2 : l.lastLog = 0 <;> by_cases b3 : 60000 ≤ now - l.lastLog <;> simp [b1, b2, b3]
            obtain ⟨s1, s2, s3⟩ := hsame
            have hfr : (!info.initialized) = false := by
              by_contra hc
              exact s2 (a5 (by simpa using hc))
            obtain ⟨-, -, -, -, w, hw1, hw2⟩ := i.log n l (a6 hfr)
            refine ⟨⟨_, by rw [List.getLast?_append_cons]; rfl, ?_⟩, ⟨w, ?_, ?_⟩⟩
            · rw [s1]
              exact (not_changed_eq ((same_iff _ _).1 s3)).symm
            · have hnil : List.filter (fun c : CoreCall => c.line.isSome) [⟨n, now, !info.initialized,
                  pidContext info input setpoint, (logContext l now (pidContext info input setpoint)).1, ini.1⟩] = [] := by
                simp [hw]
              rw [hnil, List.append_nil]
              exact hw1
            · rw [s1]; exact hw2
        · rw [if_neg hn] at hl'
          rw [callsOf_snoc_ne h (fun e => hn e.symm)]
          exact i.log n l' hl'
      · intro n l1 m k hl hk hc
        rw [find] at hl hk
        by_cases hn : n = name <;> by_cases hm : m = name
        · rw [hn, hm]
        · rw [if_pos hn] at hl
          rw [if_neg hm] at hk
          obtain rfl := Option.some.inj hl
          exact absurd (hc.symm.trans clean) (a8 m k hm hk)
        · rw [if_neg hn] at hl
          rw [if_pos hm] at hk
          obtain rfl := Option.some.inj hk
          exact absurd (hc.trans clean) (a8 n l1 hn hl)
        · rw [if_neg hn] at hl
          rw [if_neg hm] at hk
          exact i.apart n l1 m k hl hk hc
      · intro n
        rw [find, hasLog_snoc, ← i.has]
        dsimp only
        by_cases hn : n = name
        · subst hn
          rw [if_pos rfl]
          cases hf : logs.find? n with
          | none => simp [a7 hf]
          | some k => simp
        · rw [if_neg hn]
          have : ¬ name = n := fun e => hn e.symm
          simp [this]

/-- a run that ends in a call -/
theorem CoreRun.last {enabled : Bool} {path : String} {h : List CoreCall} {c : CoreCall} {logs' : CoreLogs}
    (hr : CoreRun enabled path (h ++ [c]) logs') : ∃ logs canOpen info input setpoint, CoreRun enabled path h logs ∧
      c.fresh = !info.initialized ∧ c.context = pidContext info input setpoint ∧
      c.line = (pidNamed ⟨enabled, path, canOpen⟩ logs c.name c.now info input setpoint).line ∧
      c.opened = (pidNamed ⟨enabled, path, canOpen⟩ logs c.name c.now info input setpoint).opened := by
  generalize e : h ++ [c] = h' at hr
  cases hr with
  | start => simp at e
  | @call h logs canOpen name now info input setpoint r hr hp =>
    have := List.append_inj' e rfl
    obtain ⟨rfl, rfl⟩ : _ = h ∧ c = _ := ⟨this.1, by simpa using this.2⟩
    exact ⟨logs, canOpen, info, input, setpoint, hr, rfl, rfl, by rw [hp], by rw [hp]⟩

/-- **C70** A loop with log files writes a line exactly for the first computation of its controller, when something
changed from the previous computation (or is not a number), and when a minute passed since the last line. The line is
about this computation. -/
theorem C70_exact {enabled : Bool} {path : String} {h : List CoreCall} {c : CoreCall} {logs : CoreLogs}
    (hr : CoreRun enabled path (h ++ [c]) logs) (hnow : ∀ x ∈ h ++ [c], x.now ≠ 0) (hlog : HasLog c.name (h ++ [c])) :
    (c.line.isSome ↔ c.fresh = true ∨
      (∃ p, (callsOf c.name h).getLast? = some p ∧ Changed p.context c.context) ∨
      (∃ w, (writtenOf (callsOf c.name h)).getLast? = some w ∧ 60000 ≤ c.now - w.now)) ∧
    (∀ l, c.line = some l → l = (c.now, c.context)) := by
  obtain ⟨logs1, canOpen, info, input, setpoint, hr1, hfresh, hctx, hline, hopen⟩ := hr.last
  have i := cInv hr1
  unfold pidNamed at hline hopen
  dsimp only at hline hopen
  obtain ⟨-, -, acase⟩ := afterInit (path := path) i canOpen c.name (!info.initialized) rfl
  generalize (if (!info.initialized) = true then logInit ⟨enabled, path, canOpen⟩ c.name logs1 else ([], false, logs1)) = ini at *
  rcases acase with ⟨a1, a2, a3⟩ | ⟨l, a1, a2, a3, a4, a5, a6, a7, a7', a8⟩
  · exfalso
    rw [a1] at hopen
    rw [hasLog_snoc, ← i.has, a2, hopen] at hlog
    simp [a3] at hlog
  · rw [a1] at hline
    dsimp only at hline
    rw [← hctx] at hline
    constructor
    · rw [hline]
      by_cases hf : c.fresh = true
      · have h0 := a5 (hfresh ▸ hf)
        simp only [hf, true_or, iff_true]
        unfold logContext
        dsimp only
        rw [h0]
        split_ifs <;> simp_all
      · have hl := a6 (by rw [← hfresh]; simpa using hf)
        obtain ⟨-, -, -, ⟨p, hp1, hp2⟩, w, hw1, hw2⟩ := i.log _ _ hl
        have h0 : l.lastLog ≠ 0 := by
          rw [← hw2]
          have hmem : w ∈ h := by
            have := List.mem_of_getLast? hw1
            exact (List.mem_filter.1 (List.mem_filter.1 this).1).1
          exact hnow w (by simp [hmem])
        rw [hp1, hw1]
        have hch : Changed l.lastContext c.context ↔ l.lastContext.same c.context = false := by
          rw [← Bool.not_eq_true, same_iff, not_not]
        simp only [hf, Option.some.injEq, exists_eq_left', hp2, hw2, hch]
        unfold logContext
        dsimp only
        by_cases b1 : l.lastContext.same c.context = true <;>
          by_cases b3 : 60000 ≤ c.now - l.lastLog <;> simp [b1, h0, b3]
    · intro ln hl
      rw [hline] at hl
      revert hl
      unfold logContext
      dsimp only
      generalize (if (!l.lastContext.same c.context) = true then true else if l.lastLog = 0 then true else decide (60000 ≤ c.now - l.lastLog)) = b
      cases b <;> simp
      exact Eq.symm

/-- **C70** A loop without log files writes nothing. -/
theorem C70_unlogged {enabled : Bool} {path : String} {h : List CoreCall} {c : CoreCall} {logs : CoreLogs}
    (hr : CoreRun enabled path (h ++ [c]) logs) (hlog : ¬ HasLog c.name (h ++ [c])) : c.line = none := by
  obtain ⟨logs1, canOpen, info, input, setpoint, hr1, hfresh, hctx, hline, hopen⟩ := hr.last
  have i := cInv hr1
  unfold pidNamed at hline hopen
  dsimp only at hline hopen
  obtain ⟨-, -, acase⟩ := afterInit (path := path) i canOpen c.name (!info.initialized) rfl
  generalize (if (!info.initialized) = true then logInit ⟨enabled, path, canOpen⟩ c.name logs1 else ([], false, logs1)) = ini at *
  rcases acase with ⟨a1, a2, a3⟩ | ⟨l, a1, a2, a3, a4, a5, a6, a7, a7', a8⟩
  · rw [a1] at hline; exact hline
  · exfalso
    rw [a1] at hopen
    dsimp only at hopen
    rw [hasLog_snoc, ← i.has, hopen] at hlog
    cases hf : logs1.find? c.name with
    | none => rw [hf] at hlog; exact hlog (.inr ⟨rfl, a7 hf⟩)
    | some k => rw [hf] at hlog; exact hlog (.inl ⟨k, rfl⟩)

/-- **C76** Logging never influences the computation: output and controller state are those of the plain computation,
whatever the logs contain and whether or not files can be opened. -/
theorem C76_no_influence (env : CoreLogEnv) (logs : CoreLogs) (name : String) (now : Int) (info : PidInfo)
    (input setpoint : Dbl) :
    (pidNamed env logs name now info input setpoint).output = (pid info input setpoint).1 ∧
    (pidNamed env logs name now info input setpoint).info = (pid info input setpoint).2 := by
  unfold pidNamed
  dsimp only
  split <;> exact ⟨rfl, rfl⟩

/-- **C76** A line that is written tells input, set point and error, and its last columns are the integral and the output
the controller continues with. -/
theorem C76_line (env : CoreLogEnv) (logs : CoreLogs) (name : String) (now : Int) (info : PidInfo)
    (input setpoint : Dbl) {l : Int × PidCoreContext} (hl : (pidNamed env logs name now info input setpoint).line = some l) :
    l.1 = now ∧ l.2.input = input ∧ l.2.setpoint = setpoint ∧ l.2.error = setpoint - input ∧
    l.2.proportionalTerm = info.proportionalCoeff * (setpoint - input) ∧
    l.2.output = (pidNamed env logs name now info input setpoint).output ∧
    l.2.output = (pidNamed env logs name now info input setpoint).info.lastOutput ∧
    l.2.integralTerm = (pidNamed env logs name now info input setpoint).info.integral ∧
    l.2.error = (pidNamed env logs name now info input setpoint).info.lastError ∧
    l.2.output2 = limited (l.2.proportionalTerm + l.2.integralTerm2 + l.2.derivativeTerm + l.2.feedFwdTerm)
      info.outLim.min info.outLim.max := by
  obtain ⟨e1, e2⟩ := C76_no_influence env logs name now info input setpoint
  rw [e1, e2]
  have hle : l = (now, pidContext info input setpoint) := by
    unfold pidNamed at hl
    dsimp only at hl
    split at hl
    · cases hl
    · unfold logContext at hl
      dsimp only at hl
      revert hl
      generalize (if (!PidCoreContext.same _ _) = true then true else _) = b
      cases b <;> simp
      exact Eq.symm
  subst hle
  refine ⟨rfl, rfl, rfl, rfl, rfl, ?_, ?_, ?_, rfl, rfl⟩
  all_goals
    unfold pidContext pid
    dsimp only
    by_cases h1 : info.initialized = true <;> by_cases h2 : nonZero info.slewNeg = true <;>
      by_cases h3 : nonZero info.slewPos = true <;> by_cases h4 : nonZero info.integralCoeff = true <;>
      simp [h1, h2, h3, h4]

/-- characters that can do no harm in a file name -/
def safeChars : List Char := "ABCDEFGHIJKLMNOPQRSTUVWXYZabcdefghijklmnopqrstuvwxyz0123456789".toList

theorem charValid_iff (c : Char) : charValid c = true ↔ c ∈ safeChars := by
  have hn : ∀ a b : Char, a ≤ b ↔ a.toNat ≤ b.toNat := fun a b => Iff.rfl
  constructor
  · intro h
    have : (65 ≤ c.toNat ∧ c.toNat ≤ 90) ∨ (97 ≤ c.toNat ∧ c.toNat ≤ 122) ∨ (48 ≤ c.toNat ∧ c.toNat ≤ 57) := by
      simp only [charValid, Bool.or_eq_true, Bool.and_eq_true, decide_eq_true_eq, hn] at h
      rcases h with (⟨h1, h2⟩ | ⟨h1, h2⟩) | ⟨h1, h2⟩
      · exact .inl ⟨h1, h2⟩
      · exact .inr (.inl ⟨h1, h2⟩)
      · exact .inr (.inr ⟨h1, h2⟩)
    have hc : c = Char.ofNat c.toNat := (Char.ofNat_toNat c).symm
    rw [hc]
    generalize c.toNat = k at this
    have hk : k < 123 := by omega
    clear * - this hk
    have all : ∀ k : Fin 123, ((65 ≤ k.1 ∧ k.1 ≤ 90) ∨ (97 ≤ k.1 ∧ k.1 ≤ 122) ∨ (48 ≤ k.1 ∧ k.1 ≤ 57)) →
        Char.ofNat k.1 ∈ safeChars := by decide +kernel
    exact all ⟨k, hk⟩ this
  · have : ∀ x ∈ safeChars, charValid x = true := by decide +kernel
    exact this c

theorem strClean_safe (s : String) : ∀ c ∈ (strClean s).toList, c ∈ safeChars := by
  intro c hc
  unfold strClean at hc
  rw [String.toList_ofList] at hc
  exact (charValid_iff c).1 (List.mem_filter.1 hc).2

theorem append_left_inj {a b c : String} (h : a ++ b = a ++ c) : b = c := by
  have := congrArg String.toList h
  rw [String.toList_append, String.toList_append] at this
  exact String.toList_inj.1 (List.append_cancel_left this)

theorem core_ne_coeffs (path a b : String) : coreFile path a ≠ coeffsFile path b := by
  intro h
  unfold coreFile coeffsFile at h
  rw [String.append_assoc, String.append_assoc] at h
  have h1 := congrArg String.toList (append_left_inj h)
  rw [String.toList_append, String.toList_append] at h1
  have e1 : "/pidcore.".toList = ['/', 'p', 'i', 'd', 'c', 'o', 'r', 'e', '.'] := by decide +kernel
  have e2 : "/pidcoeffs.".toList = ['/', 'p', 'i', 'd', 'c', 'o', 'e', 'f', 'f', 's', '.'] := by decide +kernel
  rw [e1, e2] at h1
  simp at h1

/-- **C71** Files are only opened for the loop's own, nonempty, name made of letters and digits, in the log directory. -/
theorem C71_names {enabled : Bool} {path : String} {h : List CoreCall} {c : CoreCall} {logs : CoreLogs}
    (hr : CoreRun enabled path (h ++ [c]) logs) : ∀ f ∈ c.opened, ∃ clean : String, clean ≠ "" ∧
      (∀ x ∈ clean.toList, x ∈ safeChars) ∧ clean.toList = c.name.toList.filter (fun x => decide (x ∈ safeChars)) ∧
      (f = path ++ "/pidcore." ++ clean ∨ f = path ++ "/pidcoeffs." ++ clean) := by
  obtain ⟨logs1, canOpen, info, input, setpoint, hr1, hfresh, hctx, hline, hopen⟩ := hr.last
  intro f hf
  rw [hopen] at hf
  obtain ⟨hne, -, -, hfile⟩ := logInit_opened (pidNamed_opened hf)
  refine ⟨strClean c.name, hne, strClean_safe _, ?_, hfile⟩
  unfold strClean
  rw [String.toList_ofList]
  congr 1; funext x
  cases hv : charValid x
  · symm; rw [decide_eq_false_iff_not, ← charValid_iff, hv]; decide
  · symm; rw [decide_eq_true_eq, ← charValid_iff]; exact hv

/-- **C71** No two loops share a file: a file opened by a call is not a file of another call that got its log files, whether
of another loop or of the same one. -/
theorem C71_distinct {enabled : Bool} {path : String} {h1 h2 : List CoreCall} {a b : CoreCall} {logs : CoreLogs}
    (hr : CoreRun enabled path (h1 ++ a :: h2 ++ [b]) logs) (ha : a.opened.length = 2) :
    ∀ f ∈ a.opened, f ∉ b.opened := by
  obtain ⟨logs1, canOpen, info, input, setpoint, hr1, hfresh, hctx, hline, hopen⟩ := hr.last
  have i := cInv hr1
  have hra : ∀ (h2 : List CoreCall) (logs : CoreLogs), CoreRun enabled path (h1 ++ a :: h2) logs →
      ∃ logs', CoreRun enabled path (h1 ++ [a]) logs' := by
    intro h2
    induction h2 using List.reverseRecOn with
    | nil => exact fun logs h => ⟨logs, h⟩
    | append_singleton xs x ih =>
      intro logs h
      rw [← List.cons_append, ← List.append_assoc] at h
      obtain ⟨l, _, _, _, _, hl, _⟩ := h.last
      exact ih l hl
  obtain ⟨logs2, hr2⟩ := hra h2 logs1 hr1
  -- the log of `a` is still there
  obtain ⟨la, hla⟩ := (i.has a.name).2 ⟨a, by simp, rfl, ha⟩
  obtain ⟨-, hla2, -⟩ := i.log _ _ hla
  intro f hfa hfb
  obtain ⟨clean, hne, -, hcl, hfile⟩ := C71_names hr2 f hfa
  obtain ⟨clean', hne', -, hcl', hfile'⟩ := C71_names hr f hfb
  have eclean : clean = clean' := by
    rcases hfile with e | e <;> rcases hfile' with e' | e'
    · exact append_left_inj (e.symm.trans e')
    · exact absurd (e.symm.trans e') (core_ne_coeffs path clean clean')
    · exact absurd (e'.symm.trans e) (core_ne_coeffs path clean' clean)
    · exact append_left_inj (e.symm.trans e')
  have hc : ∀ s : String, strClean s = String.ofList (s.toList.filter (fun x => decide (x ∈ safeChars))) := by
    intro s
    unfold strClean
    congr 2; funext x
    cases hv : charValid x
    · symm; rw [decide_eq_false_iff_not, ← charValid_iff, hv]; decide
    · symm; rw [decide_eq_true_eq, ← charValid_iff]; exact hv
  have hsc : strClean a.name = strClean b.name := by
    rw [hc, hc, ← hcl, ← hcl', eclean]
  -- `b` opened a file, so its clean name was not in use
  rw [hopen] at hfb
  obtain ⟨-, -, hb, -⟩ := logInit_opened (pidNamed_opened hfb)
  exact hb (a.name, la) ((OMap.mem_entries_iff i.wf _ _).2 hla) (hla2.trans hsc)

/-- **C71** A loop gets its files on the first computation of its controller if logging is on, its name contains a letter
or digit, no other loop with the same letters and digits has files, and both files can be opened. -/
theorem C71_opened {enabled : Bool} {path : String} {h : List CoreCall} {logs : CoreLogs} (hr : CoreRun enabled path h logs)
    (canOpen : String → Bool) (name : String) (now : Int) {info : PidInfo} (input setpoint : Dbl)
    (hi : info.initialized = false) (he : enabled = true) (hname : ∃ x ∈ name.toList, x ∈ safeChars)
    (hother : ∀ m, HasLog m h → m.toList.filter (fun x => decide (x ∈ safeChars)) ≠ name.toList.filter (fun x => decide (x ∈ safeChars)))
    (hopen : ∀ f, canOpen f = true) :
    (pidNamed ⟨enabled, path, canOpen⟩ logs name now info input setpoint).opened =
      [path ++ "/pidcore." ++ String.ofList (name.toList.filter (fun x => decide (x ∈ safeChars))),
       path ++ "/pidcoeffs." ++ String.ofList (name.toList.filter (fun x => decide (x ∈ safeChars)))] ∧
    (pidNamed ⟨enabled, path, canOpen⟩ logs name now info input setpoint).line.isSome := by
  have i := cInv hr
  have hfil : name.toList.filter (fun x => decide (x ∈ safeChars)) = (strClean name).toList := by
    unfold strClean
    rw [String.toList_ofList]
    congr 1; funext x
    cases hv : charValid x
    · rw [decide_eq_false_iff_not, ← charValid_iff, hv]; decide
    · rw [decide_eq_true_eq, ← charValid_iff]; exact hv
  have hfil' : ∀ m : String, m.toList.filter (fun x => decide (x ∈ safeChars)) = (strClean m).toList := by
    intro m
    unfold strClean
    rw [String.toList_ofList]
    congr 1; funext x
    cases hv : charValid x
    · rw [decide_eq_false_iff_not, ← charValid_iff, hv]; decide
    · rw [decide_eq_true_eq, ← charValid_iff]; exact hv
  have hne : strClean name ≠ "" := by
    intro h0
    obtain ⟨x, hx, hs⟩ := hname
    have : x ∈ name.toList.filter (fun x => decide (x ∈ safeChars)) := List.mem_filter.2 ⟨hx, by simpa using hs⟩
    rw [hfil, h0] at this
    simp at this
  have hn0 : name ≠ "" := by
    rintro rfl
    obtain ⟨x, hx, -⟩ := hname
    simp at hx
  have hnone : logs.find? name = none := by
    cases hf : logs.find? name with
    | none => rfl
    | some l => exact absurd rfl (hother name ((i.has name).1 ⟨l, hf⟩))
  have hany : logs.entries.any (fun e => decide (e.2.nameClean = strClean name)) = false := by
    rw [← Bool.not_eq_true]
    intro ha
    obtain ⟨e, hmem, hc⟩ := List.any_eq_true.1 ha
    have hfe := (OMap.mem_entries_iff i.wf e.1 e.2).1 hmem
    refine hother e.1 ((i.has _).1 ⟨_, hfe⟩) ?_
    rw [hfil, hfil', ← (i.log _ _ hfe).2.1, of_decide_eq_true hc]
  rw [hfil, String.ofList_toList]
  have hli : logInit ⟨enabled, path, canOpen⟩ name logs = ([coreFile path (strClean name), coeffsFile path (strClean name)], true,
      logs.insert name ⟨name, strClean name, 0, PidCoreContext.zero⟩) := by
    unfold logInit
    dsimp only
    rw [hnone]
    dsimp only
    simp only [hany, hopen, he, hn0, hne, Bool.not_true, Bool.false_eq_true, if_false]
  unfold pidNamed
  dsimp only
  rw [hi, hli]
  simp only [Bool.not_false, if_true]
  have hf : (logs.insert name ⟨name, strClean name, 0, PidCoreContext.zero⟩).find? name =
      some ⟨name, strClean name, 0, PidCoreContext.zero⟩ := by simp [OMap.find?_insert]
  rw [hf]
  dsimp only
  refine ⟨rfl, ?_⟩
  unfold logContext
  dsimp only
  split_ifs <;> simp_all

end

section
attribute [local instance] binary64

def exCoreInfo (init : Bool) (out : Dbl) : PidInfo :=
  { initializePIDStruct ⟨false, Dbl.ofInt 1, Dbl.ofInt 2, 0, 0, 0, 0, ⟨0, 0⟩, ⟨0, Dbl.ofInt 100⟩, 0, 0, 0, 0⟩ with
    initialized := init, lastOutput := out }

def exEnv : CoreLogEnv := ⟨true, "/tmp", fun _ => true⟩

/-- calls one after the other: name, time, first call or not, input -/
def coreAll : List (String × Int × Bool × Int) → CoreLogs → List (List String × Bool)
  | [], _ => []
  | (name, now, init, input) :: rest, logs =>
    let r := pidNamed exEnv logs name now (exCoreInfo init 0) (Dbl.ofInt input) (Dbl.ofInt 40)
    (r.opened, r.line.isSome) :: coreAll rest r.logs

/-- The first computation, a change and a minute without a line are logged, an unchanged computation is not. -/
example : coreAll [("fan 1", 1000, false, 30), ("fan 1", 2000, true, 30), ("fan 1", 3000, true, 31), ("fan 1", 62999, true, 31),
      ("fan 1", 63000, true, 31)] {} =
    [(["/tmp/pidcore.fan1", "/tmp/pidcoeffs.fan1"], true), ([], false), ([], true), ([], false), ([], true)] := by
  decide +kernel

/-- A second loop whose name has the same letters gets no files and writes nothing. -/
example : coreAll [("fan 1", 1000, false, 30), ("fan_1", 1000, false, 30), ("fan 2", 1000, false, 30)] {} =
    [(["/tmp/pidcore.fan1", "/tmp/pidcoeffs.fan1"], true), ([], false), (["/tmp/pidcore.fan2", "/tmp/pidcoeffs.fan2"], true)] := by
  decide +kernel

end
end Verif
