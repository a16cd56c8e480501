import Verif.Spec.ZoneLog
import Verif.Lemmas.Drive
import Verif.Lemmas.Profile

/-! # Helper lemmas about the log file of a zone -/

namespace Verif
variable [F : FloatModel]
open Dbl

/-! ## Tables -/

/-- cells with a comma before each -/
def cat (l : List (List Char)) : List Char := l.flatMap (fun c => ',' :: c)

omit F in
theorem cat_append (a b : List (List Char)) : cat (a ++ b) = cat a ++ cat b := List.flatMap_append

omit F in
theorem cat_flatten (l : List (List (List Char))) : cat l.flatten = l.flatMap cat := by
  induction l with
  | nil => rfl
  | cons a l ih => rw [List.flatten_cons, cat_append, ih, List.flatMap_cons]

omit F in
theorem intercalate_cat (c : List Char) (l : List (List Char)) : [','].intercalate (c :: l) = c ++ cat l := by
  induction l generalizing c with
  | nil => simp [cat]
  | cons a l ih => rw [List.intercalate_cons_cons, ih]; simp [cat]

omit F in
theorem splitOn_cat {c : List Char} {l : List (List Char)} (hc : ',' ∉ c) (h : ∀ x ∈ l, ',' ∉ x) :
    (c ++ cat l).splitOn ',' = c :: l := by
  rw [← intercalate_cat, List.splitOn_intercalate]
  · intro x hx
    rcases List.mem_cons.1 hx with rfl | hx
    · exact hc
    · exact h x hx
  · simp

/-- terminated lines -/
def unlines (l : List (List Char)) : List Char := l.flatMap (· ++ ['\n'])

omit F in
theorem splitOn_unlines {l : List (List Char)} (h : ∀ x ∈ l, '\n' ∉ x) : (unlines l).splitOn '\n' = l ++ [[]] := by
  have e : unlines l = ['\n'].intercalate (l ++ [[]]) := by
    induction l with
    | nil => simp [unlines]
    | cons a l ih =>
      have := ih (fun x hx => h x (List.mem_cons_of_mem _ hx))
      cases l with
      | nil => simp [unlines, List.intercalate_cons_cons]
      | cons b l =>
        rw [List.cons_append, List.cons_append, List.intercalate_cons_cons, ← List.cons_append, ← this]
        simp [unlines]
  rw [e, List.splitOn_intercalate]
  · intro x hx
    rcases List.mem_append.1 hx with hx | hx
    · exact h x hx
    · simp [List.mem_singleton.1 hx]
  · simp

omit F in
theorem newline_cat {c : List Char} {l : List (List Char)} (hc : '\n' ∉ c) (h : ∀ x ∈ l, '\n' ∉ x) :
    '\n' ∉ c ++ cat l := by
  simp only [cat, List.mem_append, List.mem_flatMap, List.mem_cons, not_or, not_exists, not_and]
  exact ⟨hc, fun x hx => ⟨by decide, h x hx⟩⟩

/-- the line made of some cells -/
def lineOf : List (List Char) → List Char
  | [] => []
  | c :: l => c ++ cat l

omit F in
theorem isTable_of {rows : List (List (List Char))} (h : ∀ r ∈ rows, r ≠ [] ∧ ∀ c ∈ r, Plain c) :
    IsTable (unlines (rows.map lineOf)) rows := by
  refine ⟨rows.map lineOf, splitOn_unlines ?_, ?_⟩
  · intro x hx
    obtain ⟨r, hr, rfl⟩ := List.mem_map.1 hx
    obtain ⟨h1, h2⟩ := h r hr
    cases r with
    | nil => exact absurd rfl h1
    | cons c l => exact newline_cat (h2 c List.mem_cons_self).2 (fun y hy => (h2 y (List.mem_cons_of_mem _ hy)).2)
  · rw [List.map_map]
    refine (List.map_id rows).symm.trans (List.map_congr_left (fun r hr => ?_))
    obtain ⟨h1, h2⟩ := h r hr
    symm
    cases r with
    | nil => exact absurd rfl h1
    | cons c l => exact splitOn_cat (h2 c List.mem_cons_self).1 (fun y hy => (h2 y (List.mem_cons_of_mem _ hy)).1)

/-! ## The header -/

theorem initializeLog_eq (z : ZoneData) : z.initializeLog = lineOf (headerRow z) ++ ['\n'] := by
  have h1 : ∀ l : List String, cat ((l.flatMap (fun n => [n, n ++ "_raw", n ++ "_pwm", n ++ "_pwm_raw"])).map String.toList) =
      l.flatMap ZoneData.fanHeader := by
    intro l
    induction l with
    | nil => rfl
    | cons n l ih =>
      rw [List.flatMap_cons, List.map_append, cat_append, ih, List.flatMap_cons]
      simp [cat, ZoneData.fanHeader]
  have h2 : ∀ l : List String, cat ((l.flatMap (fun n => [n, n ++ "_raw"])).map String.toList) =
      l.flatMap ZoneData.thermalHeader := by
    intro l
    induction l with
    | nil => rfl
    | cons n l ih =>
      rw [List.flatMap_cons, List.map_append, cat_append, ih, List.flatMap_cons]
      simp [cat, ZoneData.thermalHeader]
  unfold headerRow ZoneData.initializeLog
  rw [List.map_append, List.map_append, List.map_append]
  have e : ["epoch_ms", "setpt", "requester"].map String.toList =
      "epoch_ms".toList :: ["setpt", "requester"].map String.toList := rfl
  rw [e]
  simp only [List.cons_append, lineOf]
  rw [cat_append, cat_append, cat_append, h1, h2]
  have e2 : "epoch_ms,setpt,requester".toList = "epoch_ms".toList ++ cat (["setpt", "requester"].map String.toList) := by
    decide
  have e3 : cat (["failsafe"].map String.toList) = ",failsafe".toList := by decide
  rw [e2, e3]
  simp

/-! ## Polling with logging -/

theorem cacheAt_some {m : OMap String CacheEntry} {k : String} {e : CacheEntry} (h : m.find? k = some e) :
    cacheAt m k = (e, m) := by simp [cacheAt, h]

theorem inputLog_fst {f : LogFmt} {w : World} {now : Int} {z : ZoneData} {n : String} {out : CacheEntry}
    (h : z.cachedFanOutputs.find? n = some out) :
    (z.processSensorInputLog f w now n).map Prod.fst = z.processSensorInput w now n := by
  unfold ZoneData.processSensorInputLog ZoneData.processSensorInput
  cases w.getSensor n with
  | error e => rfl
  | ok s =>
    simp only [ok_bind]
    cases s.read w now with
    | error e => rfl
    | ok r =>
      simp only [ok_bind, cacheAt_some h, cacheAt_some (OMap.find?_insert_self _ _ _)]
      cases s.getFailed w with
      | error e => rfl
      | ok b =>
        simp only [ok_bind]
        cases b
        · simp only [Bool.false_eq_true, if_false]
          split_ifs <;> rfl
        · simp only [if_true]
          cases s.getFailReason <;> rfl

theorem inputLog_text {f : LogFmt} {w : World} {now : Int} {z z' : ZoneData} {n : String} {out : CacheEntry} {text : List Char}
    (h : z.cachedFanOutputs.find? n = some out) (hl : z.processSensorInputLog f w now n = .ok (z', text)) :
    ∃ s r, w.sensors.find? n = some s ∧ s.read w now = .ok r ∧
      text = cat [f.dbl r.value, f.dbl r.unscaled, f.dbl out.scaled, f.dbl out.unscaled] := by
  unfold ZoneData.processSensorInputLog at hl
  obtain ⟨s, hs, hl⟩ := bind_eq_ok.1 hl
  obtain ⟨r, hr, hl⟩ := bind_eq_ok.1 hl
  refine ⟨s, r, (OMap.atKey_ok_iff _ _ _).1 hs, hr, ?_⟩
  simp only [cacheAt_some h, cacheAt_some (OMap.find?_insert_self _ _ _)] at hl
  have e : f.entry ⟨r.value, r.unscaled⟩ ++ f.entry out =
      cat [f.dbl r.value, f.dbl r.unscaled, f.dbl out.scaled, f.dbl out.unscaled] := by
    simp [LogFmt.entry, cat]
  obtain ⟨b, _, hl⟩ := bind_eq_ok.1 hl
  cases b
  · simp only [Bool.false_eq_true, if_false] at hl
    split_ifs at hl <;> (cases hl; exact e)
  · simp only [if_true] at hl
    obtain ⟨x, _, hl⟩ := bind_eq_ok.1 hl
    cases hl
    exact e

theorem input_outputs {w : World} {now : Int} {z z' : ZoneData} {n : String} (h : z.processSensorInput w now n = .ok z') :
    z'.cachedFanOutputs = z.cachedFanOutputs := by rw [(poll_spec h).frame.eq]

theorem inputsLog_fst {f : LogFmt} {w : World} {now : Int} : ∀ {names : List String} {z : ZoneData},
    (∀ n ∈ names, ∃ out, z.cachedFanOutputs.find? n = some out) →
    (z.processSensorInputsLog f w now names).map Prod.fst = z.processSensorInputs w now names
  | [], _, _ => rfl
  | n :: names, z, h => by
    obtain ⟨out, ho⟩ := h n List.mem_cons_self
    have h1 := inputLog_fst (f := f) (w := w) (now := now) ho
    unfold ZoneData.processSensorInputsLog ZoneData.processSensorInputs
    rw [← h1]
    cases hl : z.processSensorInputLog f w now n with
    | error e => rfl
    | ok a =>
      have hz : z.processSensorInput w now n = .ok a.1 := by rw [← h1, hl]; rfl
      have := inputsLog_fst (f := f) (w := w) (now := now) (names := names) (z := a.1)
        (fun m hm => by rw [input_outputs hz]; exact h m (List.mem_cons_of_mem _ hm))
      simp only [ok_bind, Except.map]
      rw [← this]
      cases a.1.processSensorInputsLog f w now names <;> rfl

theorem inputsLog_text {f : LogFmt} {w : World} {now : Int} : ∀ {names : List String} {z z' : ZoneData} {text : List Char},
    (∀ n ∈ names, ∃ out, z.cachedFanOutputs.find? n = some out) →
    z.processSensorInputsLog f w now names = .ok (z', text) →
    ∃ cells : List (List (List Char)), List.Forall₂ (fun n cs => ∃ s r out, w.sensors.find? n = some s ∧
        s.read w now = .ok r ∧ z.cachedFanOutputs.find? n = some out ∧
        cs = [f.dbl r.value, f.dbl r.unscaled, f.dbl out.scaled, f.dbl out.unscaled]) names cells ∧
      text = cat cells.flatten
  | [], z, z', text, _, hl => by cases hl; exact ⟨[], .nil, rfl⟩
  | n :: names, z, z', text, h, hl => by
    obtain ⟨out, ho⟩ := h n List.mem_cons_self
    unfold ZoneData.processSensorInputsLog at hl
    obtain ⟨⟨z1, t1⟩, h1, hl⟩ := bind_eq_ok.1 hl
    obtain ⟨⟨z2, t2⟩, h2, hl⟩ := bind_eq_ok.1 hl
    cases hl
    have hz : z.processSensorInput w now n = .ok z1 := by rw [← inputLog_fst (f := f) ho, h1]; rfl
    have he := input_outputs hz
    obtain ⟨s, r, a1, a2, a3⟩ := inputLog_text ho h1
    obtain ⟨cells, b1, b2⟩ := inputsLog_text (fun m hm => by rw [he]; exact h m (List.mem_cons_of_mem _ hm)) h2
    rw [he] at b1
    refine ⟨_ :: cells, .cons ⟨s, r, out, a1, a2, ho, rfl⟩ b1, ?_⟩
    rw [List.flatten_cons, cat_append, ← b2, ← a3]

theorem logThermals_eq {f : LogFmt} : ∀ {names : List String} {z : ZoneData},
    (∀ n ∈ names, ∃ e, z.cachedValuesByName.find? n = some e) →
    ∃ cells : List (List (List Char)), List.Forall₂ (fun n cs => ∃ e : CacheEntry, z.cachedValuesByName.find? n = some e ∧
        cs = [f.dbl e.scaled, f.dbl e.unscaled]) names cells ∧ z.logThermals f names = (z, cat cells.flatten)
  | [], z, _ => ⟨[], .nil, rfl⟩
  | n :: names, z, h => by
    obtain ⟨e, he⟩ := h n List.mem_cons_self
    obtain ⟨cells, h1, h2⟩ := logThermals_eq (f := f) (names := names) (z := z) (fun m hm => h m (List.mem_cons_of_mem _ hm))
    refine ⟨_ :: cells, .cons ⟨e, he, rfl⟩ h1, ?_⟩
    unfold ZoneData.logThermals
    rw [cacheAt_some he]
    have hz : { z with cachedValuesByName := z.cachedValuesByName } = z := rfl
    simp only [h2]
    rw [List.flatten_cons, cat_append]
    simp [LogFmt.entry, cat]

/-! ## What a history says about the caches -/

/-- caches of a zone after polling passes `log` -/
structure CacheInv (d0 z : ZoneData) (log : List Poll) : Prop where
  outputs : ∀ n ∈ d0.fanInputs, ∃ e, z.cachedFanOutputs.find? n = some e
  values : ∀ n, n ∈ d0.fanInputs ∨ n ∈ d0.thermalInputs → ∃ e, z.cachedValuesByName.find? n = some e ∧
    ∀ p, lastPoll log n = some p → ∃ r, ReadIn p n r ∧ e = ⟨r.value, r.unscaled⟩

theorem CacheInv.poll {d0 z z' : ZoneData} {log : List Poll} (h : CacheInv d0 z log) {w : World} {now : Int}
    {names : List String} (hp : z.processSensorInputs w now names = .ok z') : CacheInv d0 z' (log ++ [⟨w, now, names⟩]) := by
  have a := pollAll_spec hp
  have eo : z'.cachedFanOutputs = z.cachedFanOutputs := by rw [a.frame.eq]
  refine ⟨by rw [eo]; exact h.outputs, fun n hn => ?_⟩
  rw [lastPoll_append]
  by_cases hin : n ∈ names
  · obtain ⟨s, r, _, h1, h2, _, h4⟩ := a.sensor n hin
    refine ⟨_, h4, fun p hp => ?_⟩
    simp only [hin, if_true, Option.some.injEq] at hp
    subst hp
    exact ⟨r, ⟨s, h1, h2⟩, rfl⟩
  · rw [(a.other n hin).2]
    simp only [hin, if_false]
    exact h.values n hn

theorem CacheInv.rest {d0 z z' : ZoneData} {log : List Poll} (h : CacheInv d0 z log) (hr : Rest z z')
    (ho : ∀ n, (∃ e, z.cachedFanOutputs.find? n = some e) → ∃ e, z'.cachedFanOutputs.find? n = some e) :
    CacheInv d0 z' log := by
  refine ⟨fun n hn => ho n (h.outputs n hn), ?_⟩
  rw [hr.cache]; exact h.values

theorem writeFans_outputs {raw0 : Res Int} {v : Dbl} : ∀ {ns : List String} {w w' : World} {z z' : ZoneData},
    writeFans raw0 v w z ns = .ok (w', z') → ∀ n, (∃ e, z.cachedFanOutputs.find? n = some e) →
      ∃ e, z'.cachedFanOutputs.find? n = some e
  | [], _, _, _, _, h => by cases h; exact fun _ => id
  | m :: ns, w, w', z, z', h => by
    unfold writeFans at h
    obtain ⟨⟨w1, sn, wr⟩, _, h⟩ := bind_eq_ok.1 h
    obtain ⟨raw, _, h⟩ := bind_eq_ok.1 h
    intro n hn
    refine writeFans_outputs h n ?_
    simp only [ZoneData.setOutputCache, OMap.find?_insert]
    split_ifs
    · exact ⟨_, rfl⟩
    · exact hn

theorem fanList_outputs {o : Opts} : ∀ {cs cs' : List (Option FanPid)} {w w' : World} {z z' : ZoneData},
    processFanList o w z cs = .ok (w', z', cs') → ∀ n, (∃ e, z.cachedFanOutputs.find? n = some e) →
      ∃ e, z'.cachedFanOutputs.find? n = some e
  | [], _, _, _, _, _, h => by cases h; exact fun _ => id
  | none :: _, _, _, _, _, _, h => by cases h
  | some c :: cs, _, w, w', z, z', h => by
    unfold processFanList at h
    obtain ⟨⟨w1, z1, c1⟩, h1, h⟩ := bind_eq_ok.1 h
    obtain ⟨⟨w2, z2, cs2⟩, h2, h⟩ := bind_eq_ok.1 h
    cases h
    unfold FanPid.process at h1
    obtain ⟨i, hi, h1⟩ := bind_eq_ok.1 h1
    obtain ⟨⟨w3, z3⟩, h3, h1⟩ := bind_eq_ok.1 h1
    cases h1
    exact fun n hn => fanList_outputs h2 n (writeFans_outputs h3 n hn)

theorem CacheInv.fans {o : Opts} {w w' : World} {d0 : ZoneData} {z z' : Zone} {log : List Poll} (h : CacheInv d0 z.d log)
    (hf : z.processFans o w = .ok (w', z')) : CacheInv d0 z'.d log := by
  refine h.rest (processFans_rest hf).1 ?_
  unfold Zone.processFans at hf
  obtain ⟨⟨w1, d1, fs⟩, h1, hf⟩ := bind_eq_ok.1 hf
  cases hf
  have := fanList_outputs h1
  exact this

theorem CacheInv.thermals {o : Opts} {w : World} {d0 : ZoneData} {z z' : Zone} {log : List Poll} (h : CacheInv d0 z.d log)
    (hp : z.processThermals o w = .ok z') : CacheInv d0 z'.d (log ++ [⟨w, w.nowThermals, z.d.thermalInputs⟩]) := by
  obtain ⟨d, h1, h2⟩ := processThermals_restT hp
  have e : z'.d.cachedFanOutputs = d.cachedFanOutputs := by rw [h2]
  exact (h.poll h1).rest h2.rest (fun n hn => by rw [e]; exact hn)

theorem initializeCache_outputs (z : ZoneData) : ∀ n, z.initializeCache.cachedFanOutputs.find? n =
    if n ∈ z.fanInputs then some ⟨nan, nan⟩ else z.cachedFanOutputs.find? n := by
  have m : ∀ (z : ZoneData) (n r : String), (z.markSensorMissing n r).cachedFanOutputs = z.cachedFanOutputs := by
    intro z n r
    unfold ZoneData.markSensorMissing
    split_ifs <;> rfl
  have h1 : ∀ (l : List String) (z : ZoneData) n, (l.foldl initFan z).cachedFanOutputs.find? n =
      if n ∈ l then some ⟨nan, nan⟩ else z.cachedFanOutputs.find? n := by
    intro l
    induction l with
    | nil => intros; simp
    | cons a l ih =>
      intro z n
      rw [List.foldl_cons, ih]
      simp only [initFan, m, OMap.find?_insert, List.mem_cons]
      by_cases e1 : n ∈ l <;> by_cases e2 : n = a <;> simp [e1, e2]
  have h2 : ∀ (l : List String) (z : ZoneData), (l.foldl initThermal z).cachedFanOutputs = z.cachedFanOutputs := by
    intro l
    induction l with
    | nil => intros; rfl
    | cons a l ih => intro z; rw [List.foldl_cons, ih]; simp only [initThermal, m]
  intro n
  rw [initializeCache_eq, h2, h1]

theorem setEnabled_outputs (z : ZoneData) (n : String) (b : Bool) :
    (z.setEnabled n b).cachedFanOutputs = z.cachedFanOutputs := by
  unfold ZoneData.setEnabled
  cases z.procs.find? n <;> rfl

theorem Hist.caches {o : Opts} {d0 : ZoneData} {z : Zone} {cnt : Nat} {log : List Poll} (h : Hist o d0 z cnt log) :
    CacheInv d0 z.d log := by
  induction h with
  | @start z z' w hb hz hs =>
    subst hz
    have a := initializeCache_spec z.d
    have h0 : CacheInv z.d z.d.initializeCache [] := by
      refine ⟨fun n hn => ⟨⟨nan, nan⟩, by rw [initializeCache_outputs, if_pos hn]⟩, fun n hn => ⟨⟨nan, nan⟩, ?_, ?_⟩⟩
      · rw [a.cache, if_pos (List.mem_append.2 hn)]
      · intro p hp; rw [lastPoll_nil] at hp; cases hp
    have ht : z.d.initializeCache.thermalInputs = z.d.thermalInputs := by rw [a.eq]
    have := CacheInv.thermals (z := { z with d := z.d.initializeCache }) h0 hs
    simpa [ht] using this
  | manual b _ ih => exact ih.rest (setManual_rest _ b) (fun _ => id)
  | enable n b _ ih => exact ih.rest (setEnabled_rest _ n b) (fun m hm => by rw [setEnabled_outputs]; exact hm)
  | @tick z cnt log w w' z' cnt' _ ht ih =>
    by_cases hm : z.d.manualMode = true
    · rw [tick_manual hm] at ht
      cases ht
      simpa [tickPolls, hm] using ih
    · have hm' : z.d.manualMode = false := by simpa using hm
      obtain ⟨d, h1, h2⟩ := tick_auto hm' ht
      have i1 := ih.poll h1
      have hti : d.thermalInputs = z.d.thermalInputs := by rw [(pollAll_spec h1).frame.eq]
      rcases h2 with ⟨hT, zt, h3, h4, _⟩ | ⟨hT, h3, _⟩
      · have i2 := CacheInv.thermals (z := { z with d := d }) i1 h3
        simpa [tickPolls, hm', hT, hti] using i2.fans h4
      · simpa [tickPolls, hm', hT] using CacheInv.fans (z := { z with d := d }) i1 h3

/-! ## Requester names -/

omit F in
theorem plain_append {a b : List Char} (ha : Plain a) (hb : Plain b) : Plain (a ++ b) :=
  ⟨by simp [ha.1, hb.1], by simp [ha.2, hb.2]⟩

omit F in
theorem plain_profile {n : String} (h : Plain n.toList) : Plain (ZoneData.profileName n).toList := by
  unfold ZoneData.profileName
  split
  · rw [String.toList_ofList]
    exact ⟨fun hc => h.1 (List.mem_of_mem_drop hc), fun hc => h.2 (List.mem_of_mem_drop hc)⟩
  · exact h

omit F in
theorem plain_joinIds {p : String} : ∀ {ids : List String} {acc : String}, Plain acc.toList → (∀ i ∈ ids, Plain i.toList) →
    Plain (ZoneData.joinIds p acc ids).toList
  | [], _, h, _ => h
  | i :: ids, acc, h, hi => by
    have h0 := hi i List.mem_cons_self
    have hr : ∀ j ∈ ids, Plain j.toList := fun j hj => hi j (List.mem_cons_of_mem _ hj)
    unfold ZoneData.joinIds
    split_ifs
    · exact plain_joinIds h0 hr
    · refine plain_joinIds ?_ hr
      rw [String.toList_append, String.toList_append]
      exact plain_append h (plain_append ⟨by decide, by decide⟩ h0)
    · exact plain_joinIds h hr

theorem updateDebug_name {z z' : ZoneData} {id l : String} {i v : Dbl}
    (h : z.updateThermalPowerDebugInterface id l i v = .ok z') : z'.maximumSetPointName = z.maximumSetPointName := by
  unfold ZoneData.updateThermalPowerDebugInterface at h
  cases hp : z.procs.find? id with
  | none => simp [hp] at h
  | some p =>
    simp only [hp] at h
    split_ifs at h <;> (cases h; rfl)

theorem inputOne_name {c : ThermalPid} {z z' : ZoneData} {v v' : Dbl} {a a' : Bool} {i : SensorInput}
    (h : c.inputOne z v a i = .ok (z', v', a')) : z'.maximumSetPointName = z.maximumSetPointName := by
  unfold ThermalPid.inputOne at h
  obtain ⟨e, _, h⟩ := bind_eq_ok.1 h
  dsimp only at h
  have tail : ∀ x : Dbl, (if (!v.eqb x) = true then do
        let z ← z.updateThermalPowerDebugInterface c.id i.name x 0
        Except.ok (z, x, true)
      else Except.ok (z, x, true)) = .ok (z', v', a') → z'.maximumSetPointName = z.maximumSetPointName := by
    intro x h
    split_ifs at h with h2
    · obtain ⟨z1, h3, h4⟩ := bind_eq_ok.1 h
      cases h4
      exact updateDebug_name h3
    · cases h; rfl
  split_ifs at h with h1 h2 h3
  · cases h; rfl
  · cases h
  · exact tail _ h
  · exact tail _ h

theorem inputLoop_name {c : ThermalPid} : ∀ {is : List SensorInput} {z z' : ZoneData} {v v' : Dbl} {a a' : Bool},
    c.inputLoop z v a is = .ok (z', v', a') → z'.maximumSetPointName = z.maximumSetPointName
  | [], _, _, _, _, _, _, h => by cases h; rfl
  | i :: is, z, z', v, v', a, a', h => by
    unfold ThermalPid.inputLoop at h
    obtain ⟨⟨z1, v1, a1⟩, h1, h2⟩ := bind_eq_ok.1 h
    exact (inputLoop_name h2).trans (inputOne_name h1)

theorem addSetPoint_plain {z z' : ZoneData} {v : Dbl} {n : String} (h : z.addSetPoint v n = .ok z') (hn : Plain n.toList)
    (hz : Plain z.maximumSetPointName.toList) : Plain z'.maximumSetPointName.toList := by
  obtain ⟨p, _, rfl⟩ := addSetPoint_ok h
  have hk : Plain (reqKey z.accumulateSetPoint n).toList := by
    unfold reqKey
    split_ifs
    · exact plain_profile hn
    · exact hn
  split_ifs
  · unfold withRequest
    dsimp only
    split_ifs
    · exact hk
    · exact hz
  · exact hz

theorem ctlProcess_plain {z z' : ZoneData} {c c' : ThermalCtl} (h : c.process z = .ok (z', c')) (hn : Plain c.id.toList)
    (hz : Plain z.maximumSetPointName.toList) : Plain z'.maximumSetPointName.toList ∧ c'.id = c.id := by
  cases c with
  | pid c =>
    simp only [ThermalCtl.process] at h
    obtain ⟨⟨z1, c1⟩, h1, h2⟩ := bind_eq_ok.1 h
    cases h2
    unfold ThermalPid.process at h1
    obtain ⟨⟨z2, x⟩, h3, h4⟩ := bind_eq_ok.1 h1
    unfold ThermalPid.inputProc at h3
    split_ifs at h3
    obtain ⟨⟨z3, y, b⟩, h5, h6⟩ := bind_eq_ok.1 h3
    cases h6
    obtain ⟨z4, h7, h8⟩ := bind_eq_ok.1 h4
    obtain ⟨z5, h9, h10⟩ := bind_eq_ok.1 h8
    cases h10
    refine ⟨?_, rfl⟩
    rw [updateDebug_name h9]
    exact addSetPoint_plain h7 hn (by rw [inputLoop_name h5]; exact hz)
  | stepwise c =>
    simp only [ThermalCtl.process] at h
    obtain ⟨⟨z1, c1⟩, h1, h2⟩ := bind_eq_ok.1 h
    cases h2
    unfold StepwiseCtl.process at h1
    obtain ⟨x, _, h4⟩ := bind_eq_ok.1 h1
    dsimp only at h4
    split_ifs at h4
    · cases h4; exact ⟨hz, rfl⟩
    · obtain ⟨z4, h7, h8⟩ := bind_eq_ok.1 h4
      cases h8
      exact ⟨addSetPoint_plain h7 hn hz, rfl⟩

theorem thermalList_plain : ∀ {cs cs' : List ThermalCtl} {z z' : ZoneData}, processThermalList z cs = .ok (z', cs') →
    (∀ c ∈ cs, Plain c.id.toList) → Plain z.maximumSetPointName.toList →
    Plain z'.maximumSetPointName.toList ∧ cs'.map ThermalCtl.id = cs.map ThermalCtl.id
  | [], _, _, _, h, _, hz => by cases h; exact ⟨hz, rfl⟩
  | c :: cs, _, z, z', h, hn, hz => by
    unfold processThermalList at h
    obtain ⟨⟨z1, c1⟩, h1, h2⟩ := bind_eq_ok.1 h
    obtain ⟨⟨z2, cs2⟩, h3, h4⟩ := bind_eq_ok.1 h2
    cases h4
    obtain ⟨a1, a2⟩ := ctlProcess_plain h1 (hn c List.mem_cons_self) hz
    obtain ⟨b1, b2⟩ := thermalList_plain h3 (fun c' hc => hn c' (List.mem_cons_of_mem _ hc)) a1
    exact ⟨b1, by rw [List.map_cons, List.map_cons, b2, a2]⟩

theorem settled_plain {ids : List String} {z : ZoneData} (hi : ∀ i ∈ ids, Plain i.toList)
    (hz : Plain z.maximumSetPointName.toList) : Plain (settled ids z).maximumSetPointName.toList := by
  have hc : Plain (capName z).toList := by
    unfold capName
    cases z.rpmCeilings with
    | nil => exact hz
    | cons c cs =>
      dsimp only
      split_ifs
      · exact ⟨by decide, by decide⟩
      · exact hz
  unfold settled joinedName
  dsimp only
  split_ifs
  · exact ⟨by decide, by decide⟩
  · exact plain_joinIds ⟨by decide, by decide⟩ hi
  · exact hc

/-- the requester's name and the names it can come from are plain -/
structure NamePlain (z : Zone) : Prop where
  name : Plain z.d.maximumSetPointName.toList
  ids : ∀ c ∈ z.thermals, Plain c.id.toList

theorem processThermals_plain {o : Opts} {w : World} {z z' : Zone} (h : z.processThermals o w = .ok z')
    (hi : ∀ c ∈ z.thermals, Plain c.id.toList) : NamePlain z' := by
  unfold Zone.processThermals at h
  obtain ⟨d, h1, h⟩ := bind_eq_ok.1 h
  obtain ⟨⟨d1, ts⟩, h2, h⟩ := bind_eq_ok.1 h
  obtain ⟨d2, h3, h⟩ := bind_eq_ok.1 h
  cases h
  obtain ⟨a1, a2⟩ := thermalList_plain h2 hi (show Plain "".toList from ⟨by decide, by decide⟩)
  have hids : ∀ i ∈ ts.map ThermalCtl.id, Plain i.toList := by
    rw [a2]
    intro i hi'
    obtain ⟨c, hc, rfl⟩ := List.mem_map.1 hi'
    exact hi c hc
  refine ⟨?_, fun c hc => hids _ (List.mem_map_of_mem hc)⟩
  have hs := settled_plain hids a1
  rw [determine_eq] at h3
  split_ifs at h3
  · obtain ⟨r, _, h3⟩ := bind_eq_ok.1 h3
    obtain ⟨r, _, h3⟩ := bind_eq_ok.1 h3
    cases h3
    exact hs
  · cases h3
    exact hs

theorem NamePlain.fans {o : Opts} {w w' : World} {z z' : Zone} (h : NamePlain z) (hf : z.processFans o w = .ok (w', z')) :
    NamePlain z' := by
  obtain ⟨_, _, _, _, _, h5, h6⟩ := processFans_spec hf
  refine ⟨?_, by rw [h6]; exact h.ids⟩
  rw [h5]; exact h.name

/-! ## A tick with logging -/

theorem telemetry_log {f : LogFmt} {w : World} {d0 z : ZoneData} {log : List Poll} (hc : CacheInv d0 z log)
    (hf : z.fanInputs = d0.fanInputs) (ht : z.thermalInputs = d0.thermalInputs) :
    (z.updateFanTelemetryLog f w).map Prod.fst = z.updateFanTelemetry w ∧
    ∀ z' text, z.updateFanTelemetryLog f w = .ok (z', text) → ∃ fans thermals : List (List (List Char)),
      List.Forall₂ (fun n cs => ∃ s r out, w.sensors.find? n = some s ∧ s.read w w.nowFans = .ok r ∧
        z.cachedFanOutputs.find? n = some out ∧
        cs = [f.dbl r.value, f.dbl r.unscaled, f.dbl out.scaled, f.dbl out.unscaled]) z.fanInputs fans ∧
      List.Forall₂ (fun n cs => ∃ e : CacheEntry, z'.cachedValuesByName.find? n = some e ∧
        cs = [f.dbl e.scaled, f.dbl e.unscaled]) z.thermalInputs thermals ∧
      text = lineOf ([f.int (w.nowFans.tdiv 1000000), f.dbl z.maximumSetPoint, z.maximumSetPointName.toList] ++
        fans.flatten ++ thermals.flatten) := by
  have ho : ∀ n ∈ z.fanInputs, ∃ e, z.cachedFanOutputs.find? n = some e := by rw [hf]; exact hc.outputs
  have h1 := inputsLog_fst (f := f) (w := w) (now := w.nowFans) ho
  have key : ∀ z1 t1, z.processSensorInputsLog f w w.nowFans z.fanInputs = .ok (z1, t1) →
      ∀ n ∈ z.thermalInputs, ∃ e, z1.cachedValuesByName.find? n = some e := by
    intro z1 t1 hz n hn
    have hp : z.processSensorInputs w w.nowFans z.fanInputs = .ok z1 := by rw [← h1, hz]; rfl
    obtain ⟨e, he, _⟩ := (hc.poll hp).values n (.inr (ht ▸ hn))
    exact ⟨e, he⟩
  unfold ZoneData.updateFanTelemetryLog ZoneData.updateFanTelemetry
  cases hz : z.processSensorInputsLog f w w.nowFans z.fanInputs with
  | error e =>
    refine ⟨?_, fun z' text h => by cases h⟩
    rw [← h1, hz]; rfl
  | ok a =>
    obtain ⟨z1, t1⟩ := a
    obtain ⟨cells, c1, c2⟩ := logThermals_eq (f := f) (key z1 t1 hz)
    obtain ⟨fans, g1, g2⟩ := inputsLog_text ho hz
    simp only [ok_bind, c2]
    refine ⟨by rw [← h1, hz]; rfl, fun z' text h => ?_⟩
    cases h
    refine ⟨fans, cells, g1, c1, ?_⟩
    simp only [List.cons_append, lineOf, List.nil_append]
    rw [show ∀ (a b : List Char) l, cat (a :: b :: l) = cat [a, b] ++ cat l from fun a b l => by simp [cat], cat_append, ← g2]
    simp [cat]

theorem tickLog_fst {f : LogFmt} {o : Opts} {w : World} {z : Zone} {cnt : Nat} {d0 : ZoneData} {log : List Poll}
    (hc : CacheInv d0 z.d log) (hf : z.d.fanInputs = d0.fanInputs) (ht : z.d.thermalInputs = d0.thermalInputs) :
    (z.tickLog f o w cnt).map (fun r => (r.1, r.2.1, r.2.2.1)) = z.tick o w cnt := by
  have h1 := (telemetry_log (f := f) (w := w) hc hf ht).1
  unfold Zone.tickLog Zone.tick
  split_ifs with hm
  · rfl
  · rw [← h1]
    cases z.d.updateFanTelemetryLog f w with
    | error e => rfl
    | ok t =>
      simp only [ok_bind, Except.map]
      by_cases hT : t.1.cycleTime.updateThermalsTimeMS ≤ cnt
      · simp only [if_pos hT]
        cases Zone.processThermals o w { z with d := t.1 } with
        | error e => rfl
        | ok y =>
          simp only [ok_bind]
          cases y.processFans o w <;> rfl
      · simp only [if_neg hT]
        cases Zone.processFans o w { z with d := t.1 } <;> rfl

end Verif
