import Verif.Lemmas.ZoneLog
import Verif.Spec.Example
import Verif.Props.Failsafe
import Verif.Base.Binary64

/-! # The log file of a zone: C89 to C91 -/

namespace Verif
open Dbl
section
variable [F : FloatModel]

/-! ## C91 -/

/-- **C91.** In every state a zone can reach, a tick with logging does exactly what a tick without logging does: the same
world, zone and cycle counter, or the same failure. -/
theorem C91_tick {o : Opts} {d0 : ZoneData} {z : Zone} {cnt : Nat} {log : List Poll} (h : Hist o d0 z cnt log)
    (f : LogFmt) (w : World) : (z.tickLog f o w cnt).map (fun r => (r.1, r.2.1, r.2.2.1)) = z.tick o w cnt :=
  tickLog_fst h.caches h.inv.same.1 h.inv.same.2.1

theorem tick_of_log {f : LogFmt} {o : Opts} {d0 : ZoneData} {z z' : Zone} {cnt cnt' : Nat} {log : List Poll} {w w' : World}
    {text : List Char} (h : Hist o d0 z cnt log) (ht : z.tickLog f o w cnt = .ok (w', z', cnt', text)) :
    z.tick o w cnt = .ok (w', z', cnt') := by
  rw [← C91_tick h f w, ht]; rfl

theorem log_of_tick {o : Opts} {d0 : ZoneData} {z z' : Zone} {cnt cnt' : Nat} {log : List Poll} {w w' : World}
    (h : Hist o d0 z cnt log) (f : LogFmt) (ht : z.tick o w cnt = .ok (w', z', cnt')) :
    ∃ text, z.tickLog f o w cnt = .ok (w', z', cnt', text) := by
  rw [← C91_tick h f w] at ht
  cases hx : z.tickLog f o w cnt with
  | error e => rw [hx] at ht; cases ht
  | ok r =>
    rw [hx] at ht
    obtain ⟨a, b, c, d⟩ := r
    cases ht
    exact ⟨d, rfl⟩

/-- **C91.** A history with logging is a history. -/
theorem C91_history {f : LogFmt} {o : Opts} {z0 z : Zone} {cnt : Nat} {polls : List Poll} {ticks : List AutoTick}
    {text : List Char} (h : Logged f o z0 z cnt polls ticks text) : Hist o z0.d z cnt polls := by
  induction h with
  | @start z text w hb hs =>
    unfold Zone.startLog at hs
    obtain ⟨z1, h1, hs⟩ := bind_eq_ok.1 hs
    cases hs
    exact .start w hb rfl h1
  | manual b _ ih => exact ih.manual b
  | enable n b _ ih => exact ih.enable n b
  | @idle z cnt polls ticks text w w' z' cnt' more _ hm ht ih =>
    have := ih.tick w (tick_of_log ih ht)
    simpa [tickPolls, hm] using this
  | @auto z cnt polls ticks text w w' z' cnt' more _ hm ht ih => exact ih.tick w (tick_of_log ih ht)

/-- **C91.** Every history is possible with logging. -/
theorem C91_possible {o : Opts} {d0 : ZoneData} {z : Zone} {cnt : Nat} {log : List Poll} (h : Hist o d0 z cnt log)
    (f : LogFmt) : ∃ z0 ticks text, z0.d = d0 ∧ Logged f o z0 z cnt log ticks text := by
  induction h with
  | @start z z' w hb hz hs =>
    subst hz
    exact ⟨z, [], _, rfl, .start w hb (by unfold Zone.startLog; rw [hs]; rfl)⟩
  | manual b _ ih =>
    obtain ⟨z0, t, x, h1, h2⟩ := ih
    exact ⟨z0, t, x, h1, h2.manual b⟩
  | enable n b _ ih =>
    obtain ⟨z0, t, x, h1, h2⟩ := ih
    exact ⟨z0, t, x, h1, h2.enable n b⟩
  | @tick z cnt log w w' z' cnt' hh ht ih =>
    obtain ⟨z0, t, x, h1, h2⟩ := ih
    obtain ⟨more, hl⟩ := log_of_tick hh f ht
    by_cases hm : z.d.manualMode = true
    · have := h2.idle w hm hl
      exact ⟨z0, _, _, h1, by simpa [tickPolls, hm] using this⟩
    · exact ⟨z0, _, _, h1, h2.auto w (by simpa using hm) hl⟩

/-! ## C89 -/

theorem lastPoll_some {log : List Poll} {n : String} {p : Poll} (hp : p ∈ log) (hn : n ∈ p.names) :
    ∃ q, lastPoll log n = some q := by
  unfold lastPoll
  cases hl : (log.filter (fun p => n ∈ p.names)).getLast? with
  | some q => exact ⟨q, rfl⟩
  | none =>
    rw [List.getLast?_eq_none_iff] at hl
    have : p ∈ log.filter (fun p => n ∈ p.names) := List.mem_filter.2 ⟨hp, by simpa using hn⟩
    rw [hl] at this; cases this

theorem Hist.thermalPolled {o : Opts} {d0 : ZoneData} {z : Zone} {cnt : Nat} {log : List Poll} (h : Hist o d0 z cnt log) :
    ∃ p ∈ log, p.names = d0.thermalInputs := by
  induction h with
  | start w hb hz hs => exact ⟨_, List.mem_singleton.2 rfl, rfl⟩
  | manual b _ ih => exact ih
  | enable n b _ ih => exact ih
  | tick w _ _ ih =>
    obtain ⟨p, h1, h2⟩ := ih
    exact ⟨p, List.mem_append_left _ h1, h2⟩

theorem failSafeMode_iff (z : ZoneData) : z.getFailSafeMode = true ↔ ∃ n, Failed z n := by
  unfold ZoneData.getFailSafeMode Failed
  rw [Bool.not_eq_true', OMap.isEmpty_false_iff]

omit F in
theorem lineOf_snoc {r : List (List Char)} (h : r ≠ []) (c : List Char) : lineOf (r ++ [c]) = lineOf r ++ ',' :: c := by
  cases r with
  | nil => exact absurd rfl h
  | cons a r => simp [lineOf, cat]

/-- the text of an automatic tick -/
theorem tickLog_row {f : LogFmt} {o : Opts} {d0 : ZoneData} {z z' : Zone} {cnt cnt' : Nat} {log : List Poll} {w w' : World}
    {text : List Char} (h : Hist o d0 z cnt log) (hm : z.d.manualMode = false)
    (ht : z.tickLog f o w cnt = .ok (w', z', cnt', text)) :
    ∃ row, text = lineOf row ++ ['\n'] ∧ RowOf f ⟨z, log, w, w', z'⟩ row := by
  have hs := h.inv.same
  have hc := h.caches
  obtain ⟨t1, t2⟩ := telemetry_log (f := f) (w := w) hc hs.1 hs.2.1
  unfold Zone.tickLog at ht
  rw [if_neg (by simp [hm])] at ht
  obtain ⟨⟨d, line⟩, h1, ht⟩ := bind_eq_ok.1 ht
  obtain ⟨fans, thermals, a1, a2, a3⟩ := t2 _ _ h1
  have htext : text = line ++ logFailsafe z'.d := by
    dsimp only at ht
    split_ifs at ht
    · obtain ⟨zt, _, ht⟩ := bind_eq_ok.1 ht
      rw [ok_bind] at ht
      obtain ⟨⟨w1, z1⟩, _, ht⟩ := bind_eq_ok.1 ht
      cases ht; rfl
    · rw [ok_bind] at ht
      obtain ⟨⟨w1, z1⟩, _, ht⟩ := bind_eq_ok.1 ht
      cases ht; rfl
  have hp : z.d.processSensorInputs w w.nowFans z.d.fanInputs = .ok d := by
    have : z.d.updateFanTelemetry w = .ok d := by rw [← t1, h1]; rfl
    exact this
  have hc2 := hc.poll hp
  refine ⟨_, ?_, fans, thermals, ?_, ?_, [if z'.d.getFailSafeMode then '1' else '0'], ?_, ?_, rfl⟩
  · rw [htext, lineOf_snoc (by simp), ← a3]
    simp [logFailsafe]
  · refine a1.imp ?_
    rintro n cs ⟨s, r, out, b1, b2, b3, b4⟩
    exact ⟨r, out, ⟨s, b1, b2⟩, b3, b4⟩
  · have key : ∀ n ∈ z.d.thermalInputs, ∀ cs, (∃ e : CacheEntry, d.cachedValuesByName.find? n = some e ∧
        cs = [f.dbl e.scaled, f.dbl e.unscaled]) → ThermalCells f ⟨z, log, w, w', z'⟩ n cs := by
      rintro n hn cs ⟨e, b1, b2⟩
      obtain ⟨q, hq1, hq2⟩ := h.thermalPolled
      obtain ⟨p, hp⟩ := lastPoll_some (log := log ++ [⟨w, w.nowFans, z.d.fanInputs⟩]) (List.mem_append_left _ hq1)
        (n := n) (by rw [hq2, ← hs.2.1]; exact hn)
      obtain ⟨e', c1, c2⟩ := hc2.values n (.inr (hs.2.1 ▸ hn))
      rw [b1] at c1; cases c1
      obtain ⟨r, r1, r2⟩ := c2 p hp
      exact ⟨p, r, hp, r1, by rw [b2, r2]⟩
    rw [List.forall₂_iff_get] at a2 ⊢
    exact ⟨a2.1, fun i h1 h2 => key _ (List.get_mem _ _) _ (a2.2 i h1 h2)⟩
  · intro hx
    rw [if_pos ((failSafeMode_iff _).2 hx)]
  · intro hx
    rw [if_neg]
    intro hc
    obtain ⟨n, hn⟩ := (failSafeMode_iff _).1 hc
    exact hx n hn

theorem row_plain {f : LogFmt} (hf : f.Ok) {e : AutoTick} {row : List (List Char)} (h : RowOf f e row)
    (hn : Plain e.z.d.maximumSetPointName.toList) : row ≠ [] ∧ ∀ c ∈ row, Plain c := by
  obtain ⟨fans, thermals, h1, h2, fs, h3, h4, rfl⟩ := h
  refine ⟨by simp, ?_⟩
  have g1 : ∀ c ∈ fans.flatten, Plain c := by
    intro c hc
    obtain ⟨cs, hcs, hc⟩ := List.mem_flatten.1 hc
    obtain ⟨i, hi, rfl⟩ := List.getElem_of_mem hcs
    rw [List.forall₂_iff_get] at h1
    obtain ⟨r, out, _, _, he⟩ := h1.2 i (h1.1 ▸ hi) hi
    simp only [List.get_eq_getElem] at he
    rw [he] at hc
    simp only [List.mem_cons, List.not_mem_nil, or_false] at hc
    rcases hc with rfl | rfl | rfl | rfl <;> exact hf.1 _
  have g2 : ∀ c ∈ thermals.flatten, Plain c := by
    intro c hc
    obtain ⟨cs, hcs, hc⟩ := List.mem_flatten.1 hc
    obtain ⟨i, hi, rfl⟩ := List.getElem_of_mem hcs
    rw [List.forall₂_iff_get] at h2
    obtain ⟨p, r, _, _, he⟩ := h2.2 i (h2.1 ▸ hi) hi
    simp only [List.get_eq_getElem] at he
    rw [he] at hc
    simp only [List.mem_cons, List.not_mem_nil, or_false] at hc
    rcases hc with rfl | rfl <;> exact hf.1 _
  have g3 : Plain fs := by
    by_cases hx : ∃ n, Failed e.z'.d n
    · rw [h3 hx]; exact ⟨by decide, by decide⟩
    · rw [h4 (fun n hn => hx ⟨n, hn⟩)]; exact ⟨by decide, by decide⟩
  intro c hc
  simp only [List.cons_append, List.nil_append, List.mem_cons, List.mem_append, List.not_mem_nil, or_false] at hc
  rcases hc with rfl | rfl | rfl | (hc | hc) | rfl
  · exact hf.2 _
  · exact hf.1 _
  · exact hn
  · exact g1 c hc
  · exact g2 c hc
  · exact g3

omit F in
theorem length_flatten_const {α β : Type} {R : α → List β → Prop} {k : Nat} (hR : ∀ a b, R a b → b.length = k) {l : List α}
    {m : List (List β)} (h : List.Forall₂ R l m) : m.flatten.length = k * l.length := by
  induction h with
  | nil => simp
  | cons h1 _ ih => rw [List.flatten_cons, List.length_append, ih, hR _ _ h1, List.length_cons]; ring

theorem row_length {f : LogFmt} {e : AutoTick} {row : List (List Char)} (h : RowOf f e row) :
    row.length = 4 + 4 * e.z.d.fanInputs.length + 2 * e.z.d.thermalInputs.length := by
  obtain ⟨fans, thermals, h1, h2, fs, h3, h4, rfl⟩ := h
  have a := length_flatten_const (k := 4) (by rintro a b ⟨_, _, _, _, rfl⟩; rfl) h1
  have b := length_flatten_const (k := 2) (by rintro a b ⟨_, _, _, _, rfl⟩; rfl) h2
  simp only [List.length_append, a, b, List.length_cons, List.length_nil]
  ring

theorem header_length (d : ZoneData) : (headerRow d).length = 4 + 4 * d.fanInputs.length + 2 * d.thermalInputs.length := by
  have h : ∀ (g : String → List String) (k : Nat) (l : List String), (∀ n, (g n).length = k) →
      (l.flatMap g).length = k * l.length := by
    intro g k l hg
    induction l with
    | nil => simp
    | cons a l ih => rw [List.flatMap_cons, List.length_append, ih, hg, List.length_cons]; ring
  unfold headerRow
  rw [List.length_map, List.length_append, List.length_append, List.length_append, h _ 4 _ (fun _ => rfl),
    h _ 2 _ (fun _ => rfl)]
  simp only [List.length_cons, List.length_nil]
  ring

theorem header_plain {d : ZoneData} (h : ∀ n, n ∈ d.fanInputs ∨ n ∈ d.thermalInputs → Plain n.toList) :
    headerRow d ≠ [] ∧ ∀ c ∈ headerRow d, Plain c := by
  refine ⟨by simp [headerRow], ?_⟩
  intro c hc
  unfold headerRow at hc
  obtain ⟨s, hs, rfl⟩ := List.mem_map.1 hc
  have ap : ∀ n s : String, Plain n.toList → Plain s.toList → Plain (n ++ s).toList := by
    intro n s h1 h2; rw [String.toList_append]; exact plain_append h1 h2
  simp only [List.mem_append, List.mem_cons, List.not_mem_nil, or_false, List.mem_flatMap] at hs
  rcases hs with (((rfl | rfl | rfl) | ⟨n, hn, rfl | rfl | rfl | rfl⟩) | ⟨n, hn, rfl | rfl⟩) | rfl
  · exact ⟨by decide, by decide⟩
  · exact ⟨by decide, by decide⟩
  · exact ⟨by decide, by decide⟩
  · exact h _ (.inl hn)
  · exact ap _ _ (h _ (.inl hn)) ⟨by decide, by decide⟩
  · exact ap _ _ (h _ (.inl hn)) ⟨by decide, by decide⟩
  · exact ap _ _ (h _ (.inl hn)) ⟨by decide, by decide⟩
  · exact h _ (.inr hn)
  · exact ap _ _ (h _ (.inr hn)) ⟨by decide, by decide⟩
  · exact ⟨by decide, by decide⟩

theorem NamePlain.tick {o : Opts} {w w' : World} {z z' : Zone} {cnt cnt' : Nat} (h : NamePlain z)
    (ht : z.tick o w cnt = .ok (w', z', cnt')) : NamePlain z' := by
  by_cases hm : z.d.manualMode = true
  · rw [tick_manual hm] at ht
    cases ht
    exact h
  · obtain ⟨d, h1, h2⟩ := tick_auto (by simpa using hm) ht
    have e := (pollAll_spec h1).frame.eq
    have i1 : NamePlain { z with d := d } := ⟨by rw [e]; exact h.name, h.ids⟩
    rcases h2 with ⟨_, zt, h3, h4, _⟩ | ⟨_, h3, _⟩
    · exact (processThermals_plain h3 h.ids).fans h4
    · exact i1.fans h3

theorem Logged.namePlain {f : LogFmt} {o : Opts} {z0 z : Zone} {cnt : Nat} {polls : List Poll} {ticks : List AutoTick}
    {text : List Char} (hi : ∀ c ∈ z0.thermals, Plain c.id.toList) (h : Logged f o z0 z cnt polls ticks text) :
    NamePlain z := by
  induction h with
  | @start z text w hb hs =>
    unfold Zone.startLog at hs
    obtain ⟨z1, h1, hs⟩ := bind_eq_ok.1 hs
    cases hs
    exact processThermals_plain (z := { z0 with d := z0.d.initializeCache }) h1 hi
  | manual b _ ih => exact ⟨ih.name, ih.ids⟩
  | @enable z cnt polls ticks text n b _ ih =>
    refine ⟨?_, ih.ids⟩
    have : (z.d.setEnabled n b).maximumSetPointName = z.d.maximumSetPointName := by
      unfold ZoneData.setEnabled
      cases z.d.procs.find? n <;> rfl
    change Plain (z.d.setEnabled n b).maximumSetPointName.toList
    rw [this]; exact ih.name
  | idle w h hm ht ih => exact ih.tick (tick_of_log (C91_history h) ht)
  | auto w h hm ht ih => exact ih.tick (tick_of_log (C91_history h) ht)

/-- **C89.** As long as the names of the inputs and of the thermal loops contain no commas and line breaks, the log file is
a table: the header, and one row of the same width for every automatic tick (none for ticks in manual mode). Each row says
the truth: the time, the set point in force and its requester, the readings of the fans in this tick and the outputs
remembered for them, the last readings of the thermal inputs, and the failsafe state after the tick. -/
theorem C89_table {f : LogFmt} (hf : f.Ok) {o : Opts} {z0 z : Zone} {cnt : Nat} {polls : List Poll} {ticks : List AutoTick}
    {text : List Char} (hn : ∀ n, n ∈ z0.d.fanInputs ∨ n ∈ z0.d.thermalInputs → Plain n.toList)
    (hi : ∀ c ∈ z0.thermals, Plain c.id.toList) (h : Logged f o z0 z cnt polls ticks text) :
    ∃ rows, IsTable text (headerRow z0.d :: rows) ∧ List.Forall₂ (RowOf f) ticks rows ∧
      ∀ r ∈ rows, r.length = (headerRow z0.d).length := by
  have key : ∃ rows, text = unlines ((headerRow z0.d :: rows).map lineOf) ∧ List.Forall₂ (RowOf f) ticks rows ∧
      ∀ r ∈ rows, r.length = (headerRow z0.d).length ∧ r ≠ [] ∧ ∀ c ∈ r, Plain c := by
    induction h with
    | @start z text w hb hs =>
      unfold Zone.startLog at hs
      obtain ⟨z1, h1, hs⟩ := bind_eq_ok.1 hs
      cases hs
      exact ⟨[], by rw [initializeLog_eq]; simp [unlines], .nil, by simp⟩
    | manual b _ ih => exact ih
    | enable n b _ ih => exact ih
    | @idle z cnt polls ticks text w w' z' cnt' more _ hm ht ih =>
      unfold Zone.tickLog at ht
      rw [if_pos hm] at ht
      cases ht
      simpa using ih
    | @auto z cnt polls ticks text w w' z' cnt' more h hm ht ih =>
      obtain ⟨rows, i1, i2, i3⟩ := ih
      obtain ⟨row, r1, r2⟩ := tickLog_row (C91_history h) hm ht
      refine ⟨rows ++ [row], ?_, ?_, ?_⟩
      · rw [i1, r1, ← List.cons_append, List.map_append]
        simp [unlines]
      · exact List.rel_append i2 (.cons r2 .nil)
      · intro r hr
        rcases List.mem_append.1 hr with hr | hr
        · exact i3 r hr
        · rw [List.mem_singleton.1 hr]
          refine ⟨?_, row_plain hf r2 (h.namePlain hi).name⟩
          have hs := (C91_history h).inv.same
          rw [row_length r2, header_length, hs.1, hs.2.1]
  obtain ⟨rows, h1, h2, h3⟩ := key
  refine ⟨rows, ?_, h2, fun r hr => (h3 r hr).1⟩
  rw [h1]
  refine isTable_of ?_
  intro r hr
  rcases List.mem_cons.1 hr with rfl | hr
  · exact header_plain hn
  · exact (h3 r hr).2

/-! ## C90 -/

/-- what remains the same about a writer when it is used -/
theorem RawOf.congr {w w' : World} {n : String} {v : Dbl} {raw : Int}
    (h : ∀ s rd wr, w'.sensors.find? n = some s → s.impl = .pluggable rd wr → ∃ s' wr', w.sensors.find? n = some s' ∧
      s'.impl = .pluggable rd wr' ∧
      (∀ p a b x, wr = .dbusPercent p a b x → ∃ y, wr' = .dbusPercent p a b y) ∧
      (∀ p x, wr = .dbusRaw p x → ∃ y, wr' = .dbusRaw p y) ∧
      (∀ p a b, wr = .sysfsPercent p a b → wr' = wr) ∧ (∀ p, wr = .sysfsRaw p → wr' = wr) ∧
      (wr = .readOnlyNoExcept → wr' = wr) ∧ (wr = .null → wr' = wr))
    (hr : RawOf w' n v raw) : RawOf w n v raw := by
  obtain ⟨s, rd, wr, h1, h2, h3⟩ := hr
  obtain ⟨s', wr', g1, g2, k1, k2, k3, k4, k5, k6⟩ := h s rd wr h1 h2
  refine ⟨s', rd, wr', g1, g2, ?_⟩
  cases wr with
  | dbusPercent p a b x => obtain ⟨y, rfl⟩ := k1 _ _ _ _ rfl; exact h3
  | dbusRaw p x => obtain ⟨y, rfl⟩ := k2 _ _ rfl; exact h3
  | sysfsPercent p a b => rw [k3 _ _ _ rfl]; exact h3
  | sysfsRaw p => rw [k4 _ rfl]; exact h3
  | readOnlyNoExcept => rw [k5 rfl]; exact h3
  | null => rw [k6 rfl]; exact h3

theorem writeSensor_raw {w w' : World} {n sn : String} {v : Dbl} {force : Bool} {wr : Option Int} {raw : Int}
    (h : w.writeSensor n v force = .ok (w', sn, wr)) (hr : wr.elim (.ok (-1)) .ok = (.ok raw : Res Int)) :
    RawOf w n v raw ∧ (∀ m x r, RawOf w' m x r → RawOf w m x r) ∧ (OwnNames w → sn = n ∧ OwnNames w') := by
  obtain ⟨s, rd, writer, res, h1, h2, h3, rfl, rfl, rfl⟩ := writeSensor_spec h
  have own : OwnNames w → s.name = n ∧ OwnNames { w with
      sensors := w.sensors.insert n { s with impl := .pluggable rd res.writer }, trace := w.trace ++ res.effect.toList } := by
    intro ho
    refine ⟨ho n s h1, fun m t hm => ?_⟩
    simp only [OMap.find?_insert] at hm
    split_ifs at hm with e
    · cases hm; rw [e]; exact ho n s h1
    · exact ho m t hm
  have keep : ∀ (k : ∀ p a b x, res.writer = .dbusPercent p a b x → ∃ y, writer = .dbusPercent p a b y)
      (_ : ∀ p x, res.writer = .dbusRaw p x → ∃ y, writer = .dbusRaw p y)
      (_ : ∀ p a b, res.writer = .sysfsPercent p a b → writer = res.writer)
      (_ : ∀ p, res.writer = .sysfsRaw p → writer = res.writer)
      (_ : res.writer = .readOnlyNoExcept → writer = res.writer) (_ : res.writer = .null → writer = res.writer),
      ∀ m x r, RawOf { w with
        sensors := w.sensors.insert n { s with impl := .pluggable rd res.writer }, trace := w.trace ++ res.effect.toList } m x r →
        RawOf w m x r := by
    intro k1 k2 k3 k4 k5 k6 m x r
    refine RawOf.congr ?_
    intro t rd' wr' ht hi
    simp only [OMap.find?_insert] at ht
    split_ifs at ht with e
    · cases ht
      subst e
      cases hi
      exact ⟨s, writer, h1, h2, k1, k2, k3, k4, k5, k6⟩
    · exact ⟨t, wr', ht, hi, fun _ _ _ x e => ⟨x, e⟩, fun _ x e => ⟨x, e⟩, fun _ _ _ _ => rfl, fun _ _ => rfl,
        fun _ => rfl, fun _ => rfl⟩
  cases writer with
  | dbusPercent path min max old =>
    obtain ⟨raw', h4, (⟨_, hf, rfl⟩ | ⟨_, u, _, rfl⟩)⟩ := dbusTail_spec h3
    · rename_i e
      cases hr
      refine ⟨⟨s, rd, _, h1, h2, ?_⟩, keep (by rintro _ _ _ _ ⟨⟩; exact ⟨_, rfl⟩) (by rintro _ _ ⟨⟩) (by rintro _ _ _ ⟨⟩)
        (by rintro _ ⟨⟩) (by rintro ⟨⟩) (by rintro ⟨⟩), own⟩
      rw [e]; exact h4
    · cases hr
      exact ⟨⟨s, rd, _, h1, h2, h4⟩, keep (by rintro _ _ _ _ ⟨⟩; exact ⟨_, rfl⟩) (by rintro _ _ ⟨⟩) (by rintro _ _ _ ⟨⟩)
        (by rintro _ ⟨⟩) (by rintro ⟨⟩) (by rintro ⟨⟩), own⟩
  | dbusRaw path old =>
    obtain ⟨raw', h4, (⟨_, hf, rfl⟩ | ⟨_, u, _, rfl⟩)⟩ := dbusTail_spec h3
    · rename_i e
      cases hr
      refine ⟨⟨s, rd, _, h1, h2, ?_⟩, keep (by rintro _ _ _ _ ⟨⟩) (by rintro _ _ ⟨⟩; exact ⟨_, rfl⟩) (by rintro _ _ _ ⟨⟩)
        (by rintro _ ⟨⟩) (by rintro ⟨⟩) (by rintro ⟨⟩), own⟩
      rw [e]; exact h4
    · cases hr
      exact ⟨⟨s, rd, _, h1, h2, h4⟩, keep (by rintro _ _ _ _ ⟨⟩) (by rintro _ _ ⟨⟩; exact ⟨_, rfl⟩) (by rintro _ _ _ ⟨⟩)
        (by rintro _ ⟨⟩) (by rintro ⟨⟩) (by rintro ⟨⟩), own⟩
  | sysfsPercent path min max =>
    obtain ⟨raw', _, h4⟩ := bind_eq_ok.1 h3
    cases h4
    cases hr
    exact ⟨⟨s, rd, _, h1, h2, rfl⟩, keep (by rintro _ _ _ _ ⟨⟩) (by rintro _ _ ⟨⟩) (fun _ _ _ _ => rfl) (fun _ _ => rfl)
      (fun _ => rfl) (fun _ => rfl), own⟩
  | sysfsRaw path =>
    obtain ⟨raw', _, h4⟩ := bind_eq_ok.1 h3
    cases h4
    cases hr
    exact ⟨⟨s, rd, _, h1, h2, rfl⟩, keep (by rintro _ _ _ _ ⟨⟩) (by rintro _ _ ⟨⟩) (fun _ _ _ _ => rfl) (fun _ _ => rfl)
      (fun _ => rfl) (fun _ => rfl), own⟩
  | readOnlyNoExcept =>
    cases h3
    cases hr
    exact ⟨⟨s, rd, _, h1, h2, rfl⟩, keep (by rintro _ _ _ _ ⟨⟩) (by rintro _ _ ⟨⟩) (fun _ _ _ _ => rfl) (fun _ _ => rfl)
      (fun _ => rfl) (fun _ => rfl), own⟩
  | null => cases h3

theorem built_manual {z : ZoneData} (h : Built z) : z.manualMode = false := by
  have add : ∀ (is : List String) (p : Dbl) (z : ZoneData), (z.addPidFailSafePercent is p).manualMode = z.manualMode := by
    intro is
    induction is with
    | nil => intros; rfl
    | cons s is ih => intro p z; simp only [ZoneData.addPidFailSafePercent]; rw [ih]
  induction h with
  | ctor => rfl
  | fanInput n b _ ih => exact ih
  | thermalInput n b _ ih => exact ih
  | process n t s _ ih => exact ih
  | failSafePercent is p _ ih => rw [add]; exact ih

/-- the outputs remembered after a loop has written its fans -/
theorem writeFans_cache {v : Dbl} : ∀ {ns : List String} {w w' : World} {z z' : ZoneData},
    writeFans (.ok (-1)) v w z ns = .ok (w', z') → OwnNames w →
      OwnNames w' ∧ (∀ m x r, RawOf w' m x r → RawOf w m x r) ∧
      ∀ n, (n ∈ ns → ∃ raw, RawOf w n v raw ∧ z'.cachedFanOutputs.find? n = some ⟨v, Dbl.ofInt raw⟩) ∧
        (n ∉ ns → z'.cachedFanOutputs.find? n = z.cachedFanOutputs.find? n)
  | [], w, w', z, z', h, ho => by cases h; exact ⟨ho, fun _ _ _ => id, fun n => ⟨by simp, fun _ => rfl⟩⟩
  | m :: ns, w, w', z, z', h, ho => by
    simp only [writeFans] at h
    obtain ⟨⟨w1, sn, wr⟩, h1, h⟩ := bind_eq_ok.1 h
    obtain ⟨raw, hr, hrest⟩ := bind_eq_ok.1 h
    obtain ⟨a1, a2, a3⟩ := writeSensor_raw h1 hr
    obtain ⟨rfl, a4⟩ := a3 ho
    obtain ⟨b1, b2, b3⟩ := writeFans_cache hrest a4
    refine ⟨b1, fun m x r hx => a2 m x r (b2 m x r hx), fun n => ⟨fun hn => ?_, fun hn => ?_⟩⟩
    · by_cases hin : n ∈ ns
      · obtain ⟨r, c1, c2⟩ := (b3 n).1 hin
        exact ⟨r, a2 _ _ _ c1, c2⟩
      · obtain rfl : n = sn := (List.mem_cons.1 hn).resolve_right hin
        refine ⟨raw, a1, ?_⟩
        rw [(b3 n).2 hin]
        simp [ZoneData.setOutputCache, OMap.find?_insert]
    · simp only [List.mem_cons, not_or] at hn
      rw [(b3 n).2 hn.2]
      simp [ZoneData.setOutputCache, OMap.find?_insert, hn.1]

theorem lastDrive_cons (c : FanPid) (v : Dbl) (l : List (FanPid × Dbl)) (n : String) :
    lastDrive ((c, v) :: l) n = (lastDrive l n).or (if n ∈ c.inputs then some v else none) := by
  unfold lastDrive
  rw [List.filter_cons]
  by_cases h : n ∈ c.inputs
  · simp only [h, decide_true, if_true]
    cases hl : (l.filter (fun x => decide (n ∈ x.1.inputs))) with
    | nil => simp
    | cons a b => rw [List.getLast?_cons_cons]; simp [List.getLast?_cons]
  · simp [h]

theorem fanList_cache {o : Opts} : ∀ {cs cs' : List (Option FanPid)} {w w' : World} {z z' : ZoneData},
    processFanList o w z cs = .ok (w', z', cs') → OwnNames w →
    ∃ l : List (FanPid × Dbl), cs = l.map (fun x => some x.1) ∧ Drives z.redundantWrite w l w' ∧
      ∀ n, (∀ v, lastDrive l n = some v → ∃ raw, RawOf w n v raw ∧
          z'.cachedFanOutputs.find? n = some ⟨v, Dbl.ofInt raw⟩) ∧
        (lastDrive l n = none → z'.cachedFanOutputs.find? n = z.cachedFanOutputs.find? n)
  | [], _, _, _, _, _, h, _ => by
    cases h
    exact ⟨[], rfl, .nil _, fun n => ⟨fun v hv => (by cases hv), fun _ => rfl⟩⟩
  | none :: _, _, _, _, _, _, h, _ => by cases h
  | some c :: cs, _, w, w', z, z', h, ho => by
    unfold processFanList at h
    obtain ⟨⟨w1, z1, c1⟩, h1, h⟩ := bind_eq_ok.1 h
    obtain ⟨⟨w2, z2, cs2⟩, h2, h⟩ := bind_eq_ok.1 h
    cases h
    unfold FanPid.process at h1
    obtain ⟨i, hi, h1⟩ := bind_eq_ok.1 h1
    obtain ⟨⟨w3, z3⟩, h3, h1⟩ := bind_eq_ok.1 h1
    cases h1
    obtain ⟨a1, a2⟩ := writeFans_spec h3
    obtain ⟨o1, o2, o3⟩ := writeFans_cache h3 ho
    obtain ⟨l, b1, b2, b3⟩ := fanList_cache h2 o1
    have hr : z1.redundantWrite = z.redundantWrite := by rw [a2]
    rw [hr] at b2
    refine ⟨(c, _) :: l, by rw [b1]; rfl, .cons a1 b2, fun n => ?_⟩
    rw [lastDrive_cons]
    cases hl : lastDrive l n with
    | some v =>
      obtain ⟨raw, c1, c2⟩ := (b3 n).1 v hl
      refine ⟨fun v' hv => ?_, fun hv => by cases hv⟩
      cases hv
      exact ⟨raw, o2 _ _ _ c1, c2⟩
    | none =>
      rw [(b3 n).2 hl]
      by_cases hin : n ∈ c.inputs
      · simp only [hin, if_true, Option.none_or]
        refine ⟨fun v' hv => ?_, fun hv => by cases hv⟩
        cases hv
        exact (o3 n).1 hin
      · simp only [hin, if_false, Option.none_or]
        exact ⟨fun v' hv => (by cases hv), fun _ => (o3 n).2 hin⟩

/-- **C90.** After an automatic tick the zone remembers for every fan the value the last of its loops commanded in that tick,
with the raw value a D-Bus fan was told (-1 for other fans); for a fan without loop it keeps what it had. -/
theorem C90_remembered {o : Opts} {w w' : World} {z z' : Zone} {cnt cnt' : Nat} (hm : z.d.manualMode = false)
    (hw : OwnNames w) (ht : z.tick o w cnt = .ok (w', z', cnt')) :
    ∃ l : List (FanPid × Dbl), z.fans = l.map (fun x => some x.1) ∧ Drives z.d.redundantWrite w l w' ∧
      ∀ n, (∀ v, lastDrive l n = some v → ∃ raw, RawOf w n v raw ∧
          z'.d.cachedFanOutputs.find? n = some ⟨v, Dbl.ofInt raw⟩) ∧
        (lastDrive l n = none → z'.d.cachedFanOutputs.find? n = z.d.cachedFanOutputs.find? n) := by
  have key : ∀ {zt : Zone}, zt.processFans o w = .ok (w', z') → zt.d.redundantWrite = z.d.redundantWrite →
      zt.fans = z.fans → zt.d.cachedFanOutputs = z.d.cachedFanOutputs →
      ∃ l : List (FanPid × Dbl), z.fans = l.map (fun x => some x.1) ∧ Drives z.d.redundantWrite w l w' ∧
      ∀ n, (∀ v, lastDrive l n = some v → ∃ raw, RawOf w n v raw ∧
          z'.d.cachedFanOutputs.find? n = some ⟨v, Dbl.ofInt raw⟩) ∧
        (lastDrive l n = none → z'.d.cachedFanOutputs.find? n = z.d.cachedFanOutputs.find? n) := by
    intro zt h e1 e2 e3
    unfold Zone.processFans at h
    obtain ⟨⟨w1, d1, fs⟩, h1, h⟩ := bind_eq_ok.1 h
    cases h
    have := fanList_cache h1 hw
    rwa [e1, e2, e3] at this
  obtain ⟨d, h1, h2⟩ := tick_auto hm ht
  have e := (pollAll_spec h1).frame.eq
  have e1 : d.redundantWrite = z.d.redundantWrite := by rw [e]
  have e2 : d.cachedFanOutputs = z.d.cachedFanOutputs := by rw [e]
  rcases h2 with ⟨_, zt, h3, h4, _⟩ | ⟨_, h3, _⟩
  · obtain ⟨d2, h5, h6⟩ := processThermals_restT h3
    have g := (pollAll_spec h5).frame.eq
    have hf : zt.fans = z.fans := by
      unfold Zone.processThermals at h3
      obtain ⟨_, _, h3⟩ := bind_eq_ok.1 h3
      obtain ⟨_, _, h3⟩ := bind_eq_ok.1 h3
      obtain ⟨_, _, h3⟩ := bind_eq_ok.1 h3
      cases h3; rfl
    refine key h4 ?_ hf ?_
    · rw [h6, g]; exact e1
    · rw [h6, g]; exact e2
  · exact key h3 e1 rfl e2

/-- the history before a tick -/
theorem Logged.before {f : LogFmt} {o : Opts} {z0 z : Zone} {cnt : Nat} {polls : List Poll} {ticks : List AutoTick}
    {text : List Char} (h : Logged f o z0 z cnt polls ticks text) : ∀ {pre post : List AutoTick} {t : AutoTick},
    ticks = pre ++ t :: post → ∃ cnt1 text1 cnt2 more, Logged f o z0 t.z cnt1 t.polls pre text1 ∧ t.z.d.manualMode = false ∧
      t.z.tickLog f o t.w cnt1 = .ok (t.w', t.z', cnt2, more) := by
  induction h with
  | start w hb hs => intro pre post t e; simp at e
  | manual b _ ih => exact ih
  | enable n b _ ih => exact ih
  | idle w _ _ _ ih => exact ih
  | @auto z cnt polls ticks text w w' z' cnt' more h hm ht ih =>
    intro pre post t e
    rcases List.eq_nil_or_concat post with rfl | ⟨post', t', rfl⟩
    · obtain ⟨rfl, e2⟩ := List.append_inj' e rfl
      cases e2
      exact ⟨cnt, text, cnt', more, h, hm, ht⟩
    · rw [List.concat_eq_append, ← List.cons_append, ← List.append_assoc] at e
      exact ih (List.append_inj' e rfl).1

/-- the outputs remembered between ticks -/
theorem Logged.remembered {f : LogFmt} {o : Opts} {z0 z : Zone} {cnt : Nat} {polls : List Poll} {ticks : List AutoTick}
    {text : List Char} (h : Logged f o z0 z cnt polls ticks text) :
    (ticks = [] → ∀ n ∈ z0.d.fanInputs, z.d.cachedFanOutputs.find? n = some ⟨nan, nan⟩) ∧
      ∀ t, ticks.getLast? = some t → z.d.cachedFanOutputs = t.z'.d.cachedFanOutputs := by
  induction h with
  | @start z text w hb hs =>
    unfold Zone.startLog at hs
    obtain ⟨z1, h1, hs⟩ := bind_eq_ok.1 hs
    cases hs
    refine ⟨fun _ n hn => ?_, fun t ht => by cases ht⟩
    obtain ⟨d, h2, h3⟩ := processThermals_restT h1
    have g := (pollAll_spec h2).frame.eq
    rw [h3, g]
    dsimp only
    rw [initializeCache_outputs, if_pos hn]
  | manual b _ ih => exact ih
  | @enable z cnt polls ticks text n b _ ih =>
    change (_ → ∀ m ∈ _, (z.d.setEnabled n b).cachedFanOutputs.find? m = _) ∧
      ∀ t, _ → (z.d.setEnabled n b).cachedFanOutputs = _
    rw [setEnabled_outputs]; exact ih
  | @idle z cnt polls ticks text w w' z' cnt' more _ hm ht ih =>
    unfold Zone.tickLog at ht
    rw [if_pos hm] at ht
    cases ht
    exact ih
  | auto w _ hm ht ih =>
    refine ⟨fun e => by simp at e, fun t e => ?_⟩
    rw [List.getLast?_append] at e
    simp at e
    rw [← e]

/-- **C90.** In the first row of the log the outputs of the fans are NaN. -/
theorem C90_first_row {f : LogFmt} {o : Opts} {z0 z : Zone} {cnt : Nat} {polls : List Poll} {t : AutoTick}
    {post : List AutoTick} {text : List Char} (h : Logged f o z0 z cnt polls (t :: post) text) {n : String}
    (hn : n ∈ z0.d.fanInputs) : t.z.d.cachedFanOutputs.find? n = some ⟨nan, nan⟩ := by
  obtain ⟨_, _, _, _, h1, _, _⟩ := h.before (pre := []) rfl
  exact h1.remembered.1 rfl n hn

/-- **C90.** In every other row the output shown for a fan is the one the last of its loops commanded in the tick of the row
before, with the raw value a D-Bus fan was told; other fans always show -1. -/
theorem C90_later_rows {f : LogFmt} {o : Opts} {z0 z : Zone} {cnt : Nat} {polls : List Poll} {t t' : AutoTick}
    {pre post : List AutoTick} {text : List Char} (h : Logged f o z0 z cnt polls (pre ++ t :: t' :: post) text)
    (hw : OwnNames t.w) :
    ∃ l : List (FanPid × Dbl), t.z.fans = l.map (fun x => some x.1) ∧ Drives t.z.d.redundantWrite t.w l t.w' ∧
      ∀ n v, lastDrive l n = some v → ∃ raw, RawOf t.w n v raw ∧
        t'.z.d.cachedFanOutputs.find? n = some ⟨v, Dbl.ofInt raw⟩ := by
  obtain ⟨_, _, _, _, h1, hm, ht⟩ := h.before (pre := pre) (post := t' :: post) rfl
  obtain ⟨_, _, _, _, h2, _, _⟩ := h.before (pre := pre ++ [t]) (post := post) (t := t') (by simp)
  obtain ⟨l, a1, a2, a3⟩ := C90_remembered hm hw (tick_of_log (C91_history h1) ht)
  refine ⟨l, a1, a2, fun n v hv => ?_⟩
  rw [h2.remembered.2 t (by simp)]
  exact (a3 n).1 v hv

end

namespace Ex
section
attribute [local instance] binary64

/-- a stand-in for number formatting: integers as letters, small doubles by name -/
def fmt : LogFmt :=
  { dbl := fun x => if x = nan then "nan".toList else if x = 0 then "0".toList else if x = 30 then "30".toList
      else if x = 80 then "80".toList else if x = 3000 then "3000".toList else "x".toList
    int := fun i => if i = 6000 then "6000".toList else "t".toList }

theorem fmt_ok : fmt.Ok := by
  refine ⟨fun x => ?_, fun i => ?_⟩
  · simp only [fmt]
    split_ifs <;> exact ⟨by decide, by decide⟩
  · simp only [fmt]
    split_ifs <;> exact ⟨by decide, by decide⟩

/-- start, an automatic tick, a tick in manual mode, and another automatic tick -/
def fourSteps (o : Opts) (w1 w2 w3 w4 : World) (z0 : Zone) : Res (Zone × List Char × World × Zone) := do
  let (z, t0) ← z0.startLog o w1
  let (wa, z, cnt, t1) ← z.tickLog fmt o w2 0
  let (_, z, cnt, t2) ← Zone.tickLog fmt o w3 { z with d := z.d.setManualMode true } cnt
  let (_, z', _, t3) ← Zone.tickLog fmt o w4 { z with d := z.d.setManualMode false } cnt
  .ok (z', t0 ++ t1 ++ t2 ++ t3, wa, { z with d := z.d.setManualMode false })

theorem fourSteps_logged {o : Opts} {w1 w2 w3 w4 : World} {z0 z : Zone} {text : List Char} {wa : World}
    {zb : Zone}
    (hb : Built z0.d) (h : fourSteps o w1 w2 w3 w4 z0 = .ok (z, text, wa, zb)) :
    ∃ cnt polls a b, Logged fmt o z0 z cnt polls [a, b] text ∧ a.w = w2 ∧ a.w' = wa ∧ b.z = zb := by
  unfold fourSteps at h
  obtain ⟨⟨z1, t0⟩, h1, h⟩ := bind_eq_ok.1 h
  obtain ⟨⟨wa', z2, c2, t1⟩, h2, h⟩ := bind_eq_ok.1 h
  obtain ⟨⟨wx, z3, c3, t2⟩, h3, h⟩ := bind_eq_ok.1 h
  obtain ⟨⟨wb, z4, c4, t3⟩, h4, h⟩ := bind_eq_ok.1 h
  cases h
  have l1 := Logged.start (f := fmt) w1 hb h1
  have m1 : z1.d.manualMode = false := by
    unfold Zone.startLog at h1
    obtain ⟨z1', h1', h1⟩ := bind_eq_ok.1 h1
    cases h1
    obtain ⟨d, g1, g2⟩ := processThermals_restT h1'
    have g := (pollAll_spec g1).frame.eq
    rw [g2, g]
    dsimp only
    rw [(initializeCache_spec z0.d).eq]
    have hm := built_manual hb
    exact hm
  have l2 := l1.auto w2 m1 h2
  have l3 := (l2.manual true).idle w3 rfl h3
  have l4 := (l3.manual false).auto w4 rfl h4
  exact ⟨_, _, _, _, l4, rfl, rfl, rfl⟩

/-- C89: the table of the example zone: a header and two rows of 16 cells; the second row shows the outputs of the first -/
theorem ex_log : ∃ r, fourSteps {} world world world world zone = .ok r ∧
    decide (r.2.1 = ("epoch_ms,setpt,requester,fan0,fan0_raw,fan0_pwm,fan0_pwm_raw,fan1,fan1_raw,fan1_pwm,fan1_pwm_raw," ++
      "cpu,cpu_raw,dimm,dimm_raw,failsafe\n" ++
      "6000,80,cpu_step,3000,3000,nan,nan,3000,3000,nan,nan,80,80,nan,nan,0\n" ++
      "6000,80,cpu_step,3000,3000,x,x,3000,3000,x,x,80,80,nan,nan,0\n").toList) = true :=
  ok_of_any (by decide +kernel)

/-- non-vacuity of C89, C90 and C91: these four steps are a logged history with two automatic ticks -/
example : ∃ z cnt polls a b text, Logged fmt {} zone z cnt polls [a, b] text ∧ a.w = world ∧ OwnNames a.w ∧
    (∀ n, n ∈ zone.d.fanInputs ∨ n ∈ zone.d.thermalInputs → Plain n.toList) ∧ (∀ c ∈ zone.thermals, Plain c.id.toList) := by
  obtain ⟨⟨z, text, wa, zb⟩, h, _⟩ := ex_log
  obtain ⟨cnt, polls, a, b, hl, ha, _, _⟩ := fourSteps_logged ex_built h
  refine ⟨z, cnt, polls, a, b, text, hl, ha, ?_, ?_, ?_⟩
  · rw [ha]
    intro n s hs
    have : n = "cpu" ∨ n = "dimm" ∨ n = "fan0" ∨ n = "fan1" := by
      by_contra hc
      push Not at hc
      obtain ⟨h1, h2, h3, h4⟩ := hc
      simp only [world, sensors] at hs
      rw [OMap.find?_insert_ne _ h4, OMap.find?_insert_ne _ h3, OMap.find?_insert_ne _ h2, OMap.find?_insert_ne _ h1,
        OMap.find?_empty] at hs
      cases hs
    rcases this with rfl | rfl | rfl | rfl <;> (cases hs; rfl)
  · intro n hn
    have : n = "cpu" ∨ n = "dimm" ∨ n = "fan0" ∨ n = "fan1" := by
      rcases hn with hn | hn
      · have : n ∈ ["fan0", "fan1"] := hn
        simp at this; tauto
      · have : n ∈ ["cpu", "dimm"] := hn
        simp at this; tauto
    rcases this with rfl | rfl | rfl | rfl <;> exact ⟨by decide, by decide⟩
  · intro c hc
    have : c.id = "cpu_pid" ∨ c.id = "cpu_step" ∨ c.id = "cpu_ceil" := by
      simp only [zone, List.mem_cons, List.not_mem_nil, or_false] at hc
      rcases hc with rfl | rfl | rfl <;> simp [ThermalCtl.id, thermal, step, ceil]
    rcases this with h | h | h <;> rw [h] <;> exact ⟨by decide, by decide⟩

/-- the example zone, its step loop being called `cpu,step` -/
def commaZone : Zone :=
  { zone with
    thermals := [.pid thermal, .stepwise { step with id := "cpu,step" }]
    d := data0.addPidControlProcess "cpu,step" "temp" 60 }

/-- **C89 needs plain loop names.** All inputs have plain names, but a loop whose name holds a comma leads, and the rows are
one cell wider than the header: all columns after it are shifted. -/
theorem C89_comma : (∀ n, n ∈ commaZone.d.fanInputs ∨ n ∈ commaZone.d.thermalInputs → Plain n.toList) ∧
    ∃ z cnt polls a b text, Logged fmt {} commaZone z cnt polls [a, b] text ∧
      ((text.splitOn '\n').dropLast.map (fun l => (l.splitOn ',').length)) = [16, 17, 17] := by
  refine ⟨fun n hn => ?_, ?_⟩
  · have : n = "cpu" ∨ n = "dimm" ∨ n = "fan0" ∨ n = "fan1" := by
      rcases hn with hn | hn
      · have : n ∈ ["fan0", "fan1"] := hn
        simp at this; tauto
      · have : n ∈ ["cpu", "dimm"] := hn
        simp at this; tauto
    rcases this with rfl | rfl | rfl | rfl <;> exact ⟨by decide, by decide⟩
  · obtain ⟨⟨z, text, wa, zb⟩, h, ht⟩ := ok_of_any (x := fourSteps {} world world world world commaZone)
      (P := fun r : Zone × List Char × World × Zone =>
        decide (((r.2.1.splitOn '\n').dropLast.map (fun l => (l.splitOn ',').length)) = [16, 17, 17])) (by decide +kernel)
    obtain ⟨cnt, polls, a, b, hl, _, _, _⟩ := fourSteps_logged (Built.process _ _ _ ex_built) h
    exact ⟨z, cnt, polls, a, b, text, hl, of_decide_eq_true ht⟩

/-- the example world with fan 0 on a sysfs file -/
def sysfsWorld : World :=
  { world with
    sensors := sensors.insert "fan0" ⟨"fan0", 2, false, .pluggable (.passive tach) (.sysfsPercent "/sys/pwm1" 0 255)⟩ }

/-- **C90: a sysfs fan is always shown with raw output -1.** The file was told 204, the zone remembers -1. -/
theorem C90_sysfs : ∃ z cnt polls a b text, Logged fmt {} zone z cnt polls [a, b] text ∧ a.w = sysfsWorld ∧
    Effect.sysfsWrite "/sys/pwm1" 204 ∈ a.w'.trace ∧ b.z.d.cachedFanOutputs.find? "fan0" = some ⟨80 / 100, -1⟩ := by
  obtain ⟨⟨z, text, wa, zb⟩, h, ht⟩ := ok_of_any (x := fourSteps {} world sysfsWorld world world zone)
    (P := fun r : Zone × List Char × World × Zone => decide (Effect.sysfsWrite "/sys/pwm1" 204 ∈ r.2.2.1.trace ∧
      r.2.2.2.d.cachedFanOutputs.find? "fan0" = some ⟨80 / 100, -1⟩)) (by decide +kernel)
  obtain ⟨cnt, polls, a, b, hl, h1, h2, h3⟩ := fourSteps_logged ex_built h
  rw [← h2, ← h3] at ht
  exact ⟨z, cnt, polls, a, b, text, hl, h1, of_decide_eq_true ht⟩

end
end Ex
end Verif
