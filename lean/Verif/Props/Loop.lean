import Verif.Lemmas.Drive
import Verif.Spec.Example
import Verif.Props.Arbitration

/-! # The control loop: C37 to C41 and C44 -/

namespace Verif
open Dbl
section
variable [F : FloatModel]

/-! ## C37 -/

theorem cycleTime_tick {o : Opts} {w w' : World} {z z' : Zone} {cnt cnt' : Nat}
    (h : z.tick o w cnt = .ok (w', z', cnt')) : z'.d.cycleTime = z.d.cycleTime := by
  by_cases hm : z.d.manualMode = true
  · rw [tick_manual hm] at h; cases h; rfl
  · obtain ⟨d, h1, h2⟩ := tick_auto (by simpa using hm) h
    have e1 : d.cycleTime = z.d.cycleTime := by rw [(pollAll_spec h1).frame.eq]
    rcases h2 with ⟨_, zt, h3, h4, _⟩ | ⟨_, h3, _⟩
    · obtain ⟨d2, h5, h6⟩ := processThermals_rest h3
      have e2 : d2.cycleTime = d.cycleTime := by rw [(pollAll_spec h5).frame.eq]
      have e3 : zt.d.cycleTime = d2.cycleTime := by rw [h6]
      have e4 : z'.d.cycleTime = zt.d.cycleTime := by rw [(processFans_rest h4).1]
      rw [e4, e3, e2, e1]
    · have e4 : z'.d.cycleTime = d.cycleTime := by rw [(processFans_rest h3).1]
      rw [e4, e1]

theorem setEnabled_cycleTime (z : ZoneData) (n : String) (b : Bool) : (z.setEnabled n b).cycleTime = z.cycleTime := by
  rw [setEnabled_rest z n b]

theorem Ticks.cycleTime {o : Opts} {z0 z : Zone} {n cnt : Nat} (h : Ticks o z0 n z cnt) :
    z.d.cycleTime = z0.d.cycleTime := by
  induction h with
  | start => rfl
  | manual b _ ih => exact ih
  | enable n b _ ih => exact (setEnabled_cycleTime _ n b).trans ih
  | idle w _ _ ht ih => rw [cycleTime_tick ht, ih]
  | auto w _ _ ht ih => rw [cycleTime_tick ht, ih]

/-- the cycle counter: elapsed fan time minus the time used up by thermal passes -/
theorem Ticks.count {o : Opts} {z0 z : Zone} {n cnt : Nat} (h : Ticks o z0 n z cnt)
    (hT : 1 ≤ z0.d.cycleTime.updateThermalsTimeMS)
    (hFT : z0.d.cycleTime.cycleIntervalTimeMS ≤ z0.d.cycleTime.updateThermalsTimeMS) :
    cnt + z0.d.cycleTime.updateThermalsTimeMS *
        passesDue z0.d.cycleTime.cycleIntervalTimeMS z0.d.cycleTime.updateThermalsTimeMS n =
      z0.d.cycleTime.cycleIntervalTimeMS * n := by
  induction h with
  | start => simp [passesDue]
  | manual b _ ih => exact ih
  | enable n b _ ih => exact ih
  | idle w _ hm ht ih => rw [tick_manual hm] at ht; cases ht; exact ih
  | @auto n z cnt w w' z' cnt' hp hm ht ih =>
    have hc := hp.cycleTime
    obtain ⟨d, _, h2⟩ := tick_auto hm ht
    rw [hc] at h2
    generalize hF' : z0.d.cycleTime.cycleIntervalTimeMS = fm at *
    generalize hT' : z0.d.cycleTime.updateThermalsTimeMS = tm at *
    simp only [passesDue, Nat.add_sub_cancel] at ih ⊢
    have hmul : fm * (n + 1) = fm * n + fm := by ring
    have key : ∀ k : Nat, tm * k ≤ n * fm → n * fm < tm * k + tm → n * fm / tm = k := by
      intro k h1 h2
      rw [Nat.div_eq_iff (by omega)]
      constructor
      · rw [Nat.mul_comm]; exact h1
      · rw [Nat.mul_comm k tm]; omega
    have hcm : n * fm = fm * n := Nat.mul_comm _ _
    generalize hk : (n - 1) * fm / tm = k at ih
    have hlt : cnt < tm + fm := by
      rcases Nat.eq_zero_or_pos n with rfl | hn
      · simp at ih; omega
      · have h3 : (n - 1) * fm < tm * ((n - 1) * fm / tm + 1) := by
          have := Nat.lt_mul_div_succ ((n - 1) * fm) (show 0 < tm by omega)
          simpa using this
        rw [hk, Nat.mul_add, Nat.mul_one] at h3
        have h4 : fm * n = (n - 1) * fm + fm := by
          obtain ⟨m, rfl⟩ : ∃ m, n = m + 1 := ⟨n - 1, by omega⟩
          simp only [Nat.add_sub_cancel]; ring
        omega
    rcases h2 with ⟨hle, _, _, _, rfl⟩ | ⟨hle, _, rfl⟩
    · have : n * fm / tm = k + 1 := key (k + 1) (by rw [hcm, ← ih, Nat.mul_add]; omega) (by
        rw [hcm, ← ih, Nat.mul_add]; omega)
      rw [this, Nat.mul_add, hmul, ← ih]; omega
    · have : n * fm / tm = k := key k (by omega) (by omega)
      rw [this, hmul, ← ih]; omega

/-- C37: with fan interval F and thermal interval T, 1 ≤ F ≤ T, the (n+1)-st automatic tick drives the fans, and it runs
a thermal pass exactly when the number floor(n*F/T) of passes due grows. -/
theorem C37_schedule {o : Opts} {z0 z z' : Zone} {n cnt cnt' : Nat} {w w' : World} (h : Ticks o z0 n z cnt)
    (hF : 1 ≤ z0.d.cycleTime.cycleIntervalTimeMS)
    (hFT : z0.d.cycleTime.cycleIntervalTimeMS ≤ z0.d.cycleTime.updateThermalsTimeMS)
    (hm : z.d.manualMode = false) (ht : z.tick o w cnt = .ok (w', z', cnt')) :
    let due := passesDue z0.d.cycleTime.cycleIntervalTimeMS z0.d.cycleTime.updateThermalsTimeMS
    (due (n + 1) = due n + 1 ∧ ThermalTick o w z w' z') ∨ (due (n + 1) = due n ∧ FanTick o w z w' z') := by
  have h0 := h.count (by omega) hFT
  have h1 := (Ticks.auto w h hm ht).count (by omega) hFT
  have hc := h.cycleTime
  obtain ⟨d, hd, h2⟩ := tick_auto hm ht
  rw [hc] at h2
  dsimp only
  generalize z0.d.cycleTime.cycleIntervalTimeMS = fm at *
  generalize z0.d.cycleTime.updateThermalsTimeMS = tm at *
  have hmul : fm * (n + 1) = fm * n + fm := by ring
  generalize passesDue fm tm (n + 1) = a at *
  generalize passesDue fm tm n = b at *
  have hz : ∀ x y : Nat, tm * x = tm * y → x = y := fun x y hxy => Nat.eq_of_mul_eq_mul_left (by omega) hxy
  rcases h2 with ⟨hle, zt, h3, h4, rfl⟩ | ⟨hle, h3, rfl⟩
  · refine .inl ⟨hz _ _ ?_, d, zt, hd, h3, h4⟩
    rw [Nat.mul_add]; omega
  · exact .inr ⟨hz _ _ (by omega), d, hd, h3⟩

/-- C37: after n automatic ticks floor((n-1)*F/T) thermal passes have run. `k` counts the ticks that ran one. -/
theorem C37_count {fanMS thermalMS : Nat} (hF : 1 ≤ fanMS) (hFT : fanMS ≤ thermalMS) (n : Nat) :
    ((List.range n).filter (fun i => passesDue fanMS thermalMS (i + 1) = passesDue fanMS thermalMS i + 1)).length =
      (n - 1) * fanMS / thermalMS := by
  have step : ∀ i, passesDue fanMS thermalMS (i + 1) = passesDue fanMS thermalMS i + 1 ∨
      passesDue fanMS thermalMS (i + 1) = passesDue fanMS thermalMS i := by
    intro i
    simp only [passesDue, Nat.add_sub_cancel]
    rcases Nat.eq_zero_or_pos i with rfl | hi
    · right; rfl
    · have h4 : i * fanMS = (i - 1) * fanMS + fanMS := by
        obtain ⟨m, rfl⟩ : ∃ m, i = m + 1 := ⟨i - 1, by omega⟩
        simp only [Nat.add_sub_cancel]; ring
      rw [h4]
      have h5 : ((i - 1) * fanMS + fanMS) / thermalMS ≤ ((i - 1) * fanMS + thermalMS) / thermalMS :=
        Nat.div_le_div_right (by omega)
      rw [Nat.add_div_right _ (by omega)] at h5
      have h6 : (i - 1) * fanMS / thermalMS ≤ ((i - 1) * fanMS + fanMS) / thermalMS := Nat.div_le_div_right (by omega)
      omega
  change _ = passesDue fanMS thermalMS n
  induction n with
  | zero => simp [passesDue]
  | succ n ih =>
    rw [List.range_succ, List.filter_append, List.length_append, ih]
    rcases step n with h | h
    · simp [h]
    · simp [h]

/-- C37, thermal interval shorter than the fan interval: the first automatic tick runs no thermal pass, every later one
runs exactly one. The configured thermal rate is then not reached. -/
theorem C37_fast_thermals {o : Opts} {z0 z z' : Zone} {n cnt cnt' : Nat} {w w' : World} (h : Ticks o z0 n z cnt)
    (hT : 1 ≤ z0.d.cycleTime.updateThermalsTimeMS)
    (hFT : z0.d.cycleTime.updateThermalsTimeMS ≤ z0.d.cycleTime.cycleIntervalTimeMS)
    (hm : z.d.manualMode = false) (ht : z.tick o w cnt = .ok (w', z', cnt')) :
    (n = 0 → FanTick o w z w' z') ∧ (1 ≤ n → ThermalTick o w z w' z') := by
  have hcnt : (n = 0 → cnt = 0) ∧ (1 ≤ n → z0.d.cycleTime.updateThermalsTimeMS ≤ cnt) := by
    clear ht hm
    induction h with
    | start => simp
    | manual b _ ih => exact ih
    | enable n b _ ih => exact ih
    | idle w _ hm ht ih => rw [tick_manual hm] at ht; cases ht; exact ih
    | @auto n z cnt w w' z' cnt' hp hm ht ih =>
      obtain ⟨d, _, h2⟩ := tick_auto hm ht
      rw [hp.cycleTime] at h2
      rcases h2 with ⟨hle, _, _, _, rfl⟩ | ⟨hle, _, rfl⟩ <;> (refine ⟨by omega, fun _ => by omega⟩)
  obtain ⟨d, hd, h2⟩ := tick_auto hm ht
  rw [h.cycleTime] at h2
  constructor
  · intro hn
    rcases h2 with ⟨hle, _⟩ | ⟨_, h3, _⟩
    · have := hcnt.1 hn; omega
    · exact ⟨d, hd, h3⟩
  · intro hn
    rcases h2 with ⟨_, zt, h3, h4, _⟩ | ⟨hle, _⟩
    · exact ⟨d, zt, hd, h3, h4⟩
    · exact absurd (hcnt.2 hn) hle

/-! ## C26, the switch -/

/-- C26: setting `Enable` of a loop enables or disables that loop, if it has a D-Bus object, and nothing else. -/
theorem C26_switch (z : ZoneData) (n : String) (b : Bool) :
    (Enabled (z.setEnabled n b) n ↔ (∃ p, z.procs.find? n = some p) ∧ b = true) ∧
    (∀ m, m ≠ n → (z.setEnabled n b).procs.find? m = z.procs.find? m) ∧
    { z.setEnabled n b with procs := z.procs } = z := by
  unfold ZoneData.setEnabled Enabled
  cases h : z.procs.find? n with
  | none =>
    refine ⟨?_, fun _ _ => rfl, rfl⟩
    simp [h]
  | some p =>
    refine ⟨?_, fun m hm => OMap.find?_insert_ne _ hm _, rfl⟩
    simp [OMap.find?_insert]

/-! ## C38 -/

theorem start_cycleTime {o : Opts} {w : World} {z z' : Zone} (h : z.start o w = .ok z') :
    z'.d.cycleTime = z.d.cycleTime := by
  obtain ⟨d, h1, h2⟩ := processThermals_rest h
  have e1 : d.cycleTime = z.d.initializeCache.cycleTime := by rw [(pollAll_spec h1).frame.eq]
  have e2 : z'.d.cycleTime = d.cycleTime := by rw [h2]
  have e3 : z.d.initializeCache.cycleTime = z.d.cycleTime := by rw [(initializeCache_spec z.d).eq]
  rw [e2, e1, e3]

/-- C38: after the start at time `t0` and `k` handlers, however late each of them ran, the loop waits for the deadline
`t0` plus `k + 1` fan intervals. -/
theorem C38_no_drift {o : Opts} {z0 : Zone} {t0 : Int} {k : Nat} {l : Loop} (h : Runs o z0 t0 k l) :
    l.waiting = true ∧ l.expiry = t0 + (k + 1) * (z0.d.cycleTime.cycleIntervalTimeMS * 1000000) := by
  have key : l.zone.d.cycleTime = z0.d.cycleTime ∧ l.waiting = true ∧
      l.expiry = t0 + (k + 1) * (z0.d.cycleTime.cycleIntervalTimeMS * 1000000) := by
    induction h with
    | start w hs =>
      simp only [pidControlLoop, Bool.false_eq_true, if_false, if_true] at hs
      obtain ⟨z, h1, h2⟩ := bind_eq_ok.1 hs
      cases h2
      have hc := start_cycleTime h1
      refine ⟨hc, rfl, ?_⟩
      simp only [hc]
      push_cast; ring
    | manual b _ ih => exact ih
    | enable n b _ ih => exact ⟨(setEnabled_cycleTime _ n b).trans ih.1, ih.2⟩
    | @handler k l w now w' l' _ hh ih =>
      simp only [Loop.handler, Bool.false_eq_true, if_false] at hh
      obtain ⟨⟨w1, z1, c1⟩, h1, h2⟩ := bind_eq_ok.1 hh
      obtain ⟨l1, h3, h4⟩ := bind_eq_ok.1 h2
      cases h4
      simp only [pidControlLoop, Bool.false_eq_true, if_false, ok_bind] at h3
      cases h3
      have hc := (cycleTime_tick h1).trans ih.1
      refine ⟨hc, rfl, ?_⟩
      simp only [hc, ih.2.2]
      push_cast; ring
  exact key.2

/-- what a handler that is neither aborted nor cancelled does: one tick, then the next wait -/
theorem handler_tick {o : Opts} {w w' : World} {now : Int} {l l' : Loop}
    (h : l.handler o w now false false = .ok (w', l')) :
    l.zone.tick o w l.cycleCnt = .ok (w', l'.zone, l'.cycleCnt) := by
  simp only [Loop.handler, Bool.false_eq_true, if_false] at h
  obtain ⟨⟨w1, z1, c1⟩, h1, h2⟩ := bind_eq_ok.1 h
  obtain ⟨l1, h3, h4⟩ := bind_eq_ok.1 h2
  cases h4
  simp only [pidControlLoop, Bool.false_eq_true, if_false, ok_bind] at h3
  cases h3
  exact h1

theorem AutoRuns.ticks {o : Opts} {z0 : Zone} {n : Nat} {l : Loop} (h : AutoRuns o z0 n l) :
    ∃ zs, zs.d.cycleTime = z0.d.cycleTime ∧ Ticks o zs n l.zone l.cycleCnt := by
  induction h with
  | start w t0 hs =>
    simp only [pidControlLoop, Bool.false_eq_true, if_false, if_true] at hs
    obtain ⟨z, h1, h2⟩ := bind_eq_ok.1 hs
    cases h2
    exact ⟨z, start_cycleTime h1, .start⟩
  | manual b _ ih => obtain ⟨zs, h0, h1⟩ := ih; exact ⟨zs, h0, .manual b h1⟩
  | enable n b _ ih => obtain ⟨zs, h0, h1⟩ := ih; exact ⟨zs, h0, .enable n b h1⟩
  | idle w now _ hm hh ih => obtain ⟨zs, h0, h1⟩ := ih; exact ⟨zs, h0, .idle w h1 hm (handler_tick hh)⟩
  | auto w now _ hm hh ih => obtain ⟨zs, h0, h1⟩ := ih; exact ⟨zs, h0, .auto w h1 hm (handler_tick hh)⟩

/-- C37 for the running loop with its timer: the (n+1)-st automatic handler drives the fans, and it runs a thermal pass
exactly when the number floor(n*F/T) of passes due grows. -/
theorem C37_loop {o : Opts} {z0 : Zone} {n : Nat} {l l' : Loop} {w w' : World} {now : Int} (h : AutoRuns o z0 n l)
    (hF : 1 ≤ z0.d.cycleTime.cycleIntervalTimeMS)
    (hFT : z0.d.cycleTime.cycleIntervalTimeMS ≤ z0.d.cycleTime.updateThermalsTimeMS)
    (hm : l.zone.d.manualMode = false) (hh : l.handler o w now false false = .ok (w', l')) :
    let due := passesDue z0.d.cycleTime.cycleIntervalTimeMS z0.d.cycleTime.updateThermalsTimeMS
    (due (n + 1) = due n + 1 ∧ ThermalTick o w l.zone w' l'.zone) ∨ (due (n + 1) = due n ∧ FanTick o w l.zone w' l'.zone) := by
  obtain ⟨zs, h0, h1⟩ := h.ticks
  have := C37_schedule h1 (by rw [h0]; exact hF) (by rw [h0]; exact hFT) hm (handler_tick hh)
  rw [h0] at this
  exact this

/-! ## C39 -/

/-- Handlers of a loop that run one after the other in worlds `ws`, at arbitrary times. -/
inductive HandlersRun (o : Opts) : List (World × Int) → Loop → Loop → Prop
  | nil (l) : HandlersRun o [] l l
  | cons {w now ws w' l l1 l2} : l.handler o w now false false = .ok (w', l1) → HandlersRun o ws l1 l2 →
      HandlersRun o ((w, now) :: ws) l l2

/-- C39: in manual mode a handler leaves the world (readings, writers and written values) and the zone as they are and
keeps the cycle counter; any number of them only moves the deadline by as many fan intervals. -/
theorem C39_frozen {o : Opts} {l : Loop} (hm : l.zone.d.manualMode = true) :
    (∀ w now, ∃ l', l.handler o w now false false = .ok (w, l') ∧ l'.zone = l.zone ∧ l'.cycleCnt = l.cycleCnt ∧
      l'.waiting = true) ∧
    (∀ ws l', HandlersRun o ws l l' → l'.zone = l.zone ∧ l'.cycleCnt = l.cycleCnt ∧
      l'.expiry = l.expiry + ws.length * (l.zone.d.cycleTime.cycleIntervalTimeMS * 1000000)) := by
  have one : ∀ (l : Loop) w now, l.zone.d.manualMode = true → l.handler o w now false false = .ok (w, { l with
      expiry := l.expiry + l.zone.d.cycleTime.cycleIntervalTimeMS * 1000000, waiting := true }) := by
    intro l w now hm
    simp only [Loop.handler, Bool.false_eq_true, if_false, tick_manual hm, ok_bind, pidControlLoop]
  refine ⟨fun w now => ⟨_, one l w now hm, rfl, rfl, rfl⟩, fun ws l' h => ?_⟩
  induction h with
  | nil l => simp
  | @cons w now ws w' l l1 l2 h1 _ ih =>
    rw [one l w now hm] at h1
    cases h1
    obtain ⟨a, b, c⟩ := ih hm
    refine ⟨a, b, ?_⟩
    rw [c]
    simp only [List.length_cons]
    push_cast; ring

/-! ## C40 -/

theorem thermalTick_flags {o : Opts} {w : World} {z z' : Zone} (h : z.processThermals o w = .ok z') :
    z'.d.redundantWrite = z.d.redundantWrite ∧ z'.d.manualMode = z.d.manualMode ∧ z'.fans = z.fans := by
  have hf : z'.fans = z.fans := by
    unfold Zone.processThermals at h
    obtain ⟨d, h1, h⟩ := bind_eq_ok.1 h
    obtain ⟨⟨d1, ts⟩, h2, h⟩ := bind_eq_ok.1 h
    obtain ⟨d2, h3, h⟩ := bind_eq_ok.1 h
    cases h; rfl
  obtain ⟨d, h1, h2⟩ := processThermals_restT h
  have e := (pollAll_spec h1).frame.eq
  refine ⟨?_, ?_, hf⟩
  · have : z'.d.redundantWrite = d.redundantWrite := by rw [h2]
    rw [this, e]
  · have : z'.d.manualMode = d.manualMode := by rw [h2]
    rw [this, e]

/-- an automatic tick polls, possibly runs the thermal loops, and then drives the fans with the zone's force flag -/
theorem autoTick_drives {o : Opts} {w w' : World} {z z' : Zone} {cnt cnt' : Nat} (hm : z.d.manualMode = false)
    (ht : z.tick o w cnt = .ok (w', z', cnt')) :
    ∃ zt : Zone, zt.processFans o w = .ok (w', z') ∧ zt.d.redundantWrite = z.d.redundantWrite ∧ zt.fans = z.fans ∧
      zt.d.manualMode = false := by
  obtain ⟨d, hd, h2⟩ := tick_auto hm ht
  have e := (pollAll_spec hd).frame.eq
  have e1 : d.redundantWrite = z.d.redundantWrite := by rw [e]
  have e2 : d.manualMode = z.d.manualMode := by rw [e]
  rcases h2 with ⟨_, zt, h3, h4, _⟩ | ⟨_, h3, _⟩
  · obtain ⟨a, b, c⟩ := thermalTick_flags h3
    exact ⟨zt, h4, a.trans e1, c, (b.trans e2).trans hm⟩
  · exact ⟨_, h3, e1, rfl, e2.trans hm⟩

theorem built_flags {z : ZoneData} (h : Built z) : z.redundantWrite = false ∧ z.manualMode = false := by
  have add : ∀ (is : List String) (p : Dbl) (z : ZoneData),
      (z.addPidFailSafePercent is p).redundantWrite = z.redundantWrite ∧
      (z.addPidFailSafePercent is p).manualMode = z.manualMode := by
    intro is
    induction is with
    | nil => intros; exact ⟨rfl, rfl⟩
    | cons s is ih => intro p z; simp only [ZoneData.addPidFailSafePercent]; rw [(ih _ _).1, (ih _ _).2]; exact ⟨rfl, rfl⟩
  induction h with
  | ctor => exact ⟨rfl, rfl⟩
  | fanInput n b _ ih => exact ih
  | thermalInput n b _ ih => exact ih
  | process n t s _ ih => exact ih
  | failSafePercent is p _ ih => rw [(add _ _ _).1, (add _ _ _).2]; exact ih

theorem ForcedHist.flag {o : Opts} {z : Zone} {b : Bool} (h : ForcedHist o z b) : z.d.redundantWrite = b := by
  induction h with
  | @start z z' w hb hs =>
    have := (thermalTick_flags hs).1
    rw [this]
    have e : z.d.initializeCache.redundantWrite = z.d.redundantWrite := by rw [(initializeCache_spec z.d).eq]
    exact e.trans (built_flags hb).1
  | manual _ ih => exact ih
  | automatic _ _ => rfl
  | @enable z b n e _ ih =>
    have : (z.d.setEnabled n e).redundantWrite = z.d.redundantWrite := by
      unfold ZoneData.setEnabled
      cases z.d.procs.find? n <;> rfl
    exact this.trans ih
  | idle w _ hm ht ih => rw [tick_manual hm] at ht; cases ht; exact ih
  | auto w _ hm ht _ =>
    obtain ⟨zt, h1, _⟩ := autoTick_drives hm ht
    obtain ⟨_, _, _, _, _, h2, _⟩ := processFans_spec h1
    rw [h2]

/-- C40: in an automatic tick every fan loop commands all its fans in order; the commands are forced exactly when manual
mode was switched off since the last automatic tick. Forced commands produce one write for every fan that can be
written, unforced ones at most one. -/
theorem C40_forced_once {o : Opts} {z z' : Zone} {b : Bool} {w w' : World} {cnt cnt' : Nat} (h : ForcedHist o z b)
    (hm : z.d.manualMode = false) (ht : z.tick o w cnt = .ok (w', z', cnt')) :
    ∃ l : List (FanPid × Dbl), z.fans = l.map (fun x => some x.1) ∧ Drives b w l w' ∧
      ∃ effs, w'.trace = w.trace ++ effs ∧
        (effs.map Effect.path).Sublist ((l.flatMap (fun x => x.1.inputs)).filterMap (targetOf w)) ∧
        (b = true → effs.map Effect.path = (l.flatMap (fun x => x.1.inputs)).filterMap (targetOf w)) := by
  obtain ⟨zt, h1, h2, h3, _⟩ := autoTick_drives hm ht
  obtain ⟨l, a1, _, a2, _⟩ := processFans_spec h1
  rw [h2, h.flag] at a2
  refine ⟨l.map (fun x => (x.1, x.2.1)), ?_, a2, (drives_target a2).2⟩
  rw [← h3, a1, List.map_map]; rfl

/-! ## C41 -/

/-- C41: when a handler runs with the cancellation flag set, or is aborted, the loop waits for nothing afterwards, so no
handler of it ever runs again. -/
theorem C41_stops {o : Opts} {l l' : Loop} (h : HandlerRuns o true l l') :
    l'.waiting = false ∧ ∀ cancel l'', ¬ HandlerRuns o cancel l' l'' := by
  have hw : l'.waiting = false := by
    obtain ⟨_, w, now, aborted, w', h⟩ := h
    unfold Loop.handler at h
    split_ifs at h
    · cases h; rfl
    · obtain ⟨⟨w1, z1, c1⟩, _, h2⟩ := bind_eq_ok.1 h
      obtain ⟨l1, h3, h4⟩ := bind_eq_ok.1 h2
      cases h4
      simp only [pidControlLoop, if_true] at h3
      cases h3; rfl
  refine ⟨hw, ?_⟩
  rintro cancel l'' ⟨h1, _⟩
  rw [hw] at h1; cases h1

/-- C41: an aborted wait ends the loop without a tick, whatever the flag. -/
theorem C41_aborted {o : Opts} (l : Loop) (w : World) (now : Int) (cancel : Bool) :
    ∃ l', l.handler o w now cancel true = .ok (w, l') ∧ l'.zone = l.zone ∧ l'.waiting = false := ⟨_, rfl, rfl, rfl⟩

/-- C41: a loop started while the flag is set neither touches its zone nor waits. -/
theorem C41_not_started {o : Opts} (l : Loop) (w : World) (now : Int) (first : Bool) :
    ∃ l', pidControlLoop o w now true first l = .ok l' ∧ l'.zone = l.zone ∧ l'.waiting = false := ⟨_, rfl, rfl, rfl⟩

/-! ## C44 -/

/-- C44: in a tick that runs the thermal loops, the set point is arbitrated from submissions computed on the readings
polled in this tick, and every fan loop of the tick works with exactly this set point. -/
theorem C44_same_tick {o : Opts} (ho : o.tuningEnabled = false) {w w' : World} {z z' : Zone} {cnt cnt' : Nat}
    (hm : z.d.manualMode = false) (hT : z.d.cycleTime.updateThermalsTimeMS ≤ cnt)
    (ht : z.tick o w cnt = .ok (w', z', cnt')) (hacc : z.d.accumulateSetPoint = false) :
    ∃ dt, (∀ n ∈ z.d.thermalInputs, ∃ s r, w.sensors.find? n = some s ∧ s.read w w.nowThermals = .ok r ∧
        Reads dt n r.value ∧ ReadsRaw dt n r.unscaled) ∧
      (∀ n ∈ z.d.fanInputs, n ∉ z.d.thermalInputs → ∃ s r, w.sensors.find? n = some s ∧ s.read w w.nowFans = .ok r ∧
        Reads dt n r.value ∧ ReadsRaw dt n r.unscaled) ∧
      ((∀ c ∈ z.thermals, CtlReady dt c) → ∃ subs, List.Forall₂ (Submits dt) z.thermals (subs.zip z'.thermals) ∧
        subs.length = z.thermals.length ∧ (¬ CeilingOf subs nan → ArbitratedTo dt subs z'.d.maximumSetPoint)) ∧
      List.Forall₂ (fun c c' => ∃ a a' input, c = some a ∧ c' = some a' ∧ a.inputProc dt = .ok input ∧
        a'.setpoint = z'.d.maximumSetPoint ∧ a'.ctl = (pidStep a.ctl z'.d.maximumSetPoint input).2) z.fans z'.fans := by
  obtain ⟨d, hd, h2⟩ := tick_auto hm ht
  rcases h2 with ⟨_, zt, h3, h4, _⟩ | ⟨hn, _⟩
  swap
  · exact absurd hT hn
  obtain ⟨dt, h5, h6⟩ := processThermals_restT h3
  have p1 := pollAll_spec hd
  have p2 := pollAll_spec h5
  have hti : d.thermalInputs = z.d.thermalInputs := by rw [p1.frame.eq]
  have hdacc : dt.accumulateSetPoint = false := by
    rw [p2.frame.eq]
    have : d.accumulateSetPoint = z.d.accumulateSetPoint := by rw [p1.frame.eq]
    exact this.trans hacc
  obtain ⟨l, a1, a2, _, a4, a5, a6⟩ := processFans_spec h4
  have hfans := (thermalTick_flags h3).2.2
  refine ⟨dt, fun n hn => ?_, fun n hn hnt => ?_, fun hr => ?_, ?_⟩
  · obtain ⟨s, r, f, q1, q2, _, q4⟩ := p2.sensor n (by simpa [hti] using hn)
    exact ⟨s, r, q1, q2, ⟨_, q4, rfl⟩, ⟨_, q4, rfl⟩⟩
  · obtain ⟨s, r, f, q1, q2, _, q4⟩ := p1.sensor n hn
    have q5 : dt.cachedValuesByName.find? n = some ⟨r.value, r.unscaled⟩ := by
      rw [(p2.other n (by simpa [hti] using hnt)).2]; exact q4
    exact ⟨s, r, q1, q2, ⟨_, q5, rfl⟩, ⟨_, q5, rfl⟩⟩
  · obtain ⟨z2, subs, b1, b2, b3, b4⟩ := C23_cycle ho (z := { z with d := d }) h5 hdacc hr
    rw [h3] at b1; cases b1
    refine ⟨subs, ?_, b3, fun hn => ?_⟩
    · rw [a6]; exact b2
    · have : z'.d.maximumSetPoint = zt.d.maximumSetPoint := by rw [a5]
      rw [this]; exact b4 hn
  · have hz : z.fans = l.map (fun x => some x.1) := by rw [← a1, hfans]
    rw [hz, a2, List.forall₂_map_left_iff, List.forall₂_map_right_iff]
    refine List.forall₂_same.2 (fun x hx => ?_)
    obtain ⟨⟨i, c1, _, c3, c4⟩, _⟩ := a4 x hx
    have e1 : z'.d.maximumSetPoint = zt.d.maximumSetPoint := by rw [a5]
    have e2 : zt.d.cachedValuesByName = dt.cachedValuesByName := by rw [h6]
    refine ⟨x.1, x.2.2, i, rfl, rfl, ?_, ?_, ?_⟩
    · rw [← fanInput_congr e2]; exact c1
    · rw [e1]; exact c3
    · rw [e1]; exact c4

end

/-! ## Concrete cases -/

section
attribute [local instance] binary64
open Ex

/-- C37: 300 ms fan ticks, 1000 ms thermal passes: passes in ticks 5, 8 and 11 -/
example : (List.range 12).filter (fun i => passesDue 300 1000 (i + 1) = passesDue 300 1000 i + 1) = [4, 7, 10] := by
  decide

/-- a zone with 300 ms and 600 ms -/
def slowZone : Zone := { zone with d := { data0 with cycleTime := ⟨300, 600⟩ } }

/-- three ticks; the third runs a thermal pass (the counter drops) -/
theorem ex_three_ticks : ∃ a, (do
    let zs ← slowZone.start {} world
    let (_, z1, c1) ← zs.tick {} world 0
    let (_, z2, c2) ← z1.tick {} world c1
    let (w3, z3, c3) ← z2.tick {} world c2
    pure (zs, z1, z2, w3, z3, [c1, c2, c3])) = .ok a ∧
    decide (a.2.2.2.2.2 = [300, 600, 300] ∧ a.1.d.manualMode = false ∧ a.2.1.d.manualMode = false ∧
      a.2.2.1.d.manualMode = false) = true := ok_of_any (by decide +kernel)

example : ∃ z0 z2 w' z', Ticks {} z0 2 z2 600 ∧ z2.d.manualMode = false ∧ z2.tick {} world 600 = .ok (w', z', 300) ∧
    z0.d.cycleTime = ⟨300, 600⟩ := by
  obtain ⟨a, h, ha⟩ := ex_three_ticks
  obtain ⟨zs, h0, h⟩ := bind_eq_ok.1 h
  obtain ⟨⟨w1, z1, c1⟩, h1, h⟩ := bind_eq_ok.1 h
  obtain ⟨⟨w2, z2, c2⟩, h2, h⟩ := bind_eq_ok.1 h
  obtain ⟨⟨w3, z3, c3⟩, h3, h⟩ := bind_eq_ok.1 h
  cases h
  simp only [decide_eq_true_eq, List.cons.injEq, and_true] at ha
  obtain ⟨⟨rfl, rfl, rfl⟩, m0, m1, m2⟩ := ha
  exact ⟨zs, z2, w3, z3, .auto world (.auto world .start m0 h1) m1 h2, m2, h3, start_cycleTime h0⟩

/-- C37_loop: two automatic handlers of that zone have run -/
example : ∃ l, AutoRuns {} slowZone 2 l ∧ l.cycleCnt = 600 := by
  have h : ∃ a, (do
      let l ← pidControlLoop {} world 7 false true ⟨slowZone, 0, 0, false⟩
      let (_, l1) ← l.handler {} world 8 false false
      let (_, l2) ← l1.handler {} world 9 false false
      pure (l, l1, l2)) = .ok a ∧ decide (a.1.zone.d.manualMode = false ∧ a.2.1.zone.d.manualMode = false ∧
        a.2.2.cycleCnt = 600) = true := ok_of_any (by decide +kernel)
  obtain ⟨a, h, ha⟩ := h
  obtain ⟨l, h0, h⟩ := bind_eq_ok.1 h
  obtain ⟨⟨w1, l1⟩, h1, h⟩ := bind_eq_ok.1 h
  obtain ⟨⟨w2, l2⟩, h2, h⟩ := bind_eq_ok.1 h
  cases h
  simp only [decide_eq_true_eq] at ha
  exact ⟨l2, .auto world 9 (.auto world 8 (.start world 7 h0) ha.1 h1) ha.2.1 h2, ha.2.2⟩

/-- C38: started at time 7, the second deadline is 600 ms later although the first handler ran very late -/
example : ∃ l, Runs {} slowZone 7 1 l ∧ l.expiry = 7 + 2 * (300 * 1000000) := by
  have h : ∃ a, (do
      let l ← pidControlLoop {} world 7 false true ⟨slowZone, 0, 0, false⟩
      let (_, l') ← l.handler {} world 5000000000 false false
      pure (l, l')) = .ok a ∧ true = true := ok_of_any (by decide +kernel)
  obtain ⟨a, h, _⟩ := h
  obtain ⟨l, h0, h⟩ := bind_eq_ok.1 h
  obtain ⟨⟨w', l'⟩, h1, h⟩ := bind_eq_ok.1 h
  have hr : Runs {} slowZone 7 1 l' := .handler world 5000000000 (.start world h0) h1
  exact ⟨l', hr, by rw [(C38_no_drift hr).2]; rfl⟩

/-- C40: the world after the first tick; nothing changes any more, so a further tick writes nothing. After manual mode
was on and off again, the next tick writes both fans, and the one after it none. -/
theorem ex_forced : ∃ a, (do
    let zs ← zone.start {} world
    let (w1, z1, c1) ← zs.tick {} world 0
    let (w2, z2, c2) ← z1.tick {} { w1 with trace := [] } c1
    let zm : Zone := { z2 with d := (z2.d.setManualMode true).setManualMode false }
    let (w3, z3, c3) ← zm.tick {} w2 c2
    let (w4, _, _) ← z3.tick {} { w3 with trace := [] } c3
    pure [w1.trace, w2.trace, w3.trace, w4.trace]) = .ok a ∧
    decide (a = [[.dbusSet "/fan0" 204 true, .dbusSet "/fan1" 204 true], [],
      [.dbusSet "/fan0" 204 true, .dbusSet "/fan1" 204 true], []]) = true := ok_of_any (by decide +kernel)

/-- C41: a loop with a pending handler; with the flag set it ends -/
example : ∃ l', HandlerRuns {} true ⟨{ zone with d := data0.setManualMode true }, 0, 5, true⟩ l' ∧ l'.waiting = false :=
  ⟨_, ⟨rfl, world, 0, false, world, rfl⟩, rfl⟩

/-- C44: a tick with a thermal pass; before it the set point is 0, the fan loop gets the 80 computed in the same tick -/
example : ∃ a, zone.tick {} world 1000 = .ok a ∧ decide (zone.d.maximumSetPoint = 0 ∧
    a.2.1.d.maximumSetPoint = 80 ∧ a.2.1.fans.map (fun c => c.map (fun c => c.setpoint)) = [some 80]) = true :=
  ok_of_any (by decide +kernel)

end
end Verif
