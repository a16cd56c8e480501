import Verif.Props.Failsafe
import Verif.Props.Loop

/-! # End to end: C42 and C43 -/

namespace Verif
open Dbl
section
variable [F : FloatModel]

/-! ## C42 -/

/-- the state in which an automatic tick drives the fans -/
theorem tick_inv {o : Opts} {d0 : ZoneData} {z z' : Zone} {cnt cnt' : Nat} {log : List Poll} {w w' : World}
    (hi : HistInv d0 z.d log) (hm : z.d.manualMode = false) (ht : z.tick o w cnt = .ok (w', z', cnt')) :
    ∃ zt : Zone, zt.processFans o w = .ok (w', z') ∧ HistInv d0 zt.d (log ++ tickPolls z cnt w) ∧ zt.fans = z.fans ∧
      zt.d.redundantWrite = z.d.redundantWrite := by
  obtain ⟨d, h1, h2⟩ := tick_auto hm ht
  have hs := hi.same
  have i1 := hi.poll (fun n hn => .inl (hs.1 ▸ hn)) h1
  have e := (pollAll_spec h1).frame.eq
  have hti : d.thermalInputs = z.d.thermalInputs := by rw [e]
  have hr : d.redundantWrite = z.d.redundantWrite := by rw [e]
  rcases h2 with ⟨hT, zt, h3, h4, _⟩ | ⟨hT, h3, _⟩
  · have i2 := HistInv.thermals (z := { z with d := d }) i1 h3
    obtain ⟨a, _, c⟩ := thermalTick_flags h3
    exact ⟨zt, h4, by simpa [tickPolls, hm, hT, hti] using i2, c, a.trans hr⟩
  · exact ⟨_, h3, by simpa [tickPolls, hm, hT] using i1, rfl, hr⟩

/-- once listed, or once a thermal pass is due, a failing sensor is listed when the fans are driven -/
theorem failed_after {d0 : ZoneData} {z : Zone} {d : ZoneData} {cnt : Nat} {log : List Poll} {w : World} {s : String}
    (hi : HistInv d0 z.d log) (hi' : HistInv d0 d (log ++ tickPolls z cnt w)) (hm : z.d.manualMode = false)
    (hs : s ∈ d0.thermalInputs) (hq : s ∉ d0.missingAcceptable) (hf : FailsAt w w.nowFans s)
    (ht : FailsAt w w.nowThermals s) (h : Failed z.d s ∨ d0.cycleTime.updateThermalsTimeMS ≤ cnt) : Failed d s := by
  rw [hi'.failed s]
  refine ⟨⟨.inr hs, hq⟩, fun p hp => ?_⟩
  obtain ⟨e1, e2, _, e3, _⟩ := hi.same
  simp only [tickPolls, hm, Bool.false_eq_true, if_false, e1, e2, e3] at hp
  by_cases hT : d0.cycleTime.updateThermalsTimeMS ≤ cnt
  · rw [if_pos hT] at hp
    have : log ++ [⟨w, w.nowFans, d0.fanInputs⟩, ⟨w, w.nowThermals, d0.thermalInputs⟩] =
        (log ++ [⟨w, w.nowFans, d0.fanInputs⟩]) ++ [⟨w, w.nowThermals, d0.thermalInputs⟩] := by simp
    rw [this, lastPoll_append, if_pos hs] at hp
    cases hp; exact ht
  · rw [if_neg hT, lastPoll_append] at hp
    split_ifs at hp with hin
    · cases hp; exact hf
    · exact ((hi.failed s).1 (h.resolve_right hT)).2 p hp

theorem Failing.hist {o : Opts} {d0 : ZoneData} {s : String} {z0 z : Zone} {cnt0 n cnt : Nat} {log : List Poll}
    (h0 : Hist o d0 z0 cnt0 log) (h : Failing o s z0 cnt0 n z cnt) (hs : s ∈ d0.thermalInputs)
    (hq : s ∉ d0.missingAcceptable) :
    (∃ log', Hist o d0 z cnt log') ∧ (Failed z.d s ∨ n * d0.cycleTime.cycleIntervalTimeMS ≤ cnt) := by
  induction h with
  | start => exact ⟨⟨_, h0⟩, .inr (by simp)⟩
  | manual b _ ih =>
    obtain ⟨⟨log', a⟩, b'⟩ := ih
    exact ⟨⟨_, .manual b a⟩, b'⟩
  | @enable n z cnt name b _ ih =>
    obtain ⟨⟨log', a⟩, b'⟩ := ih
    refine ⟨⟨_, .enable name b a⟩, b'.imp_left ?_⟩
    intro hf
    unfold Failed
    rw [(setEnabled_rest z.d name b).failed]; exact hf
  | idle w _ hm ht ih => rw [tick_manual hm] at ht; cases ht; exact ih
  | @auto n z cnt w w' z' cnt' _ hm hf htm ht ih =>
    obtain ⟨⟨log', a⟩, b'⟩ := ih
    have hh := a.tick w ht
    refine ⟨⟨_, hh⟩, ?_⟩
    by_cases hc : Failed z.d s ∨ d0.cycleTime.updateThermalsTimeMS ≤ cnt
    · exact .inl (failed_after a.inv hh.inv hm hs hq hf htm hc)
    · right
      simp only [not_or] at hc
      have hle := b'.resolve_left hc.1
      obtain ⟨d, _, h2⟩ := tick_auto hm ht
      have e3 := a.inv.same.2.2.2.1
      rw [e3] at h2
      rcases h2 with ⟨hT, _⟩ | ⟨_, _, rfl⟩
      · exact absurd hT hc.2
      · rw [Nat.add_mul]; omega

/-- no fan with a path to write to can be commanded NaN -/
theorem commanded_nan {force : Bool} {w w' : World} {ns : List String} {v : Dbl} (h : Commanded v force w ns w')
    (hv : v = nan) : ∀ n ∈ ns, targetOf w n = none := by
  induction h with
  | nil w => simp
  | @cons w w1 w2 n rest sn wr h1 _ ih =>
    intro m hm
    have ht := (writeSensor_target h1).1
    rcases List.mem_cons.1 hm with rfl | hm
    · obtain ⟨s, rd, writer, res, q1, q2, q3, _⟩ := writeSensor_spec h1
      simp only [targetOf, q1, q2]
      subst hv
      cases writer with
      | readOnlyNoExcept => rfl
      | null => rfl
      | dbusPercent path min max old =>
        simp [Writer.write, percentToRaw, dbusWriteTail, toI64, castInt, castOr, Bind.bind, Except.bind] at q3
      | dbusRaw path old => simp [Writer.write, dbusWriteTail, toI64, castInt, castOr, Bind.bind, Except.bind] at q3
      | sysfsPercent path min max =>
        simp [Writer.write, percentToRaw, toI64, castInt, castOr, Bind.bind, Except.bind] at q3
      | sysfsRaw path => simp [Writer.write, toI64, castInt, castOr, Bind.bind, Except.bind] at q3
    · rw [← ht]; exact ih m hm

theorem drives_nan {force : Bool} {w w' : World} {l : List (FanPid × Dbl)} (h : Drives force w l w') :
    ∀ x ∈ l, x.2 = nan → ∀ n ∈ x.1.inputs, targetOf w n = none := by
  induction h with
  | nil w => simp
  | @cons w w1 w2 c v rest h1 _ ih =>
    intro x hx hv n hn
    rcases List.mem_cons.1 hx with rfl | hx
    · exact commanded_nan h1 hv n hn
    · rw [← (commanded_target h1).1]; exact ih x hx hv n hn

theorem div100_ne_nan {p : Dbl} (h : p ≠ nan) : p / 100 ≠ nan := by
  have e : (100 : Dbl) = fin ((100 : Nat) : Rat) (rep_nat (by norm_num)) := nat_eq (n := 100) (by norm_num)
  rw [e]
  cases p with
  | nan => exact absurd rfl h
  | ninf => simp only [div_def, Dbl.div]; split_ifs <;> simp
  | pinf => simp only [div_def, Dbl.div]; split_ifs <;> simp
  | fin q hq => rw [fin_div_fin (by norm_num)]; exact ofRat_ne_nan _

theorem pos100 : (0 : Dbl) < 100 := by
  have e : (100 : Dbl) = fin ((100 : Nat) : Rat) (rep_nat (by norm_num)) := nat_eq (n := 100) (by norm_num)
  rw [e, zero_eq, fin_lt_fin]; norm_num

/-- C42: whatever the zone's history, if a thermal sensor that may not be missing fails in every tick from then on, then
after ceil(T/F) automatic ticks every further automatic tick commands every fan it can write at least the sensor's
failsafe percentage, which is the zone's unless the configuration gives the sensor its own. (No tuning; percentages are
numbers.) -/
theorem C42_failing_sensor {o : Opts} (ho : o.tuningEnabled = false) {d0 : ZoneData} {s : String} {z0 z z' : Zone}
    {cnt0 n cnt cnt' : Nat} {log : List Poll} {w w' : World} (h0 : Hist o d0 z0 cnt0 log)
    (h : Failing o s z0 cnt0 n z cnt) (hs : s ∈ d0.thermalInputs) (hq : s ∉ d0.missingAcceptable)
    (hp : ∀ m, Required d0 m → percentOf d0 m ≠ nan) (hF : 1 ≤ d0.cycleTime.cycleIntervalTimeMS)
    (hn : (d0.cycleTime.updateThermalsTimeMS + d0.cycleTime.cycleIntervalTimeMS - 1) / d0.cycleTime.cycleIntervalTimeMS ≤ n)
    (hm : z.d.manualMode = false) (hf : FailsAt w w.nowFans s) (hft : FailsAt w w.nowThermals s)
    (ht : z.tick o w cnt = .ok (w', z', cnt')) :
    ∃ (l : List (FanPid × Dbl)) (b : Bool), z.fans = l.map (fun x => some x.1) ∧ Drives b w l w' ∧
      ∀ x ∈ l, (∃ m ∈ x.1.inputs, targetOf w m ≠ none) →
        ∃ percent, x.2 = percent / 100 ∧ percentOf d0 s ≤ percent ∧ percentOf d0 s / 100 ≤ x.2 := by
  obtain ⟨⟨log', hh⟩, hc⟩ := h.hist h0 hs hq
  obtain ⟨zt, h1, h2, h3, h4⟩ := tick_inv hh.inv hm ht
  have hfail : Failed zt.d s := by
    refine failed_after hh.inv h2 hm hs hq hf hft (hc.imp_right (fun hle => ?_))
    refine Nat.le_trans ?_ hle
    generalize d0.cycleTime.cycleIntervalTimeMS = fm at *
    generalize d0.cycleTime.updateThermalsTimeMS = tm at *
    have h5 := Nat.lt_mul_div_succ (tm + fm - 1) (show 0 < fm by omega)
    have h6 : fm * ((tm + fm - 1) / fm + 1) ≤ fm * (n + 1) := Nat.mul_le_mul_left _ (by omega)
    have h7 : fm * (n + 1) = n * fm + fm := by ring
    omega
  have hmode : zt.d.getFailSafeMode = true := by
    obtain ⟨e, he⟩ := hfail
    simp only [ZoneData.getFailSafeMode, Bool.not_eq_true']
    exact (OMap.isEmpty_false_iff _).2 ⟨s, e, he⟩
  have hsel := h2.selection (fun m hm => hp m ((h2.failed m).1 hm).1) hmode
  have hge : percentOf d0 s ≤ zt.d.getFailSafePercent := hsel.2 _ ⟨s, hfail, rfl⟩
  obtain ⟨l, a1, _, a2, a3, _⟩ := processFans_spec h1
  refine ⟨l.map (fun x => (x.1, x.2.1)), _, ?_, a2, ?_⟩
  · rw [← h3, a1, List.map_map]; rfl
  · intro x hx ⟨m, hm1, hm2⟩
    have hnn : x.2 ≠ nan := fun hv => hm2 (drives_nan a2 x hx hv m hm1)
    obtain ⟨y, hy, rfl⟩ := List.mem_map.1 hx
    obtain ⟨⟨i, _, hv, _⟩, _⟩ := a3 y hy
    have hper : percentOf d0 s ≤ fanPercent o zt.d (pidStep y.1.ctl zt.d.maximumSetPoint i).1 := by
      rw [hv] at hnn
      have hpn := div_ne_nan_left hnn
      generalize (pidStep y.1.ctl zt.d.maximumSetPoint i).1 = out at *
      simp only [fanPercent, ho, hmode, Bool.false_eq_true, if_false, if_true] at hpn ⊢
      split_ifs with h5 h6
      · exact hge
      · exact hge
      · rw [if_neg h5, if_neg h6] at hpn
        exact Dbl.le_trans hge (le_of_not_lt (Dbl.ne_nan_of_le_right hge) hpn h6)
    refine ⟨_, hv, hper, ?_⟩
    change _ ≤ y.2.1
    rw [hv] at hnn ⊢
    exact div_le_div_of_pos pos100 hper (div100_ne_nan (Dbl.ne_nan_of_le_left hper)) hnn

/-! ## C43 -/

theorem thermals_total {o : Opts} {w : World} {z : Zone} {d : ZoneData}
    (hfile : o.tuningEnabled = true → ∀ path, w.files path ≠ .blank)
    (hd : z.d.updateSensors w = .ok d) (hr : ∀ c ∈ z.thermals, CtlReady d c) :
    ∃ z', z.processThermals o w = .ok z' ∧ z'.fans = z.fans ∧ z'.thermals = z.thermals.map (fun c => (subOf d c).2) ∧
      ∀ k, (z'.d.procs.find? k).map (·.enabled) = (d.procs.find? k).map (·.enabled) := by
  have hr' : ∀ c ∈ z.thermals, CtlReady (cleared d) c :=
    fun c hc => CtlReady.congr (z := d) (z' := cleared d) rfl (fun _ => rfl) (hr c hc)
  obtain ⟨z1, h1, hdbg, _⟩ := thermalList_spec z.thermals (cleared d) hr'
  have e : ∀ c, subOf (cleared d) c = subOf d c := subOf_cache (z := d) (z' := cleared d) rfl
  simp only [e] at h1
  have hdet : ∀ ids, ∃ z2, z1.determineMaxSetPointRequest o w ids = .ok z2 ∧ z2.procs = z1.procs := by
    intro ids
    rw [determine_eq]
    split_ifs with ho
    · rw [fileParse_eq _ _ (hfile ho _), ok_bind, fileParse_eq _ _ (hfile ho _), ok_bind]
      exact ⟨_, rfl, rfl⟩
    · exact ⟨_, rfl, rfl⟩
  obtain ⟨z2, h2, hpr⟩ := hdet ((z.thermals.map (fun c => (subOf d c).2)).map ThermalCtl.id)
  refine ⟨{ z with d := z2, thermals := z.thermals.map (fun c => (subOf d c).2) }, ?_, rfl, rfl, fun k => ?_⟩
  · simp only [Zone.processThermals, hd, ok_bind]
    change (processThermalList (cleared d) z.thermals >>= _) = _
    rw [h1]
    simp only [ok_bind, h2]
  · change (z2.procs.find? k).map _ = _
    rw [hpr, hdbg.keys, (foldl_sub1_same _ _).procs]
    rfl

/-- the two conversions of a fan command to an integer -/
def CastErr (e : Err) : Prop := e = .ub "cast to int64_t" ∨ e = .ub "cast to uint64_t"

def Writable (w : World) (n : String) : Prop :=
  ∃ s rd wr, w.sensors.find? n = some s ∧ s.impl = .pluggable rd wr ∧ wr ≠ .null

theorem cast_cases (what : String) (x : Option Int) :
    (∃ a, x = some a ∧ castOr what x = .ok a) ∨ castOr what x = .error (.ub what) := by
  cases x with
  | none => exact .inr rfl
  | some a => exact .inl ⟨a, rfl, rfl⟩

theorem dbusTail_total (busOk : Bool) (path : String) (old : Int) (mk : Int → Writer) (ov : Dbl) (force : Bool)
    (hmk : ∀ i, mk i ≠ .null) :
    (∃ r, dbusWriteTail busOk path old mk ov force = .ok r ∧ r.writer ≠ .null) ∨
      ∃ e, CastErr e ∧ dbusWriteTail busOk path old mk ov force = .error e := by
  unfold dbusWriteTail
  rcases cast_cases "cast to int64_t" ov.toI64 with ⟨raw, _, h1⟩ | h1
  · rw [h1, ok_bind]
    split_ifs
    · exact .inl ⟨_, rfl, hmk _⟩
    · rcases cast_cases "cast to uint64_t" ov.toU64 with ⟨u, _, h2⟩ | h2
      · rw [h2, ok_bind]; exact .inl ⟨_, rfl, hmk _⟩
      · rw [h2]; exact .inr ⟨_, .inr rfl, rfl⟩
  · rw [h1]; exact .inr ⟨_, .inl rfl, rfl⟩

theorem write_total {busOk : String → Bool} {wr : Writer} (hw : wr ≠ .null) (v : Dbl) (force : Bool) :
    (∃ r, wr.write busOk v force = .ok r ∧ r.writer ≠ .null) ∨
      ∃ e, CastErr e ∧ wr.write busOk v force = .error e := by
  cases wr with
  | dbusPercent path min max old => exact dbusTail_total _ _ _ _ _ _ (by simp)
  | dbusRaw path old => exact dbusTail_total _ _ _ _ _ _ (by simp)
  | sysfsPercent path min max =>
    simp only [Writer.write]
    rcases cast_cases "cast to int64_t" (percentToRaw min max v).toI64 with ⟨raw, _, h1⟩ | h1
    · rw [h1, ok_bind]; exact .inl ⟨_, rfl, by simp⟩
    · rw [h1]; exact .inr ⟨_, .inl rfl, rfl⟩
  | sysfsRaw path =>
    simp only [Writer.write]
    rcases cast_cases "cast to int64_t" v.toI64 with ⟨raw, _, h1⟩ | h1
    · rw [h1, ok_bind]; exact .inl ⟨_, rfl, by simp⟩
    · rw [h1]; exact .inr ⟨_, .inl rfl, rfl⟩
  | readOnlyNoExcept => exact .inl ⟨_, rfl, by simp⟩
  | null => exact absurd rfl hw

theorem writeSensor_total {w : World} {n : String} (hw : Writable w n) (v : Dbl) (force : Bool) :
    (∃ w' sn wr, w.writeSensor n v force = .ok (w', sn, wr) ∧ ∀ m, Writable w m → Writable w' m) ∨
      ∃ e, CastErr e ∧ w.writeSensor n v force = .error e := by
  obtain ⟨s, rd, wr, h1, h2, h3⟩ := hw
  unfold World.writeSensor World.getSensor
  simp only [OMap.atKey_of_find? h1, ok_bind, h2]
  rcases write_total (busOk := w.busOk) h3 v force with ⟨r, h4, h5⟩ | ⟨e, h4, h5⟩
  · refine .inl ⟨_, _, _, by rw [h4]; rfl, ?_⟩
    rintro m ⟨s', rd', wr', q1, q2, q3⟩
    unfold Writable
    simp only [OMap.find?_insert]
    by_cases e : m = n
    · rw [if_pos e]; exact ⟨_, _, _, rfl, rfl, h5⟩
    · rw [if_neg e]; exact ⟨_, _, _, q1, q2, q3⟩
  · exact .inr ⟨e, h4, by rw [h5]; rfl⟩

theorem writeFans_total (v : Dbl) : ∀ (ns : List String) (w : World) (z : ZoneData), (∀ n ∈ ns, Writable w n) →
    (∃ w' z', writeFans (.ok (-1)) v w z ns = .ok (w', z') ∧ ∀ m, Writable w m → Writable w' m) ∨
      ∃ e, CastErr e ∧ writeFans (.ok (-1)) v w z ns = .error e
  | [], w, z, _ => .inl ⟨w, z, rfl, fun _ h => h⟩
  | n :: ns, w, z, hw => by
    simp only [writeFans]
    rcases writeSensor_total (hw n List.mem_cons_self) v z.redundantWrite with ⟨w1, sn, wr, h1, h2⟩ | ⟨e, h1, h2⟩
    · rw [h1, ok_bind]
      have h3 : ∃ raw, wr.elim (.ok (-1)) (Except.ok (ε := Err)) = .ok raw := by cases wr <;> exact ⟨_, rfl⟩
      obtain ⟨raw, h3⟩ := h3
      simp only [h3, ok_bind]
      rcases writeFans_total v ns w1 (z.setOutputCache sn ⟨v, Dbl.ofInt raw⟩)
        (fun m hm => h2 m (hw m (List.mem_cons_of_mem _ hm))) with ⟨w2, z2, h4, h5⟩ | h4
      · exact .inl ⟨w2, z2, h4, fun m hm => h5 m (h2 m hm)⟩
      · exact .inr h4
    · exact .inr ⟨e, h1, by rw [h2]; rfl⟩

theorem fanReadings_total {z : ZoneData} : ∀ {ns : List String}, (∀ n ∈ ns, ∃ e, z.cachedValuesByName.find? n = some e) →
    ∃ l, FanPid.readings z ns = .ok l
  | [], _ => ⟨[], rfl⟩
  | n :: ns, h => by
    obtain ⟨e, he⟩ := h n List.mem_cons_self
    obtain ⟨l, hl⟩ := fanReadings_total (fun m hm => h m (List.mem_cons_of_mem _ hm))
    simp only [FanPid.readings, ZoneData.getCachedValues, OMap.atKey_of_find? he, ok_bind, hl]
    exact ⟨_, rfl⟩

theorem fanProcess_total {o : Opts} {w : World} {z : ZoneData} {c : FanPid}
    (hc : ∀ n ∈ c.inputs, ∃ e, z.cachedValuesByName.find? n = some e) (hw : ∀ n ∈ c.inputs, Writable w n) :
    (∃ w' z' c', c.process o w z = .ok (w', z', c') ∧ ∀ m, Writable w m → Writable w' m) ∨
      ∃ e, CastErr e ∧ c.process o w z = .error e := by
  have hi : ∃ i, (c.setptProc z).inputProc z = .ok i := by
    obtain ⟨l, hl⟩ := fanReadings_total hc
    have hl' : FanPid.readings z (c.setptProc z).inputs = .ok l := hl
    unfold FanPid.inputProc
    rw [hl', ok_bind]
    cases l <;> exact ⟨_, rfl⟩
  obtain ⟨i, hi⟩ := hi
  unfold FanPid.process
  simp only [hi, ok_bind]
  rcases writeFans_total (fanPercent o z (pidStep (c.setptProc z).ctl (c.setptProc z).setpoint i).1 / 100)
    (c.setptProc z).inputs w z hw with ⟨w1, z1, h1, h2⟩ | ⟨e, h1, h2⟩
  · rw [h1, ok_bind]; exact .inl ⟨_, _, _, rfl, h2⟩
  · rw [h2]; exact .inr ⟨e, h1, rfl⟩

theorem fanList_total {o : Opts} : ∀ (cs : List (Option FanPid)) (w : World) (z : ZoneData),
    (∀ c ∈ cs, ∃ f, c = some f ∧ ∀ n ∈ f.inputs, (∃ e, z.cachedValuesByName.find? n = some e) ∧ Writable w n) →
    (∃ r, processFanList o w z cs = .ok r) ∨ ∃ e, CastErr e ∧ processFanList o w z cs = .error e
  | [], w, z, _ => .inl ⟨_, rfl⟩
  | c :: cs, w, z, h => by
    obtain ⟨f, rfl, hf⟩ := h c List.mem_cons_self
    simp only [processFanList]
    rcases fanProcess_total (o := o) (fun n hn => (hf n hn).1) (fun n hn => (hf n hn).2) with
      ⟨w1, z1, c1, h1, h2⟩ | ⟨e, h1, h2⟩
    · rw [h1, ok_bind]
      obtain ⟨_, _, _, hz⟩ := fanProcess_spec h1
      have hcache : z1.cachedValuesByName = z.cachedValuesByName := by rw [hz]
      rcases fanList_total (o := o) cs w1 z1 (fun c hc => by
        obtain ⟨f, e, hf⟩ := h c (List.mem_cons_of_mem _ hc)
        exact ⟨f, e, fun n hn => ⟨by rw [hcache]; exact (hf n hn).1, h2 n (hf n hn).2⟩⟩) with ⟨r, h3⟩ | ⟨e, h3, h4⟩
      · rw [h3, ok_bind]; exact .inl ⟨_, rfl⟩
      · rw [h4]; exact .inr ⟨e, h3, rfl⟩
    · rw [h2]; exact .inr ⟨e, h1, rfl⟩

theorem subOf_same (d : ZoneData) (c : ThermalCtl) :
    (∀ p, (subOf d c).2 = .pid p → ∃ p0, c = .pid p0 ∧ p.inputs = p0.inputs ∧ p.id = p0.id ∧ p.type = p0.type) ∧
    (∀ p, (subOf d c).2 = .stepwise p → ∃ p0, c = .stepwise p0 ∧ p.inputs = p0.inputs ∧ p.id = p0.id ∧ p.info = p0.info) := by
  cases c with
  | pid c =>
    constructor
    · intro p h; simp only [subOf] at h; cases h; exact ⟨_, rfl, rfl, rfl, rfl⟩
    · intro p h; simp only [subOf] at h; cases h
  | stepwise c =>
    constructor
    · intro p h; simp only [subOf] at h; cases h
    · intro p h; simp only [subOf] at h; cases h; exact ⟨_, rfl, rfl, rfl, rfl⟩

/-- the conditions only look at these parts of the zone -/
theorem ZoneOk.congr {z z' : Zone} (h : ZoneOk z) (hf : ∀ c ∈ z'.fans, ∃ f, c = some f ∧ ∃ g, some g ∈ z.fans ∧ f.inputs = g.inputs)
    (ht : z'.thermals = z.thermals ∨ ∃ d, z'.thermals = z.thermals.map (fun c => (subOf d c).2))
    (e1 : z'.d.fanInputs = z.d.fanInputs) (e2 : z'.d.thermalInputs = z.d.thermalInputs)
    (hk : ∀ k, (∃ p, z.d.procs.find? k = some p) → ∃ p, z'.d.procs.find? k = some p) : ZoneOk z' := by
  refine ⟨fun c hc => ?_, fun c hc => ?_, fun c hc => ?_⟩
  · obtain ⟨f, rfl, g, hg, hi⟩ := hf c hc
    obtain ⟨g', hg', hin⟩ := h.fans _ hg
    cases hg'
    exact ⟨f, rfl, by rw [hi, e1]; exact hin⟩
  · have : ∃ c0, ThermalCtl.pid c0 ∈ z.thermals ∧ c.inputs = c0.inputs ∧ c.id = c0.id ∧ c.type = c0.type := by
      rcases ht with ht | ⟨d, ht⟩
      · rw [ht] at hc; exact ⟨c, hc, rfl, rfl, rfl⟩
      · rw [ht] at hc
        obtain ⟨x, hx, h2⟩ := List.mem_map.1 hc
        obtain ⟨p0, rfl, a⟩ := (subOf_same d x).1 c h2
        exact ⟨p0, hx, a⟩
    obtain ⟨c0, hc0, a1, a2, a3⟩ := this
    obtain ⟨b1, b2, b3, b4⟩ := h.pids c0 hc0
    rw [a1, a2, a3, e1, e2]
    exact ⟨b1, b2, hk _ b3, b4⟩
  · have : ∃ c0, ThermalCtl.stepwise c0 ∈ z.thermals ∧ c.inputs = c0.inputs ∧ c.id = c0.id ∧ c.info = c0.info := by
      rcases ht with ht | ⟨d, ht⟩
      · rw [ht] at hc; exact ⟨c, hc, rfl, rfl, rfl⟩
      · rw [ht] at hc
        obtain ⟨x, hx, h2⟩ := List.mem_map.1 hc
        obtain ⟨p0, rfl, a⟩ := (subOf_same d x).2 c h2
        exact ⟨p0, hx, a⟩
    obtain ⟨c0, hc0, a1, a2, a3⟩ := this
    obtain ⟨b1, b2⟩ := h.steps c0 hc0
    rw [a1, a2, a3, e1, e2]
    exact ⟨b1, fun hc => hk _ (b2 hc)⟩

/-- a ready zone's controllers can run once its fan and thermal inputs are cached -/
theorem ZoneOk.ready {z : Zone} (h : ZoneOk z) {d : ZoneData}
    (hc : ∀ n, n ∈ z.d.fanInputs ∨ n ∈ z.d.thermalInputs → ∃ e, d.cachedValuesByName.find? n = some e)
    (hk : d.procs = z.d.procs) : ∀ c ∈ z.thermals, CtlReady d c := by
  intro c hcm
  cases c with
  | pid c =>
    obtain ⟨b1, b2, b3, b4⟩ := h.pids c hcm
    refine ⟨b1, fun i hi => ?_, by rw [hk]; exact b3, b4⟩
    obtain ⟨e, he⟩ := hc _ (b2 i hi)
    exact ⟨_, e, he, rfl⟩
  | stepwise c =>
    obtain ⟨b1, b2⟩ := h.steps c hcm
    refine ⟨fun n hn => ?_, by rw [hk]; exact b2⟩
    obtain ⟨e, he⟩ := hc _ (b1 n hn)
    exact ⟨_, e, he, rfl⟩

/-- C43: for a well-formed zone in a usable world no tick throws or dereferences a null pointer. What can still go wrong
is the conversion of a fan command to an integer. The zone stays well formed. -/
theorem C43_no_crash {o : Opts} {w : World} {z : Zone} (hz : ZoneOk z) (hw : WorldOk o w z) (cnt : Nat) :
    (∃ w' z' cnt', z.tick o w cnt = .ok (w', z', cnt') ∧ ZoneOk z') ∨
      ∃ e, (e = .ub "cast to int64_t" ∨ e = .ub "cast to uint64_t") ∧ z.tick o w cnt = .error e := by
  by_cases hm : z.d.manualMode = true
  · exact .inl ⟨w, z, cnt, tick_manual hm, hz⟩
  have hm : z.d.manualMode = false := by simpa using hm
  obtain ⟨d, hd⟩ := C28_total (w := w) (now := w.nowFans) z.d hw.fans
  have p1 := pollAll_spec hd
  have e1 : d.fanInputs = z.d.fanInputs := by rw [p1.frame.eq]
  have e2 : d.thermalInputs = z.d.thermalInputs := by rw [p1.frame.eq]
  have e3 : d.procs = z.d.procs := by rw [p1.frame.eq]
  have e4 : d.cycleTime = z.d.cycleTime := by rw [p1.frame.eq]
  have cf : ∀ n ∈ z.d.fanInputs, ∃ e, d.cachedValuesByName.find? n = some e := by
    intro n hn
    obtain ⟨_, _, _, _, _, _, q⟩ := p1.sensor n hn
    exact ⟨_, q⟩
  have hd' : z.d.updateFanTelemetry w = .ok d := hd
  -- driving the fans from a state with cached fan inputs
  have fans : ∀ zt : Zone, zt.fans = z.fans → (∀ n ∈ z.d.fanInputs, ∃ e, zt.d.cachedValuesByName.find? n = some e) →
      (∃ r, zt.processFans o w = .ok r) ∨ ∃ e, CastErr e ∧ zt.processFans o w = .error e := by
    intro zt hf hc
    unfold Zone.processFans
    rcases fanList_total (o := o) zt.fans w zt.d (fun c hcm => by
      rw [hf] at hcm
      obtain ⟨f, rfl, hin⟩ := hz.fans c hcm
      exact ⟨f, rfl, fun n hn => ⟨hc n (hin n hn), hw.writers f hcm n hn⟩⟩) with ⟨⟨w1, d1, fs⟩, h1⟩ | ⟨e, h1, h2⟩
    · rw [h1]; exact .inl ⟨_, rfl⟩
    · rw [h2]; exact .inr ⟨e, h1, rfl⟩
  have fin : ∀ zt : Zone, zt.fans = z.fans →
      (zt.thermals = z.thermals ∨ ∃ d, zt.thermals = z.thermals.map (fun c => (subOf d c).2)) →
      zt.d.fanInputs = z.d.fanInputs → zt.d.thermalInputs = z.d.thermalInputs →
      (∀ k, (∃ p, z.d.procs.find? k = some p) → ∃ p, zt.d.procs.find? k = some p) →
      ∀ w' z', zt.processFans o w = .ok (w', z') → ZoneOk z' := by
    intro zt hf ht i1 i2 hk w' z' h
    obtain ⟨l, a1, a2, _, a4, a5, a6⟩ := processFans_spec h
    refine hz.congr ?_ (by rw [a6]; exact ht) (by rw [a5]; exact i1) (by rw [a5]; exact i2) (by rw [a5]; exact hk)
    intro c hc
    rw [a2] at hc
    obtain ⟨x, hx, rfl⟩ := List.mem_map.1 hc
    refine ⟨_, rfl, x.1, ?_, (a4 x hx).same.1⟩
    rw [← hf, a1]
    exact List.mem_map.2 ⟨x, hx, rfl⟩
  unfold Zone.tick
  rw [if_neg (by simp [hm]), hd', ok_bind]
  dsimp only
  rw [e4]
  by_cases hT : z.d.cycleTime.updateThermalsTimeMS ≤ cnt
  · rw [if_pos hT]
    obtain ⟨d2, hd2⟩ := C28_total (w := w) (now := w.nowThermals) (names := d.thermalInputs) d (by rw [e2]; exact hw.thermals)
    have p2 := pollAll_spec hd2
    have cf2 : ∀ n, n ∈ z.d.fanInputs ∨ n ∈ z.d.thermalInputs → ∃ e, d2.cachedValuesByName.find? n = some e := by
      intro n hn
      by_cases hin : n ∈ d.thermalInputs
      · obtain ⟨_, _, _, _, _, _, q⟩ := p2.sensor n hin
        exact ⟨_, q⟩
      · rw [(p2.other n hin).2]
        exact cf n (hn.resolve_right (e2 ▸ hin))
    have k2 : d2.procs = z.d.procs := by
      have : d2.procs = d.procs := by rw [p2.frame.eq]
      exact this.trans e3
    obtain ⟨zt, h1, h2, h3, h4⟩ := thermals_total (z := { z with d := d }) hw.files hd2 (hz.ready cf2 k2)
    obtain ⟨d3, h5, h6⟩ := processThermals_restT h1
    have h5 : d.updateSensors w = .ok d3 := h5
    have hd2' : d.updateSensors w = .ok d2 := hd2
    rw [hd2'] at h5; cases h5
    have hcache : zt.d.cachedValuesByName = d2.cachedValuesByName := by rw [h6]
    have i1 : zt.d.fanInputs = z.d.fanInputs := by
      have a : zt.d.fanInputs = d2.fanInputs := by rw [h6]
      have b : d2.fanInputs = d.fanInputs := by rw [p2.frame.eq]
      rw [a, b, e1]
    have i2 : zt.d.thermalInputs = z.d.thermalInputs := by
      have a : zt.d.thermalInputs = d2.thermalInputs := by rw [h6]
      have b : d2.thermalInputs = d.thermalInputs := by rw [p2.frame.eq]
      rw [a, b, e2]
    rw [h1, ok_bind, ok_bind]
    rcases fans zt h2 (fun n hn => by rw [hcache]; exact cf2 n (.inl hn)) with ⟨⟨w', z'⟩, h7⟩ | ⟨e, h7, h8⟩
    · simp only [h7, ok_bind]
      refine .inl ⟨w', z', _, rfl, fin zt h2 (.inr ⟨_, h3⟩) i1 i2 (fun k hk => ?_) w' z' h7⟩
      obtain ⟨p, hp⟩ := hk
      have := h4 k
      rw [k2, hp] at this
      cases hq : zt.d.procs.find? k with
      | none => rw [hq] at this; cases this
      | some q => exact ⟨q, rfl⟩
    · simp only [h8]; exact .inr ⟨e, h7, rfl⟩
  · rw [if_neg hT, ok_bind]
    rcases fans { z with d := d } rfl cf with ⟨⟨w', z'⟩, h7⟩ | ⟨e, h7, h8⟩
    · simp only [h7, ok_bind]
      exact .inl ⟨w', z', _, rfl, fin { z with d := d } rfl (.inl rfl) e1 e2 (by rw [e3]; exact fun _ h => h) w' z' h7⟩
    · simp only [h8]; exact .inr ⟨e, h7, rfl⟩


theorem ZoneOk.enable {z : Zone} (h : ZoneOk z) (name : String) (b : Bool) : ZoneOk { z with d := z.d.setEnabled name b } := by
  refine h.congr ?_ (.inl rfl) ?_ ?_ ?_
  · intro c hc
    obtain ⟨f, rfl, _⟩ := h.fans c hc
    exact ⟨f, rfl, f, hc, rfl⟩
  · rw [setEnabled_rest]
  · rw [setEnabled_rest]
  · rintro k ⟨p, hp⟩
    unfold ZoneData.setEnabled
    cases hn : z.d.procs.find? name with
    | none => exact ⟨p, hp⟩
    | some q =>
      simp only [OMap.find?_insert]
      split_ifs
      · exact ⟨_, rfl⟩
      · exact ⟨p, hp⟩

/-- C43: this holds throughout every run of a well-formed zone in usable worlds. -/
theorem C43_run {o : Opts} {z0 z : Zone} (h0 : ZoneOk z0) (h : OkTicks o z0 z) {w : World} (hw : WorldOk o w z) (cnt : Nat) :
    (∃ r, z.tick o w cnt = .ok r) ∨
      ∃ e, (e = .ub "cast to int64_t" ∨ e = .ub "cast to uint64_t") ∧ z.tick o w cnt = .error e := by
  have hz : ZoneOk z := by
    clear hw
    induction h with
    | start => exact h0
    | manual b _ ih => exact ⟨ih.fans, ih.pids, ih.steps⟩
    | enable n b _ ih => exact ih.enable n b
    | tick w _ hw ht ih =>
      rcases C43_no_crash ih hw _ with ⟨_, _, _, h1, h2⟩ | ⟨_, _, h1⟩
      · rw [ht] at h1; cases h1; exact h2
      · rw [ht] at h1; cases h1
  rcases C43_no_crash hz hw cnt with ⟨_, _, _, h1, _⟩ | h1
  · exact .inl ⟨_, h1⟩
  · exact .inr h1

/-- C43: a well-formed zone starts, and is well formed afterwards. -/
theorem C43_start {o : Opts} {w : World} {z : Zone} (hz : ZoneOk z) (hw : WorldOk o w z) :
    ∃ z', z.start o w = .ok z' ∧ ZoneOk z' := by
  have a := initializeCache_spec z.d
  have e1 : z.d.initializeCache.fanInputs = z.d.fanInputs := by rw [a.eq]
  have e2 : z.d.initializeCache.thermalInputs = z.d.thermalInputs := by rw [a.eq]
  have e3 : z.d.initializeCache.procs = z.d.procs := by rw [a.eq]
  obtain ⟨d2, hd2⟩ := C28_total (w := w) (now := w.nowThermals) (names := z.d.initializeCache.thermalInputs)
    z.d.initializeCache (by rw [e2]; exact hw.thermals)
  have p2 := pollAll_spec hd2
  have k2 : d2.procs = z.d.procs := by
    have : d2.procs = z.d.initializeCache.procs := by rw [p2.frame.eq]
    exact this.trans e3
  have cf : ∀ n, n ∈ z.d.fanInputs ∨ n ∈ z.d.thermalInputs → ∃ e, d2.cachedValuesByName.find? n = some e := by
    intro n hn
    by_cases hin : n ∈ z.d.initializeCache.thermalInputs
    · obtain ⟨_, _, _, _, _, _, q⟩ := p2.sensor n hin
      exact ⟨_, q⟩
    · rw [(p2.other n hin).2]
      rw [a.cache, if_pos (List.mem_append.2 hn)]; exact ⟨_, rfl⟩
  obtain ⟨zt, h1, h2, h3, h4⟩ := thermals_total (z := { z with d := z.d.initializeCache }) hw.files hd2 (hz.ready cf k2)
  obtain ⟨d3, h5, h6⟩ := processThermals_restT h1
  have h5 : z.d.initializeCache.updateSensors w = .ok d3 := h5
  have hd2' : z.d.initializeCache.updateSensors w = .ok d2 := hd2
  rw [hd2'] at h5; cases h5
  refine ⟨zt, h1, hz.congr ?_ (.inr ⟨_, h3⟩) ?_ ?_ ?_⟩
  · intro c hc
    rw [h2] at hc
    obtain ⟨f, rfl, _⟩ := hz.fans c hc
    exact ⟨f, rfl, f, hc, rfl⟩
  · have b : d2.fanInputs = z.d.initializeCache.fanInputs := by rw [p2.frame.eq]
    have c : zt.d.fanInputs = d2.fanInputs := by rw [h6]
    rw [c, b, e1]
  · have b : d2.thermalInputs = z.d.initializeCache.thermalInputs := by rw [p2.frame.eq]
    have c : zt.d.thermalInputs = d2.thermalInputs := by rw [h6]
    rw [c, b, e2]
  · rintro k ⟨p, hp⟩
    have := h4 k
    rw [k2, hp] at this
    cases hq : zt.d.procs.find? k with
    | none => rw [hq] at this; cases this
    | some q => exact ⟨q, rfl⟩

end

section
attribute [local instance] binary64
open Ex

/-- C43: the example zone and world meet the conditions -/
theorem ex_zoneOk : ZoneOk zone := by
  refine ⟨?_, ?_, ?_⟩
  · intro c hc
    obtain rfl : c = some fan := by simpa [zone] using hc
    exact ⟨fan, rfl, by decide +kernel⟩
  · intro c hc
    obtain rfl : c = thermal := by simpa [zone] using hc
    refine ⟨by decide +kernel, by decide +kernel, ?_, by intro h; cases h⟩
    exact Option.isSome_iff_exists.1 (by decide +kernel)
  · intro c hc
    have hc : c = step ∨ c = ceil := by simpa [zone] using hc
    rcases hc with rfl | rfl
    · exact ⟨by decide +kernel, fun _ => Option.isSome_iff_exists.1 (by decide +kernel)⟩
    · exact ⟨by decide +kernel, by intro h; cases h⟩

def canRead (w : World) (now : Int) (n : String) : Bool :=
  match w.sensors.find? n with
  | some s => (s.read w now).toOption.isSome
  | none => false

theorem canRead_iff {w : World} {now : Int} {n : String} (h : canRead w now n = true) :
    ∃ s r, w.sensors.find? n = some s ∧ s.read w now = .ok r := by
  unfold canRead at h
  split at h
  · rename_i s hs
    cases hr : s.read w now with
    | error e => rw [hr] at h; cases h
    | ok r => exact ⟨s, r, hs, hr⟩
  · cases h

def canWrite (w : World) (n : String) : Bool :=
  match w.sensors.find? n with
  | some ⟨_, _, _, .pluggable _ wr⟩ => decide (wr ≠ .null)
  | _ => false

theorem canWrite_iff {w : World} {n : String} (h : canWrite w n = true) : Writable w n := by
  unfold canWrite at h
  split at h
  · rename_i hs
    exact ⟨_, _, _, hs, rfl, by simpa using h⟩
  · cases h

theorem ex_worldOk : WorldOk {} world zone := by
  refine ⟨fun n hn => canRead_iff ?_, fun n hn => canRead_iff ?_, fun f hf n hn => canWrite_iff ?_, by simp⟩
  · revert n; decide +kernel
  · revert n; decide +kernel
  · obtain rfl : f = fan := by simpa [zone] using hf
    revert n; decide +kernel

/-- C43: so it starts, and its first tick succeeds -/
example : ∃ z', zone.start {} world = .ok z' ∧ ZoneOk z' := C43_start ex_zoneOk ex_worldOk
example : (do (← zone.start {} world).tick {} world 0).toOption.isSome = true := by decide +kernel

/-- C42: a zone whose thermal interval equals its fan interval -/
def fastData : ZoneData :=
  let z := ZoneData.ctor 1 30 75 ⟨100, 100⟩ false
  let z := (z.addFanInput "fan0" false).addFanInput "fan1" false
  let z := (z.addThermalInput "cpu" false).addThermalInput "dimm" true
  (z.addPidControlProcess "cpu_pid" "temp" 60).addPidControlProcess "cpu_step" "temp" 60
def fastZone : Zone := { zone with d := fastData }
/-- the CPU sensor becomes unavailable -/
def deadCpu : World :=
  let dead : Passive := { cpu with value := nan, unscaled := nan, available := false }
  { world with sensors := (sensors.insert "cpu" ⟨"cpu", 2, false, .pluggable (.passive dead) .readOnlyNoExcept⟩) }

theorem ex_fast_built : Built fastData :=
  .process _ _ _ (.process _ _ _ (.thermalInput _ _ (.thermalInput _ _ (.fanInput _ _ (.fanInput _ _ (.ctor _ _ _ _ _))))))

def reportsFailure (w : World) (n : String) : Bool :=
  match w.sensors.find? n with
  | some s => decide (s.getFailed w = .ok true)
  | none => false

theorem failsAt_of {w : World} {n : String} (h : reportsFailure w n = true) (now : Int) : FailsAt w now n := by
  unfold reportsFailure at h
  split at h
  · rename_i s hs
    exact ⟨s, hs, .inl (by simpa using h)⟩
  · cases h

/-- C42: a zone at 80 % (set point 80 of the stepwise loop); then its CPU sensor fails. One tick later the fans get the
failsafe 75 % although the loops would now ask for less. -/
theorem ex_fast_run : ∃ a, (do
    let zs ← fastZone.start {} world
    let (w1, z1, c1) ← zs.tick {} world 0
    let (_, z2, c2) ← z1.tick {} deadCpu c1
    let (w3, z3, c3) ← z2.tick {} deadCpu c2
    pure (w1, z1, w3, z2, z3, c3)) = .ok a ∧
    decide (a.1.trace = [.dbusSet "/fan0" 204 true, .dbusSet "/fan1" 204 true] ∧
      a.2.2.1.trace = [.dbusSet "/fan0" 191 true, .dbusSet "/fan1" 191 true] ∧ a.2.1.d.manualMode = false ∧
      a.2.2.2.1.d.manualMode = false) = true :=
  ok_of_any (by decide +kernel)

example : ∃ z0 cnt0 log z cnt w' z' cnt', Hist {} fastData z0 cnt0 log ∧ Failing {} "cpu" z0 cnt0 1 z cnt ∧
    z.d.manualMode = false ∧ FailsAt deadCpu deadCpu.nowFans "cpu" ∧ FailsAt deadCpu deadCpu.nowThermals "cpu" ∧
    z.tick {} deadCpu cnt = .ok (w', z', cnt') ∧
    w'.trace = [.dbusSet "/fan0" 191 true, .dbusSet "/fan1" 191 true] := by
  obtain ⟨a, h, ha⟩ := ex_fast_run
  obtain ⟨zs, h0, h⟩ := bind_eq_ok.1 h
  obtain ⟨⟨w1, z1, c1⟩, h1, h⟩ := bind_eq_ok.1 h
  obtain ⟨⟨w2, z2, c2⟩, h2, h⟩ := bind_eq_ok.1 h
  obtain ⟨⟨w3, z3, c3⟩, h3, h⟩ := bind_eq_ok.1 h
  cases h
  simp only [decide_eq_true_eq] at ha
  have hf : reportsFailure deadCpu "cpu" = true := by decide +kernel
  exact ⟨z1, c1, _, z2, c2, w3, z3, c3, .tick world (.start world ex_fast_built rfl h0) h1,
    .auto deadCpu .start ha.2.2.1 (failsAt_of hf _) (failsAt_of hf _) h2, ha.2.2.2, failsAt_of hf _, failsAt_of hf _, h3,
    ha.2.1⟩
example : "cpu" ∈ fastZone.d.thermalInputs ∧ "cpu" ∉ fastZone.d.missingAcceptable ∧
    (fastZone.d.cycleTime.updateThermalsTimeMS + fastZone.d.cycleTime.cycleIntervalTimeMS - 1) /
      fastZone.d.cycleTime.cycleIntervalTimeMS ≤ 1 ∧ percentOf fastZone.d "cpu" = 75 := by decide +kernel

end
end Verif
