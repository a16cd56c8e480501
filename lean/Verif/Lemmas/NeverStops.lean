import Verif.Spec.NeverStops
import Verif.Lemmas.Ranges
import Verif.Lemmas.SlowFans
import Verif.Lemmas.Passes
import Verif.Props.Daemon
import Verif.Props.SlowFans

/-! # Helper lemmas: settings with which the daemon never stops -/

namespace Verif
open Dbl

section
variable [F : FloatModel]

/-! ## The numbers -/

theorem clamp_moderate {N : Nat} {x lo hi : Dbl} (hx : SizeUpTo N x) (h1 : Moderate lo) (h2 : Moderate hi) :
    SizeUpTo 1048576 (clamp x lo hi) := by
  unfold clamp
  split_ifs with a b
  · exact h1.sizeUpTo
  · exact h2.sizeUpTo
  · refine Moderate.sizeUpTo ⟨Dbl.le_trans h1.1 (le_of_not_lt h1.sizeUpTo.ne_nan hx.ne_nan a),
      Dbl.le_trans (le_of_not_lt hx.ne_nan h2.sizeUpTo.ne_nan b) h2.2⟩

theorem percentage_size {x : Dbl} (h : Percentage x) : SizeUpTo 100 x := by
  obtain ⟨h0, h1⟩ := h
  have e : (100 : Dbl) = fin ((100 : Nat) : Rat) (rep_nat (by norm_num)) := nat_eq (n := 100) (by norm_num)
  rw [e] at h1
  rw [zero_eq] at h0
  cases x with
  | fin q hq =>
    simp only [fin_le_fin] at h0 h1
    exact ⟨q, hq, rfl, abs_le.2 ⟨by push_cast at *; linarith, by exact_mod_cast h1⟩⟩
  | nan => simp at h0
  | ninf => simp at h0
  | pinf => simp at h1

theorem fin_size {q : Rat} {h : F.rep q} {N : Nat} (h0 : 0 ≤ q) (h1 : q ≤ N) : SizeUpTo N (fin q h) :=
  ⟨q, h, rfl, by rw [abs_of_nonneg h0]; exact h1⟩

/-- the state of a fan loop with moderate settings -/
structure GoodFan (c : PidCtl) : Prop where
  conf : ModerateFan c.info.toPidConf
  last : Percentage c.info.lastOutput
  error : SizeUpTo 2097152 c.info.lastError
  integral : SizeUpTo 1048576 c.info.integral
  input : c.lastInput.isFinite = true → SizeUpTo 1048576 c.lastInput

theorem GoodFan.ranged {c : PidCtl} (h : GoodFan c) : Ranged c :=
  ⟨h.conf.limits.slew, h.conf.limits.min, h.conf.limits.order, h.conf.limits.max, .inr h.last⟩

theorem pid_good {c : PidCtl} (h : GoodFan c) {r s : Dbl} (hr : SizeUpTo 1048576 r) (hs : SizeUpTo 1048576 s) :
    Percentage (pid c.info r s).1 ∧ SizeUpTo 1048576 (pid c.info r s).2.integral ∧
      SizeUpTo 2097152 (pid c.info r s).2.lastError := by
  obtain ⟨kp, ki, kd⟩ := h.conf.terms
  obtain ⟨fo, fg⟩ := h.conf.feedForward
  obtain ⟨il, ih⟩ := h.conf.integralLimits
  obtain ⟨sn, sp⟩ := h.conf.slewRates
  obtain ⟨q, hq, ets, q1, q2⟩ := h.conf.period
  have q0 : (0 : Rat) ≤ q := by linarith [show (0 : Rat) ≤ 1 / 1024 by norm_num]
  have ts : SizeUpTo 1024 c.info.ts := by rw [ets]; exact fin_size q0 (by exact_mod_cast q2)
  have er : SizeUpTo 2097152 (s - r) := hs.sub hr (by norm_num)
  have ep := kp.sizeUpTo.mul er (by norm_num)
  have ei : SizeUpTo 1048576 (if c.info.integralCoeff = 0 then 0
      else limited (c.info.integral + (s - r) * c.info.integralCoeff * c.info.ts) c.info.integralLimit.min c.info.integralLimit.max) := by
    split_ifs
    · exact (percentage_size zero_percentage).mono (by norm_num)
    · exact clamp_moderate (h.integral.add ((er.mul ki.sizeUpTo (by norm_num)).mul ts (by norm_num)) (by norm_num)) il ih
  have ed : SizeUpTo (1048576 * (4194304 * 1024)) (c.info.derivativeCoeff * (((s - r) - c.info.lastError) / c.info.ts)) := by
    rw [ets]
    exact kd.sizeUpTo.mul ((er.sub h.error (by norm_num)).div q1 (by norm_num)) (by norm_num)
  have ef := (hs.add fo.sizeUpTo (by norm_num)).mul fg.sizeUpTo (by norm_num)
  have sum : pidSum c.info r s ≠ nan := (((ep.add ei (by norm_num)).add ed (by norm_num)).add ef (by norm_num)).ne_nan
  have l100 := percentage_size h.last
  have n1 := (l100.add (sn.sizeUpTo.mul ts (by norm_num)) (by norm_num)).ne_nan
  have n2 := (l100.add (sp.sizeUpTo.mul ts (by norm_num)) (by norm_num)).ne_nan
  have out : (pid c.info r s).1 ≠ nan := by
    rw [pid_out]
    have hcl : clamp (pidSum c.info r s) c.info.outLim.min c.info.outLim.max ≠ nan :=
      clamp_ne_nan sum (ne_nan_of_le_left h.conf.limits.order) (ne_nan_of_le_right h.conf.limits.order)
    generalize clamp (pidSum c.info r s) c.info.outLim.min c.info.outLim.max = v at hcl ⊢
    unfold slewed
    dsimp only
    split_ifs <;> assumption
  have hp : Percentage (pid c.info r s).1 := (pid_ranged h.ranged r s).resolve_left out
  refine ⟨hp, ?_, er⟩
  have e : (pid c.info r s).2.integral = clamp (if c.info.initialized && (nonZero c.info.slewNeg || nonZero c.info.slewPos)
      then (pid c.info r s).1 - c.info.proportionalCoeff * (s - r)
      else (if nonZero c.info.integralCoeff then
        clamp (c.info.integral + (s - r) * c.info.integralCoeff * c.info.ts) c.info.integralLimit.min c.info.integralLimit.max
      else 0)) c.info.integralLimit.min c.info.integralLimit.max := rfl
  rw [e]
  split_ifs
  · exact clamp_moderate ((percentage_size hp).sub ep (by norm_num)) il ih
  · exact clamp_moderate (clamp_moderate (h.integral.add ((er.mul ki.sizeUpTo (by norm_num)).mul ts (by norm_num)) (by norm_num)) il ih) il ih
  · exact clamp_moderate (percentage_size zero_percentage) il ih

theorem pidStep_good {c : PidCtl} (h : GoodFan c) {s x : Dbl} (hx : SizeUpTo 1048576 x) (hs : SizeUpTo 1048576 s) :
    Percentage (pidStep c s x).1 ∧ GoodFan (pidStep c s x).2 := by
  have key : ∀ {r : Dbl}, SizeUpTo 1048576 r → Percentage (pid c.info r s).1 ∧
      GoodFan ⟨{ (pid c.info r s).2 with lastOutput := (pid c.info r s).1 }, r⟩ := by
    intro r hr
    obtain ⟨a, b, d⟩ := pid_good h hr hs
    exact ⟨a, h.conf, a, d, b, fun _ => hr⟩
  have zero : SizeUpTo 1048576 (0 : Dbl) := (percentage_size zero_percentage).mono (by norm_num)
  unfold pidStep calPIDOutput
  dsimp only
  split_ifs with c1 c2 c3 c4 c5 c6 c7
  · exact key hx
  · exact ⟨zero_percentage, h.conf, zero_percentage, h.error, zero, fun _ => hs⟩
  · exact ⟨h.last, h.conf, h.last, h.error, h.integral, fun _ => hx⟩
  · exact key hx
  · exact key hx
  · exact key hx
  · exact key hx
  · exact key (h.input (by simpa using c5))

/-! ## The writers -/

/-- a writer that can convert every fraction -/
def WriterFine : Writer → Prop
  | .dbusPercent _ lo hi _ => 0 ≤ lo ∧ lo ≤ hi ∧ hi ≤ 2 ^ 53
  | .sysfsPercent _ lo hi => 0 ≤ lo ∧ lo ≤ hi ∧ hi ≤ 2 ^ 53
  | _ => True

/-- all writers are such -/
def WritersFine (w : World) : Prop :=
  ∀ n s rd wr, w.sensors.find? n = some s → s.impl = .pluggable rd wr → WriterFine wr

theorem fraction_casts {v : Dbl} (h0 : 0 ≤ v) (h1 : v ≤ 1) : ∃ u, v.toI64 = some u ∧ v.toU64 = some u := by
  rw [zero_eq] at h0
  rw [one_eq] at h1
  cases v with
  | fin q hq =>
    simp only [fin_le_fin] at h0 h1
    obtain ⟨a, b⟩ := trunc_between (F := F) (min := 0) (max := 1) (t := q) (Int.le_refl 0) (by exact_mod_cast h0) (by exact_mod_cast h1)
    exact ⟨truncQ q, by rw [toI64, castInt, if_pos ⟨by omega, by omega⟩], by rw [toU64, castInt, if_pos ⟨by omega, by omega⟩]⟩
  | nan => simp at h0
  | ninf => simp at h0
  | pinf => simp at h1

theorem fine_write_error {wr : Writer} (h : WriterFine wr) {v : Dbl} (h0 : 0 ≤ v) (h1 : v ≤ 1) {busOk : String → Bool} {force : Bool}
    {x : Err} (hw : wr.write busOk v force = .error x) : ¬ CastErr x := by
  obtain ⟨u, e1, e2⟩ := fraction_casts h0 h1
  cases wr with
  | dbusPercent path lo hi old =>
    obtain ⟨r, hr⟩ := (C45_range h.1 h.2.1 h.2.2 (.dbus path old) h0 h1).2 busOk force
    rw [hr] at hw; cases hw
  | sysfsPercent path lo hi =>
    obtain ⟨r, hr⟩ := (C45_range h.1 h.2.1 h.2.2 (.sysfs path) h0 h1).2 busOk force
    rw [hr] at hw; cases hw
  | dbusRaw path old =>
    obtain ⟨r, hr, _⟩ := dbus_ok (min := 0) (max := 0) (Int.le_refl 0) (Int.le_refl 0) (by norm_num) e1 e2 (busOk path) path old (.dbusRaw path) force
    have hw : dbusWriteTail (busOk path) path old (.dbusRaw path) v force = .error x := hw
    rw [hr] at hw; cases hw
  | sysfsRaw path => simp only [Writer.write, e1, castOr, ok_bind] at hw; cases hw
  | readOnlyNoExcept => cases hw
  | null => cases hw; simp [CastErr]

theorem fine_write {wr : Writer} (h : WriterFine wr) {v : Dbl} {busOk : String → Bool} {force : Bool} {r : WriteResult}
    (hw : wr.write busOk v force = .ok r) : WriterFine r.writer := by
  cases wr with
  | dbusPercent path lo hi old =>
    obtain ⟨raw, g1, (⟨_, hf, rfl⟩ | ⟨_, u', g2, rfl⟩)⟩ := dbusTail_spec hw <;> exact h
  | sysfsPercent path lo hi =>
    obtain ⟨raw, _, hw⟩ := bind_eq_ok.1 hw
    cases hw; exact h
  | dbusRaw path old =>
    obtain ⟨raw, g1, (⟨_, hf, rfl⟩ | ⟨_, u', g2, rfl⟩)⟩ := dbusTail_spec hw <;> trivial
  | sysfsRaw path =>
    obtain ⟨raw, _, hw⟩ := bind_eq_ok.1 hw
    cases hw; trivial
  | readOnlyNoExcept => cases hw; trivial
  | null => cases hw

theorem writersFine_write {w w' : World} (h : WritersFine w) {m sn : String} {v : Dbl} {force : Bool} {x : Option Int}
    (hw : w.writeSensor m v force = .ok (w', sn, x)) : WritersFine w' := by
  obtain ⟨s', rd', wr', res, hs', hii, hres, _, _, hw'⟩ := writeSensor_spec hw
  intro n s rd wr hs hi
  have hse : w'.sensors = w.sensors.insert m ⟨s'.name, s'.timeout, s'.ignoreFailIfHostOff, .pluggable rd' res.writer⟩ := by
    rw [hw']
  rw [hse] at hs
  by_cases e : n = m
  · subst e
    rw [OMap.find?_insert_self] at hs
    cases hs
    cases hi
    exact fine_write (h _ _ _ _ hs' hii) hres
  · rw [OMap.find?_insert_ne _ e] at hs
    exact h _ _ _ _ hs hi

theorem writersFine_commanded {v : Dbl} {force : Bool} {w w' : World} {ns : List String} (hc : Commanded v force w ns w')
    (h : WritersFine w) : WritersFine w' := by
  induction hc with
  | nil w => exact h
  | cons g1 _ ih => exact ih (writersFine_write h g1)

theorem writersFine_drives {force : Bool} {w w' : World} {l : List (FanPid × Dbl)} (hd : Drives force w l w')
    (h : WritersFine w) : WritersFine w' := by
  induction hd with
  | nil w => exact h
  | cons g1 _ ih => exact ih (writersFine_commanded g1 h)

theorem writersFine_set {d : Daemon} (h : WritersFine d.w) {k : String} {s s' : Sensor} (hs : d.w.sensors.find? k = some s)
    (hi' : ∀ rd wr, s'.impl = .pluggable rd wr → ∃ rd', s.impl = .pluggable rd' wr) : WritersFine (d.setSensor k s').w := by
  intro n s0 rd wr h0 hi
  by_cases e : n = k
  · subst e
    have hf : (d.setSensor n s').w.sensors.find? n = some s' := OMap.find?_insert_self _ _ _
    rw [hf] at h0
    cases h0
    obtain ⟨rd', h1⟩ := hi' rd wr hi
    exact h _ _ _ _ hs h1
  · have hf : (d.setSensor k s').w.sensors.find? n = d.w.sensors.find? n := OMap.find?_insert_ne _ e _
    rw [hf] at h0
    exact h _ _ _ _ h0 hi

theorem writersFine_step {o : Opts} {d d' : Daemon} {e : DEvent} (hst : d.step o e = .ok d') (h : WritersFine d.w) :
    WritersFine d'.w := by
  cases e with
  | outside nf nt ho rf fi bo => cases hst; exact h
  | signal k t msg =>
    have hst : d.signal o k t msg = .ok d' := hst
    unfold Daemon.signal at hst
    split at hst
    · next s hs =>
      split at hst
      · next q wr hi =>
        obtain ⟨p', hp, hst⟩ := bind_eq_ok.1 hst
        cases hst
        refine writersFine_set h hs (fun rd wr' e => ?_)
        cases e
        exact ⟨_, hi⟩
      · cases hst; exact h
    · cases hst; exact h
  | hostWrite k t v =>
    simp only [Daemon.step] at hst
    split at hst
    · next s hs =>
      cases hst
      refine writersFine_set h hs (fun rd wr e => ?_)
      unfold Sensor.hostWrite at e
      split at e
      · cases e
      · exact ⟨_, e⟩
    · cases hst; exact h
  | manual j b => cases hst; rw [onZone_w]; exact h
  | enable j l b => cases hst; rw [onZone_w]; exact h
  | tick j =>
    simp only [Daemon.step] at hst
    split at hst
    · next z cnt hj =>
      obtain ⟨⟨w', z', cnt'⟩, g1, hst⟩ := bind_eq_ok.1 hst
      cases hst
      show WritersFine w'
      by_cases hm : z.d.manualMode = true
      · rw [tick_manual hm] at g1; cases g1; exact h
      obtain ⟨dd, _, ⟨-, zt, g2, g3, -⟩ | ⟨-, g3, -⟩⟩ := tick_auto (by simpa using hm) g1
      · obtain ⟨l, _, _, a3, _⟩ := processFans_spec g3
        exact writersFine_drives a3 h
      · obtain ⟨l, _, _, a3, _⟩ := processFans_spec g3
        exact writersFine_drives a3 h
    · cases hst; exact h

theorem writersFine_run {o : Opts} : ∀ {es : List DEvent} {d d' : Daemon}, d.run o es = .ok d' → WritersFine d.w → WritersFine d'.w
  | [], d, d', h, hw => by cases h; exact hw
  | e :: es, d, d', h, hw => by
    obtain ⟨d1, g1, g2⟩ := bind_eq_ok.1 h
    exact writersFine_run g2 (writersFine_step g1 hw)

/-! ## Fan passes that cannot fail -/

theorem writeFans_noCast {v : Dbl} (h0 : 0 ≤ v) (h1 : v ≤ 1) : ∀ {ns : List String} {w : World} {z : ZoneData} {x : Err},
    WritersFine w → writeFans (.ok (-1)) v w z ns = .error x → ¬ CastErr x
  | [], w, z, x, _, h => by cases h
  | n :: ns, w, z, x, hf, h => by
    rw [writeFans] at h
    rcases bind_eq_err.1 h with h | ⟨⟨w1, sn, wr⟩, hw, h⟩
    · unfold World.writeSensor at h
      rcases bind_eq_err.1 h with h | ⟨s, hs, h⟩
      · unfold World.getSensor OMap.atKey at h
        split at h
        · cases h
        · cases h; simp [CastErr]
      · split at h
        · cases h; simp [CastErr]
        · next rd wr hi =>
          rcases bind_eq_err.1 h with h | ⟨r, _, h⟩
          · exact fine_write_error (hf _ _ _ _ ((OMap.atKey_ok_iff _ _ _).1 hs) hi) h0 h1 h
          · cases h
    · rcases bind_eq_err.1 h with h | ⟨raw, _, h⟩
      · cases wr <;> cases h
      · exact writeFans_noCast h0 h1 (writersFine_write hf hw) h

/-- the loop commands a fraction, whatever its fans show -/
def CommandsFraction (o : Opts) (z : ZoneData) (c : FanPid) : Prop :=
  ∀ v, c.inputProc z = .ok v → 0 ≤ fanPercent o z (pidStep c.ctl z.maximumSetPoint v).1 / 100 ∧
    fanPercent o z (pidStep c.ctl z.maximumSetPoint v).1 / 100 ≤ 1

theorem fanList_noCast {o : Opts} : ∀ {cs : List (Option FanPid)} {w : World} {z : ZoneData} {x : Err}, WritersFine w →
    (∀ c, some c ∈ cs → CommandsFraction o z c) → processFanList o w z cs = .error x → ¬ CastErr x
  | [], w, z, x, _, _, h => by cases h
  | none :: cs, w, z, x, _, _, h => by cases h; simp [CastErr]
  | some c :: cs, w, z, x, hf, hc, h => by
    rw [processFanList] at h
    rcases bind_eq_err.1 h with h | ⟨⟨w1, z1, c1⟩, hp, h⟩
    · unfold FanPid.process at h
      rcases bind_eq_err.1 h with h | ⟨v, hv, h⟩
      · unfold FanPid.inputProc at h
        rcases bind_eq_err.1 h with h | ⟨l, _, h⟩
        · generalize (c.setptProc z).inputs = ns at h
          induction ns with
          | nil => cases h
          | cons n ns ih =>
            rcases bind_eq_err.1 h with h | ⟨e, _, h⟩
            · unfold ZoneData.getCachedValues OMap.atKey at h
              split at h
              · cases h
              · cases h; simp [CastErr]
            · rcases bind_eq_err.1 h with h | ⟨_, _, h⟩
              · exact ih h
              · cases h
        · split at h <;> cases h
      · obtain ⟨a, b⟩ := hc c List.mem_cons_self v hv
        rcases bind_eq_err.1 h with h | ⟨_, _, h⟩
        · exact writeFans_noCast a b hf h
        · cases h
    · obtain ⟨_, g1, _, g3⟩ := fanProcess_spec hp
      rcases bind_eq_err.1 h with h | ⟨_, _, h⟩
      · refine fanList_noCast (writersFine_commanded g1 hf) (fun c hcm => ?_) h
        intro v hv
        rw [fanInput_congr (show z1.cachedValuesByName = z.cachedValuesByName by rw [g3])] at hv
        rw [fanPercent_congr g3, show z1.maximumSetPoint = z.maximumSetPoint by rw [g3]]
        exact hc c (List.mem_cons_of_mem _ hcm) v hv
      · cases h

/-! ## Ticks that cannot fail -/

/-- in a usable world everything up to the fan pass of an automatic tick succeeds -/
theorem tick_stages {o : Opts} {w : World} {z : Zone} (hz : ZoneOk z) (hw : WorldOk o w z) :
    ∃ d, z.d.updateFanTelemetry w = .ok d ∧ ∃ zt, Zone.processThermals o w { z with d := d } = .ok zt := by
  obtain ⟨d, hd⟩ := C28_total (w := w) (now := w.nowFans) z.d hw.fans
  have p1 := pollAll_spec hd
  have e2 : d.thermalInputs = z.d.thermalInputs := by rw [p1.frame.eq]
  have e3 : d.procs = z.d.procs := by rw [p1.frame.eq]
  refine ⟨d, hd, ?_⟩
  obtain ⟨d2, hd2⟩ := C28_total (w := w) (now := w.nowThermals) (names := d.thermalInputs) d (by rw [e2]; exact hw.thermals)
  have p2 := pollAll_spec hd2
  have cf2 : ∀ n, n ∈ z.d.fanInputs ∨ n ∈ z.d.thermalInputs → ∃ e, d2.cachedValuesByName.find? n = some e := by
    intro n hn
    by_cases hin : n ∈ d.thermalInputs
    · obtain ⟨_, _, _, _, _, _, q⟩ := p2.sensor n hin
      exact ⟨_, q⟩
    · rw [(p2.other n hin).2]
      obtain ⟨_, _, _, _, _, _, q⟩ := p1.sensor n (hn.resolve_right (e2 ▸ hin))
      exact ⟨_, q⟩
  have k2 : d2.procs = z.d.procs := by
    have : d2.procs = d.procs := by rw [p2.frame.eq]
    exact this.trans e3
  obtain ⟨zt, h1, _⟩ := thermals_total (z := { z with d := d }) hw.files hd2 (hz.ready cf2 k2)
  exact ⟨zt, h1⟩

theorem fanPercent_number {o : Opts} {d0 z : ZoneData} {log : List Poll} (hi : HistInv d0 z log) (hs : SafePercents d0)
    {x : Dbl} (hx : Percentage x) : Percentage (fanPercent o z x) := by
  have := failSafePercent_percentage hi hs
  unfold fanPercent
  split_ifs <;> assumption

theorem percentage_fraction {x : Dbl} (h : Percentage x) : 0 ≤ x / 100 ∧ x / 100 ≤ 1 :=
  (percent_fraction (.inr h)).resolve_left (div100_ne_nan (ne_nan_of_le_left h.2))

theorem bounded_size {y s : Dbl} (hy : Moderate y) (h : 0 ≤ s ∧ s ≤ y) : Moderate s := by
  refine ⟨Dbl.le_trans ?_ h.1, Dbl.le_trans h.2 hy.2⟩
  rw [nat_eq (n := 1048576) (by norm_num), zero_eq]
  simp [neg_def, Dbl.neg]

theorem tick_noCast {heats fs : List Entry} {ct : CycleTime} {ti fi : List String} {min : Dbl}
    {fk : List (Option (List String × PidConf))} {y : Dbl} {o : Opts} (ho : o.tuningEnabled = false) (h0 : 0 ≤ y) (hy : Moderate y)
    (hmin : min ≤ y) (hfi : ∀ e ∈ fs, ∀ i ∈ e.2.inputs, i.name ∈ fi) {w : World} {z : Zone} {cnt : Nat} (hz : ZoneOk z)
    (hw : WorldOk o w z) (hf : WritersFine w) (hq : QuietZone (CappedLoop y) heats ct ti min fk false z)
    (hset : 0 ≤ z.d.maximumSetPoint ∧ z.d.maximumSetPoint ≤ y)
    (hl : FanLoops fs fi (fun _ => True) (fun _ c => GoodFan c) z) {d0 : ZoneData} {log : List Poll} (hi : HistInv d0 z.d log)
    (hs : SafePercents d0) (hv : z.d.manualMode = false → ∀ e ∈ fs, ∀ v, FanSees w e.2 v → Moderate v) {x : Err}
    (h : z.tick o w cnt = .error x) : ¬ CastErr x := by
  by_cases hm : z.d.manualMode = true
  · rw [tick_manual hm] at h; cases h
  have hm : z.d.manualMode = false := by simpa using hm
  obtain ⟨d, hd, zt, ht⟩ := tick_stages hz hw
  have ed : d.maximumSetPoint = z.d.maximumSetPoint := by rw [(pollAll_spec hd).frame.eq]
  have i1 := hi.poll (fun n hn => .inl (hi.same.1 ▸ hn)) hd
  -- what follows for the state the fans are driven in
  have key : ∀ {z1 : Zone} {log1 : List Poll}, (Zone.processThermals o w { z with d := d } = .ok z1 ∨ z1 = { z with d := d }) →
      z1.fans = z.fans → 0 ≤ z1.d.maximumSetPoint ∧ z1.d.maximumSetPoint ≤ y → HistInv d0 z1.d log1 →
      z1.processFans o w = .error x → ¬ CastErr x := by
    intro z1 log1 hz1 hfans hmax hh h
    unfold Zone.processFans at h
    rcases bind_eq_err.1 h with h | ⟨_, _, h⟩
    · refine fanList_noCast hf (fun c hc v hv' => ?_) h
      rw [hfans] at hc
      obtain ⟨e, he, hce⟩ := forall₂_right hl.loops hc
      obtain ⟨q1, _, q3⟩ := hce c rfl
      have hsees : FanSees w e.2 v := tick_sees hd hz1 q1 (by
        rw [q1, hl.inputs]
        intro n hn
        obtain ⟨i, hi, rfl⟩ := List.mem_map.1 hn
        exact hfi e he i hi) hv'
      have := pidStep_good (q3 trivial) (hv hm e he v hsees).sizeUpTo (bounded_size hy hmax).sizeUpTo
      exact percentage_fraction (fanPercent_number hh hs this.1)
    · cases h
  unfold Zone.tick at h
  rw [if_neg (by simp [hm]), hd, ok_bind] at h
  dsimp only at h
  split_ifs at h with hT
  · rw [ht, ok_bind, ok_bind] at h
    rcases bind_eq_err.1 h with h | ⟨_, _, h⟩
    · exact key (.inl ht) (thermalTick_flags ht).2.2 (capped_thermals ho h0 hmin (hq.poll hd) ht).2
        (HistInv.thermals (z := { z with d := d }) i1 ht) h
    · cases h
  · rw [ok_bind] at h
    rcases bind_eq_err.1 h with h | ⟨_, _, h⟩
    · exact key (.inr rfl) rfl (by rw [← ed] at hset; exact hset) i1 h
    · cases h

end
end Verif
