import Verif.Lemmas.Demand

/-! # Helper lemmas: proportional loops -/

namespace Verif
variable [F : FloatModel]
open Dbl

/-- a number of size at most `N` -/
def SizeUpTo (N : Nat) (x : Dbl) : Prop := ∃ q h, x = fin q h ∧ |q| ≤ N

theorem ofRat_sizeUpTo {N : Nat} (hN : N ≤ 2 ^ 53) {q : Rat} (h : |q| ≤ N) : SizeUpTo N (ofRat q) := by
  have hr := rep_nat (F := F) hN
  obtain ⟨h1, h2⟩ := abs_le.1 h
  have a := F.rnd_mono h2
  have b := F.rnd_mono h1
  rw [F.rnd_rep hr] at a
  rw [F.rnd_rep (F.rep_neg hr)] at b
  have hle := F.rep_le hr
  unfold ofRat
  split_ifs with g1 g2
  · linarith
  · linarith
  · exact ⟨_, _, rfl, abs_le.2 ⟨b, a⟩⟩

theorem Moderate.sizeUpTo {x : Dbl} (h : Moderate x) : SizeUpTo 1048576 x := by
  obtain ⟨h1, h2⟩ := h
  rw [nat_eq (n := 1048576) (by norm_num)] at h1 h2
  cases x with
  | fin q hq =>
    refine ⟨q, hq, rfl, abs_le.2 ?_⟩
    simp only [neg_def, Dbl.neg, fin_le_fin] at h1 h2
    exact ⟨h1, h2⟩
  | nan => simp at h2
  | pinf => simp at h2
  | ninf => simp [neg_def, Dbl.neg] at h1

theorem SizeUpTo.finite {N : Nat} {x : Dbl} (h : SizeUpTo N x) : x.isFinite = true := by
  obtain ⟨q, hq, rfl, _⟩ := h; rfl

theorem SizeUpTo.ne_nan {N : Nat} {x : Dbl} (h : SizeUpTo N x) : x ≠ nan := by
  obtain ⟨q, hq, rfl, _⟩ := h; simp

theorem SizeUpTo.sub {N M : Nat} {x y : Dbl} (hx : SizeUpTo N x) (hy : SizeUpTo M y) (h : N + M ≤ 2 ^ 53) : SizeUpTo (N + M) (x - y) := by
  obtain ⟨p, _, rfl, h1⟩ := hx
  obtain ⟨q, _, rfl, h2⟩ := hy
  rw [fin_sub_fin]
  refine ofRat_sizeUpTo h ?_
  push_cast
  exact (abs_sub _ _).trans (add_le_add h1 h2)

theorem SizeUpTo.add {N M : Nat} {x y : Dbl} (hx : SizeUpTo N x) (hy : SizeUpTo M y) (h : N + M ≤ 2 ^ 53) : SizeUpTo (N + M) (x + y) := by
  obtain ⟨p, _, rfl, h1⟩ := hx
  obtain ⟨q, _, rfl, h2⟩ := hy
  rw [fin_add_fin]
  refine ofRat_sizeUpTo h ?_
  push_cast
  exact (abs_add_le _ _).trans (_root_.add_le_add h1 h2)

theorem SizeUpTo.mul {N M : Nat} {x y : Dbl} (hx : SizeUpTo N x) (hy : SizeUpTo M y) (h : N * M ≤ 2 ^ 53) : SizeUpTo (N * M) (x * y) := by
  obtain ⟨p, _, rfl, h1⟩ := hx
  obtain ⟨q, _, rfl, h2⟩ := hy
  rw [fin_mul_fin]
  refine ofRat_sizeUpTo h ?_
  push_cast
  rw [abs_mul]
  exact mul_le_mul h1 h2 (abs_nonneg _) (Nat.cast_nonneg _)

theorem SizeUpTo.div {N : Nat} {x : Dbl} (hx : SizeUpTo N x) {q : Rat} {hq : F.rep q} (h : 1 / 1024 ≤ q) (hN : N * 1024 ≤ 2 ^ 53) :
    SizeUpTo (N * 1024) (x / fin q hq) := by
  obtain ⟨p, _, rfl, h1⟩ := hx
  have hpos : 0 < q := lt_of_lt_of_le (by norm_num) h
  rw [fin_div_fin hpos.ne']
  refine ofRat_sizeUpTo hN ?_
  push_cast
  rw [abs_div, abs_of_pos hpos, div_le_iff₀ hpos]
  have : (N : Rat) ≤ N * 1024 * q := by
    have h2 : (1 : Rat) ≤ 1024 * q := by linarith
    have h3 : (0 : Rat) ≤ N := Nat.cast_nonneg _
    nlinarith
  exact h1.trans this

theorem SizeUpTo.add_zero {N : Nat} {x : Dbl} (hx : SizeUpTo N x) : x + 0 = x := by
  obtain ⟨p, hp, rfl, _⟩ := hx
  rw [zero_eq, fin_add_fin]
  simp [ofRat_rep hp]

/-- what is left of the sum -/
theorem proportional_sum {i : PidInfo} (h : Proportional i.toPidConf) {r s : Dbl} (hr : Moderate r) (hs : Moderate s)
    (he : SizeUpTo 2097152 i.lastError) :
    pidSum i r s = i.proportionalCoeff * (s - r) + (s + i.feedFwdOffset) * i.feedFwdGain ∧ pidSum i r s ≠ nan := by
  obtain ⟨kp, fo, fg⟩ := h.moderate
  obtain ⟨_, hi, hd⟩ := h.terms
  obtain ⟨q, hq, hts, hper⟩ := h.period
  have e1 := hs.sizeUpTo.sub hr.sizeUpTo (by norm_num)
  have e2 := e1.sub he (by norm_num)
  have e3 := e2.div (hq := hq) hper (by norm_num)
  have e4 := kp.sizeUpTo.mul e1 (by norm_num)
  have e5 := (hs.sizeUpTo.add fo.sizeUpTo (by norm_num)).mul fg.sizeUpTo (by norm_num)
  have z0 := zero_mul_finite (zero_mul_of_finite e3.finite)
  have key : pidSum i r s = i.proportionalCoeff * (s - r) + (s + i.feedFwdOffset) * i.feedFwdGain := by
    unfold pidSum
    rw [hi, hd, hts, if_pos rfl, z0, e4.add_zero, e4.add_zero]
  exact ⟨key, by rw [key]; exact (e4.add e5 (by norm_num)).ne_nan⟩

theorem proportional_mono {c : PidConf} (h : Proportional c) {x x' s : Dbl} (hx : Moderate x) (hx' : Moderate x')
    (hs : Moderate s) (hle : x ≤ x') : proportionalAt c s x ≤ proportionalAt c s x' := by
  obtain ⟨kp, fo, fg⟩ := h.moderate
  have e1 := hs.sizeUpTo.sub hx.sizeUpTo (by norm_num)
  have e1' := hs.sizeUpTo.sub hx'.sizeUpTo (by norm_num)
  have e4 := kp.sizeUpTo.mul e1 (by norm_num)
  have e4' := kp.sizeUpTo.mul e1' (by norm_num)
  have e5 := (hs.sizeUpTo.add fo.sizeUpTo (by norm_num)).mul fg.sizeUpTo (by norm_num)
  have m1 : s - x' ≤ s - x := sub_le_sub (Dbl.le_refl hs.sizeUpTo.ne_nan) hle e1'.ne_nan e1.ne_nan
  have m2 := mul_le_mul_left_of_nonpos h.terms.1 m1 e4'.ne_nan e4.ne_nan
  exact clamp_mono h.limits (Dbl.add_le_add m2 (Dbl.le_refl e5.ne_nan) (e4.add e5 (by norm_num)).ne_nan
    (e4'.add e5 (by norm_num)).ne_nan)

theorem proportional_step {c : PidCtl} (h : Proportional c.info.toPidConf) {x s : Dbl} (hx : Moderate x) (hs : Moderate s)
    (he : SizeUpTo 2097152 c.info.lastError) :
    (pidStep c s x).1 = proportionalAt c.info.toPidConf s x ∧ SizeUpTo 2097152 (pidStep c s x).2.info.lastError := by
  obtain ⟨h1, h2, h3⟩ := h.hysteresis
  have e : pidStep c s x = ((pid c.info x s).1, ⟨(pid c.info x s).2, x⟩) := by
    unfold pidStep calPIDOutput
    rw [h1, h2, h3]
    have : (0 : Dbl).eqb 0 = true := eqb_zero_iff.2 rfl
    simp [this]
    rfl
  rw [e]
  refine ⟨?_, hs.sizeUpTo.sub hx.sizeUpTo (by norm_num)⟩
  show (pid c.info x s).1 = _
  rw [pid_out, slewed_off (.inr h.slew), (proportional_sum h hx hs he).1]
  rfl

theorem inputOne_absolute {c : ThermalPid} (ht : c.type = .absolute) {z z' : ZoneData} {v v' : Dbl} {a a' : Bool} {i : SensorInput}
    (h : c.inputOne z v a i = .ok (z', v', a')) : ∃ e, z.cachedValuesByName.find? i.name = some e ∧
      ((e.scaled.isFinite = false ∧ v' = v ∧ a' = a) ∨ (e.scaled.isFinite = true ∧ v' = cmax v e.scaled ∧ a' = true)) := by
  unfold ThermalPid.inputOne at h
  obtain ⟨e, he, h⟩ := bind_eq_ok.1 h
  refine ⟨e, (OMap.atKey_ok_iff _ _ _).1 he, ?_⟩
  dsimp only at h
  rw [ht] at h
  cases hf : e.scaled.isFinite with
  | false =>
    rw [hf] at h
    simp only [Bool.not_false, if_true] at h
    cases h
    exact .inl ⟨rfl, rfl, rfl⟩
  | true =>
    rw [hf] at h
    simp only [Bool.not_true, Bool.false_eq_true, if_false, reduceCtorEq, false_and] at h
    rw [ok_bind] at h
    right
    split_ifs at h
    · obtain ⟨z1, _, h⟩ := bind_eq_ok.1 h
      cases h
      exact ⟨rfl, rfl, rfl⟩
    · cases h
      exact ⟨rfl, rfl, rfl⟩

theorem lowest_le_finite {x : Dbl} (h : x.isFinite = true) : lowest ≤ x := by
  cases x with
  | fin q hq => exact fin_le_fin.2 (FloatModel.neg_le_rep hq)
  | _ => simp [isFinite] at h

theorem inputLoop_absolute {c : ThermalPid} (ht : c.type = .absolute) :
    ∀ {is : List SensorInput} {z z' : ZoneData} {v v' : Dbl} {a a' : Bool}, c.inputLoop z v a is = .ok (z', v', a') →
    (∀ i ∈ is, ∀ e, z.cachedValuesByName.find? i.name = some e → e.scaled.isFinite = true → Moderate e.scaled) →
    ((a = false ∧ v = lowest) ∨ (a = true ∧ Moderate v)) →
    ((a' = false ∧ v' = lowest) ∨ (a' = true ∧ Moderate v')) ∧ (a = true → a' = true) ∧ v ≤ v' ∧
      ∀ i ∈ is, ∀ e, z.cachedValuesByName.find? i.name = some e → e.scaled.isFinite = true → a' = true ∧ e.scaled ≤ v'
  | [], _, _, v, _, _, _, h, _, hv => by
    cases h
    refine ⟨hv, id, ?_, by simp⟩
    rcases hv with ⟨_, rfl⟩ | ⟨_, hv⟩
    · exact Dbl.le_refl lowest_ne_nan
    · exact Dbl.le_refl hv.sizeUpTo.ne_nan
  | i :: is, z, z', v, v', a, a', h, hm, hv => by
    unfold ThermalPid.inputLoop at h
    obtain ⟨⟨z1, v1, a1⟩, h1, h2⟩ := bind_eq_ok.1 h
    have hc := (inputOne_only h1).cache
    obtain ⟨e, he, hcase⟩ := inputOne_absolute ht h1
    have hvn : v ≠ nan := by
      rcases hv with ⟨_, rfl⟩ | ⟨_, hv⟩
      · exact lowest_ne_nan
      · exact hv.sizeUpTo.ne_nan
    have hv1 : ((a1 = false ∧ v1 = lowest) ∨ (a1 = true ∧ Moderate v1)) ∧ (a = true → a1 = true) ∧ v ≤ v1 ∧
        (e.scaled.isFinite = true → a1 = true ∧ e.scaled ≤ v1) := by
      rcases hcase with ⟨hf, rfl, rfl⟩ | ⟨hf, rfl, rfl⟩
      · exact ⟨hv, id, Dbl.le_refl hvn, fun h => by rw [hf] at h; cases h⟩
      · have hem := hm i List.mem_cons_self e he hf
        have hen := hem.sizeUpTo.ne_nan
        refine ⟨.inr ⟨rfl, ?_⟩, fun _ => rfl, cmax_ge_left hvn, fun _ => ⟨rfl, cmax_ge_right hvn hen⟩⟩
        unfold cmax
        split_ifs with hlt
        · exact hem
        · rcases hv with ⟨_, rfl⟩ | ⟨_, hv⟩
          · have h1 : e.scaled ≤ lowest := Dbl.le_of_not_lt hen hvn hlt
            have h2 : lowest ≤ e.scaled := lowest_le_finite hf
            rw [← Dbl.le_antisymm h1 h2]
            exact hem
          · exact hv
    obtain ⟨q1, q2, q3, q4⟩ := hv1
    obtain ⟨r1, r2, r3, r4⟩ := inputLoop_absolute ht h2
      (fun j hj e' he' => hm j (List.mem_cons_of_mem _ hj) e' (by rw [← hc]; exact he')) q1
    refine ⟨r1, r2 ∘ q2, Dbl.le_trans q3 r3, fun j hj e' he' hf' => ?_⟩
    rcases List.mem_cons.1 hj with rfl | hj
    · rw [he] at he'
      cases he'
      exact ⟨r2 (q4 hf').1, Dbl.le_trans (q4 hf').2 r3⟩
    · exact r4 j hj e' (by rw [hc]; exact he') hf'

/-- a proportional loop over temperatures or powers -/
def SoundProp (conf : PidConf) (s : Dbl) (inputs : List SensorInput) (c : ThermalCtl) : Prop :=
  ∃ p : ThermalPid, c = .pid p ∧ p.type = .absolute ∧ p.setpoint = s ∧ p.inputs = inputs ∧ p.ctl.info.toPidConf = conf ∧
    SizeUpTo 2097152 p.ctl.info.lastError

/-- the finite readings in the cache are moderate -/
def ModerateCache (inputs : List SensorInput) (z : ZoneData) : Prop :=
  ∀ i ∈ inputs, ∀ e, z.cachedValuesByName.find? i.name = some e → e.scaled.isFinite = true → Moderate e.scaled

theorem inputProc_absolute {c : ThermalPid} (ht : c.type = .absolute) (hs : Moderate c.setpoint) {z z' : ZoneData} {v : Dbl}
    (h : c.inputProc z = .ok (z', v)) (hm : ModerateCache c.inputs z) : Moderate v ∧
      ∀ i ∈ c.inputs, ∀ e, z.cachedValuesByName.find? i.name = some e → e.scaled.isFinite = true → e.scaled ≤ v := by
  unfold ThermalPid.inputProc at h
  split_ifs at h
  obtain ⟨⟨z1, v1, a1⟩, h1, h2⟩ := bind_eq_ok.1 h
  cases h2
  simp only [ht] at h1
  obtain ⟨q1, _, _, q4⟩ := inputLoop_absolute ht h1 hm (.inl ⟨rfl, rfl⟩)
  refine ⟨?_, fun i hi e he hf => ?_⟩
  · rcases q1 with ⟨rfl, _⟩ | ⟨rfl, hv⟩
    · exact hs
    · exact hv
  · obtain ⟨ha, hle⟩ := q4 i hi e he hf
    rw [ha]
    exact hle

theorem soundProp_out {conf : PidConf} {s : Dbl} {inputs : List SensorInput} (hc : Proportional conf) (hs : Moderate s)
    {c c' : ThermalCtl} {z : ZoneData} {v : Dbl} (hm : ModerateCache inputs z) (h : SoundProp conf s inputs c)
    (ho : CtlOut z c v c') : SoundProp conf s inputs c' ∧
      ∀ x, Moderate x → ∀ i ∈ inputs, ∀ e, z.cachedValuesByName.find? i.name = some e → e.scaled.isFinite = true → x ≤ e.scaled →
        proportionalAt conf s x ≤ v := by
  obtain ⟨p, rfl, h1, rfl, rfl, rfl, he⟩ := h
  cases ho with
  | @pid _ z1 z2 input hz hi =>
    have hm1 : ModerateCache p.inputs z1 := by unfold ModerateCache; rw [hz]; exact hm
    obtain ⟨hin, hge⟩ := inputProc_absolute h1 hs hi hm1
    obtain ⟨st1, st2⟩ := proportional_step hc hin hs he
    refine ⟨⟨_, rfl, h1, rfl, rfl, pidStep_conf _ _ _, st2⟩, fun x hx i hi' e he' hf hle => ?_⟩
    rw [st1]
    exact proportional_mono hc hx hin hs (Dbl.le_trans hle (hge i hi' e (by rw [hz]; exact he') hf))

end Verif
