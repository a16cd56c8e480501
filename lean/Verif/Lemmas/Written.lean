import Verif.Spec.Written
import Verif.Props.Startup
import Verif.Props.Timed

/-! # Lemmas on configuration files and the daemons they start -/

namespace Verif
open Dbl
section
variable [F : FloatModel]

/-! ## Entries that count -/

omit F in
theorem chosen_split_unique {α : Type} {P : α → Prop} : ∀ {a a' : List α} {e e' : α} {b b' : List α}, a ++ e :: b = a' ++ e' :: b' →
    P e → P e' → (∀ x ∈ b, ¬ P x) → (∀ x ∈ b', ¬ P x) → e = e'
  | [], [], _, _, _, _, h, _, _, _, _ => by simp at h; exact h.1
  | [], y :: a', _, e', _, _, h, _, h2, h3, _ => by
    simp only [List.nil_append, List.cons_append, List.cons.injEq] at h
    exact absurd h2 (h3 e' (by rw [h.2]; simp))
  | x :: a, [], e, _, _, _, h, h1, _, _, h4 => by
    simp only [List.nil_append, List.cons_append, List.cons.injEq] at h
    exact absurd h1 (h4 e (by rw [← h.2]; simp))
  | x :: a, y :: a', _, _, _, _, h, h1, h2, h3, h4 => by
    simp only [List.cons_append, List.cons.injEq] at h
    exact chosen_split_unique h.2 h1 h2 h3 h4

/-- the section a list of entries is for -/
theorem chosen_iff {κ : Type} {j v : Json} {s : String} {es : List Json} {N : Json → κ → Prop} {k : κ} {e : Json}
    (hv : Member j s v) (he : Entries v es) :
    Chosen j s N k e ↔ ∃ pre post, es = pre ++ e :: post ∧ N e k ∧ ∀ e' ∈ post, ¬ N e' k := by
  constructor
  · rintro ⟨v', es', pre, post, h1, h2, h3, h4, h5⟩
    rw [← member_unique hv h1] at h2
    rw [← entries_iff.1 h2, entries_iff.1 he] at h3
    exact ⟨pre, post, h3, h4, h5⟩
  · rintro ⟨pre, post, h3, h4, h5⟩
    exact ⟨v, es, pre, post, hv, he, h3, h4, h5⟩

theorem chosen_last {κ α : Type} {j v : Json} {s : String} {es : List Json} {N : Json → κ → Prop} {E : Json → α → Prop} {k : κ}
    {e : Json} {x : α} (hv : Member j s v) (he : Entries v es) (hc : Chosen j s N k e) (hl : LastNamed N E es k x) : E e x := by
  obtain ⟨pre, post, h3, h4, h5⟩ := (chosen_iff hv he).1 hc
  obtain ⟨pre', e', post', g1, g2, g3, g4⟩ := hl
  rw [chosen_split_unique (P := fun e => N e k) (h3.symm.trans g1) h4 g2 h5 g4]
  exact g3

theorem last_chosen {κ α : Type} {j v : Json} {s : String} {es : List Json} {N : Json → κ → Prop} {E : Json → α → Prop} {k : κ}
    {x : α} (hv : Member j s v) (he : Entries v es) (hl : LastNamed N E es k x) : ∃ e, Chosen j s N k e ∧ E e x := by
  obtain ⟨pre', e', post', g1, g2, g3, g4⟩ := hl
  exact ⟨e', (chosen_iff hv he).2 ⟨pre', post', g1, g2, g4⟩, g3⟩

/-- `c` has what is in the file -/
structure FileMatch (data : Json) (c : Config) : Prop where
  sensor : ∀ n e, Chosen data "sensors" Named n e → ∃ s, c.sensors.find? n = some s ∧ SensorEntry e s
  sensors : ∀ n s, c.sensors.find? n = some s → ∃ e, Chosen data "sensors" Named n e ∧ SensorEntry e s
  zone : ∀ i e, Chosen data "zones" Numbering i e → ∃ z conf, c.zones.find? i = some z ∧ c.pids.find? i = some conf ∧
    ZoneEntry e z ∧ LoopsMatch e conf
  zones : ∀ i conf, c.pids.find? i = some conf → ∃ e, Chosen data "zones" Numbering i e ∧ LoopsMatch e conf
  sensorsWf : c.sensors.WF
  pidsWf : c.pids.WF
  loopsWf : ∀ e ∈ c.pids.entries, OMap.WF e.2

theorem loopsMatch {zone : Json} {conf : PIDConf} (hw : conf.WF) (h : LoopsEntry zone conf) : LoopsMatch zone conf := by
  obtain ⟨p, es, hp, he, hall, hfind⟩ := h
  refine ⟨fun n l hl => ?_, fun x hx => ?_⟩
  · obtain ⟨pre, post, h3, h4, h5⟩ := (chosen_iff hp he).1 hl
    obtain ⟨_, c, -, hc⟩ := hall l (by rw [h3]; simp)
    exact ⟨c, (OMap.mem_entries_iff hw _ _).2 ((hfind n c).2 ⟨pre, l, post, h3, h4, hc, h5⟩), hc⟩
  · exact last_chosen hp he ((hfind _ _).1 ((OMap.mem_entries_iff hw x.1 x.2).1 hx))

theorem fileMatch {f : StartFiles} {path : String} {c : Config} (h : configFromFile f path = .ok c) {data : Json}
    (hj : f.json path = some data) : FileMatch data c := by
  obtain ⟨data', hj', hw⟩ := configFromFile_iff.1 ⟨c, h⟩
  rw [hj] at hj'
  cases hj'
  obtain ⟨⟨data', s, z, ss, zs, hj', -, hs, hss, hz, hzs, a, b1, b2, b3⟩, w1, w2, w3⟩ := configFromFile_spec h
  rw [hj] at hj'
  cases hj'
  have hlw : ∀ e ∈ c.pids.entries, OMap.WF e.2 := fun e he => w3 e.1 e.2 ((OMap.mem_entries_iff w2 _ _).1 he)
  refine ⟨fun n e he => ?_, fun n x hx => last_chosen hs hss ((a n x).1 hx), fun i e he => ?_, fun i conf hc => ?_, w1, w2, hlw⟩
  · obtain ⟨pre, post, h3, h4, h5⟩ := (chosen_iff hs hss).1 he
    obtain ⟨_, x, -, hx⟩ := hw.sensors s ss hs hss e (by rw [h3]; simp)
    exact ⟨x, (a n x).2 ⟨pre, e, post, h3, h4, hx, h5⟩, hx⟩
  · obtain ⟨pre, post, h3, h4, h5⟩ := (chosen_iff hz hzs).1 he
    obtain ⟨-, ⟨x, hx⟩, -⟩ := hw.zones z zs hz hzs e (by rw [h3]; simp)
    have hf := (b1 i x).2 ⟨pre, e, post, h3, h4, hx, h5⟩
    obtain ⟨conf, hc⟩ := (b3 i).2 ⟨x, hf⟩
    exact ⟨x, conf, hf, hc, hx, loopsMatch (w3 i conf hc) (chosen_last hz hzs he (b2 i conf hc))⟩
  · obtain ⟨e, he, hl⟩ := last_chosen hz hzs (b2 i conf hc)
    exact ⟨e, he, loopsMatch (w3 i conf hc) hl⟩

/-! ## Settings have one value -/

theorem setting_unique {α : Type} {get : Json → Res α} {R : Json → α → Prop} (hr : Accesses get R) {j : Json} {k : String}
    {x y : α} (h : Setting j k R x) (h' : Setting j k R y) : x = y := by
  have := (req_iff hr).2 h
  rw [(req_iff hr).2 h'] at this
  exact (Except.ok.inj this).symm

theorem settingOr_of {α : Type} {get : Json → Res α} {R : Json → α → Prop} (hr : Accesses get R) {j : Json} {k : String}
    {d x y : α} (h : SettingOr j k R d x) (h' : Setting j k R y) : x = y := by
  rcases h with h | ⟨h, -⟩
  · exact setting_unique hr h h'
  · obtain ⟨v, hv, -⟩ := h'
    exact absurd hv (h v)

theorem cycle_unique {zone : Json} {k : String} {d n n' : Nat} (h : CycleEntry zone k d n) (h' : CycleEntry zone k d n') :
    n = n' := by
  have := cycleTimeFromJson_iff.2 h
  rw [cycleTimeFromJson_iff.2 h'] at this
  exact (Except.ok.inj this).symm

theorem settingText_unique {j : Json} {k s t : String} (h : Setting j k IsText s) (h' : Setting j k IsText t) : s = t :=
  setting_unique reads_str h h'

/-! ## Loops -/

theorem lists_inputs {l : Json} {inputs : List SensorInput} (h : InputsEntry l inputs) {n : String} :
    Lists l "inputs" n ↔ ∃ x ∈ inputs, x.name = n := by
  obtain ⟨names, margins, missing, h1, -, -, h4, -⟩ := h
  constructor
  · rintro ⟨names', h1', hn⟩
    rw [← setting_unique (reads_vec reads_str) h1 h1', ← h4] at hn
    exact List.mem_map.1 hn
  · rintro ⟨x, hx, rfl⟩
    exact ⟨names, h1, by rw [← h4]; exact List.mem_map.2 ⟨x, hx, rfl⟩⟩

theorem lists_missing {l : Json} {inputs : List SensorInput} (h : InputsEntry l inputs) {x : SensorInput} (hx : x ∈ inputs)
    (hn : ¬ Lists l "missingIsAcceptable" x.name) : x.missingIsAcceptable = false := by
  obtain ⟨names, margins, missing, -, -, h3, -, h5⟩ := h
  obtain ⟨i, hi⟩ := List.mem_iff_getElem?.1 hx
  rw [(h5 i x hi).2.2, decide_eq_false_iff_not]
  rcases h3 with h3 | ⟨-, rfl⟩
  · exact fun hm => hn ⟨missing, h3, hm⟩
  · simp

theorem mustRead_of {zone : Json} {conf : PIDConf} (hm : LoopsMatch zone conf) {n : String} (h : NeededIn zone n) :
    MustRead conf.entries n := by
  obtain ⟨⟨type, ht, l, ⟨⟨name, hl⟩, hty⟩, hin⟩, hno⟩ := h
  refine ⟨?_, fun e he x hx hxn => ?_⟩
  · obtain ⟨c, hc, hle⟩ := hm.entry name l hl
    refine ⟨_, hc, ?_, (lists_inputs hle.inputs).1 hin⟩
    show c.type ∈ _
    rw [settingText_unique hle.type hty]
    exact ht
  · obtain ⟨l', hl', hle'⟩ := hm.listed e he
    subst hxn
    exact lists_missing hle'.inputs hx (hno _ l' ⟨⟨_, hl'⟩, hle'.type⟩ ((lists_inputs hle'.inputs).2 ⟨x, hx, rfl⟩))

theorem ofInt_nonneg {n : Int} (h : 0 ≤ n) : (0 : Dbl) ≤ Dbl.ofInt n := by
  rw [zero_eq, ← ofRat_rep]
  exact ofRat_mono (by exact_mod_cast h)

theorem ofInt_pos {n : Int} (h : 0 < n) : (0 : Dbl) < Dbl.ofInt n := by
  have h1 : (1 : Dbl) ≤ Dbl.ofInt n := by
    rw [one_eq, ← ofRat_rep]
    exact ofRat_mono (by exact_mod_cast h)
  exact Dbl.lt_of_lt_of_le (by rw [zero_eq, one_eq]; simp) h1

theorem percents_ok {zone : Json} {conf : PIDConf} (hm : LoopsMatch zone conf) (h : PercentsOk zone) :
    ∀ e ∈ conf.entries, 0 ≤ e.2.failSafePercent := by
  intro e he
  obtain ⟨l, hl, hle⟩ := hm.listed e he
  obtain ⟨v, hv, hp⟩ := hle.failSafePercent
  rw [hp]
  rcases hv with hv | ⟨-, rfl⟩
  · exact ofInt_nonneg (h _ l ⟨⟨_, hl⟩, hle.type⟩ v hv)
  · exact ofInt_nonneg (le_refl _)

theorem mem_percentsFor {n : String} {es : List Entry} {p : Dbl} :
    p ∈ percentsFor n es ↔ ∃ e ∈ es, (IsFan e ∨ IsHeat e) ∧ (∃ x ∈ e.2.inputs, x.name = n) ∧ e.2.failSafePercent = p := by
  unfold percentsFor
  simp only [List.mem_map, List.mem_filter, List.mem_flatMap, decide_eq_true_eq]
  constructor
  · rintro ⟨⟨a, b⟩, ⟨⟨e, ⟨he, ht⟩, x, hx, hab⟩, hn⟩, rfl⟩
    cases hab
    exact ⟨e, he, ht, ⟨x, hx, hn⟩, rfl⟩
  · rintro ⟨e, he, ht, ⟨x, hx, hn⟩, rfl⟩
    exact ⟨(x.name, _), ⟨⟨e, ⟨he, ht⟩, x, hx, rfl⟩, hn⟩, rfl⟩

/-- a percentage demanded in the file is at most the one that applies -/
theorem demanded_le {zone : Json} {conf : PIDConf} (hm : LoopsMatch zone conf) {z : ZoneConfig} (hz : ZoneEntry zone z) {n : String}
    {p q : Dbl} (hd : Demanded zone n p) (hp : PercentFor z conf.entries n q) (h0 : 0 ≤ z.failsafePercent) : 0 ≤ p ∧ p ≤ q := by
  cases hd with
  | loop ht hl hi hv hpos =>
    obtain ⟨⟨name, hl⟩, hty⟩ := hl
    obtain ⟨c, hc, hle⟩ := hm.entry name _ hl
    obtain ⟨v', hv', hpv⟩ := hle.failSafePercent
    rw [settingOr_of reads_i32 hv' hv] at hpv
    have hmem := mem_percentsFor.2 ⟨_, hc, (by
      rcases List.mem_cons.1 ht with h | h
      · exact .inl ((settingText_unique hle.type hty).trans h)
      · exact .inr (by show c.type ∈ _; rw [settingText_unique hle.type hty]; exact h)), (lists_inputs hle.inputs).1 hi, hpv⟩
    refine ⟨ofInt_nonneg (le_of_lt hpos), ?_⟩
    cases hp with
    | own h1 h2 => exact h1.2 _ hmem
    | zero h1 => exact absurd (h1.2 _ hmem) (Dbl.not_le_of_lt (ofInt_pos hpos))
    | zone h1 => rw [h1] at hmem; cases hmem
  | zone hno hpz =>
    have hq : z.failsafePercent = p := setting_unique reads_dbl hz.failsafePercent hpz
    rw [← hq]
    refine ⟨h0, ?_⟩
    cases hp with
    | own h1 h2 =>
      obtain ⟨e, he, -, hi, hpe⟩ := mem_percentsFor.1 h1.1
      obtain ⟨l, hl, hle⟩ := hm.listed e he
      have := hno _ l ⟨⟨_, hl⟩, hle.type⟩ ((lists_inputs hle.inputs).2 hi)
      obtain ⟨v, hv, hpv⟩ := hle.failSafePercent
      rcases hv with ⟨x, hx, -⟩ | ⟨-, rfl⟩
      · exact absurd hx (this x)
      · rw [hpv] at hpe
        exact absurd (hpe.symm.trans (by rw [ofInt_eq (by norm_num) (by norm_num), zero_eq]; simp)) h2
    | zero h1 => exact Dbl.le_refl (Dbl.ne_nan_of_le_right h0)
    | zone h1 => exact Dbl.le_refl (Dbl.ne_nan_of_le_right h0)

/-! ## Sensors and fans -/

theorem int64_int {lo n : Int} (h : IsInt64 (Json.int lo) n) (h0 : 0 ≤ lo) (h1 : lo ≤ 2 ^ 53) : n = lo := by
  obtain ⟨a, b, ⟨i, hi, k, hk⟩ | ⟨q, hq, hj, -⟩⟩ := h
  · cases hi
    omega
  · cases hj

theorem fanOn_of {data : Json} {c : Config} (hm : FileMatch data c) {dirs : Dirs} {m path : String} {lo hi : Int}
    (h : FileFan dirs data m path lo hi) : ∃ s, FanOn dirs c.sensors m s path ∧ limitsOf s = some (lo, hi) := by
  obtain ⟨⟨e, he, ht, ⟨p, hp, hk⟩, hlo, hhi⟩, ⟨l1, l2, l3, l4⟩, honly⟩ := h
  obtain ⟨s, hs, hse⟩ := hm.sensor m e he
  have hty : s.type = "fan" := settingText_unique hse.type ht
  have hmin := hse.min
  have hmax := hse.max
  rw [if_pos hty] at hmin hmax
  have h1 : s.min = lo := by
    rcases hmin with ⟨v, hv, hr⟩ | ⟨h, -⟩
    · rw [member_unique hv hlo] at hr
      exact int64_int hr l1 (by omega)
    · exact absurd hlo (h _)
  have h2 : s.max = hi := by
    rcases hmax with ⟨v, hv, hr⟩ | ⟨h, -⟩
    · rw [member_unique hv hhi] at hr
      exact int64_int hr (by omega) l4
    · exact absurd hhi (h _)
  have hwp : s.writePath = p := settingOr_of reads_str hse.writePath hp
  refine ⟨s, ⟨hs, hty, fun _ => by rw [h1, h2]; exact ⟨l1, l2, l4⟩, ?_, ?_⟩, by unfold limitsOf; rw [h1, h2, if_pos l3]⟩
  · rcases hk with ⟨hk, rfl⟩ | ⟨hk, hst⟩
    · rw [← hwp] at hk ⊢
      exact .dbus hk
    · rw [← hwp] at hk hst
      exact .sysfs hk hst
  · intro m' s' hne hs' _ hw
    obtain ⟨e', he', hse'⟩ := hm.sensors m' s' hs'
    have hset : s'.writePath ≠ "" → Setting e' "writePath" IsText s'.writePath := by
      intro hne
      rcases hse'.writePath with h | ⟨-, h⟩
      · exact h
      · exact absurd h hne
    cases hw with
    | dbus hk' =>
      have : s'.writePath ≠ "" := by
        intro h0
        rw [h0] at hk'
        cases hk' with
        | dbus h1 _ => exact absurd h1 (by decide)
      exact (honly m' e' hne he' _ (hset this)).1 rfl
    | sysfs hk hst =>
      have : s'.writePath ≠ "" := by
        intro h0
        rw [h0] at hk
        cases hk with
        | sysfs h1 => exact absurd h1 (by decide)
      exact (honly m' e' hne he' _ (hset this)).2 hst

theorem onlyZone_of {data : Json} {c : Config} (hm : FileMatch data c) {i : Int} {m : String} (h : OnlyIn data i m) :
    OnlyZone c.pids i m := by
  intro j conf hj hc e he hF x hx hn
  obtain ⟨zone, hz, hl⟩ := hm.zones j conf hc
  obtain ⟨l, hl', hle⟩ := hl.listed e he
  exact h j zone hj hz l ⟨⟨_, hl'⟩, by rw [← show e.2.type = "fan" from hF]; exact hle.type⟩
    ((lists_inputs hle.inputs).2 ⟨x, hx, hn⟩)

/-! ## The start -/

theorem startTimers_ok {o : Opts} {w : World} {started : Int → Int} : ∀ {l : List (Int × Zone)} {td : Timed}
    {zs : OMap Int (Zone × Nat)}, startZones o w td.d.zones l = .ok zs → ∃ td', startTimers o w started td l = .ok td' 
  | [], td, zs, _ => ⟨td, rfl⟩
  | (i, z) :: l, td, zs, h => by
    obtain ⟨z', h1, h2⟩ := bind_eq_ok.1 h
    unfold startTimers pidControlLoop
    simp only [Bool.false_eq_true, if_false, if_true, h1, ok_bind]
    exact startTimers_ok h2

theorem timed_of_launch {o : Opts} {bus : BuildBus} {now : Int} (started : Int → Int) {w : World}
    {sensors : OMap String SensorConfig} {pids : OMap Int PIDConf} {configs : OMap Int ZoneConfig} (hw : pids.WF)
    (hc : ∀ e ∈ pids.entries, OMap.WF e.2) {d : Daemon} (h : Daemon.launch o bus now w sensors pids configs = .ok d) :
    ∃ td, Timed.launch o bus now started w sensors pids configs = .ok td ∧ td.d = d := by
  have h' := h
  unfold Daemon.launch at h
  obtain ⟨m, h1, h⟩ := bind_eq_ok.1 h
  obtain ⟨zones, h2, h⟩ := bind_eq_ok.1 h
  split_ifs at h with hne
  obtain ⟨zs, h3, h⟩ := bind_eq_ok.1 h
  obtain ⟨td, htd⟩ := startTimers_ok (started := started) (td := ⟨⟨{ w with sensors := m.sensors }, {}⟩, {}⟩) h3
  have hl : Timed.launch o bus now started w sensors pids configs = .ok td := by
    unfold Timed.launch
    rw [h1, ok_bind, h2, ok_bind, if_neg hne]
    exact htd
  refine ⟨td, hl, ?_⟩
  have := (timed_launch hw hc hl).1
  rw [h'] at this
  exact (Except.ok.inj this).symm

omit F in
theorem omap_ext {V : Type} {m m' : OMap Int V} (h : m.WF) (h' : m'.WF) (he : ∀ i, m.find? i = m'.find? i) : m = m' := by
  obtain ⟨l⟩ := m
  obtain ⟨l'⟩ := m'
  have hp : List.Perm l l' := (List.perm_ext_iff_of_nodup (List.Nodup.of_map _ (OMap.wf_nodup h))
    (List.Nodup.of_map _ (OMap.wf_nodup h'))).2 (fun e => by
      have := OMap.mem_entries_iff h e.1 e.2
      rw [he e.1, ← OMap.mem_entries_iff h' e.1 e.2] at this
      exact this)
  have := hp.eq_of_pairwise (le := fun a b : Int × V => a.1 < b.1) (fun a b _ _ h1 h2 => absurd h1 (not_lt.2 (le_of_lt h2)))
    (show l.Pairwise (fun a b => a.1 < b.1) from h) (show l'.Pairwise (fun a b => a.1 < b.1) from h')
  rw [this]

theorem startTimers_wf {o : Opts} {w : World} {started : Int → Int} : ∀ {l : List (Int × Zone)} {td td' : Timed}, td.timers.WF →
    startTimers o w started td l = .ok td' → td'.timers.WF
  | [], td, td', hw, h => by cases h; exact hw
  | (i, z) :: l, td, td', hw, h => by
    obtain ⟨lp, h1, h2⟩ := bind_eq_ok.1 h
    exact startTimers_wf (OMap.wf_insert hw _ _) h2

theorem launch_timers {o : Opts} {bus : BuildBus} {now : Int} {started : Int → Int} {w : World}
    {sensors : OMap String SensorConfig} {pids : OMap Int PIDConf} {configs : OMap Int ZoneConfig} (hw : pids.WF)
    (hc : ∀ e ∈ pids.entries, OMap.WF e.2) {td : Timed} (h : Timed.launch o bus now started w sensors pids configs = .ok td) :
    td.timers.WF ∧ ∀ i, pids.find? i = none → td.timers.find? i = none := by
  unfold Timed.launch at h
  obtain ⟨m, h1, h⟩ := bind_eq_ok.1 h
  obtain ⟨zones, h2, h⟩ := bind_eq_ok.1 h
  split_ifs at h with hne
  have hwz := buildZones_wf h2
  refine ⟨startTimers_wf OMap.wf_empty h, fun i hi => ?_⟩
  obtain ⟨-, -, -, b4⟩ := startTimers_spec (OMap.wf_nodup hwz) h
  rw [b4 i, OMap.find?_empty]
  intro hm
  obtain ⟨⟨j, z⟩, hz, rfl⟩ := List.mem_map.1 hm
  have := (OMap.mem_entries_iff hwz _ _).1 hz
  rw [(C64_zones hw hc h2 _).2 hi] at this
  cases this

/-- A daemon that runs from a file. -/
theorem runs_from_file {o : Opts} {conf path : String} {f : StartFiles} (hs : Source conf f (some path)) {data : Json}
    (hj : f.json path = some data) {b : ConfBus} {h : HashOrder} {bus : BuildBus} {now : Int} {w : World} {d : Daemon}
    (hd : attempt o conf f b h bus now w = .running d) (started : Int → Int) :
    ∃ c, FileMatch data c ∧ (configFromFile f path = .ok c ∧ ∃ td, WithTimers data started d td) ∧ ∀ td, Timed.launch o bus now started w c.sensors c.pids c.zones = .ok td ↔
      WithTimers data started d td := by
  rw [attempt_file hs] at hd
  cases hc : configFromFile f path with
  | error e => rw [hc] at hd; cases e <;> cases hd
  | ok c =>
    rw [hc] at hd
    have hm := fileMatch hc hj
    obtain ⟨td, h1, h2⟩ := timed_of_launch started hm.pidsWf hm.loopsWf (launched_running.1 hd)
    obtain ⟨w1, w2⟩ := launch_timers hm.pidsWf hm.loopsWf h1
    have htd : WithTimers data started d td := by
      refine ⟨h2, fun i zone n hz hn => ?_, fun i hno => w2 i ?_, w1⟩
      · obtain ⟨z, conf, g1, g2, g3, -⟩ := hm.zone i zone hz
        rw [(timed_launch hm.pidsWf hm.loopsWf h1).2 i conf z g2 g1, cycle_unique hn g3.cycle]
      · cases hp : c.pids.find? i with
        | none => rfl
        | some conf =>
          obtain ⟨e, he, -⟩ := hm.zones i conf hp
          exact absurd he (hno e)
    refine ⟨c, hm, ⟨rfl, td, htd⟩, fun td' => ⟨fun h => ?_, fun h => ?_⟩⟩
    · rw [h1] at h
      cases h
      exact htd
    · rw [h1]
      congr 1
      obtain ⟨d1, t1⟩ := td
      obtain ⟨d2, t2⟩ := td'
      have e1 : d1 = d2 := htd.daemon.trans h.daemon.symm
      have e2 : t1 = t2 := by
        refine omap_ext htd.sorted h.sorted (fun i => ?_)
        by_cases hz : ∃ zone, Chosen data "zones" Numbering i zone
        · obtain ⟨zone, hz⟩ := hz
          obtain ⟨z, conf, -, -, g3, -⟩ := hm.zone i zone hz
          exact (htd.timers i zone _ hz g3.cycle).trans (h.timers i zone _ hz g3.cycle).symm
        · have hno : ∀ zone, ¬ Chosen data "zones" Numbering i zone := fun zone h => hz ⟨zone, h⟩
          exact (htd.others i hno).trans (h.others i hno).symm
      rw [e1, e2]

end
end Verif
