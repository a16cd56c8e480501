import Verif.Spec.Lifelong
import Verif.Props.Ending
import Verif.Props.Ranges
import Verif.Props.BusWritten

/-! # Theorems about the whole life of the process (C143) -/

namespace Verif
open Dbl

section
variable [F : FloatModel]

/-- nobody writes to `p` -/
def Free (p : String) (w : World) : Prop := ∀ m, targetOf w m ≠ some p

theorem free_drives {force : Bool} {w w' : World} {l : List (FanPid × Dbl)} (h : Drives force w l w') {p : String} {lo hi : Int}
    (hf : Free p w) (hr : WithinRange p lo hi w) : Free p w' ∧ WithinRange p lo hi w' := by
  obtain ⟨h1, effs, h2, h3, -⟩ := drives_target h
  refine ⟨fun m => by rw [h1]; exact hf m, fun e he hp => ?_⟩
  rw [h2] at he
  rcases List.mem_append.1 he with he | he
  · exact hr e he hp
  · exfalso
    obtain ⟨m, -, hm⟩ := List.mem_filterMap.1 (h3.subset (List.mem_map.2 ⟨e, he, rfl⟩))
    exact hf m (by rw [hm, hp])

theorem free_processFans {o : Opts} {p : String} {lo hi : Int} {w w' : World} {z z' : Zone} (h : z.processFans o w = .ok (w', z'))
    (hf : Free p w) (hr : WithinRange p lo hi w) : Free p w' ∧ WithinRange p lo hi w' := by
  obtain ⟨l, _, _, h3, _⟩ := processFans_spec h
  exact free_drives h3 hf hr

theorem free_tick {o : Opts} {p : String} {lo hi : Int} {w w' : World} {z z' : Zone} {cnt cnt' : Nat}
    (h : z.tick o w cnt = .ok (w', z', cnt')) (hf : Free p w) (hr : WithinRange p lo hi w) : Free p w' ∧ WithinRange p lo hi w' := by
  by_cases hm : z.d.manualMode = true
  · rw [tick_manual hm] at h; cases h; exact ⟨hf, hr⟩
  have hm : z.d.manualMode = false := by simpa using hm
  obtain ⟨d, _, ⟨-, zt, -, g3, -⟩ | ⟨-, g3, -⟩⟩ := tick_auto hm h
  · exact free_processFans g3 hf hr
  · exact free_processFans g3 hf hr

theorem free_step {o : Opts} {p : String} {lo hi : Int} {d d' : Daemon} {e : DEvent} (h : d.step o e = .ok d') (hf : Free p d.w)
    (hr : WithinRange p lo hi d.w) : Free p d'.w ∧ WithinRange p lo hi d'.w := by
  refine ⟨fun m => by rw [step_target h]; exact hf m, ?_⟩
  by_cases he : ∃ i, e = .tick i
  · obtain ⟨j, rfl⟩ := he
    simp only [Daemon.step] at h
    split at h
    · next z cnt hj =>
      obtain ⟨⟨w', z', cnt'⟩, g1, h⟩ := bind_eq_ok.1 h
      cases h
      exact (free_tick g1 hf hr).2
    · cases h; exact hr
  · unfold WithinRange
    rw [trace_step h (fun i hi => he ⟨i, hi⟩)]
    exact hr

/-- the zone can be stopped safely -/
def StopsSafely (n : String) (z : Zone) : Prop := ∀ f, some f ∈ z.fans → n ∈ f.inputs → Percentage z.d.getFailSafePercent

theorem RangedZone.stops {n : String} {z : Zone} (h : RangedZone n z) : StopsSafely n z := by
  intro f hf hn
  obtain ⟨-, d0, log, h1, h2⟩ := h f hf hn
  exact failSafePercent_percentage h1 h2

theorem rangeAt_left {n p : String} {lo hi : Int} (h0 : 0 ≤ lo) (h1 : lo ≤ hi) (h2 : hi ≤ 2 ^ 53) {zs : List Zone} {w w' : World}
    (h : LeftSafe w zs w') (hz : ∀ z ∈ zs, StopsSafely n z) (hr : RangeAt n p lo hi w) : RangeAt n p lo hi w' := by
  induction h with
  | nil w => exact hr
  | @cons w w1 w2 z zs g1 _ ih =>
    refine ih (fun z' hz' => hz z' (List.mem_cons_of_mem _ hz')) (rangeAt_drives h0 h1 h2 g1 hr fun x hx hn => ?_)
    obtain ⟨c, hc, hx⟩ := List.mem_filterMap.1 hx
    cases c with
    | none => cases hx
    | some c =>
      cases hx
      exact percent_fraction (.inr (hz z List.mem_cons_self c hc hn))

theorem free_left {p : String} {lo hi : Int} {zs : List Zone} {w w' : World} (h : LeftSafe w zs w') (hf : Free p w)
    (hr : WithinRange p lo hi w) : Free p w' ∧ WithinRange p lo hi w' := by
  induction h with
  | nil w => exact ⟨hf, hr⟩
  | cons g1 _ ih =>
    obtain ⟨a, b⟩ := free_drives g1 hf hr
    exact ih a b

/-- what is true between any two events -/
inductive Whole.Kept (p : String) (lo hi : Int) (s : Whole) : Prop
  | fan {n : String} : s.d.zones.WF → RangeAt n p lo hi s.d.w →
      (∀ j z cnt, s.d.zones.find? j = some (z, cnt) → RangedZone n z) → (∀ z ∈ s.idle, StopsSafely n z) → s.Kept p lo hi
  | nobody : Free p s.d.w → WithinRange p lo hi s.d.w → s.Kept p lo hi

theorem Whole.Kept.range {p : String} {lo hi : Int} {s : Whole} (h : s.Kept p lo hi) : WithinRange p lo hi s.d.w := by
  cases h with
  | fan _ h _ _ => exact h.range
  | nobody _ h => exact h

theorem kept_all {n : String} {s : Whole} (hw : s.d.zones.WF) (hz : ∀ j z cnt, s.d.zones.find? j = some (z, cnt) → RangedZone n z)
    (hi : ∀ z ∈ s.idle, StopsSafely n z) : ∀ z ∈ s.all, StopsSafely n z := by
  intro z h
  rcases List.mem_append.1 h with h | h
  · obtain ⟨e, he, rfl⟩ := List.mem_map.1 h
    exact (hz e.1 e.2.1 e.2.2 ((OMap.mem_entries_iff hw e.1 e.2).1 he)).stops
  · exact hi z h

theorem kept_event {o : Opts} {p : String} {lo hi : Int} (h0 : 0 ≤ lo) (h1 : lo ≤ hi) (h2 : hi ≤ 2 ^ 53) {s : Whole} {e : DEvent}
    {d : Daemon} (hs : s.Kept p lo hi) (h : s.d.step o e = .ok d) : Whole.Kept p lo hi { s with d := d } := by
  cases hs with
  | fan a1 a2 a3 a4 =>
    obtain ⟨b1, b2⟩ := ranged_run (es := [e]) h0 h1 h2 (by unfold Daemon.run; rw [h]; rfl) a3 a2
    exact .fan (step_wf a1 h) b2 b1 a4
  | nobody a1 a2 =>
    obtain ⟨b1, b2⟩ := free_step h a1 a2
    exact .nobody b1 b2

/-- the loops are stopped, the zones kept -/
theorem kept_stopped {p : String} {lo hi : Int} {s : Whole} (hs : s.Kept p lo hi) (hosts : List String) (again : Bool) :
    Whole.Kept p lo hi ⟨⟨s.d.w, {}⟩, s.d.zones.entries.map (fun e => e.2.1) ++ s.idle, hosts, again⟩ := by
  cases hs with
  | fan a1 a2 a3 a4 =>
    exact .fan OMap.wf_empty a2 (fun j z cnt h => by rw [OMap.find?_empty] at h; cases h) (kept_all a1 a3 a4)
  | nobody a1 a2 => exact .nobody a1 a2

/-- the zones are destroyed, the sensors kept -/
theorem kept_destroyed {o : Opts} {p : String} {lo hi : Int} (h0 : 0 ≤ lo) (h1 : lo ≤ hi) (h2 : hi ≤ 2 ^ 53) {s : Whole} {w : World}
    (hs : s.Kept p lo hi) (h : s.stop o = .ok w) (hosts : List String) (again : Bool) :
    Whole.Kept p lo hi ⟨⟨w, {}⟩, [], hosts, again⟩ := by
  obtain ⟨b1, b2⟩ := C123_end h
  cases ho : o.offlineFailsafePwm with
  | false =>
    rw [b2 ho]
    cases hs with
    | fan a1 a2 a3 a4 =>
      exact .fan OMap.wf_empty a2 (fun j z cnt h => by rw [OMap.find?_empty] at h; cases h) (fun z hz => by cases hz)
    | nobody a1 a2 => exact .nobody a1 a2
  | true =>
    cases hs with
    | fan a1 a2 a3 a4 =>
      exact .fan OMap.wf_empty (rangeAt_left h0 h1 h2 (b1 ho) (kept_all a1 a3 a4) a2)
        (fun j z cnt h => by rw [OMap.find?_empty] at h; cases h) (fun z hz => by cases hz)
    | nobody a1 a2 =>
      obtain ⟨c1, c2⟩ := free_left (b1 ho) a1 a2
      exact .nobody c1 c2

/-- among the sensors that were made, who is written through a path was configured so -/
theorem made_target {o : Opts} {bus : BuildBus} {now : Int} {sensors : OMap String SensorConfig} (hw : sensors.WF) {m : Manager}
    (h : buildSensors o bus now sensors = .ok m) {w : World} {n p : String} (ht : targetOf { w with sensors := m.sensors } n = some p) :
    ∃ c, sensors.find? n = some c ∧ c.type = "fan" ∧ WritePath bus.dirs c p := by
  unfold targetOf at ht
  dsimp only at ht
  cases hs : m.sensors.find? n with
  | none => rw [hs] at ht; cases ht
  | some s =>
    rw [hs] at ht
    obtain ⟨c, hc, hm⟩ := (C98_as_configured hw h n).1 s hs
    cases hm with
    | fan h1 h2 h3 => exact ⟨c, hc, h1, writesTo_target h3 p ht⟩
    | external h1 => cases ht
    | thermal h1 h2 h3 => cases ht

theorem rangeAt_made {o : Opts} {bus : BuildBus} {now : Int} {sensors : OMap String SensorConfig} (hw : sensors.WF) {m : Manager}
    (h : buildSensors o bus now sensors = .ok m) {w : World} {n p : String} {c : SensorConfig} (hf : FanOn bus.dirs sensors n c p)
    (hmax : 0 < c.max) (hr : WithinRange p c.min c.max w) : RangeAt n p c.min c.max { w with sensors := m.sensors } := by
  obtain ⟨s, hs, hm⟩ := (C98_as_configured hw h n).2 c hf.configured (by rw [hf.fan]; simp)
  have hp := hf.written
  refine ⟨?_, fun k hk hkt => ?_, hr⟩
  · cases hm with
    | fan _ hr hwr =>
      refine ⟨_, _, _, hs, rfl, ?_⟩
      cases hwr with
      | sysfsPercent h1 h2 h3 => exact .sysfs _
      | sysfsRaw h1 h2 h3 => omega
      | dbusPercent h1 h2 => exact .dbus _ _
      | dbusRaw h1 h2 => omega
      | nothing h1 =>
        cases hp with
        | dbus h4 => rcases h1 with h1 | h1 <;> (have := (C65_write _ _).2 h1; rw [(C65_write _ _).2 h4] at this; cases this)
        | sysfs h4 _ => rcases h1 with h1 | h1 <;> (have := (C65_write _ _).2 h1; rw [(C65_write _ _).2 h4] at this; cases this)
    | external he =>
      have := he.1
      rw [hf.fan] at this
      simp at this
    | thermal h1 _ _ =>
      rw [hf.fan] at h1
      simp at h1
  · obtain ⟨c', h1, h2, h3⟩ := made_target hw h hkt
    exact hf.only k c' hk h1 h2 h3

/-- a zone that was built from safe settings -/
theorem built_safe {pids : OMap Int PIDConf} {configs : OMap Int ZoneConfig} {zones : OMap Int Zone} (hw : pids.WF)
    (hc : ∀ e ∈ pids.entries, OMap.WF e.2) (hb : buildZones pids configs = .ok zones) {n : String}
    (hs : ∀ j conf c, pids.find? j = some conf → configs.find? j = some c → SafeFor n c conf.entries) {j : Int} {zb : Zone}
    (hzb : zones.find? j = some zb) :
    Built zb.d ∧ ∀ f, some f ∈ zb.fans → n ∈ f.inputs → Ranged f.ctl ∧ SafePercents zb.d := by
  have hzs := C64_zones hw hc hb j
  cases hp : pids.find? j with
  | none => rw [hzs.2 hp] at hzb; cases hzb
  | some conf =>
    obtain ⟨z', c, hz', hcf, hN⟩ := hzs.1 conf hp
    rw [hzb] at hz'
    cases hz'
    refine ⟨?_, fun f hf hn => ?_⟩
    · obtain ⟨z', hz', hb'⟩ := (buildZoneList_find? (OMap.wf_nodup hw) hb j).1 conf ((OMap.mem_entries_iff hw j conf).2 hp)
      rw [hzb] at hz'
      cases hz'
      exact buildZone_built hb'
    · rw [hN.fans] at hf
      obtain ⟨e, he, hfe⟩ := List.mem_map.1 hf
      obtain ⟨he, hfan⟩ := List.mem_filter.1 he
      have hfan : IsFan e := by simpa using hfan
      unfold fanOf at hfe
      split_ifs at hfe
      cases hfe
      obtain ⟨x, hx, hxn⟩ := List.mem_map.1 hn
      obtain ⟨g1, g2, g3⟩ := hs j conf c hp hcf e he hfan ⟨x, hx, hxn⟩
      refine ⟨⟨g1.slew, g1.min, g1.order, g1.max, .inr zero_percentage⟩, fun s => ?_, ?_⟩
      · exact (percentOf_of hN (percentsFor_ne_nan (fun e he => ne_nan_of_le_left (g2 e he).2) s)).holds g2 g3
      · rw [hN.failsafePercent]; exact g3

/-- zones whose loops do not run because one of them could not be started -/
theorem startSome_idle {o : Opts} {w : World} : ∀ {l : List (Int × Zone)} {acc zs : OMap Int (Zone × Nat)} {rest : List Zone}
    {e : Option Err}, startSome o w acc l = (zs, rest, e) → ∀ z ∈ rest, ∃ i zb, (i, zb) ∈ l ∧
      (z = zb ∨ z = { zb with d := zb.d.initializeCache })
  | [], acc, zs, rest, e, h, z, hz => by cases h; cases hz
  | (i, zb) :: l, acc, zs, rest, e, h, z, hz => by
    unfold startSome at h
    cases hs : zb.start o w with
    | error x =>
      rw [hs] at h
      cases h
      rcases List.mem_cons.1 hz with rfl | hz
      · exact ⟨i, zb, List.mem_cons_self, .inr rfl⟩
      · obtain ⟨e, he, rfl⟩ := List.mem_map.1 hz
        exact ⟨e.1, e.2, List.mem_cons_of_mem _ he, .inl rfl⟩
    | ok z' =>
      rw [hs] at h
      obtain ⟨i', zb', h1, h2⟩ := startSome_idle h z hz
      exact ⟨i', zb', List.mem_cons_of_mem _ h1, h2⟩

/-- a reload keeps to what holds -/
theorem kept_reload {o : Opts} {p : String} {lo hi : Int} (h0 : 0 ≤ lo) (h1 : lo ≤ hi) (h2 : hi ≤ 2 ^ 53) {r : Found} {s s' : Whole}
    (hs : s.Kept p lo hi) (hr : r.SafeAt p lo hi) (h : s.reload o r = .ok s') : s'.Kept p lo hi := by
  obtain ⟨w, g1, ⟨b, rfl⟩ | ⟨c, m, g2, g3, g4, -⟩⟩ := reload_cases h
  · exact kept_destroyed h0 h1 h2 hs g1 _ _
  · have hw := (kept_destroyed h0 h1 h2 hs g1 [] false).range
    obtain ⟨⟨t1, t2, t3⟩, hsafe⟩ := hr c g2
    obtain ⟨e1, -, hcase⟩ := startBuilt_cases g4
    cases hsafe with
    | nobody hn =>
      refine .nobody ?_ ?_
      · rw [e1]
        intro k hk
        obtain ⟨c', k1, k2, k3⟩ := made_target t1 g3 hk
        exact hn k c' k1 k2 k3
      · rw [e1]; exact hw
    | @fan n sc hf hmax hlo hhi hz =>
      subst hlo hhi
      have hat : RangeAt n p sc.min sc.max s'.d.w := by
        rw [e1]
        exact rangeAt_made t1 g3 hf hmax hw
      rcases hcase with ⟨k1, k2, -⟩ | ⟨zones, e, k1, -, k3, -⟩
      · refine .fan (by rw [k1]; exact OMap.wf_empty) hat (fun j z cnt h => ?_) (fun z hz => by rw [k2] at hz; cases hz)
        rw [k1, OMap.find?_empty] at h; cases h
      · obtain ⟨l1, l2, f1, f2, -⟩ := startSome_split k3
        have hwf := buildZones_wf k1
        have hnd := OMap.wf_nodup hwf
        rw [f1, List.map_append] at hnd
        have hnd1 := (List.nodup_append.1 hnd).1
        refine .fan (startZones_wf OMap.wf_empty f2) hat (fun j z cnt hj => ?_) (fun z hz' => ?_)
        · obtain ⟨q1, q2⟩ := startZones_find? hnd1 f2 j
          by_cases hin : ∃ e ∈ l1, e.1 = j
          · obtain ⟨⟨j', zb⟩, he, rfl⟩ := hin
            obtain ⟨z0, r1, r2⟩ := q1 zb he
            dsimp only at hj r2
            rw [hj] at r2
            cases r2
            have hzb : zones.find? j' = some zb :=
              (OMap.mem_entries_iff hwf j' zb).1 (by rw [f1]; exact List.mem_append_left _ he)
            obtain ⟨-, u2⟩ := built_safe t2 t3 k1 hz hzb
            intro f hff hn
            rw [(start_flags r1).2] at hff
            obtain ⟨v1, v2⟩ := u2 f hff hn
            exact ⟨v1, zb.d, _, (C80_hist t2 k1 hzb r1).inv, v2⟩
          · rw [q2 (fun e he hej => hin ⟨e, he, hej⟩), OMap.find?_empty] at hj
            cases hj
        · obtain ⟨i, zb, he, hzz⟩ := startSome_idle k3 z hz'
          obtain ⟨u1, u2⟩ := built_safe t2 t3 k1 hz ((OMap.mem_entries_iff hwf i zb).1 he)
          rcases hzz with rfl | rfl
          · intro f hff hn
            rw [C32_none (by unfold ZoneData.getFailSafeMode; rw [built_failed u1]; rfl)]
            exact (u2 f hff hn).2.2
          · intro f hff hn
            exact failSafePercent_percentage (inited_inv u1) (u2 f hff hn).2

theorem kept_init {p : String} {lo hi : Int} {w : World} (h : w.trace = []) : (Whole.init w).Kept p lo hi := by
  refine .nobody (fun m hm => ?_) (fun e he => ?_)
  · unfold Whole.init targetOf at hm
    dsimp only at hm
    rw [OMap.find?_empty] at hm
    cases hm
  · have : e ∈ w.trace := he
    rw [h] at this
    cases this

/-- **C143** In its whole life, through any number of reloads, the daemon never sends a fan a number outside its limits, if all
configurations it finds are safe for this fan; nor does it when it stops. -/
theorem C143_range {o : Opts} {p : String} {lo hi : Int} (h0 : 0 ≤ lo) (h1 : lo ≤ hi) (h2 : hi ≤ 2 ^ 53) {w : World}
    (hw : w.trace = []) {es : List WEvent} {s : Whole} (h : (Whole.init w).run o es = .ok s)
    (hc : ∀ r, WEvent.reload r ∈ es → r.SafeAt p lo hi) :
    WithinRange p lo hi s.d.w ∧ ∀ w', s.terminate o = .ok w' → WithinRange p lo hi w' := by
  have key : ∀ (es : List WEvent) (x : Whole), x.run o es = .ok s → (∀ r, WEvent.reload r ∈ es → r.SafeAt p lo hi) → x.Kept p lo hi →
      s.Kept p lo hi := by
    intro es
    induction es with
    | nil => intro x h _ hk; cases h; exact hk
    | cons e es ih =>
      intro x h hc hk
      unfold Whole.run at h
      obtain ⟨x1, g1, g2⟩ := bind_eq_ok.1 h
      refine ih x1 g2 (fun r hr => hc r (List.mem_cons_of_mem _ hr)) ?_
      cases e with
      | event e =>
        obtain ⟨d, g3, g4⟩ := bind_eq_ok.1 g1
        cases g4
        exact kept_event h0 h1 h2 hk g3
      | reload r => exact kept_reload h0 h1 h2 hk (hc r List.mem_cons_self) g1
  have hk := key es _ h hc (kept_init hw)
  exact ⟨hk.range, fun w' hw' => (kept_destroyed h0 h1 h2 hk hw' [] false).range⟩

theorem kept_attempt {o : Opts} {p : String} {lo hi : Int} (h0 : 0 ≤ lo) (h1 : lo ≤ hi) (h2 : hi ≤ 2 ^ 53) {r : Found}
    {s s' : Retrying} (h : s.attempt o r = .ok s') (hk : s.whole.Kept p lo hi) (hr : r.SafeAt p lo hi) : s'.whole.Kept p lo hi := by
  obtain ⟨-, ⟨-, g, -⟩ | ⟨-, g, -⟩⟩ := attempted h
  · exact kept_reload h0 h1 h2 hk hr g
  · rw [g]; exact kept_stopped hk _ _

theorem kept_retry {o : Opts} {late : Int} {p : String} {lo hi : Int} (h0 : 0 ≤ lo) (h1 : lo ≤ hi) (h2 : hi ≤ 2 ^ 53)
    {e : RetryEvent} {s s' : Retrying} (h : RetryStep o late s e s') (hk : s.whole.Kept p lo hi)
    (hr : ∀ r, e = .request r ∨ e = .retry r → r.SafeAt p lo hi) : s'.whole.Kept p lo hi := by
  cases h with
  | event h => exact kept_event h0 h1 h2 hk h
  | request h => exact kept_attempt h0 h1 h2 h hk (hr _ (.inl rfl))
  | retry _ _ h => exact kept_attempt (s := ⟨s.whole, s.now, none⟩) h0 h1 h2 h hk (hr _ (.inr rfl))
  | pass _ _ => exact hk

theorem kept_reloading {o : Opts} {late : Int} {p : String} {lo hi : Int} (h0 : 0 ≤ lo) (h1 : lo ≤ hi) (h2 : hi ≤ 2 ^ 53)
    {e : ReloadEvent} {s s' : Reloading} (h : ReloadStep o late s e s') (hk : s.tries.whole.Kept p lo hi)
    (hr : ∀ r, e.Attempts r → r.SafeAt p lo hi) : s'.tries.whole.Kept p lo hi := by
  cases h with
  | event h => exact kept_retry h0 h1 h2 h hk (fun r hr => by rcases hr with hr | hr <;> cases hr)
  | start h =>
    exact kept_retry h0 h1 h2 h hk (fun r' h' => by rcases h' with h' | h' <;> cases h'; exact hr _ (.inl rfl))
  | signal => exact hk
  | hangup => exact hk
  | bus _ _ h =>
    exact kept_retry h0 h1 h2 h hk (fun r' h' => by rcases h' with h' | h' <;> cases h'; exact hr _ (.inr (.inl rfl)))
  | hup _ _ h =>
    exact kept_retry h0 h1 h2 h hk (fun r' h' => by rcases h' with h' | h' <;> cases h'; exact hr _ (.inr (.inr (.inl rfl))))
  | retry h =>
    exact kept_retry h0 h1 h2 h hk (fun r' h' => by rcases h' with h' | h' <;> cases h'; exact hr _ (.inr (.inr (.inr rfl))))
  | pass _ _ h => exact kept_retry h0 h1 h2 h hk (fun r hr => by rcases hr with hr | hr <;> cases hr)

/-- what holds up to the end and of what is left -/
structure Ending.Kept (p : String) (lo hi : Int) (s : Ending) : Prop where
  whole : s.daemon.tries.whole.Kept p lo hi
  left : ∀ w, s.ended = some w → WithinRange p lo hi w

theorem kept_terminating {o : Opts} {p : String} {lo hi : Int} (h0 : 0 ≤ lo) (h1 : lo ≤ hi) (h2 : hi ≤ 2 ^ 53) {s s' : Ending}
    (h : s.attempt o = .ok s') (hk : s.daemon.tries.whole.Kept p lo hi) : s'.Kept p lo hi := by
  rcases end_attempted h with ⟨-, w, g, rfl⟩ | ⟨-, -, g, -, -, -, -, g'⟩
  · exact ⟨hk, fun w' hw' => by cases hw'; exact (kept_destroyed h0 h1 h2 hk g [] false).range⟩
  · exact ⟨by rw [g]; exact kept_stopped hk _ _, fun w hw => by rw [g'] at hw; cases hw⟩

/-- **C143** The same for the process with its timers and signals, from its start to its end: every number ever sent to the fan —
by running zones, by zones that are stopped for a reload or because a reload failed, or at the end — is between its limits. -/
theorem C143_life {o : Opts} {late : Int} {p : String} {lo hi : Int} (h0 : 0 ≤ lo) (h1 : lo ≤ hi) (h2 : hi ≤ 2 ^ 53) {w : World}
    {t : Int} (hw : w.trace = []) {es : List EndEvent} {s : Ending} (h : EndRun o late (.init w t) es s)
    (hc : ∀ e r, EndEvent.other e ∈ es → e.Attempts r → r.SafeAt p lo hi) :
    WithinRange p lo hi s.daemon.tries.whole.d.w ∧ ∀ w', s.ended = some w' → WithinRange p lo hi w' := by
  have key : ∀ {es : List EndEvent} {x x' : Ending}, EndRun o late x es x' →
      (∀ e r, EndEvent.other e ∈ es → e.Attempts r → r.SafeAt p lo hi) → x.Kept p lo hi → x'.Kept p lo hi := by
    intro es x x' h
    induction h with
    | nil => exact fun _ h => h
    | @cons x x1 x2 e es k1 _ ih =>
      intro hc hk
      refine ih (fun e r he => hc e r (List.mem_cons_of_mem _ he)) ?_
      cases k1 with
      | other k _ k1 =>
        exact ⟨kept_reloading h0 h1 h2 k1 hk.whole (fun r hr => hc _ r List.mem_cons_self hr), hk.left⟩
      | pass k _ k1 =>
        exact ⟨kept_reloading h0 h1 h2 k1 hk.whole (fun r hr => hc _ r List.mem_cons_self hr), hk.left⟩
      | sigterm _ k1 => exact kept_terminating h0 h1 h2 k1 hk.whole
      | term _ _ _ k1 => exact kept_terminating h0 h1 h2 k1 hk.whole
  have hk := key h hc ⟨kept_init hw, fun w hw => by cases hw⟩
  exact ⟨hk.whole.range, hk.left⟩

theorem file_safe {r : Found} {path : String} {lo hi : Int} (h : r.FileSafeAt path lo hi) : r.SafeAt path lo hi := by
  obtain ⟨file, hsrc, h⟩ := h
  intro c hr
  have hc : configFromFile r.files file = .ok c := by
    unfold Found.read at hr
    dsimp only at hr
    rcases source_path r.conf r.files with ⟨h1, h2⟩ | ⟨h1, h2⟩
    · cases source_unique hsrc h2
      rw [if_pos h1] at hr
      split at hr <;> cases hr
      assumption
    · cases source_unique hsrc h2
  cases hj : r.files.json file with
  | none => unfold configFromFile parseValidateJson at hc; rw [hj] at hc; cases hc
  | some data =>
    obtain ⟨n, hf, hs⟩ := h data hj
    have hm := fileMatch hc hj
    obtain ⟨fs, hfo, hlim⟩ := fanOn_of hm hf
    unfold limitsOf at hlim
    split_ifs at hlim with hmax
    cases hlim
    exact ⟨⟨hm.sensorsWf, hm.pidsWf, hm.loopsWf⟩, .fan hfo hmax rfl rfl (file_safeFor hm hs)⟩

/-- **C143** The same from the files: the process may read a file that says something else at each reload, as long as the fan keeps
its path and its limits, and the zones with it keep to percentages. -/
theorem C143_file {o : Opts} {late : Int} {p : String} {lo hi : Int} (h0 : 0 ≤ lo) (h1 : lo ≤ hi) (h2 : hi ≤ 2 ^ 53) {w : World}
    {t : Int} (hw : w.trace = []) {es : List EndEvent} {s : Ending} (h : EndRun o late (.init w t) es s)
    (hc : ∀ e r, EndEvent.other e ∈ es → e.Attempts r → r.FileSafeAt p lo hi) :
    WithinRange p lo hi s.daemon.tries.whole.d.w ∧ ∀ w', s.ended = some w' → WithinRange p lo hi w' :=
  C143_life h0 h1 h2 hw h (fun e r he hr => file_safe (hc e r he hr))

theorem bus_safe {r : Found} {path : String} (h : r.BusSafeAt path) : r.SafeAt path 0 255 := by
  obtain ⟨hsrc, objs, reply, sel, zone, zp, m, hB, hz, hT, hf, hs⟩ := h
  intro c hr
  obtain ⟨c', hc, rfl⟩ : ∃ c' : DbusCfg, busInit r.objects r.order = .ok (true, c') ∧ c = ⟨c'.sensors, c'.pids, c'.zones⟩ := by
    unfold Found.read at hr
    dsimp only at hr
    rcases source_path r.conf r.files with ⟨h1, h2⟩ | ⟨h1, h2⟩
    · cases source_unique hsrc h2
    · rw [if_neg (by rw [h1]; decide)] at hr
      split at hr <;> cases hr
      exact ⟨_, ‹_›, rfl⟩
  obtain ⟨l, hp, hwl, hdl, hi⟩ := read_from_bus hB hc
  rw [← active_eq hp] at hz hT hs
  have hf := hf.perm hp
  obtain ⟨hcfg, -⟩ := dbusInit_ok hwl hi
  refine ⟨⟨(dbusInit_typed (b := r.objects.view r.order reply) hB.missing hi).1, hcfg.wf, fun e he => ?_⟩, ?_⟩
  · obtain ⟨z, -, -, hwf, -⟩ := hcfg.loops e.1 e.2 ((OMap.mem_entries_iff hcfg.wf _ _).1 he)
    exact hwf
  obtain ⟨i, conf, hzi, -⟩ := fan_entry hwl hi hT hf
  obtain ⟨z, conf, g1, g2, g3, hall, -, -, e, he, hF, x, hx, hxm, hoz, fs, hfo, hlim⟩ := zone_bus hwl hdl hi hz hzi hT hf r.bus.dirs
  unfold limitsOf at hlim
  split_ifs at hlim with hmax
  obtain ⟨e1, e2⟩ := Prod.mk.inj (Option.some.inj hlim)
  refine .fan hfo hmax e1 e2 (fun j pc z' h1 h2 f hfm hfan hin => ?_)
  obtain ⟨y, hy, hym⟩ := hin
  have hji : j = i := by
    by_contra hne
    exact hoz j pc hne h1 f hfm hfan y hy hym
  subst hji
  have h1 : c'.pids.find? j = some pc := h1
  have h2 : c'.zones.find? j = some z' := h2
  rw [g3] at h1
  cases h1
  rw [g1] at h2
  cases h2
  refine ⟨?_, fun e' he' => ?_, ?_⟩
  · obtain ⟨k, base, hE⟩ := hall f hfm
    have hty : f.2.type = "fan" := hfan
    rcases hE.kind with ⟨rfl, hk⟩ | ⟨-, hk, -⟩
    · exact hs.fans base f.2 hE.zone (hty ▸ hk.type) hk
    · rw [hk.type] at hty
      exact absurd hty (by decide)
  · obtain ⟨k, base, hE⟩ := hall e' he'
    rcases hE.kind with ⟨rfl, hk⟩ | ⟨-, -, hk⟩
    · rcases hk.failSafePercent with hp | ⟨-, hp⟩
      · exact hs.loops base _ hE.zone hp
      · rw [hp]; exact zero_percentage
    · rw [hk]; exact zero_percentage
  · rcases g2.failsafePercent with hp | ⟨-, hp⟩
    · exact hs.zone _ _ hz hp
    · rw [hp]; exact zero_percentage

/-- **C143** The same when the configuration is on the bus, or now in a file and now on the bus: fans found over D-Bus are told
numbers from 0 to 255. -/
theorem C143_bus {o : Opts} {late : Int} {p : String} {w : World} {t : Int} (hw : w.trace = []) {es : List EndEvent} {s : Ending}
    (h : EndRun o late (.init w t) es s)
    (hc : ∀ e r, EndEvent.other e ∈ es → e.Attempts r → r.BusSafeAt p ∨ r.FileSafeAt p 0 255) :
    WithinRange p 0 255 s.daemon.tries.whole.d.w ∧ ∀ w', s.ended = some w' → WithinRange p 0 255 w' :=
  C143_life (by norm_num) (by norm_num) (by norm_num) hw h (fun e r he hr => (hc e r he hr).elim bus_safe file_safe)

end

namespace Ex
section
attribute [local instance] binary64

/-- the file of C113 is safe for its fan, as the process finds it -/
theorem safe143 : file140.FileSafeAt "/sys/class/hwmon/pwm1" 0 255 :=
  ⟨_, source113, fun data hd => by
    have : data = json113 := (Option.some.inj (hd.symm.trans (rfl : file140.files.json _ = some json113)))
    subst this
    exact ⟨_, fan113, safe113⟩⟩

/-- A life: the loops start and run, SIGHUP has them start again, and SIGTERM ends the process. -/
def life143 : List EndEvent :=
  [.other (.start file140), .other (.event (.tick 3)), .other .hangup, .other (.pass 1000), .other (.hup file140), .other (.pass 11000),
    .other (.retry file140), .other (.event (.tick 3)), .sigterm, .other (.pass 11050), .term]

/-- C143 on this: what was sent before and after the restart -/
example : ∃ s w, EndRun {} 100 (.init world113 0) life143 s ∧ s.ended = some w ∧ WithinRange "/sys/class/hwmon/pwm1" 0 255 w ∧
    w.trace = [.sysfsWrite "/sys/class/hwmon/pwm1" 191, .sysfsWrite "/sys/class/hwmon/pwm1" 191] := by
  obtain ⟨s, h1, hP⟩ := any_some (x := steps142 100 (.init world113 0) life143)
    (P := fun s : Ending => s.ended.any (fun w : World => decide (w.trace = [.sysfsWrite "/sys/class/hwmon/pwm1" 191, .sysfsWrite "/sys/class/hwmon/pwm1" 191]))) (by decide +kernel)
  obtain ⟨w, hw, hP⟩ := any_some hP
  refine ⟨s, w, steps142_run h1, hw, ?_, of_decide_eq_true hP⟩
  refine (C143_file (by decide) (by decide) (by decide) rfl (steps142_run h1) (fun e r he hr => ?_)).2 w hw
  simp only [life143, List.mem_cons, EndEvent.other.injEq, List.not_mem_nil, or_false, reduceCtorEq, false_or] at he
  rcases he with rfl | rfl | rfl | rfl | rfl | rfl | rfl | rfl | rfl <;> rcases hr with hr | hr | hr | hr <;> cases hr <;> exact safe143

/-- the configuration of C115 is safe for its fan -/
theorem busSafe143 : conf141.BusSafeAt "/xyz/openbmc_project/control/fanpwm/Pwm_1" := by
  refine ⟨nofiles108_source, objs115, mapperOf objs115, [], "Left", zone115, "Fan_1Pwm_1", onTheBus115, zoneCalled115, tidy115, fanFor115,
    fun base cf hb hc h => ?_, fun base p hb hp => ?_, fun zp p hz hp => ?_⟩
  · have : base = fan115 := by
      rcases loops115 hb with ⟨-, rfl⟩ | ⟨-, rfl⟩ | ⟨h', -⟩
      · rfl
      · exact absurd (attr_unique text_unique hc ⟨_, rfl, rfl⟩ : "fan" = "temp") (by decide)
      · exact absurd h' (by decide)
    subst this
    have val : ∀ {k : String} {x y : Dbl}, Attr fan115 k NumberValue x → fan115.find? k = some (.dbl y) → x = y := by
      intro k x y h1 h2
      exact attr_unique number_unique h1 ⟨_, h2, .inr (.inl rfl)⟩
    refine ⟨⟨?_, ?_, ?_⟩, ?_, ?_, ?_⟩
    · rw [val h.slewNeg rfl]; decide +kernel
    · rw [val h.slewPos rfl]; decide +kernel
    · rw [h.ts]; decide +kernel
    · rw [val h.outMin rfl]; decide +kernel
    · rw [val h.outMin rfl, val h.outMax rfl]; decide +kernel
    · rw [val h.outMax rfl]; decide +kernel
  · obtain ⟨v, hv, -⟩ := hp
    rcases loops115 hb with ⟨-, rfl⟩ | ⟨-, rfl⟩ | ⟨-, rfl⟩ <;> cases hv
  · obtain rfl := zone_only115 hz.1
    obtain ⟨v, hv, hp⟩ := hp
    cases hv
    obtain ⟨x, hx, hx'⟩ := ok_of_any (x := (ConfVariant.dbl 75).getPercent) (P := fun d : Dbl => decide (0 ≤ d) && decide (d ≤ 100))
      (by decide +kernel)
    rw [(getPercent_iff _ _).2 hp] at hx
    cases hx
    simp only [Bool.and_eq_true, decide_eq_true_eq] at hx'
    exact hx'

/-- a life with the configuration on the bus, which is read again after a signal -/
def busLife143 : List EndEvent :=
  [.other (.start conf141), .other (.event (.tick 3)), .other .hangup, .other (.pass 1000), .other (.hup conf141), .other (.pass 11000),
    .other (.retry conf141), .other (.event (.tick 3)), .sigterm, .other (.pass 11050), .term]

/-- C143_bus on this -/
example : ∃ s w, EndRun {} 100 (.init world113 0) busLife143 s ∧ s.ended = some w ∧
    WithinRange "/xyz/openbmc_project/control/fanpwm/Pwm_1" 0 255 w ∧
    w.trace = [.dbusSet "/xyz/openbmc_project/control/fanpwm/Pwm_1" 76 true, .dbusSet "/xyz/openbmc_project/control/fanpwm/Pwm_1" 76 true] := by
  obtain ⟨s, h1, hP⟩ := any_some (x := steps142 100 (.init world113 0) busLife143)
    (P := fun s : Ending => s.ended.any (fun w : World => decide (w.trace =
      [.dbusSet "/xyz/openbmc_project/control/fanpwm/Pwm_1" 76 true, .dbusSet "/xyz/openbmc_project/control/fanpwm/Pwm_1" 76 true])))
    (by decide +kernel)
  obtain ⟨w, hw, hP⟩ := any_some hP
  refine ⟨s, w, steps142_run h1, hw, ?_, of_decide_eq_true hP⟩
  refine (C143_bus rfl (steps142_run h1) (fun e r he hr => .inl ?_)).2 w hw
  simp only [busLife143, List.mem_cons, EndEvent.other.injEq, List.not_mem_nil, or_false, reduceCtorEq, false_or] at he
  rcases he with rfl | rfl | rfl | rfl | rfl | rfl | rfl | rfl | rfl <;> rcases hr with hr | hr | hr | hr <;> cases hr <;> exact busSafe143

end
end Ex
end Verif
