import Verif.Spec.Unattended
import Verif.Props.Register
import Verif.Props.Whole
import Verif.Props.Unbroken
import Verif.Props.Lifelong

/-! # C146: fans nobody controls are safe -/

namespace Verif
open Dbl

section
variable [F : FloatModel]

/-- a writer that has written nothing may have any number at its path -/
theorem WriterAt.any {p : String} {lim : Option (Int × Int)} {wr : Writer} (h : WriterAt p lim none wr) (reg : Option Int) :
    WriterAt p lim reg wr := by
  cases h with
  | dbus h => exact .dbus (.inl (h.resolve_right (by simp)))
  | sysfsPercent h => exact .sysfsPercent h
  | sysfsRaw h => exact .sysfsRaw h

/-- a fan that was just made has its path for itself -/
theorem fanAt_made {o : Opts} {bus : BuildBus} {now : Int} {sensors : OMap String SensorConfig} (hw : sensors.WF) {m : Manager}
    (h : buildSensors o bus now sensors = .ok m) {w : World} {n p : String} {c : SensorConfig}
    (hf : FanOn bus.dirs sensors n c p) (hb : w.busOk p = true) : FanAt n p (limitsOf c) { w with sensors := m.sensors } := by
  obtain ⟨hc, ht, -, hp, ho⟩ := hf
  obtain ⟨s, hs, hm⟩ := (C98_as_configured hw h n).2 c hc (by rw [ht]; simp)
  refine ⟨?_, fun k hk hkt => ?_, hb⟩
  · cases hm with
    | fan _ hr hwr =>
      refine ⟨_, _, _, hs, rfl, WriterAt.any ?_ _⟩
      cases hwr with
      | sysfsPercent h1 h2 h3 =>
        cases hp with
        | dbus h4 => have := (C65_write _ _).2 h1; rw [(C65_write _ _).2 h4] at this; cases this
        | sysfs _ h5 =>
          have := fixup_iff.2 h2
          rw [fixup_iff.2 h5] at this
          cases this
          exact .sysfsPercent (by rw [limitsOf, if_pos h3])
      | sysfsRaw h1 h2 h3 =>
        cases hp with
        | dbus h4 => have := (C65_write _ _).2 h1; rw [(C65_write _ _).2 h4] at this; cases this
        | sysfs _ h5 =>
          have := fixup_iff.2 h2
          rw [fixup_iff.2 h5] at this
          cases this
          exact .sysfsRaw (by rw [limitsOf, if_neg (by omega)])
      | dbusPercent h1 h2 =>
        cases hp with
        | dbus h4 =>
          have : WriterAt c.writePath (limitsOf c) none (dbusWith c.writePath (limitsOf c) (-1)) := .dbus (.inl rfl)
          rw [limitsOf, if_pos h2] at this ⊢
          exact this
        | sysfs h4 _ => have := (C65_write _ _).2 h1; rw [(C65_write _ _).2 h4] at this; cases this
      | dbusRaw h1 h2 =>
        cases hp with
        | dbus h4 =>
          have : WriterAt c.writePath (limitsOf c) none (dbusWith c.writePath (limitsOf c) (-1)) := .dbus (.inl rfl)
          rw [limitsOf, if_neg (by omega)] at this ⊢
          exact this
        | sysfs h4 _ => have := (C65_write _ _).2 h1; rw [(C65_write _ _).2 h4] at this; cases this
      | nothing h1 =>
        cases hp with
        | dbus h4 => rcases h1 with h1 | h1 <;> (have := (C65_write _ _).2 h1; rw [(C65_write _ _).2 h4] at this; cases this)
        | sysfs h4 _ => rcases h1 with h1 | h1 <;> (have := (C65_write _ _).2 h1; rw [(C65_write _ _).2 h4] at this; cases this)
    | external he =>
      have := he.1
      rw [ht] at this
      simp at this
    | thermal h1 _ _ =>
      rw [ht] at h1
      simp at h1
  · obtain ⟨c', h1, h2, h3⟩ := made_target hw h hkt
    exact ho k c' hk h1 h2 h3

/-- the zone has a loop for fan `n` -/
def HasFan (n : String) (z : Zone) : Prop := ∃ f, some f ∈ z.fans ∧ n ∈ f.inputs

theorem leftSafe_told {n p : String} {c : SensorConfig} (hl : LimitsOk c) {v : Dbl} (hv : 0 ≤ v) {w w' : World} {zs : List Zone}
    (h : LeftSafe w zs w') (hf : FanAt n p (limitsOf c) w) (hz : ∀ z ∈ zs, HasFan n z → v ≤ z.d.getFailSafePercent / 100)
    (hin : (∃ z ∈ zs, HasFan n z) ∨ ToldAtLeast c p v w) : ToldAtLeast c p v w' := by
  induction h with
  | nil w =>
    rcases hin with ⟨z, hz, _⟩ | h
    · cases hz
    · exact h
  | @cons w w1 w2 z zs h1 h2 ih =>
    obtain ⟨a1, a2, a3⟩ := fanAt_drives h1 hf
    refine ih a1 (fun y hy => hz y (List.mem_cons_of_mem _ hy)) ?_
    by_cases hzf : HasFan n z
    · obtain ⟨f, hf1, hf2⟩ := hzf
      obtain ⟨x, hx, hx2, raw, hraw, hval⟩ := a3 ⟨(f, z.d.getFailSafePercent / 100),
        List.mem_filterMap.2 ⟨some f, hf1, rfl⟩, hf2⟩
      obtain ⟨g, hg, hgx⟩ := List.mem_filterMap.1 hx
      cases g with
      | none => cases hgx
      | some g =>
        cases hgx
        obtain ⟨r, hr1, hr2, hr3⟩ := rawCommand_mono hl hv (hz z List.mem_cons_self ⟨f, hf1, hf2⟩) hraw
        exact .inr ⟨raw, r, hval (by omega), hr1, hr3⟩
    · have hno : ∀ x ∈ z.fans.filterMap (·.map (fun c => (c, z.d.getFailSafePercent / 100))), n ∉ x.1.inputs := by
        intro x hx hn
        obtain ⟨g, hg, hgx⟩ := List.mem_filterMap.1 hx
        cases g with
        | none => cases hgx
        | some g => cases hgx; exact hzf ⟨g, hg, hn⟩
      rcases hin with ⟨y, hy, hyf⟩ | ⟨u, r, h3, h4, h5⟩
      · rcases List.mem_cons.1 hy with rfl | hy
        · exact absurd hyf hzf
        · exact .inl ⟨y, hy, hyf⟩
      · exact .inr ⟨u, r, (a2 hno).trans h3, h4, h5⟩

theorem percent_from {v : Dbl} {zc : ZoneConfig} {conf : List Entry} (h : SafeFrom v zc conf) {n : String} {p : Dbl}
    (hp : PercentFor zc conf n p) : v ≤ p := by
  cases hp with
  | own hl h0 =>
    obtain ⟨x, hx, rfl⟩ := List.mem_map.1 hl.1
    obtain ⟨e, he, hxe⟩ := List.mem_flatMap.1 (List.mem_filter.1 hx).1
    obtain ⟨i, _, rfl⟩ := List.mem_map.1 hxe
    exact (h.2 e (List.mem_filter.1 he).1).resolve_left h0
  | zero _ => exact h.1
  | zone _ => exact h.1

/-- the percentage a zone has is one of those configured -/
theorem percent_of_inv {v : Dbl} {zc : ZoneConfig} {conf : PIDConf} {d0 z : ZoneData} {log : List Poll}
    (h : HistInv d0 z log) (hz : d0.zoneFailSafePercent = zc.failsafePercent)
    (hp : ∀ n, PercentFor zc conf.entries n (percentOf d0 n)) (hs : SafeFrom v zc conf.entries) :
    v ≤ z.getFailSafePercent := by
  have hge : ∀ n, v ≤ percentOf d0 n := fun n => percent_from hs (hp n)
  cases hm : z.getFailSafeMode with
  | true =>
    obtain ⟨⟨n, -, hn⟩, -⟩ := h.selection (fun n _ => ne_nan_of_le_right (hge n)) hm
    rw [hn]; exact hge n
  | false =>
    have he : z.failSafeSensors.entries = [] := by
      unfold ZoneData.getFailSafeMode at hm
      simpa [OMap.isEmpty] using hm
    have : z.getFailSafePercent = z.zoneFailSafePercent := by
      unfold ZoneData.getFailSafePercent
      rw [he]
    rw [this, h.same.2.2.2.2.1, hz]
    exact hs.1

omit F in
theorem none_run [FloatModel] {o : Opts} {i : Int} : ∀ {es : List DEvent} {d d' : Daemon}, d.run o es = .ok d' →
    d.zones.find? i = none → d'.zones.find? i = none
  | [], _, _, h, hz => by cases h; exact hz
  | _ :: _, _, _, h, hz => by
    obtain ⟨d1, h1, h2⟩ := bind_eq_ok.1 h
    exact none_run h2 (step_none h1 hz)

/-- the fans of the loops are those configured -/
theorem hasFan_iff {n : String} {conf : List Entry} {z : Zone}
    (h : z.fans.map (Option.map FanPid.inputs) = ((conf.filter IsFan).map fanOf).map (Option.map FanPid.inputs)) :
    HasFan n z ↔ Turns conf n := by
  have hf : ∀ e : Entry, Option.map FanPid.inputs (fanOf e) =
      if e.2.inputs = [] then none else some (e.2.inputs.map SensorInput.name) := by
    intro e
    unfold fanOf
    cases e.2.inputs <;> simp
  constructor
  · rintro ⟨f, h1, h2⟩
    have : some f.inputs ∈ z.fans.map (Option.map FanPid.inputs) := List.mem_map.2 ⟨some f, h1, rfl⟩
    rw [h, List.map_map] at this
    obtain ⟨e, he, hx⟩ := List.mem_map.1 this
    obtain ⟨he1, he2⟩ := List.mem_filter.1 he
    simp only [Function.comp_apply, hf] at hx
    split_ifs at hx with h0
    have hi := Option.some.inj hx
    rw [← hi] at h2
    obtain ⟨x, hx1, hx2⟩ := List.mem_map.1 h2
    exact ⟨e, he1, by simpa using he2, x, hx1, hx2⟩
  · rintro ⟨e, he, hF, x, hx, rfl⟩
    have : some (e.2.inputs.map SensorInput.name) ∈ z.fans.map (Option.map FanPid.inputs) := by
      rw [h, List.map_map]
      refine List.mem_map.2 ⟨e, List.mem_filter.2 ⟨he, by simpa using hF⟩, ?_⟩
      simp only [Function.comp_apply, hf]
      rw [if_neg (List.ne_nil_of_mem hx)]
    obtain ⟨g, hg, hgx⟩ := List.mem_map.1 this
    cases g with
    | none => cases hgx
    | some g =>
      have hi : g.inputs = _ := Option.some.inj hgx
      exact ⟨g, hg, by rw [hi]; exact List.mem_map.2 ⟨x, hx, rfl⟩⟩

/-- what became of the zones that were built -/
theorem startSome_both {o : Opts} {w : World} : ∀ {l : List (Int × Zone)} {acc zs : OMap Int (Zone × Nat)} {rest : List Zone}
    {e : Option Err}, startSome o w acc l = (zs, rest, e) → ∃ l1 l2, l = l1 ++ l2 ∧ startZones o w acc l1 = .ok zs ∧
      ∀ x ∈ l2, x.2 ∈ rest ∨ { x.2 with d := x.2.d.initializeCache } ∈ rest
  | [], acc, zs, rest, e, h => by cases h; exact ⟨[], [], rfl, rfl, by simp⟩
  | (i, z) :: l, acc, zs, rest, e, h => by
    unfold startSome at h
    cases hz : z.start o w with
    | error x =>
      rw [hz] at h
      cases h
      refine ⟨[], (i, z) :: l, rfl, rfl, fun y hy => ?_⟩
      rcases List.mem_cons.1 hy with rfl | hy
      · exact .inr List.mem_cons_self
      · exact .inl (List.mem_cons_of_mem _ (List.mem_map.2 ⟨y, hy, rfl⟩))
    | ok z' =>
      rw [hz] at h
      obtain ⟨l1, l2, h1, h2, h3⟩ := startSome_both h
      refine ⟨(i, z) :: l1, l2, by rw [h1]; rfl, ?_, h3⟩
      unfold startZones
      rw [hz]
      exact h2

/-- a zone that was built, as far as fan `n` is concerned -/
theorem built_from {pids : OMap Int PIDConf} {configs : OMap Int ZoneConfig} {zones : OMap Int Zone} (hw : pids.WF)
    (hc : ∀ e ∈ pids.entries, OMap.WF e.2) (hb : buildZones pids configs = .ok zones) {j : Int} {conf : PIDConf}
    (hp : pids.find? j = some conf) : ∃ zb zc, zones.find? j = some zb ∧ configs.find? j = some zc ∧ NewZone j zc conf.entries zb ∧
      Built zb.d ∧ ∀ v, SafeFrom v zc conf.entries → ∀ n, PercentFor zc conf.entries n (percentOf zb.d n) := by
  obtain ⟨zb, zc, hzb, hcc, hN⟩ := (C64_zones hw hc hb j).1 conf hp
  refine ⟨zb, zc, hzb, hcc, hN, ?_, fun v hsf n => percentOf_of hN fun p hp => ?_⟩
  · obtain ⟨z', hz', hb'⟩ := (buildZoneList_find? (OMap.wf_nodup hw) hb j).1 conf ((OMap.mem_entries_iff hw j conf).2 hp)
    rw [hzb] at hz'
    cases hz'
    exact buildZone_built hb'
  · obtain ⟨x, hx, rfl⟩ := List.mem_map.1 hp
    obtain ⟨e, he, hxe⟩ := List.mem_flatMap.1 (List.mem_filter.1 hx).1
    obtain ⟨j, _, rfl⟩ := List.mem_map.1 hxe
    rcases hsf.2 e (List.mem_filter.1 he).1 with h | h
    · show e.2.failSafePercent ≠ nan
      rw [h, zero_eq]; exact fun h => by cases h
    · exact ne_nan_of_le_right h

/-- the zones of the process, running or not, as far as fan `n` is concerned -/
theorem all_safe {o : Opts} {c : Config} (hw : c.pids.WF) (hc : ∀ e ∈ c.pids.entries, OMap.WF e.2) {w : World} {s1 : Whole}
    (h1 : startBuilt o c w = .ok s1) {es : List DEvent} {d : Daemon} (hr : s1.d.run o es = .ok d)
    (hne : d.zones.entries.map (fun e => e.2.1) ++ s1.idle ≠ []) {n : String} {v : Dbl}
    (hs : ∀ i conf zc, c.pids.find? i = some conf → c.zones.find? i = some zc → Turns conf.entries n → SafeFrom v zc conf.entries) :
    (∀ z ∈ d.zones.entries.map (fun e => e.2.1) ++ s1.idle, HasFan n z → v ≤ z.d.getFailSafePercent) ∧
      ((∃ i conf, c.pids.find? i = some conf ∧ Turns conf.entries n) →
        ∃ z ∈ d.zones.entries.map (fun e => e.2.1) ++ s1.idle, HasFan n z) := by
  obtain ⟨e1, -, ⟨k1, k2, -⟩ | ⟨zones, e, k1, -, k3, -⟩⟩ := startBuilt_cases h1
  · exfalso
    apply hne
    have : d.zones.isEmpty = true := by rw [empty_run hr, k1]; rfl
    rw [k2, List.append_nil]
    have : d.zones.entries = [] := by simpa [OMap.isEmpty] using this
    rw [this]; rfl
  obtain ⟨l1, l2, f1, f2, f3⟩ := startSome_both k3
  have hwz := buildZones_wf k1
  have hnd := OMap.wf_nodup hwz
  rw [f1, List.map_append] at hnd
  have hfind := startZones_find? (List.nodup_append.1 hnd).1 f2
  have hwf := run_wf (startZones_wf OMap.wf_empty f2) hr
  -- zones that run
  have key : ∀ i zb conf, (i, zb) ∈ l1 → c.pids.find? i = some conf → ∃ z cnt zc, d.zones.find? i = some (z, cnt) ∧
      c.zones.find? i = some zc ∧ (HasFan n z ↔ Turns conf.entries n) ∧
      (SafeFrom v zc conf.entries → v ≤ z.d.getFailSafePercent) := by
    intro i zb conf hin hp
    obtain ⟨zb', zc, hzb, hcc, hN, -, hP⟩ := built_from hw hc k1 hp
    have : zones.find? i = some zb := (OMap.mem_entries_iff hwz _ _).1 (by rw [f1]; exact List.mem_append_left _ hin)
    rw [hzb] at this
    cases this
    obtain ⟨z0, hz0, hz0'⟩ := (hfind i).1 zb hin
    obtain ⟨z, cnt, log, g1, g2, -, g4⟩ := mode_run hr hz0' (C80_hist hw k1 hzb hz0)
    refine ⟨z, cnt, zc, g1, hcc, hasFan_iff ?_, fun hsf => percent_of_inv g2.inv hN.failsafePercent (hP v hsf) hsf⟩
    rw [g4, (start_flags hz0).2, hN.fans]
  have hconf : ∀ i zb, zones.find? i = some zb → ∃ conf, c.pids.find? i = some conf := by
    intro i zb hz
    cases hp : c.pids.find? i with
    | none => rw [(C64_zones hw hc k1 i).2 hp] at hz; cases hz
    | some conf => exact ⟨conf, rfl⟩
  constructor
  · intro z hz hf
    rcases List.mem_append.1 hz with hz | hz
    · obtain ⟨⟨i, z', cnt⟩, he, rfl⟩ := List.mem_map.1 hz
      have hfi := (OMap.mem_entries_iff hwf _ _).1 he
      by_cases hin : ∃ x ∈ l1, x.1 = i
      · obtain ⟨⟨i', zb⟩, hx, rfl⟩ := hin
        obtain ⟨conf, hp⟩ := hconf i' zb ((OMap.mem_entries_iff hwz _ _).1 (by rw [f1]; exact List.mem_append_left _ hx))
        obtain ⟨z1, cnt1, zc, g1, g2, g3, g4⟩ := key i' zb conf hx hp
        dsimp only at hfi
        rw [hfi] at g1
        cases g1
        exact g4 (hs i' conf zc hp g2 (g3.1 hf))
      · have := none_run hr (by rw [(hfind i).2 (fun x hx hi => hin ⟨x, hx, hi⟩), OMap.find?_empty])
        rw [hfi] at this; cases this
    · obtain ⟨i, zb, he, hzz⟩ := startSome_idle k3 z hz
      have hzb := (OMap.mem_entries_iff hwz i zb).1 he
      obtain ⟨conf, hp⟩ := hconf i zb hzb
      obtain ⟨zb', zc, hzb', hcc, hN, hB, hP⟩ := built_from hw hc k1 hp
      rw [hzb] at hzb'
      cases hzb'
      have hff : HasFan n zb := by rcases hzz with rfl | rfl <;> exact hf
      have hsf := hs i conf zc hp hcc ((hasFan_iff (by rw [hN.fans])).1 hff)
      rcases hzz with rfl | rfl
      · rw [C32_none (by unfold ZoneData.getFailSafeMode; rw [built_failed hB]; rfl), hN.failsafePercent]
        exact hsf.1
      · exact percent_of_inv (inited_inv hB) hN.failsafePercent (hP v hsf) hsf
  · rintro ⟨i, conf, hp, ht⟩
    obtain ⟨zb, zc, hzb, hcc, hN, -, -⟩ := built_from hw hc k1 hp
    have hmem := (OMap.mem_entries_iff hwz i zb).2 hzb
    rw [f1] at hmem
    rcases List.mem_append.1 hmem with hin | hin
    · obtain ⟨z, cnt, zc, g1, -, g3, -⟩ := key i zb conf hin hp
      exact ⟨z, List.mem_append_left _ (List.mem_map.2 ⟨(i, z, cnt), (OMap.mem_entries_iff hwf _ _).2 g1, rfl⟩), g3.2 ht⟩
    · have hfz : HasFan n zb := (hasFan_iff (by rw [hN.fans])).2 ht
      rcases f3 _ hin with h | h
      · exact ⟨_, List.mem_append_right _ h, hfz⟩
      · exact ⟨_, List.mem_append_right _ h, hfz⟩

/-- while no zone exists nothing is written -/
theorem bare_trace {o : Opts} : ∀ {es : List WEvent} {s s' : Whole}, s.run o es = .ok s' → BareThroughout o s es →
    s'.d.w.trace = s.d.w.trace
  | [], _, _, h, _ => by cases h; rfl
  | e :: es, s, s', h, hb => by
    unfold Whole.run at h
    obtain ⟨s1, h1, h2⟩ := bind_eq_ok.1 h
    have hb0 : s.all = [] := hb [] (e :: es) s rfl rfl
    rw [bare_trace h2 (fun pre post x he hx => hb (e :: pre) post x (by rw [he]; rfl)
      (by unfold Whole.run; rw [h1]; exact hx))]
    cases e with
    | event e =>
      obtain ⟨d, h3, h4⟩ := bind_eq_ok.1 h1
      cases h4
      refine quiet_run (es := [e]) (d := s.d) (d' := d) (by unfold Daemon.run; rw [h3]; rfl) ?_
      have := (List.append_eq_nil_iff.1 hb0).1
      simpa [OMap.isEmpty] using this
    | reload r =>
      obtain ⟨w, h3, h4⟩ := reload_cases h1
      unfold Whole.stop at h3
      unfold Whole.all at hb0
      rw [hb0] at h3
      cases h3
      rcases h4 with ⟨b, rfl⟩ | ⟨c, m, -, -, h5, -⟩
      · rfl
      · rw [(startBuilt_cases h5).1]

/-- what ending the zones does to fan `n` -/
theorem ended_safe {o : Opts} (ho : o.offlineFailsafePwm = true) {r : Found} {c : Config} (hread : r.read = .got c)
    {n p : String} {sc : SensorConfig} (hfo : FanOn r.bus.dirs c.sensors n sc p) {v : Dbl} (hv : 0 ≤ v)
    (hs : ∀ i conf zc, c.pids.find? i = some conf → c.zones.find? i = some zc → Turns conf.entries n → SafeFrom v zc conf.entries)
    (hin : ∃ i conf, c.pids.find? i = some conf ∧ Turns conf.entries n)
    {s0 s1 s2 : Whole} (h0 : s0.reload o r = .ok s1) (hb : s0.d.w.busOk p = true) {es : List DEvent}
    (hbs : ∀ e ∈ es, BusWorks p e) (h1 : s1.run o (es.map .event) = .ok s2) (hex : ¬ s2.Bare) {w : World}
    (h2 : s2.stop o = .ok w) : ToldAtLeast sc p (v / 100) w := by
  obtain ⟨hws, hw, hl⟩ := read_wf hread
  obtain ⟨d, h5, rfl⟩ := wrun_events.1 h1
  obtain ⟨w0, g1, ⟨b, rfl⟩ | ⟨c', m, g2, g3, g4, -⟩⟩ := reload_cases h0
  · exfalso
    apply hex
    have : d.zones.isEmpty = true := by rw [empty_run h5]; rfl
    have : d.zones.entries = [] := by simpa [OMap.isEmpty] using this
    unfold Whole.Bare Whole.all
    dsimp only
    rw [this]; rfl
  rw [hread] at g2
  cases g2
  have hb0 : w0.busOk p = true := by rw [(stop_after g1).same]; exact hb
  have hf1 : FanAt n p (limitsOf sc) s1.d.w := by rw [(startBuilt_cases g4).1]; exact fanAt_made hws g3 hfo hb0
  obtain ⟨k1, k2⟩ := all_safe hw hl g4 h5 hex hs
  refine leftSafe_told hfo.limits (percent_nonneg hv) ((C123_end (o := o) h2).1 ho) (fanAt_run h5 hbs hf1) (fun z hz hzf => ?_)
    (.inl (k2 hin))
  have hle := k1 z hz hzf
  exact div_le_div_of_pos pos100 hle (div100_ne_nan (ne_nan_of_le_left hle)) (div100_ne_nan (ne_nan_of_le_right hle))

/-- **C146** With the option for it, fans that nobody controls any more are safe. If zones exist that were made from
configuration `c` (whether all of them could be started or not), and a reload comes to nothing — the configuration is gone, or
does not fit — then for as long as no zone exists, however many further attempts fail and whatever else happens, every fan was last
told at least the number that stands for the smallest failsafe percentage that the zones that controlled it are configured with. -/
theorem C146_unattended {o : Opts} (ho : o.offlineFailsafePwm = true) {r : Found} {c : Config} (hread : r.read = .got c)
    {n p : String} {sc : SensorConfig} (hfo : FanOn r.bus.dirs c.sensors n sc p) {v : Dbl} (hv : 0 ≤ v)
    (hs : ∀ i conf zc, c.pids.find? i = some conf → c.zones.find? i = some zc → Turns conf.entries n → SafeFrom v zc conf.entries)
    (hin : ∃ i conf, c.pids.find? i = some conf ∧ Turns conf.entries n)
    {s0 s1 s2 s3 s4 : Whole} (h0 : s0.reload o r = .ok s1) (hb : s0.d.w.busOk p = true) {es : List DEvent}
    (hbs : ∀ e ∈ es, BusWorks p e) (h1 : s1.run o (es.map .event) = .ok s2) (hex : ¬ s2.Bare) {r' : Found}
    (h2 : s2.reload o r' = .ok s3) {post : List WEvent} (h3 : s3.run o post = .ok s4) (hbare : BareThroughout o s3 post) :
    ToldAtLeast sc p (v / 100) s4.d.w := by
  obtain ⟨w, g1, g2⟩ := reload_cases h2
  have ht := ended_safe ho hread hfo hv hs hin h0 hb hbs h1 hex g1
  have htr : s4.d.w.trace = w.trace := by
    rw [bare_trace h3 hbare]
    rcases g2 with ⟨b, rfl⟩ | ⟨c, m, -, -, h5, -⟩
    · rfl
    · rw [(startBuilt_cases h5).1]
  unfold ToldAtLeast valueAt at ht ⊢
  rw [htr]; exact ht

/-- **C146** The same when the process ends. -/
theorem C146_end {o : Opts} (ho : o.offlineFailsafePwm = true) {r : Found} {c : Config} (hread : r.read = .got c)
    {n p : String} {sc : SensorConfig} (hfo : FanOn r.bus.dirs c.sensors n sc p) {v : Dbl} (hv : 0 ≤ v)
    (hs : ∀ i conf zc, c.pids.find? i = some conf → c.zones.find? i = some zc → Turns conf.entries n → SafeFrom v zc conf.entries)
    (hin : ∃ i conf, c.pids.find? i = some conf ∧ Turns conf.entries n)
    {s0 s1 s2 : Whole} (h0 : s0.reload o r = .ok s1) (hb : s0.d.w.busOk p = true) {es : List DEvent}
    (hbs : ∀ e ∈ es, BusWorks p e) (h1 : s1.run o (es.map .event) = .ok s2) (hex : ¬ s2.Bare) {w : World}
    (h2 : s2.terminate o = .ok w) : ToldAtLeast sc p (v / 100) w :=
  ended_safe ho hread hfo hv hs hin h0 hb hbs h1 hex h2

/-- **C146** Finding: without the option, which is off unless it is built in, the fans stay as they were told last, for as long as
no zone exists, however hot it gets. -/
theorem C146_frozen {o : Opts} (ho : o.offlineFailsafePwm = false) {s2 s3 s4 : Whole} {r' : Found} (h2 : s2.reload o r' = .ok s3)
    {post : List WEvent} (h3 : s3.run o post = .ok s4) (hbare : BareThroughout o s3 post) (p : String) :
    valueAt p s4.d.w = valueAt p s2.d.w := by
  unfold valueAt
  rw [bare_trace h3 hbare, C123_hold ho h2]

end

namespace Ex
section
attribute [local instance] binary64

def offline146 : Opts := { offlineFailsafePwm := true }

/-- the configuration is gone; later nobody answers on the bus; the zone would have to run -/
def post146 : List WEvent := [.event (.tick 3), .reload mute140, .event (.tick 3), .reload none140, .event (.tick 3)]

def life146 : List WEvent := .reload bus144 :: ([DEvent.tick 3].map .event ++ .reload none140 :: post146)

/-- the fan is told 30% (76 of 255) while the zone runs; the reload that finds nothing leaves it at 75% (191) -/
example : (((Whole.init world113).run offline146 life146).toOption.map sum123) =
    some ([], 0, false, [.dbusSet "/xyz/openbmc_project/control/fanpwm/Pwm_1" 76 true,
      .dbusSet "/xyz/openbmc_project/control/fanpwm/Pwm_1" 191 true]) := by
  decide +kernel

/-- C146_frozen: without the option it stays at 30%. -/
example : (((Whole.init world113).run {} life146).toOption.map sum123) =
    some ([], 0, false, [.dbusSet "/xyz/openbmc_project/control/fanpwm/Pwm_1" 76 true]) := by
  decide +kernel

/-- what C146 asks of the configuration -/
def fit146 (c : Config) : Bool :=
  decide (c.sensors.entries.Pairwise (fun a b => a.1 < b.1)) && decide (c.pids.entries.Pairwise (fun a b => a.1 < b.1)) &&
    decide (c.zones.entries.Pairwise (fun a b => a.1 < b.1)) &&
    c.pids.entries.all (fun e => decide (e.2.entries.Pairwise (fun a b => a.1 < b.1)) &&
      decide (∀ x ∈ e.2.entries, x.2.failSafePercent = 0)) && c.zones.entries.all (fun e => decide (e.2.failsafePercent = 75)) &&
    c.sensors.entries.all (fun e => decide (e.2.type = "fan" → e.1 = "Fan_1Pwm_1")) &&
    (c.pids.find? 3).any (fun conf => decide (∃ e ∈ conf.entries, IsFan e ∧ ∃ x ∈ e.2.inputs, x.name = "Fan_1Pwm_1")) &&
    (c.sensors.find? "Fan_1Pwm_1").any (fun sc => decide (sc.type = "fan" ∧ sc.min = 0 ∧ sc.max = 255 ∧
      sc.writePath = "/xyz/openbmc_project/control/fanpwm/Pwm_1"))

theorem read146 : ∃ c, bus144.read = .got c ∧ fit146 c = true := by
  have h : (match bus144.read with | .got c => fit146 c | _ => false) = true := by decide +kernel
  split at h
  · next c e => exact ⟨c, e, h⟩
  · cases h

theorem bare146 {o : Opts} : ∀ {es : List WEvent} {s : Whole},
    (∀ k ∈ List.range (es.length + 1), (s.run o (es.take k)).toOption.all (fun x : Whole => x.all.isEmpty) = true) →
    BareThroughout o s es := by
  intro es s h pre post x he hx
  have hk := h pre.length (List.mem_range.2 (by rw [he, List.length_append]; omega))
  rw [he, List.take_left, hx] at hk
  exact List.isEmpty_iff.1 (by simpa [Except.toOption] using hk)

/-- C146_unattended for this life: the fan was last told at least what stands for 75%, which is 191 -/
example : ∃ s sc, (Whole.init world113).run offline146 life146 = .ok s ∧ rawCommand (limitsOf sc) (75 / 100) = some 191 ∧
    ToldAtLeast sc "/xyz/openbmc_project/control/fanpwm/Pwm_1" (75 / 100) s.d.w := by
  obtain ⟨c, hc, hf⟩ := read146
  unfold fit146 at hf
  simp only [Bool.and_eq_true, decide_eq_true_eq, List.all_eq_true] at hf
  obtain ⟨⟨⟨⟨⟨⟨⟨f1, f2⟩, f3⟩, f4⟩, f5⟩, f6⟩, f7⟩, f8⟩ := hf
  cases hp : c.pids.find? 3 with
  | none => rw [hp] at f7; cases f7
  | some conf =>
  cases hsc : c.sensors.find? "Fan_1Pwm_1" with
  | none => rw [hsc] at f8; cases f8
  | some sc =>
  rw [hp] at f7
  rw [hsc] at f8
  have f7 := of_decide_eq_true f7
  obtain ⟨k1, k2, k3, k4⟩ := of_decide_eq_true f8
  have hfo : FanOn bus144.bus.dirs c.sensors "Fan_1Pwm_1" sc "/xyz/openbmc_project/control/fanpwm/Pwm_1" := by
    refine ⟨hsc, k1, fun _ => by rw [k2, k3]; decide, ?_, fun m c' hm hc' ht _ => ?_⟩
    · have := WritePath.dbus (dirs := bus144.bus.dirs) (c := sc) ((C65_write _ _).1 (by rw [k4]; decide +kernel))
      rwa [k4] at this
    · exact hm (f6 (m, c') ((OMap.mem_entries_iff f1 m c').2 hc') ht)
  obtain ⟨s1, h1, -⟩ := ok_of_any (x := (Whole.init world113).reload offline146 bus144) (P := fun _ : Whole => true) (by decide +kernel)
  obtain ⟨s2, h2, hP⟩ := ok_of_any (x := (Whole.init world113).reload offline146 bus144 >>= fun s =>
      s.run offline146 ([DEvent.tick 3].map .event))
    (P := fun s : Whole => !s.all.isEmpty) (by decide +kernel)
  obtain ⟨s3, h3, hQ⟩ := ok_of_any (x := (Whole.init world113).reload offline146 bus144 >>= fun s =>
      s.run offline146 ([DEvent.tick 3].map .event) >>= fun s => s.reload offline146 none140)
    (P := fun s : Whole => (List.range (post146.length + 1)).all fun k =>
      (s.run offline146 (post146.take k)).toOption.all (fun x : Whole => x.all.isEmpty)) (by decide +kernel)
  obtain ⟨s4, h4, -⟩ := ok_of_any (x := (Whole.init world113).run offline146 life146) (P := fun _ : Whole => true) (by decide +kernel)
  have h4' := h4
  unfold life146 Whole.run at h4'
  rw [show (Whole.init world113).step offline146 (.reload bus144) = (Whole.init world113).reload offline146 bus144 from rfl, h1,
    ok_bind] at h4'
  rw [h1, ok_bind] at h2 h3
  rw [h2, ok_bind] at h3
  obtain ⟨s2', a1, a2⟩ := wrun_append.1 h4'
  rw [h2] at a1
  cases a1
  unfold Whole.run at a2
  rw [show s2.step offline146 (.reload none140) = s2.reload offline146 none140 from rfl, h3, ok_bind] at a2
  refine ⟨s4, sc, h4, by rw [limitsOf, k2, k3]; decide +kernel, ?_⟩
  refine C146_unattended (o := offline146) rfl hc hfo (v := 75) (by decide +kernel)
    (fun i conf' zc g1 g2 _ => ⟨?_, fun e he => .inl ?_⟩) ⟨3, conf, hp, f7⟩ h1 rfl (es := [.tick 3]) (by simp [BusWorks]) h2
    (by simpa [Whole.Bare] using hP) h3 a2 (bare146 (List.all_eq_true.1 hQ))
  · rw [f5 (i, zc) ((OMap.mem_entries_iff f3 i zc).2 g2)]; decide +kernel
  · exact (f4 (i, conf') ((OMap.mem_entries_iff f2 i conf').2 g1)).2 e he

end
end Ex
end Verif
