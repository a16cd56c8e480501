import Verif.Lemmas.Alone

/-! # Independence of zones: property C101 -/

namespace Verif
open Dbl
section
variable [F : FloatModel]

theorem front_cases {s s' : Sensor} (h : s'.front = s.front) :
    (∃ r wr wr', s.impl = .pluggable r wr ∧ s'.impl = .pluggable r wr') ∨
    (∃ v u, s.impl = .host v u ∧ s'.impl = .host v u) := by
  obtain ⟨a, b, c, d⟩ := s
  obtain ⟨a', b', c', d'⟩ := s'
  simp only [Sensor.front, Prod.mk.injEq] at h
  obtain ⟨_, _, _, h⟩ := h
  cases d with
  | pluggable r wr =>
    cases d' with
    | pluggable r' wr' => cases h; exact .inl ⟨_, _, _, rfl, rfl⟩
    | host v u => cases h
  | host v u =>
    cases d' with
    | pluggable r' wr' => cases h
    | host v' u' => cases h; exact .inr ⟨_, _, rfl, rfl⟩

/-- a change of one sensor that only looks at the front -/
theorem Agree.insert {ns : List String} {w w' : World} (h : Agree ns w w') (n : String) {s s' : Sensor}
    (hf : s'.front = s.front) (ho : n ∈ ns → s' = s) :
    Agree ns { w with sensors := w.sensors.insert n s } { w' with sensors := w'.sensors.insert n s' } := by
  refine ⟨?_, fun m => ?_, fun m hm => ?_⟩
  · show ({ w' with sensors := _ } : World) = _
    conv_lhs => rw [h.same]
  · simp only [OMap.find?_insert]
    split_ifs
    · exact congrArg some hf
    · exact h.front m
  · simp only [OMap.find?_insert]
    split_ifs with e
    · rw [ho (e ▸ hm)]
    · exact h.own m hm

theorem alone_step {o : Opts} {i : Int} {ns : List String} {d d' d1 : Daemon} {e : DEvent} (h : Alone i ns d d')
    (hs : d.step o e = .ok d1) :
    ∃ d1' t, d'.step o e = .ok d1' ∧ Alone i ns d1 d1' ∧
      (e = .tick i → d1.w.trace = d.w.trace ++ t ∧ d1'.w.trace = d'.w.trace ++ t) := by
  obtain ⟨z, cnt, hz, hz', hn⟩ := h.zone
  cases e with
  | outside nf nt ho rf fi bo =>
    cases hs
    exact ⟨_, [], rfl, ⟨⟨rfl, h.agree.front, h.agree.own⟩, h.zone, h.none, h.others⟩, by simp⟩
  | signal n t m =>
    have hs : d.signal o n t m = .ok d1 := hs
    show ∃ d1' t', d'.signal o n t m = .ok d1' ∧ _
    unfold Daemon.signal at hs ⊢
    rcases h.agree.cases n with ⟨h1, h2⟩ | ⟨s, s', h1, h2, hf⟩
    · rw [h1] at hs
      rw [h2]
      cases hs
      exact ⟨d', [], rfl, h, by simp⟩
    · rw [h1] at hs
      rw [h2]
      dsimp only at hs ⊢
      rcases front_cases hf with ⟨r, wr, wr', q1, q2⟩ | ⟨v, u, q1, q2⟩
      · rw [q1] at hs
        rw [q2]
        cases r with
        | passive p =>
          obtain ⟨p', hp, hs⟩ := bind_eq_ok.1 hs
          cases hs
          refine ⟨_, [], bind_eq_ok.2 ⟨p', hp, rfl⟩, ⟨h.agree.insert n ?_ ?_, h.zone, h.none, h.others⟩, by simp⟩
          · unfold Sensor.front at hf ⊢
            simp only [Prod.mk.injEq] at hf ⊢
            exact ⟨hf.1, hf.2.1, hf.2.2.1, trivial⟩
          · intro hm
            have := h.agree.own n hm
            rw [h1, h2] at this
            cases this
            rw [q1] at q2
            cases q2
            rfl
        | sysfs | writeOnly | null => cases hs; exact ⟨d', [], rfl, h, by simp⟩
      · rw [q1] at hs
        rw [q2]
        cases hs
        exact ⟨d', [], rfl, h, by simp⟩
  | hostWrite n t v =>
    simp only [Daemon.step] at hs ⊢
    rcases h.agree.cases n with ⟨h1, h2⟩ | ⟨s, s', h1, h2, hf⟩
    · rw [h1] at hs
      rw [h2]
      cases hs
      exact ⟨d', [], rfl, h, by simp⟩
    · rw [h1] at hs
      rw [h2]
      cases hs
      refine ⟨_, [], rfl, ⟨h.agree.insert n ?_ ?_, h.zone, h.none, h.others⟩, by simp⟩
      · unfold Sensor.hostWrite
        rcases front_cases hf with ⟨r, wr, wr', q1, q2⟩ | ⟨v, u, q1, q2⟩
        · rw [q1, q2]; exact hf
        · rw [q1, q2]
          unfold Sensor.front at hf ⊢
          simp only [Prod.mk.injEq] at hf ⊢
          exact ⟨hf.1, hf.2.1, hf.2.2.1, trivial⟩
      · intro hm
        have := h.agree.own n hm
        rw [h1, h2] at this
        cases this
        rfl
  | manual j b =>
    cases hs
    refine ⟨_, [], rfl, ⟨by rw [onZone_w, onZone_w]; exact h.agree, ?_, fun k hk => ?_, fun k z' cnt' hk hz' => ?_⟩, by simp⟩
    · by_cases e : i = j
      · exact ⟨{ z with d := z.d.setManualMode b }, cnt, by rw [onZone_find?, if_pos e, ← e, hz]; rfl,
          by rw [onZone_find?, if_pos e, ← e, hz']; rfl, hn⟩
      · exact ⟨z, cnt, by rw [onZone_find?, if_neg e, hz], by rw [onZone_find?, if_neg e, hz'], hn⟩
    · rw [onZone_find?]
      split_ifs with e
      · rw [← e, h.none k hk]; rfl
      · exact h.none k hk
    · rw [onZone_find?] at hz'
      split_ifs at hz' with e
      · obtain ⟨⟨zz, cc⟩, q1, q2⟩ := Option.map_eq_some_iff.1 hz'
        cases q2
        exact h.others k zz cc hk (e ▸ q1)
      · exact h.others k z' cnt' hk hz'
  | enable j l b =>
    cases hs
    refine ⟨_, [], rfl, ⟨by rw [onZone_w, onZone_w]; exact h.agree, ?_, fun k hk => ?_, fun k z' cnt' hk hz' => ?_⟩, by simp⟩
    · by_cases e : i = j
      · exact ⟨{ z with d := z.d.setEnabled l b }, cnt, by rw [onZone_find?, if_pos e, ← e, hz]; rfl,
          by rw [onZone_find?, if_pos e, ← e, hz']; rfl, hn⟩
      · exact ⟨z, cnt, by rw [onZone_find?, if_neg e, hz], by rw [onZone_find?, if_neg e, hz'], hn⟩
    · rw [onZone_find?]
      split_ifs with e
      · rw [← e, h.none k hk]; rfl
      · exact h.none k hk
    · rw [onZone_find?] at hz'
      split_ifs at hz' with e
      · obtain ⟨⟨zz, cc⟩, q1, q2⟩ := Option.map_eq_some_iff.1 hz'
        cases q2
        exact h.others k zz cc hk (e ▸ q1)
      · exact h.others k z' cnt' hk hz'
  | tick j =>
    simp only [Daemon.step] at hs ⊢
    by_cases e : j = i
    · subst e
      rw [hz] at hs
      rw [hz']
      obtain ⟨⟨w1, z1, cnt1⟩, ht, hs⟩ := bind_eq_ok.1 hs
      cases hs
      obtain ⟨w1', t, a1, a2, a3, a4⟩ := h.agree.tick (fun c hc n hnc => hn n ⟨c, hc, hnc⟩) ht
      refine ⟨⟨w1', d'.zones.insert j (z1, cnt1)⟩, t, bind_eq_ok.2 ⟨_, a1, rfl⟩, ⟨a2, ?_, fun k hk => ?_, fun k z' cnt' hk hzk => ?_⟩,
        fun _ => ⟨a3, a4⟩⟩
      · exact ⟨z1, cnt1, OMap.find?_insert_self _ _ _, OMap.find?_insert_self _ _ _,
          fun n hnn => hn n (fanNames_congr (tick_flags ht).2 hnn)⟩
      · exact (OMap.find?_insert_ne _ hk _).trans (h.none k hk)
      · exact h.others k z' cnt' hk ((OMap.find?_insert_ne _ hk _).symm.trans hzk)
    · rw [h.none j e]
      cases hj : d.zones.find? j with
      | none =>
        rw [hj] at hs
        cases hs
        exact ⟨d', [], rfl, h, fun hh => by cases hh; exact absurd rfl e⟩
      | some x =>
        obtain ⟨zj, cj⟩ := x
        rw [hj] at hs
        obtain ⟨⟨w1, z1, cnt1⟩, ht, hs⟩ := bind_eq_ok.1 hs
        cases hs
        have ha := tick_after ht
        refine ⟨d', [], rfl, ⟨⟨?_, fun n => (h.agree.front n).trans (ha.front n).symm, fun n hnn => ?_⟩, ?_, h.none,
          fun k z' cnt' hk hzk => ?_⟩, fun hh => by cases hh; exact absurd rfl e⟩
        · show d'.w = { w1 with sensors := _, trace := _ }
          rw [ha.same, h.agree.same]
        · refine (h.agree.own n hnn).trans (tick_only ht ?_).symm
          intro c hc hnc
          exact h.others j zj cj e hj n ⟨c, hc, hnc⟩ hnn
        · exact ⟨z, cnt, (OMap.find?_insert_ne _ (Ne.symm e) _).trans hz, hz', hn⟩
        · by_cases ek : k = j
          · subst ek
            rw [OMap.find?_insert_self] at hzk
            cases hzk
            exact fun n hnn => h.others k zj cj hk hj n (fanNames_congr (tick_flags ht).2 hnn)
          · rw [OMap.find?_insert_ne _ ek] at hzk
            exact h.others k z' cnt' hk hzk

theorem alone_run {o : Opts} {i : Int} {ns : List String} : ∀ {es : List DEvent} {d d' d1 : Daemon}, Alone i ns d d' →
    d.run o es = .ok d1 → ∃ d1', d'.run o es = .ok d1' ∧ Alone i ns d1 d1' ∧ writesOf o i d' es = writesOf o i d es
  | [], d, d', d1, h, hr => by cases hr; exact ⟨d', rfl, h, rfl⟩
  | e :: es, d, d', d1, h, hr => by
    obtain ⟨d2, hs, hr⟩ := bind_eq_ok.1 hr
    obtain ⟨d2', t, a1, a2, a3⟩ := alone_step h hs
    obtain ⟨d1', b1, b2, b3⟩ := alone_run a2 hr
    refine ⟨d1', bind_eq_ok.2 ⟨d2', a1, b1⟩, b2, ?_⟩
    unfold writesOf
    rw [hs, a1]
    cases e with
    | tick j =>
      dsimp only
      split_ifs with e
      · obtain ⟨q1, q2⟩ := a3 (by rw [e])
        rw [q1, q2, b3, List.drop_left, List.drop_left]
      · exact b3
    | outside | signal | hostWrite | manual | enable => exact b3

/-- **C101** Zones are independent: a zone whose fans no other zone uses behaves as if it were the only one. If the
daemon starts with all zones then it also starts with this zone alone, and for all events it survives, the daemon with
this zone alone reaches the same state of the zone and writes the same values to its fans in the same order. -/
theorem C101_alone {o : Opts} {bus : BuildBus} {now : Int} {w : World} {sensors : OMap String SensorConfig}
    {pids : OMap Int PIDConf} {configs : OMap Int ZoneConfig} (hw : pids.WF) (hc : ∀ e ∈ pids.entries, OMap.WF e.2)
    {d : Daemon} (hl : Daemon.launch o bus now w sensors pids configs = .ok d) {i : Int} {conf : PIDConf}
    (hp : pids.find? i = some conf)
    (hsep : ∀ j conf', j ≠ i → pids.find? j = some conf' → NoSharedFan conf.entries conf'.entries) :
    ∃ d', Daemon.launch o bus now w sensors (({} : OMap Int PIDConf).insert i conf) configs = .ok d' ∧
      ∀ es d1, d.run o es = .ok d1 → ∃ d1', d'.run o es = .ok d1' ∧
        d1'.zones.find? i = d1.zones.find? i ∧ writesOf o i d' es = writesOf o i d es := by
  obtain ⟨m, zones, hL⟩ := launch_spec hl
  obtain ⟨z, hz, hb⟩ := (buildZoneList_find? (OMap.wf_nodup hw) hL.built i).1 conf ((OMap.mem_entries_iff hw i conf).2 hp)
  obtain ⟨z0, hz0, hf0⟩ := hL.started i z hz
  have hlaunch : Daemon.launch o bus now w sensors (({} : OMap Int PIDConf).insert i conf) configs =
      .ok ⟨{ w with sensors := m.sensors }, ({} : OMap Int (Zone × Nat)).insert i (z0, 0)⟩ := by
    unfold Daemon.launch
    have hb' : buildZones (({} : OMap Int PIDConf).insert i conf) configs = .ok (({} : OMap Int Zone).insert i z) := by
      unfold buildZones
      show buildZoneList configs {} [(i, conf)] = _
      unfold buildZoneList
      rw [hb, ok_bind]
      rfl
    rw [hL.made, ok_bind, hb', ok_bind, if_neg (by
      rw [Bool.not_eq_true, OMap.isEmpty_false_iff]; exact ⟨i, z, OMap.find?_insert_self _ _ _⟩)]
    rw [hL.world] at hz0
    show (startZones o _ {} [(i, z)] >>= _) = _
    unfold startZones
    rw [hz0, ok_bind]
    rfl
  refine ⟨_, hlaunch, fun es d1 hr => ?_⟩
  have names : ∀ j confj zj zj0, pids.find? j = some confj → zones.find? j = some zj → zj.start o d.w = .ok zj0 →
      ∀ n, zj0.fanNames n → ∃ e ∈ confj.entries, IsFan e ∧ ∃ x ∈ e.2.inputs, x.name = n := by
    intro j confj zj zj0 hpj hzj hsj n ⟨c, hcc, hn⟩
    rw [(start_flags hsj).2] at hcc
    obtain ⟨zb, cfg, q1, _, q3⟩ := (C64_zones hw hc hL.built j).1 confj hpj
    rw [hzj] at q1
    cases q1
    rw [q3.fans] at hcc
    obtain ⟨e, he, hce⟩ := List.mem_map.1 hcc
    obtain ⟨he1, he2⟩ := List.mem_filter.1 he
    unfold fanOf at hce
    split_ifs at hce
    cases hce
    obtain ⟨x, hx, hxn⟩ := List.mem_map.1 hn
    exact ⟨e, he1, by simpa using he2, x, hx, hxn⟩
  have hA : Alone i ((conf.entries.filter IsFan).flatMap (fun e => e.2.inputs.map SensorInput.name)) d
      ⟨{ w with sensors := m.sensors }, ({} : OMap Int (Zone × Nat)).insert i (z0, 0)⟩ := by
    refine ⟨⟨?_, fun n => ?_, fun n _ => ?_⟩, ⟨z0, 0, hf0, OMap.find?_insert_self _ _ _, fun n hn => ?_⟩, fun j hj => ?_,
      fun j zj cj hj hzj n hn hmem => ?_⟩
    · rw [hL.world]
    · rw [hL.world]
    · rw [hL.world]
    · obtain ⟨e, h1, h2, x, h3, rfl⟩ := names i conf z z0 hp hz hz0 n hn
      exact List.mem_flatMap.2 ⟨e, List.mem_filter.2 ⟨h1, by simpa using h2⟩, List.mem_map.2 ⟨x, h3, rfl⟩⟩
    · exact (OMap.find?_insert_ne _ hj _).trans (OMap.find?_empty _)
    · cases hpj : pids.find? j with
      | none =>
        have := hL.only j ((C64_zones hw hc hL.built j).2 hpj)
        rw [hzj] at this
        cases this
      | some confj =>
        obtain ⟨zb, cfg, q1, _, _⟩ := (C64_zones hw hc hL.built j).1 confj hpj
        obtain ⟨zs, q2, q3⟩ := hL.started j zb q1
        rw [hzj] at q3
        cases q3
        obtain ⟨e', h1, h2, x', h3, rfl⟩ := names j confj zb zj hpj q1 q2 n hn
        obtain ⟨e, g1, g2⟩ := List.mem_flatMap.1 hmem
        obtain ⟨g1, g3⟩ := List.mem_filter.1 g1
        obtain ⟨x, g4, g5⟩ := List.mem_map.1 g2
        exact hsep j confj hj hpj e g1 (by simpa using g3) x g4 e' h1 h2 x' h3 g5
  obtain ⟨d1', b1, b2, b3⟩ := alone_run hA hr
  refine ⟨d1', b1, ?_, b3⟩
  obtain ⟨zz, cc, c1, c2, _⟩ := b2.zone
  rw [c1, c2]

end

namespace Ex
section
attribute [local instance] binary64

/-- two fans set over D-Bus and two temperature sensors -/
def sensors101 : OMap String SensorConfig :=
  [("fan0", ⟨"fan", "/xyz/openbmc_project/sensors/fan_tach/fan0", "/xyz/openbmc_project/control/fanpwm/pwm0", 0, 255, 0,
      false, true, false⟩),
    ("fan1", ⟨"fan", "/xyz/openbmc_project/sensors/fan_tach/fan1", "/xyz/openbmc_project/control/fanpwm/pwm1", 0, 255, 0,
      false, true, false⟩),
    ("cpu", ⟨"temp", "/xyz/openbmc_project/sensors/temperature/cpu", "", 0, 0, 0, false, true, false⟩)].foldl
    (fun m e => m.insert e.1 e.2) {}

def loops101 (fan : String) : PIDConf :=
  (({} : PIDConf).insert "fans" (loop99 "fan" fan 0 1 0)).insert "temps" (loop99 "temp" "cpu" (-2) 0 90)
/-- zone 1 with `fan0`, zone 2 with the fan given -/
def pids101 (fan : String) : OMap Int PIDConf :=
  (({} : OMap Int PIDConf).insert 1 (loops101 "fan0")).insert 2 (loops101 fan)
/-- the lowest set points are 20 and 40 percent -/
def zones101 : OMap Int ZoneConfig :=
  (({} : OMap Int ZoneConfig).insert 1 zone99).insert 2 { zone99 with
    minThermalOutput := 40 }

def launch101 (pids : OMap Int PIDConf) : Res Daemon := Daemon.launch {} bus98 0 world99 sensors101 pids zones101
def events101 : List DEvent := [.tick 1, .tick 2, .tick 1, .signal "cpu" 5 (alarm99 true), .tick 2, .tick 1, .tick 1]
def writes101 (pids : OMap Int PIDConf) (es : List DEvent) : Res (List Effect) := do
  let d ← launch101 pids
  let _ ← d.run {} es
  .ok (writesOf {} 1 d es)

theorem pids101_wf (fan : String) : (pids101 fan).WF := OMap.wf_insert (OMap.wf_insert OMap.wf_empty _ _) _ _
theorem loops101_wf (fan : String) : (loops101 fan).WF := OMap.wf_insert (OMap.wf_insert OMap.wf_empty _ _) _ _

/-- C101: separate fans -/
example : ∃ d, launch101 (pids101 "fan1") = .ok d ∧ ∃ d', launch101 (({} : OMap Int PIDConf).insert 1 (loops101 "fan0")) = .ok d' ∧
    ∀ es d1, d.run {} es = .ok d1 → ∃ d1', d'.run {} es = .ok d1' ∧ d1'.zones.find? 1 = d1.zones.find? 1 ∧
      writesOf {} 1 d' es = writesOf {} 1 d es := by
  obtain ⟨d, h, _⟩ := ok_of_any (x := launch101 (pids101 "fan1")) (P := fun _ : Daemon => true) (by decide +kernel)
  refine ⟨d, h, C101_alone (pids101_wf _) ?_ h
    (by unfold pids101; rw [OMap.find?_insert, if_neg (by decide), OMap.find?_insert_self]) ?_⟩
  · intro e he
    have := (OMap.mem_entries_iff (pids101_wf "fan1") e.1 e.2).1 he
    unfold pids101 at this
    rw [OMap.find?_insert, OMap.find?_insert] at this
    split_ifs at this
    · rw [← Option.some.inj this]; exact loops101_wf _
    · rw [← Option.some.inj this]; exact loops101_wf _
    · rw [OMap.find?_empty] at this
      cases this
  · intro j conf' hj hf
    unfold pids101 at hf
    rw [OMap.find?_insert, OMap.find?_insert, if_neg hj] at hf
    split_ifs at hf
    · cases hf
      unfold NoSharedFan
      decide +kernel
    · cases hf

/-- the alarm speeds up the fan of zone 1 from 20 to 90 percent -/
example : ∃ l, writes101 (pids101 "fan1") events101 = .ok l ∧ decide (l =
    [.dbusSet "/xyz/openbmc_project/control/fanpwm/pwm0" 51 true, .dbusSet "/xyz/openbmc_project/control/fanpwm/pwm0" 229 true]) = true :=
  ok_of_any (P := fun l : List Effect => decide (l = [.dbusSet "/xyz/openbmc_project/control/fanpwm/pwm0" 51 true,
    .dbusSet "/xyz/openbmc_project/control/fanpwm/pwm0" 229 true])) (by decide +kernel)

/-- **C101** (finding) Zones that share a fan are not independent: each writes its own value in turn, and the fan follows
whoever came last. -/
theorem C101_shared : ∃ l, writes101 (pids101 "fan0") [.tick 1, .tick 2, .tick 1] = .ok l ∧
    ∃ l', writes101 (({} : OMap Int PIDConf).insert 1 (loops101 "fan0")) [.tick 1, .tick 2, .tick 1] = .ok l' ∧
    l.length = 2 ∧ l'.length = 1 := by
  obtain ⟨l, h, h1⟩ := ok_of_any (x := writes101 (pids101 "fan0") [.tick 1, .tick 2, .tick 1])
    (P := fun l : List Effect => decide (l.length = 2)) (by decide +kernel)
  obtain ⟨l', h', h1'⟩ := ok_of_any (x := writes101 (({} : OMap Int PIDConf).insert 1 (loops101 "fan0")) [.tick 1, .tick 2, .tick 1])
    (P := fun l : List Effect => decide (l.length = 1)) (by decide +kernel)
  exact ⟨l, h, l', h', of_decide_eq_true h1, of_decide_eq_true h1'⟩

end
end Ex
end Verif
