import Verif.Spec.Remote
import Verif.Lemmas.Demand
import Verif.Props.Daemon
import Verif.Props.Ipmi
import Verif.Props.Host

/-! # Remote control: lemmas -/

namespace Verif
open Dbl

/-! ## Paths -/

theorem slash_not_in_int (i : Int) : '/' ∉ (toString i).toList := by
  have hn : ∀ n : Nat, '/' ∉ (Nat.repr n).toList := by
    intro n h
    rw [Nat.toList_repr] at h
    have := Nat.isDigit_of_mem_toDigits (by decide) (by decide) h
    exact absurd this (by decide)
  cases i with
  | ofNat n => exact hn n
  | negSucc n =>
    intro h
    have e : toString (Int.negSucc n) = "-" ++ Nat.repr (n + 1) := rfl
    rw [e, String.toList_append] at h
    rcases List.mem_append.1 h with h | h
    · exact absurd h (by decide)
    · exact hn _ h

theorem split_at_slash : ∀ {a b x y : List Char}, '/' ∉ a → '/' ∉ b → a ++ '/' :: x = b ++ '/' :: y → a = b ∧ x = y
  | [], [], _, _, _, _, h => by cases h; exact ⟨rfl, rfl⟩
  | [], c :: b, _, _, _, hb, h => by cases h; exact absurd List.mem_cons_self hb
  | c :: a, [], _, _, ha, _, h => by cases h; exact absurd List.mem_cons_self ha
  | c :: a, c' :: b, x, y, ha, hb, h => by
    rw [List.cons_append, List.cons_append, List.cons.injEq] at h
    obtain ⟨rfl, h⟩ := h
    obtain ⟨rfl, rfl⟩ := split_at_slash (fun m => ha (List.mem_cons_of_mem _ m)) (fun m => hb (List.mem_cons_of_mem _ m)) h
    exact ⟨rfl, rfl⟩

theorem zoneObject_inj {i j : Int} (h : zoneObject i = zoneObject j) : i = j :=
  Int.repr_injective (append_left_cancel h)

theorem loopObject_inj {i j : Int} {m n : String} (h : zoneObject i ++ "/" ++ m = zoneObject j ++ "/" ++ n) : i = j ∧ m = n := by
  unfold zoneObject at h
  have h1 := congrArg String.toList h
  simp only [String.toList_append, List.append_assoc] at h1
  have h2 := List.append_cancel_left h1
  have e : "/".toList = ['/'] := rfl
  rw [e] at h2
  obtain ⟨h3, h4⟩ := split_at_slash (slash_not_in_int i) (slash_not_in_int j) h2
  exact ⟨Int.repr_injective (String.toList_inj.1 h3), String.toList_inj.1 h4⟩

theorem zoneControlPath_eq (i : Int) : zoneControlPath i = zoneObject i := rfl

theorem pidControlPath_eq (i : Int) (n : String) : pidControlPath i n = zoneObject i ++ "/" ++ n := rfl

section
variable [F : FloatModel]

/-! ## The objects -/

omit F in
theorem find_holds {α : Type} {P : α → Prop} [DecidablePred P] {l : List α} {a : α} (h : l.find? (fun x => decide (P x)) = some a) :
    P a := by
  have := List.find?_some h
  exact of_decide_eq_true this

omit F in
theorem OMap.mem_keys {K V : Type} [LT K] [DecidableEq K] {m : OMap K V} {k : K} : (∃ v, (k, v) ∈ m.entries) ↔ m.find? k ≠ none := by
  constructor
  · rintro ⟨v, hv⟩ h
    exact (OMap.lookupL_none_iff k m.entries).1 h _ hv rfl
  · intro h
    by_contra hne
    exact h ((OMap.lookupL_none_iff k m.entries).2 (fun a ha hk => hne ⟨a.2, by rw [← hk]; exact ha⟩))

theorem zoneAt_some {d : Daemon} {i : Int} (h : d.zones.find? i ≠ none) : ∃ x, d.zoneAt (zoneObject i) = some (i, x) := by
  obtain ⟨x, hx⟩ := OMap.mem_keys.2 h
  unfold Daemon.zoneAt
  cases hf : d.zones.entries.find? (fun e => decide (zoneControlPath e.1 = zoneObject i)) with
  | none =>
    have := List.find?_eq_none.1 hf _ hx
    simp [zoneControlPath_eq] at this
  | some y =>
    have := List.find?_some hf
    obtain ⟨j, y⟩ := y
    have e : j = i := zoneObject_inj (of_decide_eq_true this)
    rw [e]
    exact ⟨_, rfl⟩

theorem zoneAt_spec {d : Daemon} {path : String} {e : Int × (Zone × Nat)} (h : d.zoneAt path = some e) :
    path = zoneObject e.1 ∧ d.zones.find? e.1 ≠ none := by
  unfold Daemon.zoneAt at h
  exact ⟨(find_holds h).symm, OMap.mem_keys.1 ⟨_, List.mem_of_find?_eq_some h⟩⟩

theorem zoneAt_none {d : Daemon} {i : Int} (h : d.zones.find? i = none) : d.zoneAt (zoneObject i) = none := by
  cases hz : d.zoneAt (zoneObject i) with
  | none => rfl
  | some e =>
    obtain ⟨h1, h2⟩ := zoneAt_spec hz
    rw [← zoneObject_inj h1] at h2
    exact absurd h h2

theorem switchOf_iff {d : Daemon} (hw : d.zones.WF) {i : Int} {n : String} :
    d.switchOf i n ≠ none ↔ ∃ e ∈ d.zones.entries, e.1 = i ∧ ∃ p ∈ e.2.1.d.procs.entries, p.1 = n := by
  unfold Daemon.switchOf
  constructor
  · intro h
    cases hz : d.zones.find? i with
    | none => rw [hz] at h; exact absurd rfl h
    | some e =>
      rw [hz] at h
      have h' : e.1.d.procs.find? n ≠ none := by
        intro hn
        apply h
        show (e.1.d.procs.find? n).map _ = none
        rw [hn]; rfl
      obtain ⟨p, hp⟩ := OMap.mem_keys.2 h'
      exact ⟨(i, e), (OMap.mem_entries_iff hw _ _).2 hz, rfl, _, hp, rfl⟩
  · rintro ⟨⟨j, e⟩, he, rfl, ⟨m, p⟩, hp, rfl⟩ h
    rw [(OMap.mem_entries_iff hw _ _).1 he] at h
    have h' : e.1.d.procs.find? m ≠ none := OMap.mem_keys.1 ⟨_, hp⟩
    have h : (e.1.d.procs.find? m).map (·.enabled) = none := h
    rw [Option.map_eq_none_iff] at h
    exact h' h

theorem loopAt_spec {d : Daemon} (hw : d.zones.WF) {path : String} {e : Int × String} (h : d.loopAt path = some e) :
    path = zoneObject e.1 ++ "/" ++ e.2 ∧ d.switchOf e.1 e.2 ≠ none := by
  unfold Daemon.loopAt at h
  refine ⟨(find_holds (P := fun x : Int × String => pidControlPath x.1 x.2 = path) h).symm, (switchOf_iff hw).2 ?_⟩
  obtain ⟨x, hx, he⟩ := List.mem_flatMap.1 (List.mem_of_find?_eq_some h)
  obtain ⟨p, hp, rfl⟩ := List.mem_map.1 he
  exact ⟨x, hx, rfl, p, hp, rfl⟩

theorem loopAt_some {d : Daemon} (hw : d.zones.WF) {i : Int} {n : String} (h : d.switchOf i n ≠ none) :
    d.loopAt (zoneObject i ++ "/" ++ n) = some (i, n) := by
  obtain ⟨e, he, rfl, p, hp, rfl⟩ := (switchOf_iff hw).1 h
  have hm : (e.1, p.1) ∈ d.zones.entries.flatMap (fun e => e.2.1.d.procs.entries.map (fun p => (e.1, p.1))) :=
    List.mem_flatMap.2 ⟨e, he, List.mem_map.2 ⟨p, hp, rfl⟩⟩
  cases hf : d.loopAt (zoneObject e.1 ++ "/" ++ p.1) with
  | none =>
    have := List.find?_eq_none.1 hf _ hm
    simp [pidControlPath_eq] at this
  | some y =>
    obtain ⟨a, b⟩ := y
    obtain ⟨h1, h2⟩ := loopObject_inj (loopAt_spec hw hf).1
    rw [h1, h2]

theorem loopAt_none {d : Daemon} (hw : d.zones.WF) {i : Int} {n : String} (h : d.switchOf i n = none) :
    d.loopAt (zoneObject i ++ "/" ++ n) = none := by
  cases hf : d.loopAt (zoneObject i ++ "/" ++ n) with
  | none => rfl
  | some y =>
    obtain ⟨a, b⟩ := y
    obtain ⟨h1, h2⟩ := loopAt_spec hw hf
    obtain ⟨rfl, rfl⟩ := loopObject_inj h1
    exact absurd h h2

/-- what a call is for the daemon -/
theorem accept_iff {d : Daemon} (hw : d.zones.WF) {hosts : List (String × String)} (hh : (hosts.map Prod.fst).Nodup) {now : Int}
    {c : SetCall} {e : DEvent} : d.accept hosts now c = some e ↔
      (∃ i b, AsksMode c i b ∧ d.manualOf i ≠ none ∧ e = .manual i b) ∨
      (∃ i n b, AsksSwitch c i n b ∧ d.switchOf i n ≠ none ∧ e = .enable i n b) ∨
      (∃ h ∈ hosts, ∃ v, AsksValue c h.1 v ∧ e = .hostWrite h.2 now v) := by
  have hmo : ∀ i, d.manualOf i ≠ none ↔ d.zones.find? i ≠ none := by
    intro i
    unfold Daemon.manualOf
    rw [Ne, Option.map_eq_none_iff]
  constructor
  · intro h
    obtain ⟨sv, pa, ifc, pr, va⟩ := c
    unfold Daemon.accept at h
    dsimp only at h
    split_ifs at h with h1 h2 h3 h4 h5
    · cases va with
      | int | dbl => cases h
      | bool b =>
        obtain ⟨x, hx, rfl⟩ := Option.map_eq_some_iff.1 h
        obtain ⟨h6, h7⟩ := zoneAt_spec hx
        exact .inl ⟨x.1, b, by rw [AsksMode, h1, h2.1, h2.2, h6]; rfl, (hmo _).2 h7, rfl⟩
    · cases va with
      | int | dbl => cases h
      | bool b =>
        obtain ⟨x, hx, rfl⟩ := Option.map_eq_some_iff.1 h
        obtain ⟨h6, h7⟩ := loopAt_spec hw hx
        exact .inr (.inl ⟨x.1, x.2, b, by rw [AsksSwitch, h1, h3.1, h3.2, h6]; rfl, h7, rfl⟩)
    · cases va with
      | int | bool => cases h
      | dbl v =>
        obtain ⟨x, hx, rfl⟩ := Option.map_eq_some_iff.1 h
        exact .inr (.inr ⟨x, List.mem_of_find?_eq_some hx, v,
          by rw [AsksValue, h4, h5.1, h5.2, ← find_holds (P := fun h : String × String => h.1 = pa) hx]; rfl, rfl⟩)
  · rintro (⟨i, b, rfl, h, rfl⟩ | ⟨i, n, b, rfl, h, rfl⟩ | ⟨x, hx, v, rfl, rfl⟩)
    · obtain ⟨y, hy⟩ := zoneAt_some ((hmo i).1 h)
      unfold Daemon.accept
      refine (if_pos rfl).trans ((if_pos ⟨rfl, rfl⟩).trans ?_)
      show (d.zoneAt (zoneObject i)).map _ = _
      rw [hy]; rfl
    · have h0 : ¬ (enableInterface = modeInterface ∧ "Enabled" = "Manual") := by decide
      unfold Daemon.accept
      refine (if_pos rfl).trans ((if_neg h0).trans ((if_pos ⟨rfl, rfl⟩).trans ?_))
      show (d.loopAt (zoneObject i ++ "/" ++ n)).map _ = _
      rw [loopAt_some hw h]; rfl
    · have h0 : ¬ ("xyz.openbmc_project.Hwmon.external" = fanCtrlService) := by decide
      unfold Daemon.accept
      refine (if_neg h0).trans ((if_pos rfl).trans ((if_pos ⟨rfl, rfl⟩).trans ?_))
      show (hosts.find? (fun h => decide (h.1 = x.1))).map _ = _
      cases hf : hosts.find? (fun h => decide (h.1 = x.1)) with
      | none =>
        have := List.find?_eq_none.1 hf _ hx
        simp at this
      | some y =>
        have he : y.1 = x.1 := find_holds (P := fun h : String × String => h.1 = x.1) hf
        have : y = x := List.inj_on_of_nodup_map hh (List.mem_of_find?_eq_some hf) hx he
        rw [this]; rfl

/-! ## What stays while the daemon runs -/

theorem startZones_wf {o : Opts} {w : World} : ∀ {l : List (Int × Zone)} {acc zs : OMap Int (Zone × Nat)}, acc.WF →
    startZones o w acc l = .ok zs → zs.WF
  | [], _, _, hw, h => by cases h; exact hw
  | (i, z) :: l, acc, zs, hw, h => by
    obtain ⟨z0, _, h⟩ := bind_eq_ok.1 h
    exact startZones_wf (OMap.wf_insert hw _ _) h

theorem launch_wf {o : Opts} {bus : BuildBus} {now : Int} {w : World} {sensors : OMap String SensorConfig} {pids : OMap Int PIDConf}
    {configs : OMap Int ZoneConfig} {d : Daemon} (h : Daemon.launch o bus now w sensors pids configs = .ok d) : d.zones.WF := by
  unfold Daemon.launch at h
  obtain ⟨m, _, h⟩ := bind_eq_ok.1 h
  obtain ⟨zones, _, h⟩ := bind_eq_ok.1 h
  split_ifs at h
  obtain ⟨zs, h1, h⟩ := bind_eq_ok.1 h
  cases h
  exact startZones_wf OMap.wf_empty h1

theorem onZone_wf {d : Daemon} (hw : d.zones.WF) (i : Int) (f : ZoneData → ZoneData) : (d.onZone i f).zones.WF := by
  unfold Daemon.onZone
  split
  · exact OMap.wf_insert hw _ _
  · exact hw

theorem step_wf {o : Opts} {d d' : Daemon} {e : DEvent} (hw : d.zones.WF) (h : d.step o e = .ok d') : d'.zones.WF := by
  cases e with
  | outside => cases h; exact hw
  | signal n t m =>
    simp only [Daemon.step, Daemon.signal] at h
    split at h
    · split at h
      · obtain ⟨p, _, h⟩ := bind_eq_ok.1 h
        cases h; exact hw
      · cases h; exact hw
    · cases h; exact hw
  | hostWrite n t v =>
    simp only [Daemon.step] at h
    split at h <;> (cases h; exact hw)
  | manual i b => cases h; exact onZone_wf hw _ _
  | enable i l b => cases h; exact onZone_wf hw _ _
  | tick i =>
    simp only [Daemon.step] at h
    split at h
    · obtain ⟨⟨w, z, cnt⟩, _, h⟩ := bind_eq_ok.1 h
      cases h; exact OMap.wf_insert hw _ _
    · cases h; exact hw

theorem run_wf {o : Opts} : ∀ {es : List DEvent} {d d' : Daemon}, d.zones.WF → d.run o es = .ok d' → d'.zones.WF
  | [], _, _, hw, h => by cases h; exact hw
  | e :: es, d, d', hw, h => by
    obtain ⟨d1, h1, h2⟩ := bind_eq_ok.1 h
    exact run_wf (step_wf hw h1) h2

/-- which loops have objects, and whether they are switched on -/
def SameSwitches (z z' : ZoneData) : Prop := ∀ k, (z'.procs.find? k).map (·.enabled) = (z.procs.find? k).map (·.enabled)

theorem SameSwitches.of_eq {z z' : ZoneData} (h : z'.procs = z.procs) : SameSwitches z z' := fun k => by rw [h]

theorem SameSwitches.trans {a b c : ZoneData} (h : SameSwitches a b) (h' : SameSwitches b c) : SameSwitches a c :=
  fun k => (h' k).trans (h k)

theorem addSetPoint_switches {z z' : ZoneData} {v : Dbl} {n : String} (h : z.addSetPoint v n = .ok z') : SameSwitches z z' := by
  obtain ⟨p, _, rfl⟩ := addSetPoint_ok h
  split_ifs <;> exact .of_eq rfl

theorem ctlProcess_switches {z z' : ZoneData} {c c' : ThermalCtl} (h : c.process z = .ok (z', c')) : SameSwitches z z' := by
  cases c with
  | pid c =>
    simp only [ThermalCtl.process] at h
    obtain ⟨⟨z1, c1⟩, h1, h2⟩ := bind_eq_ok.1 h
    cases h2
    unfold ThermalPid.process at h1
    obtain ⟨⟨z2, x⟩, h3, h4⟩ := bind_eq_ok.1 h1
    obtain ⟨z4, h7, h8⟩ := bind_eq_ok.1 h4
    obtain ⟨z5, h9, h10⟩ := bind_eq_ok.1 h8
    cases h10
    exact (SameSwitches.trans (inputProc_only h3).keys (addSetPoint_switches h7)).trans (updateDebug_only h9).keys
  | stepwise c =>
    simp only [ThermalCtl.process] at h
    obtain ⟨⟨z1, c1⟩, h1, h2⟩ := bind_eq_ok.1 h
    cases h2
    unfold StepwiseCtl.process at h1
    obtain ⟨x, _, h4⟩ := bind_eq_ok.1 h1
    dsimp only at h4
    split_ifs at h4
    · cases h4; exact .of_eq rfl
    · obtain ⟨z4, h7, h8⟩ := bind_eq_ok.1 h4
      cases h8
      exact addSetPoint_switches h7

theorem thermalList_switches : ∀ {cs cs' : List ThermalCtl} {z z' : ZoneData},
    processThermalList z cs = .ok (z', cs') → SameSwitches z z'
  | [], _, _, _, h => by cases h; exact .of_eq rfl
  | c :: cs, _, z, z', h => by
    unfold processThermalList at h
    obtain ⟨⟨z1, c1⟩, h1, h2⟩ := bind_eq_ok.1 h
    obtain ⟨⟨z2, cs2⟩, h3, h4⟩ := bind_eq_ok.1 h2
    cases h4
    exact (ctlProcess_switches h1).trans (thermalList_switches h3)

theorem determine_switches {o : Opts} {w : World} {ids : List String} {z z' : ZoneData}
    (h : z.determineMaxSetPointRequest o w ids = .ok z') : SameSwitches z z' := by
  rw [determine_eq] at h
  split_ifs at h
  · obtain ⟨r, _, h⟩ := bind_eq_ok.1 h
    obtain ⟨r, _, h⟩ := bind_eq_ok.1 h
    cases h; exact .of_eq rfl
  · cases h; exact .of_eq rfl

theorem processThermals_switches {o : Opts} {w : World} {z z' : Zone} (h : z.processThermals o w = .ok z') :
    SameSwitches z.d z'.d := by
  unfold Zone.processThermals at h
  obtain ⟨d, h1, h⟩ := bind_eq_ok.1 h
  obtain ⟨⟨d1, ts⟩, h2, h⟩ := bind_eq_ok.1 h
  obtain ⟨d2, h3, h⟩ := bind_eq_ok.1 h
  cases h
  have a : SameSwitches z.d (d.clearSetPoints.clearRPMCeilings) :=
    .of_eq (show d.procs = z.d.procs by rw [(pollAll_spec h1).frame.eq])
  exact (a.trans (thermalList_switches h2)).trans (determine_switches h3)

theorem writeFans_procs {raw0 : Res Int} {pc : Dbl} : ∀ {ns : List String} {w w' : World} {z z' : ZoneData},
    writeFans raw0 pc w z ns = .ok (w', z') → z'.procs = z.procs
  | [], _, _, _, _, h => by cases h; rfl
  | n :: ns, w, w', z, z', h => by
    unfold writeFans at h
    obtain ⟨⟨w1, sn, wr⟩, _, h⟩ := bind_eq_ok.1 h
    obtain ⟨raw, _, h⟩ := bind_eq_ok.1 h
    exact (writeFans_procs h).trans rfl

theorem fanList_procs {o : Opts} : ∀ {cs cs' : List (Option FanPid)} {w w' : World} {z z' : ZoneData},
    processFanList o w z cs = .ok (w', z', cs') → z'.procs = z.procs
  | [], _, _, _, _, _, h => by cases h; rfl
  | none :: _, _, _, _, _, _, h => by cases h
  | some c :: cs, _, w, w', z, z', h => by
    unfold processFanList at h
    obtain ⟨⟨w1, z1, c1⟩, h1, h⟩ := bind_eq_ok.1 h
    obtain ⟨⟨w2, z2, cs2⟩, h2, h⟩ := bind_eq_ok.1 h
    cases h
    unfold FanPid.process at h1
    obtain ⟨x, _, h1⟩ := bind_eq_ok.1 h1
    obtain ⟨⟨w3, z3⟩, h3, h1⟩ := bind_eq_ok.1 h1
    cases h1
    exact (fanList_procs h2).trans (writeFans_procs h3)

theorem tick_switches {o : Opts} {w w' : World} {z z' : Zone} {cnt cnt' : Nat} (h : z.tick o w cnt = .ok (w', z', cnt')) :
    SameSwitches z.d z'.d := by
  have fans : ∀ {z z' : Zone} {w w' : World}, z.processFans o w = .ok (w', z') → SameSwitches z.d z'.d := by
    intro z z' w w' h
    unfold Zone.processFans at h
    obtain ⟨⟨w1, d1, fs⟩, h1, h⟩ := bind_eq_ok.1 h
    cases h
    exact .of_eq (show d1.procs = z.d.procs from fanList_procs h1)
  by_cases hm : z.d.manualMode = true
  · rw [tick_manual hm] at h; cases h; exact .of_eq rfl
  · obtain ⟨d, h1, h2⟩ := tick_auto (by simpa using hm) h
    have a : SameSwitches z.d d := .of_eq (by rw [(pollAll_spec h1).frame.eq])
    rcases h2 with ⟨_, zt, h3, h4, _⟩ | ⟨_, h3, _⟩
    · exact (a.trans (processThermals_switches h3)).trans (fans h4)
    · exact a.trans (fans h3)

theorem setEnabled_find? (z : ZoneData) (n : String) (b : Bool) (k : String) :
    ((z.setEnabled n b).procs.find? k).map (·.enabled) =
      if k = n then (z.procs.find? k).map (fun _ => b) else (z.procs.find? k).map (·.enabled) := by
  unfold ZoneData.setEnabled
  cases h : z.procs.find? n with
  | none =>
    split_ifs with hk
    · rw [hk, h]; rfl
    · rfl
  | some p =>
    show ((z.procs.insert n _).find? k).map _ = _
    rw [OMap.find?_insert]
    split_ifs with hk
    · rw [hk, h]; rfl
    · rfl

end
end Verif
