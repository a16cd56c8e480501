import Verif.Model.Ipmi
import Verif.Lemmas.OMap
import Verif.Base.Binary64
import Std.Data.String.ToInt

/-! # IPMI: C66, C67, C77 -/

namespace Verif
open Dbl
section

/-- the path of the object of zone number `n` -/
def zonePath (n : Nat) : String := "/xyz/openbmc_project/settings/fanctrl/zone" ++ toString n

/-- **C66** Requests that are too short, have an unknown sub-command or lack the mode byte are rejected without using
the bus and without a reply. -/
theorem C66_rejected (bus : IpmiBus) (req : List UInt8)
    (h : req.length < 2 ∨ (∃ c rest, req = c :: rest ∧ c ≠ 0 ∧ c ≠ 1 ∧ c ≠ 2) ∨ (req.head? = some 1 ∧ req.length < 3)) :
    (manualModeControl bus req).cc = 0xC1 ∧ (manualModeControl bus req).reply = [] ∧
      (manualModeControl bus req).calls = [] := by
  match req, h with
  | [], _ => exact ⟨rfl, rfl, rfl⟩
  | [_], _ => exact ⟨rfl, rfl, rfl⟩
  | c :: z :: rest, h =>
    rcases h with h | ⟨c', rest', e, h0, h1, h2⟩ | ⟨h1, h2⟩
    · simp at h; omega
    · cases e
      simp [manualModeControl, h0, h1, h2, ccInvalidCommand]
    · have hc : c = 1 := by simpa using h1
      have hr : rest = [] := by
        cases rest with
        | nil => rfl
        | cons => simp at h2; omega
      subst hc hr
      exact ⟨rfl, rfl, rfl⟩

/-- **C66** A get request (0: manual mode, 2: failsafe mode) asks the object of the zone once. The reply is one byte with
the property if the bus answers, and an error without reply otherwise. Further bytes are ignored. -/
theorem C66_get (bus : IpmiBus) {command zone : UInt8} (rest : List UInt8) (hz : zone.toNat < 128) {property : String}
    (hc : (command = 0 ∧ property = "Manual") ∨ (command = 2 ∧ property = "FailSafe")) :
    (manualModeControl bus (command :: zone :: rest)).calls = [.getAll (zonePath zone.toNat)] ∧
    (bus.getAll (zonePath zone.toNat) = none → (manualModeControl bus (command :: zone :: rest)).cc = 0xC1 ∧
      (manualModeControl bus (command :: zone :: rest)).reply = []) ∧
    (∀ m b, bus.getAll (zonePath zone.toNat) = some m → m.find? property = some b →
      (manualModeControl bus (command :: zone :: rest)).cc = 0 ∧
      (manualModeControl bus (command :: zone :: rest)).reply = [if b then 1 else 0] ∧
      (manualModeControl bus (command :: zone :: rest)).dataLen = 1) := by
  have hp : ipmiControlPath zone = zonePath zone.toNat := by
    unfold ipmiControlPath toInt8
    rw [if_pos hz]; rfl
  have hm : manualModeControl bus (command :: zone :: rest) = getModeState bus property (command :: zone :: rest) := by
    rcases hc with ⟨rfl, rfl⟩ | ⟨rfl, rfl⟩
    · rfl
    · simp [manualModeControl]
  rw [hm]
  unfold getModeState getFanCtrlProperty
  dsimp only
  rw [hp]
  cases hg : bus.getAll (zonePath zone.toNat) with
  | none => simp [ccInvalidCommand]
  | some m =>
    refine ⟨rfl, by simp, ?_⟩
    intro m' b e hb
    cases e
    simp [hb, ccSuccess]

/-- **C66** A set request writes the manual property of the zone once: any nonzero mode byte means manual. -/
theorem C66_set (bus : IpmiBus) {zone value : UInt8} (rest : List UInt8) (hz : zone.toNat < 128) :
    (manualModeControl bus (1 :: zone :: value :: rest)).calls = [.set (zonePath zone.toNat) "Manual" (decide (value ≠ 0))] ∧
    ((manualModeControl bus (1 :: zone :: value :: rest)).cc = 0 ↔
      bus.set (zonePath zone.toNat) "Manual" (decide (value ≠ 0)) = true) ∧
    (manualModeControl bus (1 :: zone :: value :: rest)).reply = [] := by
  have hp : ipmiControlPath zone = zonePath zone.toNat := by
    unfold ipmiControlPath toInt8
    rw [if_pos hz]; rfl
  have hm : manualModeControl bus (1 :: zone :: value :: rest) = setManualModeState bus (1 :: zone :: value :: rest) := rfl
  rw [hm]
  unfold setManualModeState
  dsimp only
  rw [hp]
  refine ⟨rfl, ?_, rfl⟩
  cases bus.set (zonePath zone.toNat) "Manual" (decide (value ≠ 0)) <;> simp [ccSuccess, ccInvalidCommand]

/-- **C66** (finding) A set request stores no reply but leaves the length at that of the request, so the reply that is
sent consists of as many bytes of whatever the buffer contained. -/
theorem C66_set_reply_length (bus : IpmiBus) (zone value : UInt8) (rest : List UInt8) :
    (manualModeControl bus (1 :: zone :: value :: rest)).dataLen = rest.length + 3 ∧
    (manualModeControl bus (1 :: zone :: value :: rest)).reply.length = 0 :=
  ⟨rfl, rfl⟩

/-- **C66** (finding) A property the object does not have is reported as "off", with success. -/
theorem C66_missing_property (bus : IpmiBus) (zone : UInt8) (rest : List UInt8) {m : OMap String Bool}
    (hb : bus.getAll (ipmiControlPath zone) = some m) (hm : m.find? "FailSafe" = none) :
    (manualModeControl bus (2 :: zone :: rest)).cc = 0 ∧ (manualModeControl bus (2 :: zone :: rest)).reply = [0] := by
  simp [manualModeControl, getModeState, getFanCtrlProperty, hb, hm, ccSuccess]

theorem append_left_cancel {a b c : String} (h : a ++ b = a ++ c) : b = c := by
  have := congrArg String.toList h
  rw [String.toList_append, String.toList_append] at this
  exact String.toList_inj.1 (List.append_cancel_left this)

theorem zoneControlPath_inj {a b : Int} (h : zoneControlPath a = zoneControlPath b) : a = b :=
  Int.repr_injective (append_left_cancel h)

/-- **C67** The claim: a request for zone `n` uses the object of zone `n`. -/
def C67_statement : Prop := ∀ (bus : IpmiBus) (command zone : UInt8) (rest : List UInt8),
  ∀ c ∈ (manualModeControl bus (command :: zone :: rest)).calls,
    c = .getAll (zonePath zone.toNat) ∨ ∃ v, c = .set (zonePath zone.toNat) "Manual" v

/-- every request uses at most the object `ipmiControlPath` says -/
theorem manualModeControl_calls (bus : IpmiBus) (command zone : UInt8) (rest : List UInt8) :
    ∀ c ∈ (manualModeControl bus (command :: zone :: rest)).calls,
      c = .getAll (ipmiControlPath zone) ∨ ∃ v, c = .set (ipmiControlPath zone) "Manual" v := by
  intro c hc
  have hget : ∀ p, c ∈ (getModeState bus p (command :: zone :: rest)).calls → c = .getAll (ipmiControlPath zone) := by
    intro p h
    unfold getModeState at h
    dsimp only at h
    split at h <;> exact List.mem_singleton.1 h
  unfold manualModeControl at hc
  dsimp only at hc
  split_ifs at hc
  · exact .inl (hget _ hc)
  · unfold setManualModeState at hc
    dsimp only at hc
    split at hc
    · rename_i h
      cases h
      exact .inr ⟨_, List.mem_singleton.1 hc⟩
    · cases hc
  · exact .inl (hget _ hc)
  · cases hc

/-- **C67** For zone numbers up to 127 a request uses the object of that zone only. -/
theorem C67_small_partial (bus : IpmiBus) (command : UInt8) {zone : UInt8} (rest : List UInt8) (hz : zone.toNat < 128) :
    ∀ c ∈ (manualModeControl bus (command :: zone :: rest)).calls,
      c = .getAll (zonePath zone.toNat) ∨ ∃ v, c = .set (zonePath zone.toNat) "Manual" v := by
  have hp : ipmiControlPath zone = zonePath zone.toNat := by
    unfold ipmiControlPath toInt8
    rw [if_pos hz]; rfl
  rw [← hp]
  exact manualModeControl_calls bus command zone rest

/-- **C67** (finding) For every zone number from 128 the object that is used belongs to no zone with a number that can be
requested, in particular not to the requested zone. -/
theorem C67_large {zone : UInt8} (hz : 128 ≤ zone.toNat) (n : Nat) : ipmiControlPath zone ≠ zonePath n := by
  intro h
  have h2 : toInt8 zone = (n : Int) := zoneControlPath_inj h
  unfold toInt8 at h2
  rw [if_neg (by omega)] at h2
  have := zone.toNat_lt
  omega

/-- **C67** (finding) The claim does not hold for the code. -/
theorem C67_violated : ¬ C67_statement := by
  intro h
  have h1 := h ⟨fun _ => none, fun _ _ _ => false⟩ 0 200 [] (.getAll (ipmiControlPath 200)) (by simp [manualModeControl, getModeState, getFanCtrlProperty])
  have h2 : ipmiControlPath 200 = zonePath 200 := by
    rcases h1 with h1 | ⟨v, h1⟩
    · exact IpmiCall.getAll.inj h1
    · cases h1
  exact C67_large (zone := 200) (by decide) 200 h2

/-- **C67** Requests for different zones never use the same object. -/
theorem C67_separate {a b : UInt8} (h : ipmiControlPath a = ipmiControlPath b) : a = b := by
  have h2 : toInt8 a = toInt8 b := zoneControlPath_inj h
  unfold toInt8 at h2
  have ha := a.toNat_lt
  have hb := b.toNat_lt
  apply UInt8.toNat_inj.1
  split_ifs at h2 <;> omega

end

section
variable [F : FloatModel]

theorem zoneAt_iff {zones : ZoneObjects} (hwf : zones.WF) (n : Int) :
    zoneAt zones (zoneControlPath n) = (zones.find? n).map (fun z => (n, z)) := by
  unfold zoneAt
  cases hf : zones.find? n with
  | none =>
    rw [Option.map_none, List.find?_eq_none]
    intro e he hc
    have := zoneControlPath_inj (of_decide_eq_true hc)
    have h2 := (OMap.mem_entries_iff hwf e.1 e.2).1 he
    rw [this, hf] at h2
    cases h2
  | some z =>
    cases hg : zones.entries.find? (fun e => decide (zoneControlPath e.1 = zoneControlPath n)) with
    | none =>
      rw [List.find?_eq_none] at hg
      exact absurd (by simp) (hg (n, z) ((OMap.mem_entries_iff hwf n z).2 hf))
    | some e =>
      have h1 := List.find?_some hg
      have h2 := zoneControlPath_inj (of_decide_eq_true h1)
      have h3 := (OMap.mem_entries_iff hwf e.1 e.2).1 (List.mem_of_find?_eq_some hg)
      rw [h2, hf] at h3
      rw [Option.map_some, ← h2, Option.some.inj h3]

theorem path_small {zone : UInt8} (hz : zone.toNat < 128) : ipmiControlPath zone = zoneControlPath zone.toNat := by
  unfold ipmiControlPath toInt8
  rw [if_pos hz]; rfl

/-- **C77** Setting the mode of a zone by IPMI changes the manual mode of exactly this zone, and asking for it afterwards
gives what was set. -/
theorem C77_set_get {zones : ZoneObjects} (hwf : zones.WF) {zone value : UInt8} (hz : zone.toNat < 128) {z : ZoneData}
    (hfind : zones.find? zone.toNat = some z) :
    (serveRequest zones [1, zone, value]).1.cc = 0 ∧
    (serveRequest zones [1, zone, value]).2.find? zone.toNat = some (z.setManualMode (decide (value ≠ 0))) ∧
    (∀ n : Int, n ≠ zone.toNat → (serveRequest zones [1, zone, value]).2.find? n = zones.find? n) ∧
    (serveRequest (serveRequest zones [1, zone, value]).2 [0, zone]).1.cc = 0 ∧
    (serveRequest (serveRequest zones [1, zone, value]).2 [0, zone]).1.reply = [if value = 0 then 0 else 1] := by
  have hat := zoneAt_iff hwf zone.toNat
  rw [hfind, Option.map_some, ← path_small hz] at hat
  have hset : (serveRequest zones [1, zone, value]).2 = zones.insert zone.toNat (z.setManualMode (decide (value ≠ 0))) := by
    unfold serveRequest
    have : (manualModeControl (zoneBus zones) [1, zone, value]).calls = [.set (ipmiControlPath zone) "Manual" (decide (value ≠ 0))] := rfl
    dsimp only
    rw [this]
    simp only [List.foldl_cons, List.foldl_nil, applyCall, if_true, hat]
  have hwf2 := OMap.wf_insert hwf (zone.toNat : Int) (z.setManualMode (decide (value ≠ 0)))
  have hat2 := zoneAt_iff hwf2 zone.toNat
  rw [OMap.find?_insert, if_pos rfl, Option.map_some, ← path_small hz] at hat2
  refine ⟨?_, ?_, ?_, ?_⟩
  · have : (serveRequest zones [1, zone, value]).1.cc =
        if (zoneBus zones).set (ipmiControlPath zone) "Manual" (decide (value ≠ 0)) then ccSuccess else ccInvalidCommand := rfl
    rw [this]
    have hs : (zoneBus zones).set (ipmiControlPath zone) "Manual" (decide (value ≠ 0)) = true := by
      simp [zoneBus, hat]
    rw [hs]; rfl
  · rw [hset, OMap.find?_insert, if_pos rfl]
  · intro n hn
    rw [hset, OMap.find?_insert, if_neg hn]
  · rw [hset]
    have hg : getFanCtrlProperty (zoneBus (zones.insert zone.toNat (z.setManualMode (decide (value ≠ 0))))) zone "Manual" =
        some (decide (value ≠ 0)) := by
      unfold getFanCtrlProperty zoneBus
      dsimp only
      rw [hat2]
      simp [OMap.find?_insert, ZoneData.setManualMode]
    have hr : (serveRequest (zones.insert zone.toNat (z.setManualMode (decide (value ≠ 0)))) [0, zone]).1 =
        getModeState (zoneBus (zones.insert zone.toNat (z.setManualMode (decide (value ≠ 0))))) "Manual" [0, zone] := rfl
    rw [hr]
    unfold getModeState
    dsimp only
    rw [hg]
    by_cases hv : value = 0 <;> simp [hv, ccSuccess]

/-- **C77** Asking for the failsafe state of a zone tells whether the zone has a failed sensor, and changes nothing. -/
theorem C77_failsafe {zones : ZoneObjects} (hwf : zones.WF) {zone : UInt8} (rest : List UInt8) (hz : zone.toNat < 128) {z : ZoneData}
    (hfind : zones.find? zone.toNat = some z) :
    (serveRequest zones (2 :: zone :: rest)).2 = zones ∧ (serveRequest zones (2 :: zone :: rest)).1.cc = 0 ∧
    ((serveRequest zones (2 :: zone :: rest)).1.reply = [1] ↔ ∃ s r, z.failSafeSensors.find? s = some r) ∧
    ((serveRequest zones (2 :: zone :: rest)).1.reply = [0] ↔ ∀ s, z.failSafeSensors.find? s = none) := by
  have hat := zoneAt_iff hwf zone.toNat
  rw [hfind, Option.map_some, ← path_small hz] at hat
  have hg : getFanCtrlProperty (zoneBus zones) zone "FailSafe" = some z.getFailSafeMode := by
    unfold getFanCtrlProperty zoneBus
    dsimp only
    rw [hat]
    simp [OMap.find?_insert]
  have hm : manualModeControl (zoneBus zones) (2 :: zone :: rest) =
      { cc := 0, reply := [if z.getFailSafeMode then 1 else 0], dataLen := 1, calls := [.getAll (ipmiControlPath zone)] } := by
    have : manualModeControl (zoneBus zones) (2 :: zone :: rest) = getModeState (zoneBus zones) "FailSafe" (2 :: zone :: rest) := by
      simp [manualModeControl]
    rw [this]
    unfold getModeState
    dsimp only
    rw [hg]
    rfl
  unfold serveRequest
  rw [hm]
  refine ⟨rfl, rfl, ?_, ?_⟩
  · rw [← OMap.isEmpty_false_iff]
    unfold ZoneData.getFailSafeMode
    cases z.failSafeSensors.isEmpty <;> simp
  · rw [← OMap.isEmpty_iff]
    unfold ZoneData.getFailSafeMode
    cases z.failSafeSensors.isEmpty <;> simp

/-- **C77** No request of any kind changes anything but the manual mode (and the rewrite request that goes with leaving
it) of the addressed zone. -/
theorem C77_only {zones : ZoneObjects} (hwf : zones.WF) (req : List UInt8) (n : Int) :
    (serveRequest zones req).2.find? n = zones.find? n ∨
    ∃ zone z v, req.head? = some 1 ∧ req[1]? = some zone ∧ n = toInt8 zone ∧ zones.find? n = some z ∧
      (serveRequest zones req).2.find? n = some (z.setManualMode v) := by
  match req with
  | [] => exact .inl rfl
  | [_] => exact .inl rfl
  | command :: zone :: rest =>
    by_cases hc : command = 1
    · subst hc
      match rest with
      | [] => exact .inl rfl
      | value :: rest =>
        have hcalls : (manualModeControl (zoneBus zones) (1 :: zone :: value :: rest)).calls =
          [.set (zoneControlPath (toInt8 zone)) "Manual" (decide (value ≠ 0))] := rfl
        unfold serveRequest
        dsimp only
        rw [hcalls]
        simp only [List.foldl_cons, List.foldl_nil, applyCall, if_true]
        rw [zoneAt_iff hwf]
        cases hf : zones.find? (toInt8 zone) with
        | none => exact .inl rfl
        | some z =>
          dsimp only [Option.map_some]
          rw [OMap.find?_insert]
          by_cases hn : n = toInt8 zone
          · subst hn
            exact .inr ⟨zone, z, _, rfl, rfl, rfl, hf, by rw [if_pos rfl]⟩
          · rw [if_neg hn]; exact .inl rfl
    · left
      have hcalls : ∀ c ∈ (manualModeControl (zoneBus zones) (command :: zone :: rest)).calls, c = .getAll (ipmiControlPath zone) := by
        intro c hm
        unfold manualModeControl at hm
        dsimp only at hm
        rw [if_neg hc] at hm
        have hget : ∀ p, c ∈ (getModeState (zoneBus zones) p (command :: zone :: rest)).calls → c = .getAll (ipmiControlPath zone) := by
          intro p h
          unfold getModeState at h
          dsimp only at h
          split at h <;> exact List.mem_singleton.1 h
        split_ifs at hm
        · exact hget _ hm
        · exact hget _ hm
        · cases hm
      unfold serveRequest
      have : ∀ calls : List IpmiCall, (∀ c ∈ calls, c = .getAll (ipmiControlPath zone)) → calls.foldl applyCall zones = zones := by
        intro calls
        induction calls with
        | nil => intro _; rfl
        | cons c cs ih =>
          intro h
          rw [List.foldl_cons, h c (by simp)]
          exact ih (fun c hc => h c (by simp [hc]))
      dsimp only
      rw [this _ hcalls]

end

section
attribute [local instance] binary64

def exZoneData (n : Int) : ZoneData := ZoneData.ctor n 0 (Dbl.ofInt 75) ⟨100, 1000⟩ false
def exZoneObjects : ZoneObjects := (({} : ZoneObjects).insert 1 (exZoneData 1)).insert 200 (exZoneData 200)

/-- Manual mode of zone 1 is set and read back; zone 200 exists but cannot be reached. -/
example : (serveRequest exZoneObjects [1, 1, 1]).1.cc = 0 ∧
    (serveRequest (serveRequest exZoneObjects [1, 1, 1]).2 [0, 1]).1 = ⟨0, [1], 1, [.getAll "/xyz/openbmc_project/settings/fanctrl/zone1"]⟩ ∧
    (serveRequest exZoneObjects [2, 1]).1.reply = [0] ∧
    (serveRequest exZoneObjects [1, 200, 1]).1 =
      ⟨0xC1, [], 3, [.set "/xyz/openbmc_project/settings/fanctrl/zone-56" "Manual" true]⟩ ∧
    (serveRequest exZoneObjects [1, 1]).1.cc = 0xC1 ∧ (serveRequest exZoneObjects [3, 1]).1.cc = 0xC1 := by decide +kernel

end
end Verif
