import Verif.Spec.Util
import Verif.Spec.Writers
import Verif.Spec.Example
import Verif.Lemmas.OMap
import Verif.Lemmas.Drive
import Verif.Props.Failsafe

/-!
# C58, C59 and C74

Zone numbering, input lists, and what happens to the fans of a loop that goes away.
-/

namespace Verif
open Dbl

/-! ## C58 -/

theorem freeIndex_ok {used : List Int} {i r : Int} (h : freeIndex used i = .ok r) :
    i ≤ r ∧ r ∉ used ∧ ∀ k, i ≤ k → k < r → k ∈ used := by
  induction i using freeIndex.induct used with
  | case1 hm =>
    rw [freeIndex, dif_pos hm, if_pos rfl] at h
    cases h
  | case2 i hm hne ih =>
    rw [freeIndex, dif_pos hm, if_neg hne] at h
    obtain ⟨h1, h2, h3⟩ := ih h
    refine ⟨by omega, h2, fun k hk hr => ?_⟩
    by_cases e : k = i
    · rw [e]; exact hm
    · exact h3 k (by omega) hr
  | case3 i hm =>
    rw [freeIndex, dif_neg hm] at h
    cases h
    exact ⟨by omega, hm, fun k _ _ => by omega⟩

theorem freeIndex_err {used : List Int} {i : Int} (hi : i ≤ int64Max) {e : Err} (h : freeIndex used i = .error e) :
    e = .ub "signed overflow" ∧ ∀ k, i ≤ k → k ≤ int64Max → k ∈ used := by
  induction i using freeIndex.induct used with
  | case1 hm =>
    rw [freeIndex, dif_pos hm, if_pos rfl] at h
    cases h
    exact ⟨rfl, fun k h1 h2 => by rw [le_antisymm h2 h1]; exact hm⟩
  | case2 i hm hne ih =>
    rw [freeIndex, dif_pos hm, if_neg hne] at h
    obtain ⟨h1, h2⟩ := ih (by omega) h
    refine ⟨h1, fun k a b => ?_⟩
    by_cases e : k = i
    · rw [e]; exact hm
    · exact h2 k (by omega) b
  | case3 i hm =>
    rw [freeIndex, dif_neg hm] at h
    cases h

theorem setZone_cases {name : String} {zones zones' : OMap String Int} {wanted r : Int}
    (h : setZoneIndex name zones wanted = .ok (r, zones')) :
    (zones.find? name = some r ∧ zones' = zones) ∨
      (zones.find? name = none ∧ freeIndex (zones.entries.map Prod.snd) wanted = .ok r ∧ zones' = zones.insert name r) := by
  unfold setZoneIndex at h
  cases hf : zones.find? name with
  | some i => rw [hf] at h; cases h; exact .inl ⟨rfl, rfl⟩
  | none =>
    rw [hf] at h
    obtain ⟨i, h1, h⟩ := bind_eq_ok.1 h
    cases h
    exact .inr ⟨rfl, h1, rfl⟩

theorem getZone_eq (name : String) (zones : OMap String Int) : getZoneIndex name zones = setZoneIndex name zones 0 := by
  unfold getZoneIndex
  cases hf : zones.find? name with
  | some i => simp [setZoneIndex, hf]
  | none => rfl

/-- requests of both kinds -/
theorem Numbered.rec' {P : List ZoneRequest → OMap String Int → Prop} (h0 : P [] {})
    (hs : ∀ h zones zones' r name wanted, Numbered h zones → P h zones → setZoneIndex name zones wanted = .ok (r, zones') →
      P (h ++ [⟨name, wanted, r⟩]) zones') {h : List ZoneRequest} {zones : OMap String Int} (hn : Numbered h zones) : P h zones := by
  induction hn with
  | start => exact h0
  | set name wanted hn h1 ih => exact hs _ _ _ _ _ _ hn ih h1
  | get name hn h1 ih => rw [getZone_eq] at h1; exact hs _ _ _ _ _ _ hn ih h1

theorem Numbered.inv {h : List ZoneRequest} {zones : OMap String Int} (hn : Numbered h zones) :
    zones.WF ∧ ∀ n r, zones.find? n = some r ↔ ∃ q ∈ h, q.name = n ∧ q.answer = r := by
  refine Numbered.rec' (P := fun h zones => zones.WF ∧ ∀ n r, zones.find? n = some r ↔ ∃ q ∈ h, q.name = n ∧ q.answer = r)
    ⟨OMap.wf_empty, by simp⟩ ?_ hn
  rintro h zones zones' r name wanted - ⟨hw, ih⟩ h1
  rcases setZone_cases h1 with ⟨h2, rfl⟩ | ⟨h2, h3, rfl⟩
  · refine ⟨hw, fun n r' => ?_⟩
    rw [ih]
    constructor
    · rintro ⟨q, hq, e⟩; exact ⟨q, by simp [hq], e⟩
    · rintro ⟨q, hq, e1, e2⟩
      rcases List.mem_append.1 hq with hq | hq
      · exact ⟨q, hq, e1, e2⟩
      · simp only [List.mem_singleton] at hq
        subst hq
        simp only at e1 e2
        subst e1 e2
        exact (ih _ _).1 h2
  · refine ⟨OMap.wf_insert hw _ _, fun n r' => ?_⟩
    rw [OMap.find?_insert]
    by_cases hnn : n = name
    · subst hnn
      rw [if_pos rfl]
      constructor
      · rintro e; cases e; exact ⟨⟨n, wanted, r⟩, by simp, rfl, rfl⟩
      · rintro ⟨q, hq, e1, e2⟩
        rcases List.mem_append.1 hq with hq | hq
        · have := (ih n r').2 ⟨q, hq, e1, e2⟩
          rw [h2] at this; cases this
        · simp only [List.mem_singleton] at hq; subst hq; rw [← e2]
    · rw [if_neg hnn, ih]
      constructor
      · rintro ⟨q, hq, e⟩; exact ⟨q, by simp [hq], e⟩
      · rintro ⟨q, hq, e1, e2⟩
        rcases List.mem_append.1 hq with hq | hq
        · exact ⟨q, hq, e1, e2⟩
        · simp only [List.mem_singleton] at hq; subst hq; exact absurd e1.symm hnn

theorem Numbered.used {h : List ZoneRequest} {zones : OMap String Int} (hn : Numbered h zones) (k : Int) :
    k ∈ zones.entries.map Prod.snd ↔ ∃ q ∈ h, q.answer = k := by
  obtain ⟨hw, hi⟩ := hn.inv
  simp only [List.mem_map, Prod.exists, exists_eq_right]
  constructor
  · rintro ⟨n, hm⟩
    obtain ⟨q, hq, _, e⟩ := (hi n k).1 ((OMap.mem_entries_iff hw n k).1 hm)
    exact ⟨q, hq, e⟩
  · rintro ⟨q, hq, e⟩
    exact ⟨q.name, (OMap.mem_entries_iff hw _ _).2 ((hi _ _).2 ⟨q, hq, rfl, e⟩)⟩

/-- **C58.** Two requests get the same number exactly when they are about the same name: numbers are distinct for distinct
names and never change. -/
theorem C58_distinct {h : List ZoneRequest} {zones : OMap String Int} (hn : Numbered h zones) :
    ∀ q ∈ h, ∀ q' ∈ h, (q.answer = q'.answer ↔ q.name = q'.name) := by
  have key : (∀ q ∈ h, ∀ q' ∈ h, q.answer = q'.answer → q.name = q'.name) := by
    refine Numbered.rec' (P := fun h _ => ∀ q ∈ h, ∀ q' ∈ h, q.answer = q'.answer → q.name = q'.name)
      (by simp) ?_ hn
    intro h zones zones' r name wanted hn ih h1
    have new : ∀ q ∈ h, q.answer = r → q.name = name := by
      intro q hq e
      rcases setZone_cases h1 with ⟨h2, _⟩ | ⟨_, h3, _⟩
      · obtain ⟨q', hq', e1, e2⟩ := (hn.inv.2 _ _).1 h2
        rw [← e1]
        exact ih q hq q' hq' (e.trans e2.symm)
      · exact absurd ((hn.used r).2 ⟨q, hq, e⟩) (freeIndex_ok h3).2.1
    intro q hq q' hq' e
    simp only [List.mem_append, List.mem_singleton] at hq hq'
    rcases hq with hq | rfl <;> rcases hq' with hq' | rfl
    · exact ih q hq q' hq' e
    · exact new q hq e
    · exact (new q' hq' e.symm).symm
    · rfl
  intro q hq q' hq'
  refine ⟨key q hq q' hq', fun e => ?_⟩
  have h1 := (hn.inv.2 q.name q.answer).2 ⟨q, hq, rfl, rfl⟩
  have h2 := (hn.inv.2 q.name q'.answer).2 ⟨q', hq', e.symm, rfl⟩
  exact Option.some.inj (h1.symm.trans h2)

/-- **C58.** A new name gets the smallest number that is not below the one asked for and not taken. -/
theorem C58_smallest {h : List ZoneRequest} {q : ZoneRequest} {zones : OMap String Int} (hn : Numbered (h ++ [q]) zones)
    (hnew : ∀ p ∈ h, p.name ≠ q.name) :
    q.wanted ≤ q.answer ∧ (∀ p ∈ h, p.answer ≠ q.answer) ∧
      ∀ k, q.wanted ≤ k → k < q.answer → ∃ p ∈ h, p.answer = k := by
  have gen : ∀ {h' : List ZoneRequest} {zones : OMap String Int}, Numbered h' zones → h' = h ++ [q] →
      ∃ z0, Numbered h z0 ∧ setZoneIndex q.name z0 q.wanted = .ok (q.answer, zones) := by
    intro h' zones hn
    cases hn with
    | start => intro e; simp at e
    | set name wanted hn' h1 =>
      intro e
      obtain ⟨e1, e2⟩ := List.append_inj' e rfl
      cases e1; cases e2
      exact ⟨_, hn', h1⟩
    | get name hn' h1 =>
      intro e
      obtain ⟨e1, e2⟩ := List.append_inj' e rfl
      cases e1; cases e2
      exact ⟨_, hn', by rw [← getZone_eq]; exact h1⟩
  obtain ⟨z0, hn0, h1⟩ := gen hn rfl
  rcases setZone_cases h1 with ⟨h2, _⟩ | ⟨_, h3, _⟩
  · obtain ⟨p, hp, e, _⟩ := (hn0.inv.2 _ _).1 h2
    exact absurd e (hnew p hp)
  · obtain ⟨a, b, c⟩ := freeIndex_ok h3
    refine ⟨a, fun p hp e => b ((hn0.used _).2 ⟨p, hp, e⟩), fun k hk1 hk2 => (hn0.used k).1 (c k hk1 hk2)⟩

/-- **C58.** Every request is answered (the search ends), as long as the numbers stay within 64 bits. -/
theorem C58_answered {h : List ZoneRequest} {zones : OMap String Int} (hn : Numbered h zones) (name : String) {wanted : Int}
    (hw : wanted + h.length ≤ int64Max) : ∃ r zones', setZoneIndex name zones wanted = .ok (r, zones') := by
  unfold setZoneIndex
  cases hf : zones.find? name with
  | some i => exact ⟨_, _, rfl⟩
  | none =>
    cases he : freeIndex (zones.entries.map Prod.snd) wanted with
    | ok r => exact ⟨_, _, rfl⟩
    | error e =>
      exfalso
      obtain ⟨_, hall⟩ := freeIndex_err (by omega) he
      have hsub : (List.range (h.length + 1)).map (fun (k : Nat) => wanted + (k : Int)) ⊆ h.map ZoneRequest.answer := by
        intro k hk
        obtain ⟨j, hj, rfl⟩ := List.mem_map.1 hk
        have hj' := List.mem_range.1 hj
        obtain ⟨q, hq, e⟩ := (hn.used _).1 (hall (wanted + j) (by omega) (by omega))
        exact List.mem_map.2 ⟨q, hq, e⟩
      have hnd : ((List.range (h.length + 1)).map (fun (k : Nat) => wanted + (k : Int))).Nodup :=
        (List.nodup_map_iff (fun a b e => by simpa using e)).2 List.nodup_range
      have := (hnd.subperm hsub).length_le
      simp at this

/-- Zones 1 and 0 are taken; a third zone asking for 0 gets 2. -/
theorem ex_numbered : ∃ zones, Numbered [⟨"right", 1, 1⟩, ⟨"left", 0, 0⟩, ⟨"right", 0, 1⟩, ⟨"top", 0, 2⟩] zones := by
  have i2 : OMap.insertL "left" (0 : Int) [("right", 1)] = [("left", 0), ("right", 1)] := by decide +kernel
  have i4 : OMap.insertL "top" (2 : Int) [("left", 0), ("right", 1)] = [("left", 0), ("right", 1), ("top", 2)] := by
    decide +kernel
  have z1 : setZoneIndex "right" {} 1 = .ok (1, ⟨[("right", 1)]⟩) := by
    simp [setZoneIndex, freeIndex, OMap.insert, OMap.insertL, OMap.find?, OMap.lookupL, EmptyCollection.emptyCollection, OMap.empty]
  have z2 : setZoneIndex "left" ⟨[("right", 1)]⟩ 0 = .ok (0, ⟨[("left", 0), ("right", 1)]⟩) := by
    simp [setZoneIndex, freeIndex, OMap.insert, i2, OMap.find?, OMap.lookupL]
  have z3 : setZoneIndex "right" ⟨[("left", 0), ("right", 1)]⟩ 0 = .ok (1, ⟨[("left", 0), ("right", 1)]⟩) := rfl
  have z4 : setZoneIndex "top" ⟨[("left", 0), ("right", 1)]⟩ 0 = .ok (2, ⟨[("left", 0), ("right", 1), ("top", 2)]⟩) := by
    simp [setZoneIndex, freeIndex, int64Max, OMap.insert, i4, OMap.find?, OMap.lookupL]
  exact ⟨_, .set "top" 0 (.set "right" 0 (.set "left" 0 (.set "right" 1 .start z1) z2) z3) z4⟩

section
variable [F : FloatModel]

/-! ## C59 -/

theorem spliceMargins_getElem? : ∀ (rs : List SensorInput) (ms : List Dbl) (i : Nat),
    (spliceMargins rs ms)[i]? = rs[i]?.map (fun r => match ms[i]? with
      | some m => { r with convertMarginZero := m, convertTempToMargin := true }
      | none => r)
  | [], _, i => by simp [spliceMargins]
  | r :: rs, [], i => by simp [spliceMargins]
  | r :: rs, m :: ms, 0 => by simp [spliceMargins]
  | r :: rs, m :: ms, i + 1 => by simpa [spliceMargins] using spliceMargins_getElem? rs ms i

/-- **C59.** Every input keeps its place and carries its own margin (NaN and no conversion without one) and its own flag;
there are as many inputs as names, so surplus margins are ignored. -/
theorem C59_entries (names : List String) (margins : List Dbl) (acceptable : List String) (i : Nat) :
    (spliceInputs names margins acceptable)[i]? = names[i]?.map (fun n =>
      ⟨n, (margins[i]?).getD nan, decide (i < margins.length), decide (n ∈ acceptable)⟩) := by
  unfold spliceInputs
  simp only [List.getElem?_map, spliceMargins_getElem?, Option.map_map]
  congr 1
  funext n
  simp only [Function.comp_apply]
  by_cases hi : i < margins.length
  · rw [List.getElem?_eq_getElem hi]
    by_cases ha : n ∈ acceptable <;> simp [ha, hi]
  · rw [List.getElem?_eq_none (by omega)]
    by_cases ha : n ∈ acceptable <;> simp [ha, hi]

/-- **C59.** Splitting the names back gives the original list. -/
theorem C59_roundtrip (names : List String) (margins : List Dbl) (acceptable : List String) :
    splitNames (spliceInputs names margins acceptable) = names := by
  apply List.ext_getElem?
  intro i
  rw [splitNames, List.getElem?_map, C59_entries, Option.map_map]
  cases names[i]? <;> rfl

/-! ## C74 -/

/-- **C74.** Without the option a fan loop that goes away writes nothing. -/
theorem C74_nothing {o : Opts} (ho : o.offlineFailsafePwm = false) (w : World) (z : ZoneData) (c : FanPid) :
    c.destroy o w z = .ok (w, z) := by
  unfold FanPid.destroy
  simp [ho]

/-- **C74.** With the option a fan loop that goes away commands every one of its fans, in order, with the failsafe
percentage. -/
theorem C74_written {o : Opts} (ho : o.offlineFailsafePwm = true) {w w' : World} {z z' : ZoneData} {c : FanPid}
    (h : c.destroy o w z = .ok (w', z')) :
    Commanded (z.getFailSafePercent / 100) z.redundantWrite w c.inputs w' ∧
      z' = { z with cachedFanOutputs := z'.cachedFanOutputs } := by
  unfold FanPid.destroy at h
  simp only [ho, Bool.not_true, Bool.false_eq_true, if_false] at h
  exact writeFans_spec h

/-- **C74.** The same for all loops of a zone: every fan of every loop is commanded with the percentage the zone has when it
goes away. -/
theorem C74_zone {o : Opts} (ho : o.offlineFailsafePwm = true) {z z' : ZoneData} {w w' : World} {fans : List (Option FanPid)}
    (h : Zone.destroyFans o w z fans = .ok (w', z')) :
    Drives z.redundantWrite w (fans.filterMap (·.map (fun c => (c, z.getFailSafePercent / 100)))) w' := by
  have gen : ∀ (fans : List (Option FanPid)) (w w' : World) (y z' : ZoneData),
      y = { z with cachedFanOutputs := y.cachedFanOutputs } → Zone.destroyFans o w y fans = .ok (w', z') →
      Drives z.redundantWrite w (fans.filterMap (·.map (fun c => (c, z.getFailSafePercent / 100)))) w' := by
    intro fans
    induction fans with
    | nil => intro w w' y z' _ h; cases h; exact .nil _
    | cons c cs ih =>
      intro w w' y z' hy h
      cases c with
      | none => exact ih w w' y z' hy h
      | some c =>
        unfold Zone.destroyFans at h
        obtain ⟨⟨w1, z1⟩, h1, h⟩ := bind_eq_ok.1 h
        obtain ⟨a, b⟩ := C74_written ho h1
        have e1 : y.redundantWrite = z.redundantWrite := by rw [hy]
        have e2 : y.getFailSafePercent = z.getFailSafePercent := by rw [hy]; rfl
        rw [e1, e2] at a
        exact .cons a (ih w1 w' z1 z' (by rw [b, hy]) h)
  exact gen fans w w' z z' rfl h

/-- **C74.** The percentage is the largest of the failed sensors' percentages, or the zone's if none is failed. -/
theorem C74_percentage {o : Opts} (ho : o.offlineFailsafePwm = true) {d0 : ZoneData} {z : Zone} {cnt : Nat} {log : List Poll}
    (h : Hist o d0 z cnt log) (hn : ∀ n, Failed z.d n → percentOf d0 n ≠ nan) {w w' : World} {z' : ZoneData}
    (hd : Zone.destroyFans o w z.d z.fans = .ok (w', z')) :
    ∃ p, ((∃ n, Failed z.d n) → Largest (fun x => ∃ n, Failed z.d n ∧ x = percentOf d0 n) p) ∧
      ((¬ ∃ n, Failed z.d n) → p = z.d.zoneFailSafePercent) ∧
      Drives z.d.redundantWrite w (z.fans.filterMap (·.map (fun c => (c, p / 100)))) w' := by
  refine ⟨z.d.getFailSafePercent, fun ⟨n, hf⟩ => C32_selection h hn ?_, fun hf => ?_, C74_zone ho hd⟩
  · unfold ZoneData.getFailSafeMode
    rw [(OMap.isEmpty_false_iff _).2 ⟨n, hf⟩]
    rfl
  · have he : z.d.failSafeSensors.entries = [] := by
      have := (OMap.isEmpty_iff z.d.failSafeSensors).2 (fun k => by
        cases hk : z.d.failSafeSensors.find? k with
        | none => rfl
        | some e => exact absurd ⟨k, e, hk⟩ hf)
      simpa [OMap.isEmpty] using this
    unfold ZoneData.getFailSafePercent
    simp [he]

/-- The fan is a D-Bus fan that accepts the command `v`. -/
def AcceptsDbus (w : World) (v : Dbl) (n : String) : Prop :=
  ∃ s rd wr, w.sensors.find? n = some s ∧ s.impl = .pluggable rd wr ∧
    ((∃ path min max old, wr = .dbusPercent path min max old ∧ (∃ i, rawCommand (some (min, max)) v = some i ∧ 0 ≤ i)) ∨
      (∃ path old, wr = .dbusRaw path old ∧ ∃ i, rawCommand none v = some i ∧ 0 ≤ i))

theorem toU64_of_toI64 {v : Dbl} {i : Int} (h : v.toI64 = some i) (hi : 0 ≤ i) : v.toU64 = some i := by
  unfold toI64 at h
  unfold toU64
  cases v with
  | fin q hq =>
    simp only [castInt] at h ⊢
    split_ifs at h ⊢ <;> simp_all <;> omega
  | _ => simp [castInt] at h

theorem offlineWrites_total {raw0 : Res Int} {v : Dbl} : ∀ {ns : List String} {w : World} {z : ZoneData},
    (∀ n ∈ ns, AcceptsDbus w v n) → ∃ w' z', writeFans raw0 v w z ns = .ok (w', z')
  | [], w, z, _ => ⟨w, z, rfl⟩
  | n :: ns, w, z, h => by
    obtain ⟨s, rd, wr, hs, hi, hw⟩ := h n List.mem_cons_self
    have key : ∃ r, wr.write w.busOk v z.redundantWrite = .ok r ∧ (∃ i, r.written = some i) ∧
        ((∃ path min max old old', wr = .dbusPercent path min max old ∧ r.writer = .dbusPercent path min max old') ∨
          (∃ path old old', wr = .dbusRaw path old ∧ r.writer = .dbusRaw path old')) := by
      rcases hw with ⟨path, min, max, old, rfl, i, hc, h0⟩ | ⟨path, old, rfl, i, hc, h0⟩
      · have hc' : (percentToRaw min max v).toI64 = some i := hc
        have hu := toU64_of_toI64 hc' h0
        unfold Writer.write dbusWriteTail
        simp only [hc', castOr, ok_bind]
        split_ifs with hh
        · exact ⟨_, rfl, ⟨_, rfl⟩, .inl ⟨_, _, _, _, _, rfl, rfl⟩⟩
        · simp only [hu, ok_bind]
          exact ⟨_, rfl, ⟨_, rfl⟩, .inl ⟨_, _, _, _, _, rfl, rfl⟩⟩
      · have hc' : v.toI64 = some i := hc
        have hu := toU64_of_toI64 hc' h0
        unfold Writer.write dbusWriteTail
        simp only [hc', castOr, ok_bind]
        split_ifs with hh
        · exact ⟨_, rfl, ⟨_, rfl⟩, .inr ⟨_, _, _, rfl, rfl⟩⟩
        · simp only [hu, ok_bind]
          exact ⟨_, rfl, ⟨_, rfl⟩, .inr ⟨_, _, _, rfl, rfl⟩⟩
    obtain ⟨r, h1, ⟨i, h2⟩, h3⟩ := key
    simp only [writeFans, World.writeSensor, World.getSensor, OMap.atKey_of_find? hs, ok_bind, hi, h1, h2, Option.elim]
    apply offlineWrites_total
    intro m hm
    obtain ⟨s', rd', wr', hs', hi', hw'⟩ := h m (List.mem_cons_of_mem _ hm)
    by_cases e : m = n
    · subst e
      rw [hs] at hs'
      cases hs'
      rw [hi] at hi'
      cases hi'
      refine ⟨_, rd, r.writer, OMap.find?_insert_self _ _ _, rfl, ?_⟩
      rcases h3 with ⟨path, min, max, old, old', rfl, e2⟩ | ⟨path, old, old', rfl, e2⟩
      · rcases hw' with ⟨_, _, _, _, e3, hc⟩ | ⟨_, _, e3, _⟩
        · cases e3; exact .inl ⟨_, _, _, _, e2, hc⟩
        · cases e3
      · rcases hw' with ⟨_, _, _, _, e3, _⟩ | ⟨_, _, e3, hc⟩
        · cases e3
        · cases e3; exact .inr ⟨_, _, e2, hc⟩
    · exact ⟨s', rd', wr', by rw [← hs']; exact OMap.find?_insert_ne _ e _, hi', hw'⟩

/-- **C74.** With D-Bus fans that accept the failsafe command all fans of the loop are written: nothing fails on the way. -/
theorem C74_total {o : Opts} (ho : o.offlineFailsafePwm = true) {w : World} {z : ZoneData} {c : FanPid}
    (h : ∀ n ∈ c.inputs, AcceptsDbus w (z.getFailSafePercent / 100) n) : ∃ w' z', c.destroy o w z = .ok (w', z') := by
  unfold FanPid.destroy
  simp only [ho, Bool.not_true, Bool.false_eq_true, if_false]
  exact offlineWrites_total h

/-- **C74**, finding: for a sysfs fan the destructor reads a variable nobody wrote (`rawWritten`), since sysfs writers do not
report what they wrote. -/
theorem C74_sysfs_undefined {o : Opts} (ho : o.offlineFailsafePwm = true) {w : World} {z : ZoneData} {c : FanPid} {n : String}
    {ns : List String} {s : Sensor} {rd : Reader} {path : String} {min max : Int} {i : Int} (hc : c.inputs = n :: ns)
    (hs : w.sensors.find? n = some s) (hi : s.impl = .pluggable rd (.sysfsPercent path min max))
    (hv : rawCommand (some (min, max)) (z.getFailSafePercent / 100) = some i) :
    c.destroy o w z = .error (.ub "uninitialised value read") := by
  have hv' : (percentToRaw min max (z.getFailSafePercent / 100)).toI64 = some i := hv
  unfold FanPid.destroy
  simp only [ho, Bool.not_true, Bool.false_eq_true, if_false, hc, writeFans, World.writeSensor, World.getSensor,
    OMap.atKey_of_find? hs, ok_bind, hi, Writer.write, hv', castOr, Option.elim]
  rfl

end

section
attribute [local instance] binary64

example : spliceInputs ["a", "b", "c"] [(90 : Dbl)] ["c", "x"] =
    [⟨"a", 90, true, false⟩, ⟨"b", nan, false, false⟩, ⟨"c", nan, false, true⟩] := rfl
example : spliceInputs ["a"] [(90 : Dbl), 80] [] = [⟨"a", 90, true, false⟩] := rfl

/-- a fan loop with two D-Bus fans goes away: both are commanded with 75% (of 255) -/
example : ((FanPid.destroy { offlineFailsafePwm := true } Ex.world Ex.data { Ex.fan with inputs := ["fan0", "fan1"] }).toOption.map
    (fun r => r.1.trace)) = some [.dbusSet "/fan0" 191 true, .dbusSet "/fan1" 191 true] := by decide +kernel

end
end Verif
