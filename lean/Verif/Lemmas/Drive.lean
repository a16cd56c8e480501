import Verif.Lemmas.Hist
import Verif.Spec.Loop

/-! # Helper lemmas about writing fans and the control loop -/

namespace Verif
variable [F : FloatModel]
open Dbl

theorem writeFans_spec {raw0 : Res Int} {v : Dbl} : ∀ {ns : List String} {w w' : World} {z z' : ZoneData},
    writeFans raw0 v w z ns = .ok (w', z') →
      Commanded v z.redundantWrite w ns w' ∧ z' = { z with cachedFanOutputs := z'.cachedFanOutputs }
  | [], w, w', z, z', h => by cases h; exact ⟨.nil _, rfl⟩
  | n :: ns, w, w', z, z', h => by
    simp only [writeFans] at h
    obtain ⟨⟨w1, sn, wr⟩, h1, h⟩ := bind_eq_ok.1 h
    obtain ⟨r, _, h⟩ := bind_eq_ok.1 h
    obtain ⟨h2, h3⟩ := writeFans_spec h
    exact ⟨.cons h1 h2, by rw [h3]; rfl⟩

/-- the readings of a fan loop only depend on the cache -/
theorem fanInput_congr {z z' : ZoneData} (h : z'.cachedValuesByName = z.cachedValuesByName) (c : FanPid) :
    c.inputProc z' = c.inputProc z := by
  have : ∀ ns, FanPid.readings z' ns = FanPid.readings z ns := by
    intro ns
    induction ns with
    | nil => rfl
    | cons n ns ih => simp only [FanPid.readings, ZoneData.getCachedValues, h, ih]
  unfold FanPid.inputProc
  rw [this]

theorem fanPercent_congr {z z' : ZoneData} (h : z' = { z with cachedFanOutputs := z'.cachedFanOutputs }) (o : Opts) (v : Dbl) :
    fanPercent o z' v = fanPercent o z v := by rw [h]; rfl

/-- the value a fan loop writes, and its next state -/
structure FanResult (o : Opts) (z : ZoneData) (c : FanPid) (v : Dbl) (c' : FanPid) : Prop where
  ex : ∃ input, c.inputProc z = .ok input ∧ v = fanPercent o z (pidStep c.ctl z.maximumSetPoint input).1 / 100 ∧
    c'.setpoint = z.maximumSetPoint ∧ c'.ctl = (pidStep c.ctl z.maximumSetPoint input).2
  same : c'.inputs = c.inputs ∧ c'.id = c.id

theorem FanResult.congr {o : Opts} {z z' : ZoneData} (h : z' = { z with cachedFanOutputs := z'.cachedFanOutputs })
    {c c' : FanPid} {v : Dbl} (hr : FanResult o z' c v c') : FanResult o z c v c' := by
  obtain ⟨⟨i, h1, h2, h3⟩, hs⟩ := hr
  have hc : z'.cachedValuesByName = z.cachedValuesByName := by rw [h]
  have hm : z'.maximumSetPoint = z.maximumSetPoint := by rw [h]
  rw [fanInput_congr hc] at h1
  rw [fanPercent_congr h] at h2
  rw [hm] at h2 h3
  exact ⟨⟨i, h1, h2, h3⟩, hs⟩

theorem fanProcess_spec {o : Opts} {w w' : World} {z z' : ZoneData} {c c' : FanPid}
    (h : c.process o w z = .ok (w', z', c')) :
    ∃ v, Commanded v z.redundantWrite w c.inputs w' ∧ FanResult o z c v c' ∧
      z' = { z with cachedFanOutputs := z'.cachedFanOutputs } := by
  unfold FanPid.process at h
  obtain ⟨i, hi, h⟩ := bind_eq_ok.1 h
  obtain ⟨⟨w1, z1⟩, h1, h⟩ := bind_eq_ok.1 h
  cases h
  obtain ⟨h2, h3⟩ := writeFans_spec h1
  exact ⟨_, h2, ⟨⟨i, hi, rfl, rfl, rfl⟩, rfl, rfl⟩, h3⟩

theorem fanList_spec {o : Opts} : ∀ {cs cs' : List (Option FanPid)} {w w' : World} {z z' : ZoneData},
    processFanList o w z cs = .ok (w', z', cs') →
    ∃ l : List (FanPid × Dbl × FanPid), cs = l.map (fun x => some x.1) ∧ cs' = l.map (fun x => some x.2.2) ∧
      Drives z.redundantWrite w (l.map (fun x => (x.1, x.2.1))) w' ∧
      (∀ x ∈ l, FanResult o z x.1 x.2.1 x.2.2) ∧ z' = { z with cachedFanOutputs := z'.cachedFanOutputs }
  | [], _, _, _, _, _, h => by
    cases h
    exact ⟨[], rfl, rfl, .nil _, by simp, rfl⟩
  | none :: _, _, _, _, _, _, h => by cases h
  | some c :: cs, _, w, w', z, z', h => by
    unfold processFanList at h
    obtain ⟨⟨w1, z1, c1⟩, h1, h⟩ := bind_eq_ok.1 h
    obtain ⟨⟨w2, z2, cs2⟩, h2, h⟩ := bind_eq_ok.1 h
    cases h
    obtain ⟨v, a1, a2, a3⟩ := fanProcess_spec h1
    obtain ⟨l, b1, b2, b3, b4, b5⟩ := fanList_spec h2
    have hr : z1.redundantWrite = z.redundantWrite := by rw [a3]
    rw [hr] at b3
    refine ⟨(c, v, c1) :: l, by rw [b1]; rfl, by rw [b2]; rfl, .cons a1 b3, ?_, ?_⟩
    · intro x hx
      rcases List.mem_cons.1 hx with rfl | hx
      · exact a2
      · exact (b4 x hx).congr a3
    · rw [b5, a3]

theorem processFans_spec {o : Opts} {w w' : World} {z z' : Zone} (h : z.processFans o w = .ok (w', z')) :
    ∃ l : List (FanPid × Dbl × FanPid), z.fans = l.map (fun x => some x.1) ∧ z'.fans = l.map (fun x => some x.2.2) ∧
      Drives z.d.redundantWrite w (l.map (fun x => (x.1, x.2.1))) w' ∧
      (∀ x ∈ l, FanResult o z.d x.1 x.2.1 x.2.2) ∧
      z'.d = { z.d with cachedFanOutputs := z'.d.cachedFanOutputs, redundantWrite := false } ∧
      z'.thermals = z.thermals := by
  unfold Zone.processFans at h
  obtain ⟨⟨w1, d1, fs⟩, h1, h⟩ := bind_eq_ok.1 h
  cases h
  obtain ⟨l, b1, b2, b3, b4, b5⟩ := fanList_spec h1
  exact ⟨l, b1, b2, b3, b4, by rw [b5], rfl⟩

/-! ## Effects of writes -/

theorem dbusTail_spec {busOk : Bool} {path : String} {old : Int} {mk : Int → Writer} {ov : Dbl} {force : Bool}
    {r : WriteResult} (h : dbusWriteTail busOk path old mk ov force = .ok r) :
    ∃ raw, ov.toI64 = some raw ∧
      ((old = raw ∧ force = false ∧ r = ⟨mk old, none, some old⟩) ∨
        ((old ≠ raw ∨ force = true) ∧ ∃ u, ov.toU64 = some u ∧ r = ⟨mk raw, some (.dbusSet path u busOk), some raw⟩)) := by
  unfold dbusWriteTail at h
  obtain ⟨raw, h1, h⟩ := bind_eq_ok.1 h
  have h1 : ov.toI64 = some raw := by
    cases hh : ov.toI64 with
    | none => rw [hh] at h1; cases h1
    | some x => rw [hh] at h1; cases h1; rfl
  refine ⟨raw, h1, ?_⟩
  split_ifs at h with hc
  · cases h; exact .inl ⟨hc.1, hc.2, rfl⟩
  · obtain ⟨u, h2, h⟩ := bind_eq_ok.1 h
    cases h
    have h2 : ov.toU64 = some u := by
      cases hh : ov.toU64 with
      | none => rw [hh] at h2; cases h2
      | some x => rw [hh] at h2; cases h2; rfl
    refine .inr ⟨?_, u, h2, rfl⟩
    by_cases ho : old = raw
    · right
      by_contra hf
      exact hc ⟨ho, by simpa using hf⟩
    · exact .inl ho

theorem write_target {busOk : String → Bool} {wr : Writer} {v : Dbl} {force : Bool} {r : WriteResult}
    (h : wr.write busOk v force = .ok r) :
    r.writer.target = wr.target ∧ (r.effect.toList.map Effect.path).Sublist wr.target.toList ∧
      (force = true → r.effect.toList.map Effect.path = wr.target.toList) ∧ wr ≠ .null := by
  cases wr with
  | dbusPercent path min max old =>
    obtain ⟨raw, _, (⟨_, hf, rfl⟩ | ⟨_, u, _, rfl⟩)⟩ := dbusTail_spec h
    · exact ⟨rfl, by simp, by simp [hf], by simp⟩
    · exact ⟨rfl, by simp [Effect.path, Writer.target], by simp [Effect.path, Writer.target], by simp⟩
  | dbusRaw path old =>
    obtain ⟨raw, _, (⟨_, hf, rfl⟩ | ⟨_, u, _, rfl⟩)⟩ := dbusTail_spec h
    · exact ⟨rfl, by simp, by simp [hf], by simp⟩
    · exact ⟨rfl, by simp [Effect.path, Writer.target], by simp [Effect.path, Writer.target], by simp⟩
  | sysfsPercent path min max =>
    obtain ⟨raw, _, h2⟩ := bind_eq_ok.1 h
    cases h2
    exact ⟨rfl, by simp [Effect.path, Writer.target], by simp [Effect.path, Writer.target], by simp⟩
  | sysfsRaw path =>
    obtain ⟨raw, _, h2⟩ := bind_eq_ok.1 h
    cases h2
    exact ⟨rfl, by simp [Effect.path, Writer.target], by simp [Effect.path, Writer.target], by simp⟩
  | readOnlyNoExcept => cases h; exact ⟨rfl, by simp, by simp [Writer.target], by simp⟩
  | null => cases h

/-- what a write to a sensor changes -/
theorem writeSensor_spec {w w' : World} {n sn : String} {v : Dbl} {force : Bool} {wr : Option Int}
    (h : w.writeSensor n v force = .ok (w', sn, wr)) :
    ∃ s rd writer res, w.sensors.find? n = some s ∧ s.impl = .pluggable rd writer ∧
      writer.write w.busOk v force = .ok res ∧ sn = s.name ∧ wr = res.written ∧
      w' = { w with sensors := w.sensors.insert n { s with impl := .pluggable rd res.writer },
                    trace := w.trace ++ res.effect.toList } := by
  unfold World.writeSensor at h
  obtain ⟨s, h1, h⟩ := bind_eq_ok.1 h
  have h1 := (OMap.atKey_ok_iff _ _ _).1 h1
  cases hi : s.impl with
  | host a b => rw [hi] at h; cases h
  | pluggable rd writer =>
    rw [hi] at h
    obtain ⟨res, h2, h⟩ := bind_eq_ok.1 h
    cases h
    exact ⟨s, rd, writer, res, h1, hi, h2, rfl, rfl, rfl⟩

theorem writeSensor_target {w w' : World} {n sn : String} {v : Dbl} {force : Bool} {wr : Option Int}
    (h : w.writeSensor n v force = .ok (w', sn, wr)) :
    (∀ m, targetOf w' m = targetOf w m) ∧ ∃ effs, w'.trace = w.trace ++ effs ∧
      (effs.map Effect.path).Sublist (targetOf w n).toList ∧
      (force = true → effs.map Effect.path = (targetOf w n).toList) := by
  obtain ⟨s, rd, writer, res, h1, h2, h3, _, _, rfl⟩ := writeSensor_spec h
  obtain ⟨a, b, c, _⟩ := write_target h3
  have ht : targetOf w n = writer.target := by simp [targetOf, h1, h2]
  refine ⟨fun m => ?_, res.effect.toList, rfl, by rw [ht]; exact b, by rw [ht]; exact c⟩
  unfold targetOf
  rw [OMap.find?_insert]
  by_cases e : m = n
  · subst e
    rw [if_pos rfl, h1]
    simp [h2, a]
  · rw [if_neg e]

theorem commanded_target {v : Dbl} {force : Bool} {w w' : World} {ns : List String} (h : Commanded v force w ns w') :
    (∀ m, targetOf w' m = targetOf w m) ∧ ∃ effs, w'.trace = w.trace ++ effs ∧
      (effs.map Effect.path).Sublist (ns.filterMap (targetOf w)) ∧
      (force = true → effs.map Effect.path = ns.filterMap (targetOf w)) := by
  induction h with
  | nil w => exact ⟨fun _ => rfl, [], by simp, by simp, by simp⟩
  | @cons w w1 w2 n rest sn wr h1 _ ih =>
    obtain ⟨a1, e1, a2, a3, a4⟩ := writeSensor_target h1
    obtain ⟨b1, e2, b2, b3, b4⟩ := ih
    have ht : targetOf w1 = targetOf w := funext a1
    rw [ht] at b3 b4
    have hf : (n :: rest).filterMap (targetOf w) = (targetOf w n).toList ++ rest.filterMap (targetOf w) := by
      cases hn : targetOf w n <;> simp [List.filterMap_cons, hn]
    refine ⟨fun m => (b1 m).trans (a1 m), e1 ++ e2, by rw [b2, a2, List.append_assoc], ?_, fun hfo => ?_⟩
    · rw [hf, List.map_append]; exact a3.append b3
    · rw [hf, List.map_append, a4 hfo, b4 hfo]

theorem drives_target {force : Bool} {w w' : World} {l : List (FanPid × Dbl)} (h : Drives force w l w') :
    (∀ m, targetOf w' m = targetOf w m) ∧ ∃ effs, w'.trace = w.trace ++ effs ∧
      (effs.map Effect.path).Sublist ((l.flatMap (fun x => x.1.inputs)).filterMap (targetOf w)) ∧
      (force = true → effs.map Effect.path = (l.flatMap (fun x => x.1.inputs)).filterMap (targetOf w)) := by
  induction h with
  | nil w => exact ⟨fun _ => rfl, [], by simp, by simp, by simp⟩
  | @cons w w1 w2 c v rest h1 _ ih =>
    obtain ⟨a1, e1, a2, a3, a4⟩ := commanded_target h1
    obtain ⟨b1, e2, b2, b3, b4⟩ := ih
    have ht : targetOf w1 = targetOf w := funext a1
    rw [ht] at b3 b4
    refine ⟨fun m => (b1 m).trans (a1 m), e1 ++ e2, by rw [b2, a2, List.append_assoc], ?_, fun hfo => ?_⟩
    · rw [List.flatMap_cons, List.filterMap_append, List.map_append]; exact a3.append b3
    · rw [List.flatMap_cons, List.filterMap_append, List.map_append, a4 hfo, b4 hfo]

end Verif
