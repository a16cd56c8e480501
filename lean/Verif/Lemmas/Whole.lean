import Verif.Spec.Whole
import Verif.Lemmas.Shown
import Verif.Lemmas.Alone
import Verif.Props.Startup
import Verif.Props.Util

/-! # Lemmas about the whole life of the daemon -/

namespace Verif
open Dbl
variable [F : FloatModel]

/-! ## What was written before does not matter -/

theorem agree_since (t : List Effect) (w : World) : Agree [] w (w.since t) := ⟨rfl, fun _ => rfl, fun _ h => by cases h⟩

/-- results with a world -/
abbrev RelS {α : Type} (t : List Effect) (p q : World × α) : Prop := q.1 = p.1.since t ∧ p.2 = q.2

theorem since_writeSensor (t : List Effect) (w : World) (n : String) (v : Dbl) (f : Bool) :
    RelR (RelS t) (w.writeSensor n v f) ((w.since t).writeSensor n v f) := by
  unfold World.writeSensor
  show RelR (RelS t) _ ((w.getSensor n) >>= _)
  refine RelR.bind_same fun s => ?_
  cases s.impl with
  | host v u => rfl
  | pluggable r wr =>
    dsimp only
    show RelR (RelS t) _ ((wr.write w.busOk v f) >>= _)
    refine RelR.bind_same fun res => ⟨?_, rfl⟩
    simp [World.since]

theorem since_writeFans (t : List Effect) (raw0 : Res Int) (pc : Dbl) : ∀ (ns : List String) (w : World) (z : ZoneData),
    RelR (RelS t) (writeFans raw0 pc w z ns) (writeFans raw0 pc (w.since t) z ns)
  | [], _, _ => ⟨rfl, rfl⟩
  | n :: ns, w, z => by
    unfold writeFans
    refine (since_writeSensor t w n pc z.redundantWrite).bind ?_
    rintro ⟨w1, a, b⟩ ⟨w2, a', b'⟩ ⟨h1, h2⟩
    cases h2
    dsimp only at h1 ⊢
    subst h1
    exact RelR.bind_same fun raw => since_writeFans t raw0 pc ns _ _

theorem since_fanPid (t : List Effect) (o : Opts) (w : World) (z : ZoneData) (c : FanPid) :
    RelR (RelS t) (c.process o w z) (c.process o (w.since t) z) := by
  unfold FanPid.process
  dsimp only
  refine RelR.bind_same fun i => ?_
  refine (since_writeFans t _ _ _ w z).bind ?_
  rintro ⟨w1, a⟩ ⟨w2, a'⟩ ⟨h1, h2⟩
  cases h2
  exact ⟨h1, rfl⟩

theorem since_fanList (t : List Effect) (o : Opts) : ∀ (cs : List (Option FanPid)) (w : World) (z : ZoneData),
    RelR (RelS t) (processFanList o w z cs) (processFanList o (w.since t) z cs)
  | [], _, _ => ⟨rfl, rfl⟩
  | none :: _, _, _ => rfl
  | some c :: cs, w, z => by
    unfold processFanList
    refine (since_fanPid t o w z c).bind ?_
    rintro ⟨w1, a, b⟩ ⟨w2, a', b'⟩ ⟨h1, h2⟩
    cases h2
    dsimp only at h1 ⊢
    subst h1
    refine (since_fanList t o cs w1 a).bind ?_
    rintro ⟨w1, a, b⟩ ⟨w2, a', b'⟩ ⟨h1, h2⟩
    cases h2
    exact ⟨h1, rfl⟩

theorem since_processFans (t : List Effect) (o : Opts) (w : World) (z : Zone) :
    RelR (RelS t) (z.processFans o w) (z.processFans o (w.since t)) := by
  unfold Zone.processFans
  refine (since_fanList t o z.fans w z.d).bind ?_
  rintro ⟨w1, a, b⟩ ⟨w2, a', b'⟩ ⟨h1, h2⟩
  cases h2
  exact ⟨h1, rfl⟩

theorem since_tick (t : List Effect) (o : Opts) (w : World) (z : Zone) (cnt : Nat) :
    RelR (RelS t) (z.tick o w cnt) (z.tick o (w.since t) cnt) := by
  unfold Zone.tick
  by_cases hm : z.d.manualMode = true
  · rw [if_pos hm, if_pos hm]; exact ⟨rfl, rfl⟩
  · rw [if_neg hm, if_neg hm, (agree_since t w).telemetry]
    refine RelR.bind_same fun d => ?_
    dsimp only
    have key : ∀ (z : Zone) (cnt : Nat), RelR (RelS t)
        (z.processFans o w >>= fun r => .ok (r.1, r.2, cnt + r.2.d.cycleTime.cycleIntervalTimeMS))
        (z.processFans o (w.since t) >>= fun r => .ok (r.1, r.2, cnt + r.2.d.cycleTime.cycleIntervalTimeMS)) := by
      intro z cnt
      refine (since_processFans t o w z).bind ?_
      rintro ⟨w1, a⟩ ⟨w2, a'⟩ ⟨h1, h2⟩
      cases h2
      exact ⟨h1, rfl⟩
    by_cases hc : d.cycleTime.updateThermalsTimeMS ≤ cnt
    · rw [if_pos hc, if_pos hc, (agree_since t w).thermals]
      refine RelR.bind_same fun z' => ?_
      exact key _ _
    · rw [if_neg hc, if_neg hc]
      exact key _ _

theorem since_start (t : List Effect) (o : Opts) (w : World) (z : Zone) : z.start o (w.since t) = z.start o w :=
  (agree_since t w).thermals o _

/-- the same daemon, but the effects `t` happened before -/
def Daemon.since (t : List Effect) (d : Daemon) : Daemon := ⟨d.w.since t, d.zones⟩

theorem since_onZone (t : List Effect) (d : Daemon) (i : Int) (f : ZoneData → ZoneData) :
    (d.since t).onZone i f = (d.onZone i f).since t := by
  unfold Daemon.onZone
  show (match d.zones.find? i with | some (z, cnt) => _ | none => _) = _
  cases d.zones.find? i <;> rfl

theorem since_step (t : List Effect) (o : Opts) (d : Daemon) (e : DEvent) :
    RelR (fun a b => b = a.since t) (d.step o e) ((d.since t).step o e) := by
  cases e with
  | outside nf nt ho rf fi bo => rfl
  | signal n t' m =>
    unfold Daemon.step Daemon.signal
    dsimp only
    show RelR _ _ (match d.w.sensors.find? n with | some s => _ | none => _)
    cases d.w.sensors.find? n with
    | none => rfl
    | some s =>
      dsimp only
      cases s.impl with
      | host v u => rfl
      | pluggable r wr =>
        cases r with
        | passive p =>
          dsimp only
          exact RelR.bind_same fun p => rfl
        | sysfs p => rfl
        | writeOnly => rfl
        | null => rfl
  | hostWrite n t' v =>
    unfold Daemon.step
    dsimp only
    show RelR _ _ (match d.w.sensors.find? n with | some s => _ | none => _)
    cases d.w.sensors.find? n with
    | none => rfl
    | some s => rfl
  | manual i b => exact since_onZone t d i _
  | enable i l b => exact since_onZone t d i _
  | tick i =>
    unfold Daemon.step
    dsimp only
    show RelR _ _ (match d.zones.find? i with | some (z, cnt) => _ | none => _)
    cases d.zones.find? i with
    | none => rfl
    | some zc =>
      obtain ⟨z, cnt⟩ := zc
      dsimp only
      refine (since_tick t o d.w z cnt).bind ?_
      rintro ⟨w1, a, b⟩ ⟨w2, a', b'⟩ ⟨h1, h2⟩
      cases h2
      dsimp only at h1
      subst h1
      rfl

theorem since_run (t : List Effect) (o : Opts) : ∀ (es : List DEvent) (d : Daemon),
    RelR (fun a b => b = a.since t) (d.run o es) ((d.since t).run o es)
  | [], _ => rfl
  | e :: es, d => by
    unfold Daemon.run
    refine (since_step t o d e).bind ?_
    rintro a b rfl
    exact since_run t o es a

theorem run_since {t : List Effect} {o : Opts} {es : List DEvent} {d b : Daemon} (h : (d.since t).run o es = .ok b) :
    ∃ a, d.run o es = .ok a ∧ b = a.since t := by
  have := since_run t o es d
  rw [h] at this
  cases ha : d.run o es with
  | error e => rw [ha] at this; exact this.elim
  | ok a => rw [ha] at this; exact ⟨a, rfl, this⟩

theorem startZones_since (t : List Effect) (o : Opts) (w : World) : ∀ (l : List (Int × Zone)) (acc : OMap Int (Zone × Nat)),
    startZones o (w.since t) acc l = startZones o w acc l
  | [], _ => rfl
  | (i, z) :: l, acc => by
    unfold startZones
    rw [since_start]
    cases z.start o w with
    | error e => rfl
    | ok z' => exact startZones_since t o w l _

/-! ## Starting -/

theorem startSome_none {o : Opts} {w : World} : ∀ {l : List (Int × Zone)} {acc zs : OMap Int (Zone × Nat)} {rest : List Zone},
    startSome o w acc l = (zs, rest, none) → startZones o w acc l = .ok zs ∧ rest = []
  | [], acc, zs, rest, h => by cases h; exact ⟨rfl, rfl⟩
  | (i, z) :: l, acc, zs, rest, h => by
    unfold startSome at h
    unfold startZones
    cases hz : z.start o w with
    | error e => rw [hz] at h; cases h
    | ok z' =>
      rw [hz] at h
      exact startSome_none h

theorem startSome_of_startZones {o : Opts} {w : World} : ∀ {l : List (Int × Zone)} {acc zs : OMap Int (Zone × Nat)},
    startZones o w acc l = .ok zs → startSome o w acc l = (zs, [], none)
  | [], acc, zs, h => by cases h; rfl
  | (i, z) :: l, acc, zs, h => by
    unfold startZones at h
    unfold startSome
    obtain ⟨z', h1, h2⟩ := bind_eq_ok.1 h
    rw [h1]
    exact startSome_of_startZones h2

theorem startSome_agree {w w' : World} (h : Agree [] w w') (o : Opts) : ∀ (l : List (Int × Zone)) (acc : OMap Int (Zone × Nat)),
    startSome o w' acc l = startSome o w acc l
  | [], _ => rfl
  | (i, z) :: l, acc => by
    unfold startSome
    have : z.start o w' = z.start o w := h.thermals o _
    rw [this]
    cases z.start o w with
    | error e => rfl
    | ok z' => exact startSome_agree h o l _

theorem startSome_error {o : Opts} {w : World} : ∀ {l : List (Int × Zone)} {acc zs : OMap Int (Zone × Nat)} {rest : List Zone}
    {e' : Option Err} {e : Err}, startSome o w acc l = (zs, rest, e') → startZones o w acc l = .error e → e' = some e
  | [], acc, zs, rest, e', e, _, h' => by cases h'
  | (i, z) :: l, acc, zs, rest, e', e, h, h' => by
    unfold startSome at h
    unfold startZones at h'
    cases hz : z.start o w with
    | error x =>
      rw [hz] at h h'
      cases h; cases h'; rfl
    | ok z' =>
      rw [hz] at h h'
      exact startSome_error h h'

/-- which zones run and which do not -/
theorem startSome_split {o : Opts} {w : World} : ∀ {l : List (Int × Zone)} {acc zs : OMap Int (Zone × Nat)} {rest : List Zone}
    {e : Option Err}, startSome o w acc l = (zs, rest, e) → ∃ l1 l2, l = l1 ++ l2 ∧ startZones o w acc l1 = .ok zs ∧
      rest.length = l2.length ∧ (e = none ↔ l2 = []) ∧ ∀ x, e = some x → ∃ i z l3, l2 = (i, z) :: l3 ∧ z.start o w = .error x
  | [], acc, zs, rest, e, h => by cases h; exact ⟨[], [], rfl, rfl, rfl, by simp, by simp⟩
  | (i, z) :: l, acc, zs, rest, e, h => by
    unfold startSome at h
    cases hz : z.start o w with
    | error x =>
      rw [hz] at h
      cases h
      refine ⟨[], (i, z) :: l, rfl, rfl, by simp, by simp, fun y hy => ?_⟩
      cases hy
      exact ⟨i, z, l, rfl, hz⟩
    | ok z' =>
      rw [hz] at h
      obtain ⟨l1, l2, h1, h2, h3⟩ := startSome_split h
      refine ⟨(i, z) :: l1, l2, by rw [h1]; rfl, ?_, h3⟩
      unfold startZones
      rw [hz]
      exact h2

/-! ## Stopping -/

theorem destroyFans_nothing {o : Opts} (ho : o.offlineFailsafePwm = false) (w : World) (z : ZoneData) :
    ∀ l : List (Option FanPid), Zone.destroyFans o w z l = .ok (w, z)
  | [] => rfl
  | none :: l => destroyFans_nothing ho w z l
  | some c :: l => by
    unfold Zone.destroyFans
    rw [C74_nothing ho]
    exact destroyFans_nothing ho w z l

theorem destroyZones_nothing {o : Opts} (ho : o.offlineFailsafePwm = false) (w : World) :
    ∀ l : List Zone, destroyZones o w l = .ok w
  | [] => rfl
  | z :: l => by
    unfold destroyZones
    rw [destroyFans_nothing ho]
    exact destroyZones_nothing ho w l

theorem destroyZones_safe {o : Opts} (ho : o.offlineFailsafePwm = true) : ∀ {l : List Zone} {w w' : World},
    destroyZones o w l = .ok w' → LeftSafe w l w'
  | [], w, w', h => by cases h; exact .nil w
  | z :: l, w, w', h => by
    unfold destroyZones at h
    obtain ⟨⟨w1, z1⟩, h1, h2⟩ := bind_eq_ok.1 h
    exact .cons (C74_zone ho h1) (destroyZones_safe ho h2)

theorem leftSafe_after {w w' : World} {l : List Zone} (h : LeftSafe w l w') : AfterWrites w w' := by
  induction h with
  | nil w => exact .refl w
  | cons h1 _ ih => exact (drives_after h1).trans ih

theorem stop_after {o : Opts} {s : Whole} {w : World} (h : s.stop o = .ok w) : AfterWrites s.d.w w := by
  cases ho : o.offlineFailsafePwm with
  | true => exact leftSafe_after (destroyZones_safe ho h)
  | false =>
    unfold Whole.stop at h
    rw [destroyZones_nothing ho] at h
    cases h
    exact .refl _

end Verif
