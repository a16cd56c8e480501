import Verif.Spec.Lifecycle
import Mathlib.Data.List.Basic

/-! # Starting and stopping loops: C72, C73 -/

namespace Verif

/-- zone `z` has a loop: a wait that is pending or a handler that is ready -/
def Live (s : Life) (z : Nat) : Prop := z ∈ s.waiting ∨ ∃ ok, Job.loop z ok ∈ s.queue

def NoZombie (s : Life) : Prop := ∀ z, Live s z → z ∈ s.zones

/-! ## stopControlLoops -/

theorem useCount_one {s : Life} {z : Nat} (h : ¬ 1 < s.useCount z) : ¬ Live s z := by
  unfold Life.useCount at h
  rintro (hw | ⟨ok, hq⟩)
  · have := List.length_pos_of_mem (List.mem_filter (p := fun w => decide (w = z)).2 ⟨hw, (by simp)⟩)
    omega
  · have := List.length_pos_of_mem (List.mem_filter.2 ⟨hq, (by simp [Job.holds] : Job.holds z (.loop z ok) = true)⟩)
    omega

theorem useCount_live {s : Life} {z : Nat} (h : ¬ Live s z) : ¬ 1 < s.useCount z := by
  unfold Life.useCount
  have h1 : s.waiting.filter (fun w => decide (w = z)) = [] := by
    rw [List.filter_eq_nil_iff]
    intro w hw hc
    exact h (.inl (of_decide_eq_true hc ▸ hw))
  have h2 : s.queue.filter (Job.holds z) = [] := by
    rw [List.filter_eq_nil_iff]
    intro j hj hc
    cases j with
    | loop z' ok => exact h (.inr ⟨ok, (of_decide_eq_true hc) ▸ hj⟩)
    | restart _ => cases hc
    | terminate _ => cases hc
  rw [h1, h2]
  simp

theorem cancel_live (s : Life) (z : Nat) : Live s.cancelTimers z ↔ Live s z := by
  unfold Live Life.cancelTimers
  simp only [List.mem_filter, decide_eq_true_eq, List.mem_append, List.mem_map]
  constructor
  · rintro (⟨h, -⟩ | ⟨ok, h | ⟨w, ⟨h, -⟩, e⟩⟩)
    · exact .inl h
    · exact .inr ⟨ok, h⟩
    · cases e; exact .inl h
  · rintro (h | ⟨ok, h⟩)
    · by_cases ht : z ∈ s.timers
      · exact .inr ⟨false, .inr ⟨z, ⟨h, ht⟩, rfl⟩⟩
      · exact .inl ⟨h, ht⟩
    · exact .inr ⟨ok, .inl h⟩

/-- `stopControlLoops` returns exactly if there is no zone or the first one has no loop. -/
theorem stop_cases (s : Life) :
    (s.stopControlLoops = ({ s.cancelTimers with zones := [], canceling := false }, true) ∧ ∀ z, s.zones.head? = some z → ¬ Live s z) ∨
    (s.stopControlLoops = (s.cancelTimers, false) ∧ ∃ z, s.zones.head? = some z ∧ Live s z) := by
  unfold Life.stopControlLoops
  have hz : s.cancelTimers.zones = s.zones := rfl
  dsimp only
  cases h : s.zones with
  | nil =>
    left
    rw [hz, h]
    exact ⟨rfl, by simp⟩
  | cons z rest =>
    rw [hz, h]
    dsimp only
    by_cases hu : 1 < s.cancelTimers.useCount z
    · right
      rw [if_pos hu]
      refine ⟨rfl, z, rfl, ?_⟩
      rw [← cancel_live]
      by_contra hc
      exact useCount_live hc hu
    · left
      rw [if_neg hu]
      refine ⟨rfl, fun w hw => ?_⟩
      cases hw
      rw [← cancel_live]
      exact useCount_one hu

/-! ## From "no zombies" to the claim -/

/-- what the events of a run say about the zone objects -/
structure TraceInv (t : List LifeEv) (s : Life) : Prop where
  stops : StopsForGood t
  gone : ∀ t1 t2 z, t = t1 ++ .stopDone :: t2 → .start z ∈ t1 → z ∉ s.zones
  old : ∀ z, .start z ∈ t → z < s.next

theorem split_stop {t e t1 t2 : List LifeEv} (h : t ++ e = t1 ++ .stopDone :: t2) :
    (∃ t2', t = t1 ++ .stopDone :: t2' ∧ t2 = t2' ++ e) ∨ (∃ a, t1 = t ++ a ∧ e = a ++ .stopDone :: t2) := by
  rcases List.append_eq_append_iff.1 h with ⟨a, h1, h2⟩ | ⟨a, h1, h2⟩
  · exact .inr ⟨a, h1, h2⟩
  · cases a with
    | nil =>
      rw [List.nil_append] at h2
      exact .inr ⟨[], by rw [List.append_nil]; simpa using h1.symm, by rw [List.nil_append]; exact h2.symm⟩
    | cons x xs =>
      rw [List.cons_append] at h2
      obtain ⟨rfl, h3⟩ := List.cons.inj h2
      exact .inl ⟨xs, h1, h3⟩

/-- events without a completed stop and without new zones -/
theorem TraceInv.quiet {t e : List LifeEv} {s s' : Life} (i : TraceInv t s) (hz : s'.zones = s.zones) (hn : s'.next = s.next)
    (he : ∀ x ∈ e, x = .failed ∨ ∃ z ∈ s.zones, x = .tick z) : TraceInv (t ++ e) s' := by
  have noStop : ∀ a b, e ≠ a ++ .stopDone :: b := by
    intro a b h
    rcases he .stopDone (by rw [h]; simp) with h | ⟨z, _, h⟩ <;> cases h
  have noStart : ∀ z, LifeEv.start z ∉ e := by
    intro z h
    rcases he _ h with h | ⟨z, _, h⟩ <;> cases h
  refine ⟨?_, ?_, ?_⟩
  · intro t1 t2 z h hs
    rcases split_stop h with ⟨t2', h1, rfl⟩ | ⟨a, -, h2⟩
    · intro ht
      rcases List.mem_append.1 ht with ht | ht
      · exact i.stops t1 t2' z h1 hs ht
      · rcases he _ ht with h | ⟨w, hw, h⟩
        · cases h
        · cases h
          exact i.gone t1 t2' z h1 hs hw
    · exact absurd h2 (noStop _ _)
  · intro t1 t2 z h hs
    rw [hz]
    rcases split_stop h with ⟨t2', h1, rfl⟩ | ⟨a, -, h2⟩
    · exact i.gone t1 t2' z h1 hs
    · exact absurd h2 (noStop _ _)
  · intro z h
    rw [hn]
    rcases List.mem_append.1 h with h | h
    · exact i.old z h
    · exact absurd h (noStart z)

/-- a completed stop, followed by the start of new zones -/
theorem TraceInv.restarted {t : List LifeEv} {s s' : Life} (i : TraceInv t s) (n : Nat) (extra : List LifeEv)
    (hx : ∀ x ∈ extra, x = .failed) (hn : s'.next = s.next + n)
    (hz : ∀ z ∈ s'.zones, s.next ≤ z) : TraceInv (t ++ .stopDone :: ((List.range n).map (fun k => LifeEv.start (s.next + k)) ++ extra)) s' := by
  have hmem : ∀ x ∈ (List.range n).map (fun k => LifeEv.start (s.next + k)) ++ extra, x = .failed ∨ ∃ k < n, x = .start (s.next + k) := by
    intro x h
    rcases List.mem_append.1 h with h | h
    · obtain ⟨k, hk, e⟩ := List.mem_map.1 h
      exact .inr ⟨k, List.mem_range.1 hk, e.symm⟩
    · exact .inl (hx x h)
  generalize (List.range n).map (fun k => LifeEv.start (s.next + k)) ++ extra = new at hmem
  -- every completed stop of the new events is the first one
  have dec : ∀ t1 t2, t ++ .stopDone :: new = t1 ++ .stopDone :: t2 →
      (∃ t2', t = t1 ++ .stopDone :: t2' ∧ t2 = t2' ++ .stopDone :: new) ∨ (t1 = t ∧ t2 = new) := by
    intro t1 t2 h
    rcases split_stop h with h | ⟨a, h1, h2⟩
    · exact .inl h
    · cases a with
      | nil =>
        rw [List.nil_append] at h2
        rw [List.append_nil] at h1
        exact .inr ⟨h1, ((List.cons.inj h2).2).symm⟩
      | cons x xs =>
        exfalso
        rw [List.cons_append] at h2
        have h3 := (List.cons.inj h2).2
        rcases hmem .stopDone (by rw [h3]; simp) with h | ⟨z, _, h⟩ <;> cases h
  have inT : ∀ t1 t2 z, t ++ .stopDone :: new = t1 ++ .stopDone :: t2 → .start z ∈ t1 → .start z ∈ t := by
    intro t1 t2 z h hs
    rcases dec t1 t2 h with ⟨t2', h1, -⟩ | ⟨rfl, -⟩
    · rw [h1]; exact List.mem_append_left _ hs
    · exact hs
  refine ⟨?_, ?_, ?_⟩
  · intro t1 t2 z h hs ht
    have hno : LifeEv.tick z ∉ new := fun h => by
      rcases hmem _ h with h | ⟨k, _, h⟩ <;> cases h
    rcases dec t1 t2 h with ⟨t2', h1, rfl⟩ | ⟨rfl, rfl⟩
    · rcases List.mem_append.1 ht with ht | ht
      · exact i.stops t1 t2' z h1 hs ht
      · rcases List.mem_cons.1 ht with ht | ht
        · cases ht
        · exact hno ht
    · exact hno ht
  · intro t1 t2 z h hs hzz
    have h1 := i.old z (inT t1 t2 z h hs)
    have := hz z hzz
    omega
  · intro z h
    rw [hn]
    rcases List.mem_append.1 h with h | h
    · have := i.old z h; omega
    · rcases List.mem_cons.1 h with h | h
      · cases h
      · rcases hmem _ h with h | ⟨k, hk, h⟩
        · cases h
        · have := LifeEv.start.inj h; omega

theorem startZones_zones (s : Life) (n k : Nat) : ∀ z ∈ (s.startZones n k).zones, s.next ≤ z := by
  intro z hz
  obtain ⟨i, -, rfl⟩ := List.mem_map.1 hz
  omega

theorem traceInv {P : Life → Prop} {t : List LifeEv} {s : Life} (hr : LifeRun P t s) (hP : ∀ t s, LifeRun P t s → NoZombie s) :
    TraceInv t s := by
  induction hr with
  | init => exact ⟨fun t1 t2 z h => by simp at h, fun t1 t2 z h => by simp at h, by simp⟩
  | @step t s e s' hr hs _ i =>
    have nz := hP t s hr
    cases hs with
    | expire z _ _ => exact i.quiet rfl rfl (by simp)
    | expireRestart _ _ => exact i.quiet rfl rfl (by simp)
    | expireTerminate _ _ => exact i.quiet rfl rfl (by simp)
    | requestRestart _ => exact i.quiet rfl rfl (by simp)
    | requestTerminate _ => exact i.quiet rfl rfl (by simp)
    | @run j rest b _ hq =>
      have i0 : TraceInv t { s with queue := rest } := ⟨i.stops, i.gone, i.old⟩
      cases j with
      | loop z ok =>
        cases ok with
        | false => exact i0.quiet rfl rfl (by simp [Life.run])
        | true =>
          have hz : z ∈ s.zones := nz z (.inr ⟨true, by rw [hq]; simp⟩)
          refine i0.quiet ?_ ?_ ?_
          · simp only [Life.run, Life.runLoop]; split_ifs <;> rfl
          · simp only [Life.run, Life.runLoop]; split_ifs <;> rfl
          · intro x hx
            exact .inr ⟨z, hz, List.mem_singleton.1 hx⟩
      | restart ok =>
        cases ok with
        | false => exact i0.quiet rfl rfl (by simp [Life.run])
        | true =>
          simp only [Life.run, Life.runRestart]
          rcases stop_cases { s with queue := rest } with ⟨h, -⟩ | ⟨h, -⟩
          · rw [h]
            dsimp only
            cases b with
            | notReady => exact i0.restarted 0 [] (by simp) rfl (by simp)
            | throws n k =>
              exact i0.restarted (s' := (Life.startZones { Life.cancelTimers { s with queue := rest } with zones := [], canceling := false } n k).armRestart)
                n [.failed] (by simp) rfl (fun z hz => startZones_zones _ n k z hz)
            | zones n =>
              have := i0.restarted (s' := Life.startZones { Life.cancelTimers { s with queue := rest } with zones := [], canceling := false } n n)
                n [] (by simp) rfl (fun z hz => startZones_zones _ n n z hz)
              rw [List.append_nil] at this
              exact this
          · rw [h]
            exact i0.quiet rfl rfl (by simp)
      | terminate ok =>
        cases ok with
        | false => exact i0.quiet rfl rfl (by simp [Life.run])
        | true =>
          simp only [Life.run, Life.runTerminate]
          rcases stop_cases { s with queue := rest } with ⟨h, -⟩ | ⟨h, -⟩
          · rw [h]
            exact i0.restarted 0 [] (by simp) rfl (by simp)
          · rw [h]
            exact i0.quiet rfl rfl (by simp)

/-! ## Live loops after a step -/

theorem live_queue_irrel {s : Life} {rest : List Job} {z : Nat} {j : Job} (hq : s.queue = j :: rest)
    (h : Live { s with queue := rest } z) : Live s z := by
  rcases h with h | ⟨ok, h⟩
  · exact .inl h
  · exact .inr ⟨ok, by rw [hq]; exact List.mem_cons_of_mem _ h⟩

theorem armRestart_live (s : Life) (z : Nat) : Live s.armRestart z ↔ Live s z := by
  unfold Live Life.armRestart
  simp

theorem armTerminate_live (s : Life) (z : Nat) : Live s.armTerminate z ↔ Live s z := by
  unfold Live Life.armTerminate
  simp

theorem startZones_live {s : Life} {n k z : Nat} (hs : ∀ z, ¬ Live s z) (h : Live (s.startZones n k) z) :
    z ∈ ((List.range n).map (fun i => s.next + i)).take k := by
  rcases h with h | ⟨ok, h⟩
  · rcases List.mem_append.1 h with h | h
    · exact absurd (.inl h) (hs z)
    · exact h
  · exact absurd (.inr ⟨ok, h⟩) (hs z)

/-- the state after a completed stop, when nothing was alive -/
theorem stopped_live {s : Life} (hs : ∀ z, ¬ Live s z) (z : Nat) :
    ¬ Live { s.cancelTimers with zones := [], canceling := false } z := by
  intro h
  have : Live s.cancelTimers z := h
  rw [cancel_live] at this
  exact hs z this

/-! ## At most one zone -/

theorem noZombie_oneZone {t : List LifeEv} {s : Life} (hr : LifeRun OneZone t s) : NoZombie s := by
  induction hr with
  | init => intro z h; rcases h with h | ⟨ok, h⟩ <;> simp [Life.init] at h
  | @step t s e s' hr hs _ nz =>
    have one : OneZone s := by cases hr <;> assumption
    cases hs with
    | expire z _ hw =>
      intro w h
      apply nz w
      rcases h with h | ⟨ok, h⟩
      · exact .inl (List.mem_of_mem_erase h)
      · rcases List.mem_append.1 h with h | h
        · exact .inr ⟨ok, h⟩
        · cases List.mem_singleton.1 h; exact .inl hw
    | expireRestart _ _ => intro w h; apply nz w; simpa [Live] using h
    | expireTerminate _ _ => intro w h; apply nz w; simpa [Live] using h
    | requestRestart _ => intro w h; apply nz w; simpa [Live] using h
    | requestTerminate _ => intro w h; apply nz w; simpa [Live] using h
    | @run j rest b _ hq =>
      have nz0 : NoZombie { s with queue := rest } := fun z h => nz z (live_queue_irrel hq h)
      -- a completed stop finds nothing alive
      have dead : (∀ z, ({ s with queue := rest } : Life).zones.head? = some z → ¬ Live { s with queue := rest } z) →
          ∀ z, ¬ Live { s with queue := rest } z := by
        intro h z hl
        have hz := nz0 z hl
        have : ({ s with queue := rest } : Life).zones.head? = some z := by
          have h1 : s.zones.length ≤ 1 := one
          have h2 : z ∈ s.zones := hz
          show s.zones.head? = some z
          match hsz : s.zones with
          | [] => rw [hsz] at h2; cases h2
          | [w] => rw [hsz] at h2; rw [List.mem_singleton.1 h2]; rfl
          | _ :: _ :: _ => rw [hsz] at h1; simp at h1
        exact h z this hl
      cases j with
      | loop z ok =>
        cases ok with
        | false => exact nz0
        | true =>
          have hz : z ∈ s.zones := nz z (.inr ⟨true, by rw [hq]; simp⟩)
          simp only [Life.run, Life.runLoop]
          split_ifs
          · exact nz0
          · intro w h
            rcases h with h | ⟨ok, h⟩
            · rcases List.mem_append.1 h with h | h
              · exact nz0 w (.inl h)
              · rw [List.mem_singleton.1 h]; exact hz
            · exact nz0 w (.inr ⟨ok, h⟩)
      | restart ok =>
        cases ok with
        | false => exact nz0
        | true =>
          simp only [Life.run, Life.runRestart]
          rcases stop_cases { s with queue := rest } with ⟨h, hd⟩ | ⟨h, -⟩
          · rw [h]
            have hdead := stopped_live (dead hd)
            dsimp only
            cases b with
            | notReady => intro z hz; exact absurd hz (hdead z)
            | throws n k =>
              intro z hz
              rw [armRestart_live] at hz
              exact List.mem_of_mem_take (startZones_live hdead hz)
            | zones n =>
              intro z hz
              exact List.mem_of_mem_take (startZones_live hdead hz)
          · rw [h]
            intro z hz
            rw [armRestart_live, cancel_live] at hz
            exact nz0 z hz
      | terminate ok =>
        cases ok with
        | false => exact nz0
        | true =>
          simp only [Life.run, Life.runTerminate]
          rcases stop_cases { s with queue := rest } with ⟨h, hd⟩ | ⟨h, -⟩
          · rw [h]
            intro z hz
            exact absurd hz (stopped_live (dead hd) z)
          · rw [h]
            intro z hz
            rw [armTerminate_live, cancel_live] at hz
            exact nz0 z hz

/-! ## Attempts that do not overlap -/

structure AttInv (s : Life) : Prop where
  nz : NoZombie s
  /-- while cancelling nothing is pending and no loop handler comes after an attempt -/
  cancelWait : s.canceling = true → s.waiting = []
  cancelOrder : s.canceling = true → ∀ a j b, s.queue = a ++ j :: b → j.isAttempt = true → ∀ z ok, Job.loop z ok ∉ b
  /-- otherwise all timers are known, nothing is aborted, and if there is a loop then the first zone has one -/
  runTimers : s.canceling = false → ∀ z, Live s z → z ∈ s.timers
  runAborted : s.canceling = false → ∀ z, Job.loop z false ∉ s.queue
  runHead : s.canceling = false → ∀ z, Live s z → ∃ z0, s.zones.head? = some z0 ∧ Live s z0

/-- a state without loops that is not cancelling -/
theorem AttInv.dead {s : Life} (h : ∀ z, ¬ Live s z) (hc : s.canceling = false) : AttInv s where
  nz z hz := absurd hz (h z)
  cancelWait h := by rw [hc] at h; cases h
  cancelOrder h := by rw [hc] at h; cases h
  runTimers _ z hz := absurd hz (h z)
  runAborted _ z hz := h z (.inr ⟨false, hz⟩)
  runHead _ z hz := absurd hz (h z)

theorem AttInv.started {s : Life} (h : ∀ z, ¬ Live s z) (hc : s.canceling = false) (n k : Nat) : AttInv (s.startZones n k) := by
  have hc' : (s.startZones n k).canceling = false := hc
  refine ⟨?_, by simp [hc'], by simp [hc'], ?_, ?_, ?_⟩
  · intro z hz
    exact List.mem_of_mem_take (startZones_live h hz)
  · intro _ z hz
    refine List.mem_append_right _ ?_
    have := startZones_live h hz
    rw [List.take_add_one]
    exact List.mem_append_left _ this
  · intro _ z hz
    exact h z (.inr ⟨false, hz⟩)
  · intro _ z hz
    have hm := startZones_live h hz
    show ∃ z0, ((List.range n).map (fun i => s.next + i)).head? = some z0 ∧ _
    match hn : (List.range n).map (fun i => s.next + i), k, hm with
    | [], _, hm => simp at hm
    | _ :: _, 0, hm => simp at hm
    | x :: xs, k + 1, hm =>
      refine ⟨x, rfl, .inl (List.mem_append_right _ ?_)⟩
      rw [hn]; simp

/-- adding handlers that are not loops, at the end -/
theorem AttInv.enqueue {s s' : Life} (i : AttInv s) (js : List Job) (hq : s'.queue = s.queue ++ js) (hw : s'.waiting = s.waiting)
    (hz : s'.zones = s.zones) (hc : s'.canceling = s.canceling) (ht : s'.timers = s.timers)
    (hj : ∀ z ok, Job.loop z ok ∉ js) : AttInv s' := by
  have live : ∀ z, Live s' z ↔ Live s z := by
    intro z
    unfold Live
    rw [hw, hq]
    constructor
    · rintro (h | ⟨ok, h⟩)
      · exact .inl h
      · rcases List.mem_append.1 h with h | h
        · exact .inr ⟨ok, h⟩
        · exact absurd h (hj z ok)
    · rintro (h | ⟨ok, h⟩)
      · exact .inl h
      · exact .inr ⟨ok, List.mem_append_left _ h⟩
  refine ⟨?_, ?_, ?_, ?_, ?_, ?_⟩
  · intro z h; rw [hz]; exact i.nz z ((live z).1 h)
  · intro h; rw [hw]; exact i.cancelWait (hc ▸ h)
  · intro h a j b hab hatt z ok hm
    rw [hq] at hab
    rcases List.append_eq_append_iff.1 hab with ⟨c, h1, h2⟩ | ⟨c, h1, h2⟩
    · -- the attempt is among the new ones
      exact hj z ok (by rw [h2]; simp [hm])
    · cases c with
      | nil =>
        rw [List.nil_append] at h2
        exact hj z ok (by rw [← h2]; simp [hm])
      | cons x xs =>
        rw [List.cons_append] at h2
        obtain ⟨rfl, h3⟩ := List.cons.inj h2
        rw [h3] at hm
        rcases List.mem_append.1 hm with hm | hm
        · exact i.cancelOrder (hc ▸ h) a j xs h1 hatt z ok hm
        · exact hj z ok hm
  · intro h z hl; rw [ht]; exact i.runTimers (hc ▸ h) z ((live z).1 hl)
  · intro h z hm
    rw [hq] at hm
    rcases List.mem_append.1 hm with hm | hm
    · exact i.runAborted (hc ▸ h) z hm
    · exact hj z false hm
  · intro h z hl
    obtain ⟨z0, h1, h2⟩ := i.runHead (hc ▸ h) z ((live z).1 hl)
    exact ⟨z0, by rw [hz]; exact h1, (live z0).2 h2⟩

/-- an attempt that fails while nothing else is attempted -/
theorem AttInv.failedStop {s : Life} (i : AttInv s) (hc : s.canceling = false)
    (hno : ∀ j ∈ s.queue, j.isAttempt = false) : AttInv s.cancelTimers := by
  have hw : s.cancelTimers.waiting = [] := by
    show s.waiting.filter (fun z => decide (z ∉ s.timers)) = []
    rw [List.filter_eq_nil_iff]
    intro z hz hd
    exact of_decide_eq_true hd (i.runTimers hc z (.inl hz))
  have hcc : s.cancelTimers.canceling = true := rfl
  refine ⟨?_, fun _ => hw, ?_, by simp [hcc], by simp [hcc], by simp [hcc]⟩
  · intro z h
    exact i.nz z ((cancel_live s z).1 h)
  · intro _ a j b hab hatt
    exfalso
    have hm : j ∈ s.cancelTimers.queue := by rw [hab]; simp
    rcases List.mem_append.1 hm with hm | hm
    · rw [hno j hm] at hatt; cases hatt
    · obtain ⟨z, -, rfl⟩ := List.mem_map.1 hm
      cases hatt

/-- taking a handler off the queue -/
theorem AttInv.pop {s : Life} (i : AttInv s) {j : Job} {rest : List Job} (hq : s.queue = j :: rest)
    (hj : s.canceling = true ∨ ∀ z ok, j ≠ .loop z ok) : AttInv { s with queue := rest } := by
  have live : ∀ z, Live { s with queue := rest } z → Live s z := fun z h => live_queue_irrel hq h
  refine ⟨fun z h => i.nz z (live z h), i.cancelWait, ?_, fun h z hl => i.runTimers h z (live z hl), ?_, ?_⟩
  · intro h a k b hab hatt z ok
    exact i.cancelOrder h (j :: a) k b (by rw [hq, List.cons_append]; exact congrArg _ hab) hatt z ok
  · intro h z hm
    exact i.runAborted h z (by rw [hq]; exact List.mem_cons_of_mem _ hm)
  · intro h z hl
    obtain ⟨z0, h1, h2⟩ := i.runHead h z (live z hl)
    refine ⟨z0, h1, ?_⟩
    rcases hj with hj | hj
    · rw [hj] at h; cases h
    · rcases h2 with h2 | ⟨ok, h2⟩
      · exact .inl h2
      · rw [hq] at h2
        rcases List.mem_cons.1 h2 with h2 | h2
        · exact absurd h2.symm (hj z0 ok)
        · exact .inr ⟨ok, h2⟩

/-- With an attempt at the front: nothing is alive after it if it completes, and it completes if cancelling. -/
theorem AttInv.attempt {s : Life} (i : AttInv s) {j : Job} {rest : List Job} (hq : s.queue = j :: rest) (hj : j.isAttempt = true) :
    (s.canceling = true → ∀ z, ¬ Live { s with queue := rest } z) ∧
    ((∀ z, s.zones.head? = some z → ¬ Live { s with queue := rest } z) → ∀ z, ¬ Live { s with queue := rest } z) := by
  have hdead : s.canceling = true → ∀ z, ¬ Live { s with queue := rest } z := by
    intro hc z h
    rcases h with h | ⟨ok, h⟩
    · have : z ∈ s.waiting := h
      rw [i.cancelWait hc] at this
      cases this
    · exact i.cancelOrder hc [] j rest hq hj z ok h
  refine ⟨hdead, fun h z hl => ?_⟩
  cases hc : s.canceling with
  | true => exact hdead hc z hl
  | false =>
    have hnl : ∀ z ok, j ≠ .loop z ok := by
      rintro z ok rfl
      cases hj
    obtain ⟨z0, h1, h2⟩ := (i.pop hq (.inr hnl)).runHead hc z hl
    exact h z0 h1 h2

theorem attInv {t : List LifeEv} {s : Life} (hr : LifeRun OneAttempt t s) : AttInv s := by
  induction hr with
  | init =>
    refine AttInv.dead ?_ rfl
    intro z h; rcases h with h | ⟨ok, h⟩ <;> simp [Life.init] at h
  | @step t s e s' hr hs _ i =>
    have one : OneAttempt s := by cases hr <;> assumption
    cases hs with
    | expire z _ hw =>
      have hc : s.canceling = false := by
        cases hc : s.canceling with
        | false => rfl
        | true => rw [i.cancelWait hc] at hw; cases hw
      have live : ∀ w, Live { s with waiting := s.waiting.erase z, queue := s.queue ++ [.loop z true] } w → Live s w := by
        rintro w (h | ⟨ok, h⟩)
        · exact .inl (List.mem_of_mem_erase h)
        · rcases List.mem_append.1 h with h | h
          · exact .inr ⟨ok, h⟩
          · cases List.mem_singleton.1 h; exact .inl hw
      have live' : ∀ w, Live s w → Live { s with waiting := s.waiting.erase z, queue := s.queue ++ [.loop z true] } w := by
        rintro w (h | ⟨ok, h⟩)
        · by_cases hwz : w = z
          · exact .inr ⟨true, by rw [hwz]; simp⟩
          · exact .inl ((List.mem_erase_of_ne hwz).2 h)
        · exact .inr ⟨ok, List.mem_append_left _ h⟩
      refine ⟨fun w h => i.nz w (live w h), by simp [hc], by simp [hc], fun _ w h => i.runTimers hc w (live w h), ?_, ?_⟩
      · intro _ w hm
        rcases List.mem_append.1 hm with hm | hm
        · exact i.runAborted hc w hm
        · cases List.mem_singleton.1 hm
      · intro _ w hl
        obtain ⟨z0, h1, h2⟩ := i.runHead hc w (live w hl)
        exact ⟨z0, h1, live' z0 h2⟩
    | expireRestart _ _ => exact i.enqueue [.restart true] rfl rfl rfl rfl rfl (by simp)
    | expireTerminate _ _ => exact i.enqueue [.terminate true] rfl rfl rfl rfl rfl (by simp)
    | requestRestart _ => exact i.enqueue [.restart true] rfl rfl rfl rfl rfl (by simp)
    | requestTerminate _ => exact i.enqueue [.terminate true] rfl rfl rfl rfl rfl (by simp)
    | @run j rest b _ hq =>
      cases hj : j.isAttempt with
      | true =>
        obtain ⟨a1, a2⟩ := i.attempt hq hj
        have hnl : ∀ z ok, j ≠ .loop z ok := by
          rintro z ok rfl
          cases hj
        have i0 := i.pop hq (.inr hnl)
        have hrest : ∀ k ∈ rest, k.isAttempt = false := by
          intro k hk
          by_contra hc
          have h1 : (s.queue.filter Job.isAttempt).length ≤ 1 := one
          rw [hq, List.filter_cons_of_pos hj, List.length_cons] at h1
          have := List.length_pos_of_mem (List.mem_filter.2 ⟨hk, (by simpa using hc : k.isAttempt = true)⟩)
          omega
        have failed : (∃ z, ({ s with queue := rest } : Life).zones.head? = some z ∧ Live { s with queue := rest } z) →
            AttInv (Life.cancelTimers { s with queue := rest }) := by
          rintro ⟨z, -, hl⟩
          have hc : s.canceling = false := by
            cases hc : s.canceling with
            | false => rfl
            | true => exact absurd hl (a1 hc z)
          exact i0.failedStop hc hrest
        cases j with
        | loop z ok => cases hj
        | restart ok =>
          cases ok with
          | false => cases hj
          | true =>
            simp only [Life.run, Life.runRestart]
            rcases stop_cases { s with queue := rest } with ⟨h, hd⟩ | ⟨h, hl⟩
            · rw [h]
              have hdead := stopped_live (a2 hd)
              dsimp only
              cases b with
              | notReady => exact AttInv.dead hdead rfl
              | throws n k =>
                exact (AttInv.started hdead rfl n k).enqueue _ rfl rfl rfl rfl rfl (by simp)
              | zones n => exact AttInv.started hdead rfl n n
            · rw [h]
              exact (failed hl).enqueue _ rfl rfl rfl rfl rfl (by simp)
        | terminate ok =>
          cases ok with
          | false => cases hj
          | true =>
            simp only [Life.run, Life.runTerminate]
            rcases stop_cases { s with queue := rest } with ⟨h, hd⟩ | ⟨h, hl⟩
            · rw [h]
              exact AttInv.dead (fun z hz => stopped_live (a2 hd) z hz) rfl
            · rw [h]
              exact (failed hl).enqueue _ rfl rfl rfl rfl rfl (by simp)
      | false =>
        cases j with
        | restart ok =>
          cases ok with
          | true => cases hj
          | false => exact i.pop hq (.inr (by simp))
        | terminate ok =>
          cases ok with
          | true => cases hj
          | false => exact i.pop hq (.inr (by simp))
        | loop z ok =>
          rcases Bool.eq_false_or_eq_true s.canceling with hc | hc
          · cases ok with
            | false => exact i.pop hq (.inl hc)
            | true =>
              simp only [Life.run, Life.runLoop]
              rw [if_pos (by exact hc)]
              exact i.pop hq (.inl hc)
          · cases ok with
            | false => exact absurd (by rw [hq]; simp) (i.runAborted hc z)
            | true =>
              simp only [Life.run, Life.runLoop]
              rw [if_neg (by simp [hc])]
              have live : ∀ w, Live { s with queue := rest, waiting := s.waiting ++ [z] } w → Live s w := by
                rintro w (h | ⟨ok, h⟩)
                · rcases List.mem_append.1 h with h | h
                  · exact .inl h
                  · rw [List.mem_singleton.1 h]; exact .inr ⟨true, by rw [hq]; simp⟩
                · exact .inr ⟨ok, by rw [hq]; exact List.mem_cons_of_mem _ h⟩
              have live' : ∀ w, Live s w → Live { s with queue := rest, waiting := s.waiting ++ [z] } w := by
                rintro w (h | ⟨ok, h⟩)
                · exact .inl (List.mem_append_left _ h)
                · rw [hq] at h
                  rcases List.mem_cons.1 h with h | h
                  · cases h; exact .inl (by simp)
                  · exact .inr ⟨ok, h⟩
              refine ⟨fun w h => i.nz w (live w h), by simp [hc], by simp [hc], fun _ w h => i.runTimers hc w (live w h), ?_, ?_⟩
              · intro _ w hm
                exact i.runAborted hc w (by rw [hq]; exact List.mem_cons_of_mem _ hm)
              · intro _ w hl
                obtain ⟨z0, h1, h2⟩ := i.runHead hc w (live w hl)
                exact ⟨z0, h1, live' z0 h2⟩

/-! ## C72 -/

/-- **C72** The claim: in every run, no zone made before a completed stop ticks after it. -/
def C72_statement : Prop := ∀ t s, LifeRun anyLife t s → StopsForGood t

/-- **C72** It holds if every configuration has at most one zone. -/
theorem C72_one_zone_partial {t : List LifeEv} {s : Life} (hr : LifeRun OneZone t s) : StopsForGood t :=
  (traceInv hr (fun _ _ h => noZombie_oneZone h)).stops

/-- **C72** It holds, with any number of zones, as long as at most one attempt to restart or terminate is ready at any time. -/
theorem C72_one_attempt_partial {t : List LifeEv} {s : Life} (hr : LifeRun OneAttempt t s) : StopsForGood t :=
  (traceInv hr (fun _ _ h => (attInv h).nz)).stops

/-- things that can happen, for concrete runs -/
inductive LifeAct
  | expire (z : Nat)
  | requestRestart
  | requestTerminate
  | expireRestart
  | expireTerminate
  | run (b : BuildOutcome)

def Life.act (s : Life) : LifeAct → Option (List LifeEv × Life)
  | .expire z => if s.stopped = false ∧ z ∈ s.waiting then
      some ([], { s with waiting := s.waiting.erase z, queue := s.queue ++ [.loop z true] }) else none
  | .requestRestart => if s.stopped = false then some ([], { s with queue := s.queue ++ [.restart true] }) else none
  | .requestTerminate => if s.stopped = false then some ([], { s with queue := s.queue ++ [.terminate true] }) else none
  | .expireRestart => if s.stopped = false ∧ 0 < s.retryRestart then
      some ([], { s with retryRestart := s.retryRestart - 1, queue := s.queue ++ [.restart true] }) else none
  | .expireTerminate => if s.stopped = false ∧ 0 < s.retryTerminate then
      some ([], { s with retryTerminate := s.retryTerminate - 1, queue := s.queue ++ [.terminate true] }) else none
  | .run b =>
    if s.stopped = false then
      match s.queue with
      | [] => none
      | j :: rest => some ((({ s with queue := rest } : Life).run b j).2, (({ s with queue := rest } : Life).run b j).1)
    else none

theorem act_step {s s' : Life} {a : LifeAct} {e : List LifeEv} (h : s.act a = some (e, s')) : LifeStep s e s' := by
  unfold Life.act at h
  cases a with
  | expire z =>
    dsimp only at h
    split_ifs at h with hc
    cases h; exact .expire z hc.1 hc.2
  | requestRestart =>
    dsimp only at h
    split_ifs at h with hc
    cases h; exact .requestRestart hc
  | requestTerminate =>
    dsimp only at h
    split_ifs at h with hc
    cases h; exact .requestTerminate hc
  | expireRestart =>
    dsimp only at h
    split_ifs at h with hc
    cases h; exact .expireRestart hc.1 hc.2
  | expireTerminate =>
    dsimp only at h
    split_ifs at h with hc
    cases h; exact .expireTerminate hc.1 hc.2
  | run b =>
    dsimp only at h
    split_ifs at h with hc
    split at h
    · cases h
    · rename_i j rest hq
      cases h; exact .run b hc hq

def Life.acts : List LifeAct → List LifeEv × Life → Option (List LifeEv × Life)
  | [], r => some r
  | a :: as, (t, s) => match s.act a with
    | none => none
    | some (e, s') => Life.acts as (t ++ e, s')

theorem acts_run : ∀ {as : List LifeAct} {t t' : List LifeEv} {s s' : Life}, LifeRun anyLife t s →
    Life.acts as (t, s) = some (t', s') → LifeRun anyLife t' s'
  | [], _, _, _, _, hr, h => by cases h; exact hr
  | a :: as, t, t', s, s', hr, h => by
    unfold Life.acts at h
    split at h
    · cases h
    · rename_i e s1 h1
      exact acts_run (.step hr (act_step h1) trivial) h

/-- Two zones are started; both timers have expired and two restarts are ready, in this order: restart, loop 0, restart,
loop 1. -/
def zombieActs : List LifeAct :=
  [.requestRestart, .run (.zones 2), .requestRestart, .expire 0, .requestRestart, .expire 1,
    .run (.zones 2), .run (.zones 2), .run (.zones 2), .run (.zones 2), .expire 1, .run (.zones 2)]

/-- **C72** (finding) The claim does not hold for the code: only the first zone is checked, so with two restarts ready at the
same time a loop of the old configuration survives the stop and keeps ticking beside the new ones. -/
theorem C72_violated : ¬ C72_statement := by
  intro h
  have hx : ∃ r, Life.acts zombieActs ([], Life.init) = some r ∧
      r.1 = [.stopDone, .start 0, .start 1] ++ [.failed, .tick 0, .stopDone, .start 2, .start 3, .tick 1, .tick 1] ∧
      r.2.zones = [2, 3] ∧ 1 ∈ r.2.waiting := by decide +kernel
  obtain ⟨⟨t, s⟩, h1, h2, -⟩ := hx
  have hr := acts_run (.init trivial) h1
  dsimp only at h2
  refine h t s hr [.stopDone, .start 0, .start 1, .failed, .tick 0] [.start 2, .start 3, .tick 1, .tick 1] 1 ?_ (by decide) (by decide)
  rw [h2]; rfl

/-- **C72** (finding) Such a loop can not be stopped any more: its timer is not among the known ones, so its wait survives
every further restart. -/
theorem C72_survives {s : Life} {z : Nat} (hw : z ∈ s.waiting) (ht : z ∉ s.timers) (b : BuildOutcome) :
    z ∈ (s.runRestart b).1.waiting := by
  have hc : z ∈ s.cancelTimers.waiting := List.mem_filter.2 ⟨hw, by simpa using ht⟩
  unfold Life.runRestart
  rcases stop_cases s with ⟨h, -⟩ | ⟨h, -⟩
  · rw [h]
    dsimp only
    cases b with
    | notReady => exact hc
    | throws n k => exact List.mem_append_left _ hc
    | zones n => exact List.mem_append_left _ hc
  · rw [h]; exact hc

/-! ## C73 -/

/-- **C73** An attempt that finds the first zone's loop alive fails: the zones stay, no zone is made, and a retry is
pending. -/
theorem C73_failed {s s' : Life} {e : List LifeEv} (hs : LifeStep s e s') (hf : .failed ∈ e) (hn : .stopDone ∉ e) :
    e = [.failed] ∧ s'.zones = s.zones ∧ s'.next = s.next ∧ s'.stopped = false ∧
      (s'.retryRestart = 1 ∨ s'.retryTerminate = 1) := by
  cases hs with
  | expire z _ hw => cases hf
  | expireRestart _ _ => cases hf
  | expireTerminate _ _ => cases hf
  | requestRestart _ => cases hf
  | requestTerminate _ => cases hf
  | @run j rest b hst hq =>
    cases j with
    | loop z ok =>
      cases ok with
      | false => cases hf
      | true => cases List.mem_singleton.1 hf
    | restart ok =>
      cases ok with
      | false => cases hf
      | true =>
        simp only [Life.run, Life.runRestart] at hf hn ⊢
        rcases stop_cases { s with queue := rest } with ⟨h, -⟩ | ⟨h, -⟩
        · rw [h] at hn
          exfalso
          cases b <;> simp at hn
        · rw [h]
          exact ⟨rfl, rfl, rfl, hst, .inl rfl⟩
    | terminate ok =>
      cases ok with
      | false => cases hf
      | true =>
        simp only [Life.run, Life.runTerminate] at hf hn ⊢
        rcases stop_cases { s with queue := rest } with ⟨h, -⟩ | ⟨h, -⟩
        · rw [h] at hn
          exfalso
          simp at hn
        · rw [h]
          exact ⟨rfl, rfl, rfl, hst, .inr rfl⟩

/-- **C73** An attempt fails exactly if the first zone still has a loop. -/
theorem C73_detects {s : Life} (b : BuildOutcome) :
    .stopDone ∉ (s.runRestart b).2 ↔ ∃ z, s.zones.head? = some z ∧ Live s z := by
  unfold Life.runRestart
  rcases stop_cases s with ⟨h, hd⟩ | ⟨h, hl⟩
  · rw [h]
    constructor
    · intro hn; exfalso; cases b <;> simp at hn
    · rintro ⟨z, h1, h2⟩; exact absurd h2 (hd z h1)
  · rw [h]
    simp [hl]

/-- **C73** At most one retry of each kind is pending, after any number of failures. -/
theorem C73_one_pending {t : List LifeEv} {s : Life} (hr : LifeRun anyLife t s) : s.retryRestart ≤ 1 ∧ s.retryTerminate ≤ 1 := by
  induction hr with
  | init => exact ⟨by decide, by decide⟩
  | @step t s e s' hr hs _ i =>
    cases hs with
    | expire z _ hw => exact i
    | expireRestart _ _ => exact ⟨by have := i.1; dsimp only; omega, i.2⟩
    | expireTerminate _ _ => exact ⟨i.1, by have := i.2; dsimp only; omega⟩
    | requestRestart _ => exact i
    | requestTerminate _ => exact i
    | @run j rest b hst hq =>
      cases j with
      | loop z ok =>
        cases ok with
        | false => exact i
        | true =>
          simp only [Life.run, Life.runLoop]
          split_ifs <;> exact i
      | restart ok =>
        cases ok with
        | false => exact i
        | true =>
          simp only [Life.run, Life.runRestart]
          rcases stop_cases { s with queue := rest } with ⟨h, -⟩ | ⟨h, -⟩
          · rw [h]
            cases b with
            | notReady => exact i
            | throws n k => exact ⟨le_refl _, i.2⟩
            | zones n => exact i
          · rw [h]; exact ⟨le_refl _, i.2⟩
      | terminate ok =>
        cases ok with
        | false => exact i
        | true =>
          simp only [Life.run, Life.runTerminate]
          rcases stop_cases { s with queue := rest } with ⟨h, -⟩ | ⟨h, -⟩
          · rw [h]; exact i
          · rw [h]; exact ⟨i.1, le_refl _⟩

/-- **C73** A stop that has begun is never forgotten: as long as it is not completed, an attempt is ready or a retry is
pending. -/
theorem C73_not_forgotten {t : List LifeEv} {s : Life} (hr : LifeRun anyLife t s) (hc : s.canceling = true) :
    0 < s.retryRestart ∨ 0 < s.retryTerminate ∨ ∃ j ∈ s.queue, j.isAttempt = true := by
  induction hr with
  | init => cases hc
  | @step t s e s' hr hs _ i =>
    cases hs with
    | expire z _ hw =>
      rcases i hc with h | h | ⟨j, h, h'⟩
      · exact .inl h
      · exact .inr (.inl h)
      · exact .inr (.inr ⟨j, List.mem_append_left _ h, h'⟩)
    | expireRestart _ _ => exact .inr (.inr ⟨.restart true, by simp, rfl⟩)
    | expireTerminate _ _ => exact .inr (.inr ⟨.terminate true, by simp, rfl⟩)
    | requestRestart _ => exact .inr (.inr ⟨.restart true, by simp, rfl⟩)
    | requestTerminate _ => exact .inr (.inr ⟨.terminate true, by simp, rfl⟩)
    | @run j rest b hst hq =>
      have keep : j.isAttempt = false → s.canceling = true →
          0 < s.retryRestart ∨ 0 < s.retryTerminate ∨ ∃ j ∈ rest, j.isAttempt = true := by
        intro hj hcs
        rcases i hcs with h | h | ⟨k, h, h'⟩
        · exact .inl h
        · exact .inr (.inl h)
        · rw [hq] at h
          rcases List.mem_cons.1 h with rfl | h
          · rw [hj] at h'; cases h'
          · exact .inr (.inr ⟨k, h, h'⟩)
      cases j with
      | loop z ok =>
        cases ok with
        | false => exact keep rfl hc
        | true =>
          simp only [Life.run, Life.runLoop] at hc ⊢
          split_ifs at hc ⊢ with hcs
          · exact keep rfl hcs
          · exact absurd hc hcs
      | restart ok =>
        cases ok with
        | false => exact keep rfl hc
        | true =>
          simp only [Life.run, Life.runRestart] at hc ⊢
          rcases stop_cases { s with queue := rest } with ⟨h, -⟩ | ⟨h, -⟩
          · rw [h] at hc
            cases b <;> cases hc
          · rw [h]; exact .inl Nat.one_pos
      | terminate ok =>
        cases ok with
        | false => exact keep rfl hc
        | true =>
          simp only [Life.run, Life.runTerminate] at hc ⊢
          rcases stop_cases { s with queue := rest } with ⟨h, -⟩ | ⟨h, -⟩
          · rw [h] at hc; cases hc
          · rw [h]; exact .inr (.inl Nat.one_pos)

/-- **C73** If attempts do not overlap, an attempt that follows a failed one completes. -/
theorem C73_second_completes {t : List LifeEv} {s : Life} (hr : LifeRun OneAttempt t s) (hc : s.canceling = true)
    {rest : List Job} (hq : s.queue = .restart true :: rest) (b : BuildOutcome) :
    .stopDone ∈ (({ s with queue := rest } : Life).run b (.restart true)).2 := by
  have hdead := ((attInv hr).attempt hq rfl).1 hc
  by_contra hn
  obtain ⟨z, -, hl⟩ := (C73_detects b).1 hn
  exact hdead z hl

/-- **C73** (finding) If attempts do not overlap, the first attempt to restart running loops always fails: cancelled
handlers still hold their zones. Every reload therefore waits for the retry delay, and nothing is controlled meanwhile. -/
theorem C73_first_fails {t : List LifeEv} {s : Life} (hr : LifeRun OneAttempt t s) (hc : s.canceling = false) {z : Nat}
    (hz : Live s z) {rest : List Job} (hq : s.queue = .restart true :: rest) (b : BuildOutcome) :
    (({ s with queue := rest } : Life).run b (.restart true)).2 = [.failed] ∧
    ∀ w, w ∉ (({ s with queue := rest } : Life).run b (.restart true)).1.waiting := by
  have i := attInv hr
  have i0 := i.pop hq (.inr (by simp))
  have hl : Live { s with queue := rest } z := by
    rcases hz with h | ⟨ok, h⟩
    · exact .inl h
    · rw [hq] at h
      rcases List.mem_cons.1 h with h | h
      · cases h
      · exact .inr ⟨ok, h⟩
  obtain ⟨z0, h1, h2⟩ := i0.runHead hc z hl
  have hw : ∀ w ∈ s.waiting, w ∈ s.timers := fun w hw => i.runTimers hc w (.inl hw)
  simp only [Life.run, Life.runRestart]
  rcases stop_cases { s with queue := rest } with ⟨h, hd⟩ | ⟨h, -⟩
  · exact absurd h2 (hd z0 h1)
  · rw [h]
    refine ⟨rfl, fun w hwm => ?_⟩
    have hm : w ∈ s.waiting.filter (fun z => decide (z ∉ s.timers)) := hwm
    obtain ⟨m1, m2⟩ := List.mem_filter.1 hm
    exact of_decide_eq_true m2 (hw w m1)

/-- A reload of two running zones: fails at first, completes ten seconds later. -/
example : (Life.acts [.requestRestart, .run (.zones 2), .expire 0, .run .notReady, .requestRestart, .expire 1, .run .notReady,
      .run .notReady, .run .notReady, .expireRestart, .run (.zones 1), .expire 2, .run .notReady] ([], Life.init)).map (·.1) =
    some [.stopDone, .start 0, .start 1, .tick 0, .failed, .tick 1, .stopDone, .start 2, .tick 2] := by decide +kernel

/-! ## C116 -/

/-- **C116** An attempt to terminate ends the program, or it fails and another one is going to be made. -/
theorem C116_attempt {s : Life} {rest : List Job} (b : BuildOutcome) (hs : s.stopped = false)
    (hq : s.queue = .terminate true :: rest) :
    ∃ e s', LifeStep s e s' ∧ (∀ e' s'', e' ≠ [] → LifeStep s e' s'' → e' = e ∧ s'' = s') ∧
      ((e = [.stopDone] ∧ Ended s') ∨ (e = [.failed] ∧ s'.stopped = false ∧ s'.zones = s.zones ∧ 0 < s'.retryTerminate)) := by
  refine ⟨_, _, .run b hs hq, ?_, ?_⟩
  · intro e' s'' he hstep
    cases hstep with
    | expire z _ hw => exact absurd rfl he
    | expireRestart _ _ => exact absurd rfl he
    | expireTerminate _ _ => exact absurd rfl he
    | requestRestart _ => exact absurd rfl he
    | requestTerminate _ => exact absurd rfl he
    | @run j rest' b' hst hq' =>
      rw [hq] at hq'
      cases hq'
      exact ⟨rfl, rfl⟩
  · simp only [Life.run, Life.runTerminate]
    rcases stop_cases { s with queue := rest } with ⟨h, -⟩ | ⟨h, -⟩
    · rw [h]
      refine .inl ⟨rfl, fun e s' hstep => ?_⟩
      cases hstep with
      | expire z h _ => cases h
      | expireRestart h _ => cases h
      | expireTerminate h _ => cases h
      | requestRestart h => cases h
      | requestTerminate h => cases h
      | run b h _ => cases h
    · rw [h]
      exact .inr ⟨rfl, hs, rfl, Nat.one_pos⟩

/-- **C116** A request to terminate is not forgotten, whatever else happens, until the program has ended. -/
theorem C116_pending {s s' : Life} {e : List LifeEv} (hs : LifeStep s e s') (hp : Terminating s) :
    Terminating s' ∨ Ended s' := by
  have app : ∀ {q : List Job} {n : Nat} (l : List Job), (.terminate true ∈ q ∨ 0 < n) →
      (Job.terminate true ∈ q ++ l ∨ 0 < n) := fun l h => h.imp_left (List.mem_append_left l)
  cases hs with
  | expire z _ hw => exact .inl (app _ hp)
  | expireRestart _ _ => exact .inl (app _ hp)
  | expireTerminate _ _ => exact .inl (.inl (by simp))
  | requestRestart _ => exact .inl (app _ hp)
  | requestTerminate _ => exact .inl (.inl (by simp))
  | @run j rest b hst hq =>
    by_cases hj : j = .terminate true
    · subst hj
      obtain ⟨e, s', h1, -, h3⟩ := C116_attempt b hst hq
      have hrun := LifeStep.run b hst hq
      obtain ⟨e1, s1, -, hu, h3⟩ := C116_attempt b hst hq
      have hne : (({ s with queue := rest } : Life).run b (.terminate true)).2 ≠ [] := by
        simp only [Life.run, Life.runTerminate]
        rcases stop_cases { s with queue := rest } with ⟨h, -⟩ | ⟨h, -⟩ <;> rw [h] <;> simp
      obtain ⟨-, h5⟩ := hu _ _ hne hrun
      rw [h5]
      rcases h3 with ⟨-, h⟩ | ⟨-, -, -, h⟩
      · exact .inr h
      · exact .inl (.inr h)
    · left
      have hp' : .terminate true ∈ rest ∨ 0 < s.retryTerminate := by
        rcases hp with h | h
        · rw [hq] at h
          rcases List.mem_cons.1 h with h | h
          · exact absurd h.symm hj
          · exact .inl h
        · exact .inr h
      cases j with
      | loop z ok =>
        cases ok with
        | false => exact hp'
        | true =>
          simp only [Life.run, Life.runLoop]
          split_ifs <;> exact hp'
      | restart ok =>
        cases ok with
        | false => exact hp'
        | true =>
          simp only [Life.run, Life.runRestart]
          rcases stop_cases { s with queue := rest } with ⟨h, -⟩ | ⟨h, -⟩
          · rw [h]
            cases b with
            | notReady => exact app _ hp'
            | throws n k => exact app _ (app _ hp')
            | zones n => exact app _ hp'
          · rw [h]; exact app _ (app _ hp')
      | terminate ok =>
        cases ok with
        | false => exact hp'
        | true => exact absurd rfl hj

/-- **C116** If attempts do not overlap, an attempt to terminate that follows a failed one ends the program. -/
theorem C116_second {t : List LifeEv} {s : Life} (hr : LifeRun OneAttempt t s) (hc : s.canceling = true)
    {rest : List Job} (hq : s.queue = .terminate true :: rest) {e : List LifeEv} {s' : Life} (hs : LifeStep s e s')
    (he : e ≠ []) : e = [.stopDone] ∧ Ended s' := by
  have hdead := ((attInv hr).attempt hq rfl).1 hc
  have hst : s.stopped = false := by cases hs <;> assumption
  obtain ⟨e1, s1, -, hu, h3⟩ := C116_attempt .notReady hst hq
  obtain ⟨rfl, rfl⟩ := hu e s' he hs
  rcases h3 with h | ⟨h, -⟩
  · exact h
  · exfalso
    have hrun := LifeStep.run .notReady hst hq
    have hne : (({ s with queue := rest } : Life).run .notReady (.terminate true)).2 = [.stopDone] := by
      simp only [Life.run, Life.runTerminate]
      rcases stop_cases { s with queue := rest } with ⟨h, -⟩ | ⟨h, z, -, hl⟩
      · rw [h]
      · exact absurd hl (hdead z)
    rw [hne] at hrun
    obtain ⟨h4, -⟩ := hu _ _ (by simp) hrun
    rw [h] at h4
    cases h4

/-- A reload and a termination at the same time: the reload's retry comes first and starts the loops again, yet the program
ends. -/
example : (Life.acts [.requestRestart, .run (.zones 1), .requestTerminate, .run .notReady, .run .notReady, .requestRestart,
      .run (.zones 1), .expireTerminate, .run .notReady, .run .notReady, .expireTerminate, .run .notReady]
      ([], Life.init)).map (fun r => (r.1, r.2.stopped)) =
    some ([.stopDone, .start 0, .failed, .stopDone, .start 1, .failed, .stopDone], true) := by decide +kernel

end Verif
