import Verif.Lemmas.AnyOrder
import Verif.Props.MoreCooling

/-! # C132: only the order of events about the same thing matters -/

namespace Verif
open Dbl
section
variable [F : FloatModel]

/-- **C132** Two sequences of events in which the events about the same thing come in the same order, and in the same order relative
to the timers of the zones, leave the daemon in the same state, with the same numbers told to the fans in the same order … -/
theorem C132_any_order {o : Opts} : ∀ {es es' : List DEvent} {d d1 : Daemon}, SameOrders es es' → d.run o es = .ok d1 →
    d.run o es' = .ok d1
  | [], _, _, _, hs, h => by rw [hs.nil]; exact h
  | e :: es, es', d, d1, hs, h => by
    obtain ⟨pre, post, rfl, hun, hs⟩ := hs.cons
    obtain ⟨d', h1, h⟩ := bind_eq_ok.1 h
    exact run_front hun (bind_eq_ok.2 ⟨d', h1, C132_any_order hs h⟩)

/-- **C132** … and the daemon survives one of them exactly if it survives the other one. -/
theorem C132_survives {o : Opts} {es es' : List DEvent} {d : Daemon} (hs : SameOrders es es') :
    (∃ d1, d.run o es = .ok d1) ↔ ∃ d1, d.run o es' = .ok d1 :=
  ⟨fun ⟨d1, h⟩ => ⟨d1, C132_any_order hs h⟩, fun ⟨d1, h⟩ => ⟨d1, C132_any_order (fun a b hab => (hs a b hab).symm) h⟩⟩

/-- **C132** Such sequences: neighbours that are not linked change places. -/
theorem C132_swap {e f : DEvent} (h : ¬ Linked (about e) (about f)) (pre post : List DEvent) :
    SameOrders (pre ++ e :: f :: post) (pre ++ f :: e :: post) := by
  intro a b hab
  simp only [List.filter_append, List.filter_cons, decide_eq_true_eq]
  congr 1
  by_cases he : about e = a ∨ about e = b
  · by_cases hf : about f = a ∨ about f = b
    · exfalso
      rcases he with he | he <;> rcases hf with hf | hf <;> rw [he, hf] at h
      exacts [h (Linked.refl _), h hab, h hab.symm, h (Linked.refl _)]
    · simp only [if_pos he, if_neg hf]
  · simp only [if_neg he]

/-- **C132** … one after the other. -/
theorem C132_trans {es es' es'' : List DEvent} (h : SameOrders es es') (h' : SameOrders es' es'') : SameOrders es es'' :=
  fun a b hab => (h a b hab).trans (h' a b hab)

end

namespace Ex
section
attribute [local instance] binary64

/-- a reading, an alarm and its end, the speed of the fan and a switched loop of another zone, between two expiries -/
def one132 : List DEvent :=
  [.tick 1, .signal "cpu" 2 (temp103 88), .signal "cpu" 2 (alarm99 true), .signal "cpu" 3 (alarm99 false),
    .signal "fan0" 2 (temp103 900), .manual 2 true, .tick 1, .tick 1]
/-- the same with the alarm before the reading, and the mode of the other zone set before the first expiry -/
def other132 : List DEvent :=
  [.manual 2 true, .tick 1, .signal "cpu" 2 (alarm99 true), .signal "fan0" 2 (temp103 900), .signal "cpu" 2 (temp103 88),
    .signal "cpu" 3 (alarm99 false), .tick 1, .tick 1]

theorem same132 : SameOrders one132 other132 := by
  have hm : ∀ n t m, ¬ Linked (about (.signal n t m)) (about (.manual 2 true)) := by
    intro n t m h
    rcases about_sensor (e := .signal n t m) (.inl ⟨t, m, rfl⟩) with g | g | g <;> (rw [g] at h; cases h)
  have hr : ∀ n t v, about (.signal n t (temp103 v)) = .reading n := fun n t v => by
    simp [about, temp103, ifSensorValue, ifCritical, ifWarning, ifOperational]
  have ha : ∀ n t b, about (.signal n t (alarm99 b)) = .alarm n := fun n t b => by simp [about, alarm99]
  refine C132_trans (C132_swap (hm _ _ _) [_, _, _, _] _) ?_
  refine C132_trans (C132_swap (hm _ _ _) [_, _, _] _) ?_
  refine C132_trans (C132_swap (hm _ _ _) [_, _] _) ?_
  refine C132_trans (C132_swap (hm _ _ _) [_] _) ?_
  refine C132_trans (C132_swap (by simp [about, Linked]) [] _) ?_
  refine C132_trans (C132_swap (by rw [hr, ha]; simp [Linked]) [_, _] _) ?_
  refine C132_trans (C132_swap (by rw [hr, ha]; simp [Linked]) [_, _, _, _] _) ?_
  exact C132_swap (by rw [hr, hr]; simp [Linked]) [_, _, _] _

/-- C132: 153 is written in the end, from zone and daemon that are the same … -/
example : ∃ d, run131 pids131 one132 = .ok d ∧ run131 pids131 other132 = .ok d ∧ decide (valueAt path124 d.w = some 153) = true := by
  obtain ⟨d, h, hv⟩ := ok_of_any (x := run131 pids131 one132) (P := fun d : Daemon => decide (valueAt path124 d.w = some 153))
    (by decide +kernel)
  refine ⟨d, h, ?_, hv⟩
  unfold run131 at h ⊢
  obtain ⟨d0, hl, h⟩ := bind_eq_ok.1 h
  exact bind_eq_ok.2 ⟨d0, hl, C132_any_order same132 h⟩

/-- the processor raises or ends its warning -/
def warning132 (b : Bool) : PropMsg := ⟨ifWarning, ({} : OMap String Variant).insert "WarningAlarmHigh" (.bool b)⟩

def last132 : List DEvent :=
  [.signal "cpu" 2 (temp103 40), .signal "cpu" 2 (alarm99 false), .signal "cpu" 2 (warning132 true), .tick 1, .tick 1, .tick 1]
def first132 : List DEvent :=
  [.signal "cpu" 2 (temp103 40), .signal "cpu" 2 (warning132 true), .signal "cpu" 2 (alarm99 false), .tick 1, .tick 1, .tick 1]
def failsafe132 (es : List DEvent) : Res Daemon := do
  let d ← Daemon.launch { uncFailsafe := true } bus103 0 world99 sensors106 pids131 zones99
  d.run { uncFailsafe := true } es

/-- **C132** Critical alarms and warnings are about the same thing. A sensor whose warning counts as a failure reports that its
warning begins and that its critical alarm is over. If the warning comes first, the end of the alarm ends the failure, and the
fans get 102 of 255 instead of 229 while the warning lasts. -/
theorem C132_alarms :
    (∃ d, failsafe132 last132 = .ok d ∧ valueAt path124 d.w = some 229) ∧
    ∃ d, failsafe132 first132 = .ok d ∧ valueAt path124 d.w = some 102 := by
  obtain ⟨d, h, hv⟩ := ok_of_any (P := fun d : Daemon => decide (valueAt path124 d.w = some 229))
    (x := failsafe132 last132)
    (by decide +kernel)
  obtain ⟨d', h', hv'⟩ := ok_of_any (P := fun d : Daemon => decide (valueAt path124 d.w = some 102))
    (x := failsafe132 first132)
    (by decide +kernel)
  exact ⟨⟨d, h, of_decide_eq_true hv⟩, d', h', of_decide_eq_true hv'⟩

end
end Ex
end Verif
