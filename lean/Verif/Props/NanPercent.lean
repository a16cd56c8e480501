import Verif.Props.Register

/-! # C32, when a percentage is not a number -/

namespace Verif
open Dbl

section
variable [F : FloatModel]

/-- nothing is larger than NaN -/
theorem maxElement_nan (xs : List Dbl) : ZoneData.maxElement nan xs = nan := by
  unfold ZoneData.maxElement
  induction xs with
  | nil => rfl
  | cons x xs ih => rw [List.foldl_cons, if_neg (by simp)]; exact ih

/-- **C32** Finding: the restriction of C32_selection to percentages that are numbers is needed. If the percentage of the failed
sensor that comes first by name is NaN, the failsafe percentage of the zone is NaN whatever the other failed sensors ask for, and
(without strict failsafe) the failsafe mode raises no fan. -/
theorem C32_nan_poisons {o : Opts} {d0 : ZoneData} {z : Zone} {cnt : Nat} {log : List Poll} (h : Hist o d0 z cnt log) {n : String}
    (hn : Failed z.d n) (hp : percentOf d0 n = nan) (hfirst : ∀ m, Failed z.d m → m = n ∨ n < m) :
    z.d.getFailSafePercent = nan ∧ (o.strictFailsafePwm = false → ∀ v, fanPercent o z.d v = v) := by
  have hi := h.inv
  have hg : z.d.getFailSafePercent = nan := by
    unfold ZoneData.getFailSafePercent
    cases hE : z.d.failSafeSensors.entries with
    | nil =>
      obtain ⟨e, he⟩ := hn
      have := (OMap.mem_entries_iff hi.wf n e).2 he
      rw [hE] at this; cases this
    | cons e es =>
      have hfe : z.d.failSafeSensors.find? e.1 = some e.2 :=
        (OMap.mem_entries_iff hi.wf _ _).1 (by rw [hE]; exact List.mem_cons_self)
      have hen : e.1 = n := by
        rcases hfirst e.1 ⟨_, hfe⟩ with h | h
        · exact h
        · obtain ⟨x, hx⟩ := hn
          have hm := (OMap.mem_entries_iff hi.wf n x).2 hx
          have hw := hi.wf
          unfold OMap.WF at hw
          rw [hE] at hm hw
          rcases List.mem_cons.1 hm with hm | hm
          · rw [← hm]
          · exact absurd h (lt_asymm ((List.pairwise_cons.1 hw).1 _ hm))
      have h2 : e.2.2 = nan := by rw [hi.entries _ _ hfe, hen, hp]
      dsimp only
      rw [h2, maxElement_nan, if_neg (by simp [Dbl.eqb])]
  refine ⟨hg, fun ho v => ?_⟩
  unfold fanPercent
  rw [hg, ho]
  split_ifs <;> simp_all

end

namespace Ex
section
attribute [local instance] binary64

/-- the loops of C99; the percentage of the temperature loop is `p` -/
def pids32 (p : Dbl) : OMap Int PIDConf := ({} : OMap Int PIDConf).insert 1
  ((({} : PIDConf).insert "fans" (loop99 "fan" "fan0" 0 1 100)).insert "temps" { loop99 "temp" "cpu" (-2) 0 0 with failSafePercent := p })

def run32 (p : Dbl) : Res Daemon := do
  let d ← Daemon.launch {} bus98 0 world99 sensors106 (pids32 p) zones99
  d.run {} (events99 ++ [.tick 1, .signal "fan0" 6 (alarm99 true), .tick 1, .tick 1, .tick 1])

def seen32 (d : Daemon) : Option (List String × Bool) × List Int :=
  ((d.zones.find? 1).map (fun z => (z.1.d.failSafeSensors.entries.map Prod.fst, decide (z.1.d.getFailSafePercent = nan))),
    d.w.trace.map Effect.value)

/-- Both sensors fail. With 90 and 100 percent the fan is told 229, then 255; if NaN stands for 90, it stays at 20% (51 of 255). -/
example : (run32 90).toOption.map seen32 = some (some (["cpu", "fan0"], false), [51, 229, 255]) ∧
    (run32 nan).toOption.map seen32 = some (some (["cpu", "fan0"], true), [51]) := by
  decide +kernel

end
end Ex
end Verif
