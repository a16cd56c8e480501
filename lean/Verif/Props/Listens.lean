import Verif.Props.Reload
import Verif.Props.Reloading

/-!
# C141: when signals begin to count

The rules for signals are installed when the configuration is first looked for on the bus (dbus/dbusconfiguration.cpp:463), and stay.
-/

namespace Verif
section
variable [F : FloatModel]

/-- what an attempt without a file asks -/
theorem asksBus_none {r : Found} (h : Source r.conf r.files none) : r.asksBus = true := by
  unfold Found.asksBus
  rcases source_path r.conf r.files with ⟨a, b⟩ | ⟨a, b⟩
  · cases source_unique h b
  · simp only [ne_eq, ite_not] at a ⊢
    rw [a]; rfl

/-- rules stay -/
theorem matched_stays {o : Opts} {late : Int} {es : List ReloadEvent} {s s' : Reloading} (h : ReloadRun o late s es s')
    (hm : s.matched = true) : s'.matched = true := by
  induction h with
  | nil => exact hm
  | cons k _ ih =>
    refine ih ?_
    cases k <;> simp [Reloading.after, hm]

/-- **C141** Once there has been an attempt without a configuration file while no loop ran, every signal that announces a change
(C93) asks for a reload, for the rest of the life of the process. -/
theorem C141_listens {o : Opts} {late : Int} {s s1 s' : Reloading} (hn : s.tries.whole.NoneRuns) {e : ReloadEvent} {r : Found}
    (ha : e.Attempts r) (hs : Source r.conf r.files none) (h1 : ReloadStep o late s e s1) {es : List ReloadEvent}
    (h2 : ReloadRun o late s1 es s') {b : BusSignal} (hb : b.member ≠ "PropertiesChanged" → ObjectPath b.arg0) (hr : AsksReload b) :
    s'.Asked (.signal b) := by
  refine .signal (matched_stays h2 ?_) ((C93_signals b hb).2 hr)
  have hz : s.tries.whole.d.zones.isEmpty = true := hn
  have hq := asksBus_none hs
  rcases ha with rfl | rfl | rfl | rfl <;> cases h1 <;> simp [Reloading.after, hz, hq]

end

namespace Ex
section
attribute [local instance] binary64

/-- C141_listens when the daemon starts without a file and runs for five seconds: a change of the thermal mode counts -/
example : ∃ s, ReloadRun {} 100 (.init world113 0) start141 s ∧ s.Asked (.signal mode141) := by
  obtain ⟨s1, h1, hP⟩ := any_some (x := step141 100 (.init world113 0) (.start conf141))
    (P := fun s : Reloading => (steps141 100 s [.pass 5000]).isSome) (by decide +kernel)
  obtain ⟨s, h2⟩ := Option.isSome_iff_exists.1 hP
  refine ⟨s, .cons (step141_sound h1) (steps141_run h2), ?_⟩
  exact C141_listens (s := .init world113 0) rfl (.inl rfl) nofiles108_source (step141_sound h1) (steps141_run h2)
    (fun h => absurd rfl h) ((C93_signals _ (fun h => absurd rfl h)).1 (by decide +kernel))

end
end Ex
end Verif
