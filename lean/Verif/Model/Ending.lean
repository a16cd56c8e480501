import Verif.Model.Reloading

/-!
# From SIGTERM to the end of the process

Puts `tryTerminateControlLoops` (main.cpp:229-269) with the time it waits around Model/Reloading.lean, with the simplifications
made there and in Model/Retry.lean.
-/

namespace Verif
variable [F : FloatModel]

/-- `delayTime` in milliseconds, main.cpp:231 -/
def termDelay : Int := 50

/-- The daemon, the time the static timer of main.cpp:232 expires if a wait is pending, and, once `io.stop()` was called
(main.cpp:252), the world the process leaves behind. -/
structure Ending where
  daemon : Reloading
  termAt : Option Int
  ended : Option World

/-- at the start of the program -/
def Ending.init (w : World) (t : Int) : Ending := ⟨.init w t, none, none⟩

/-- the time -/
def Ending.now (s : Ending) : Int := s.daemon.tries.now

/-- `stopControlLoops` that throws, main.cpp:111-121, without the retry of a restart -/
def Whole.cut (s : Whole) : Whole :=
  ⟨⟨s.d.w, {}⟩, s.d.zones.entries.map (fun e => e.2.1) ++ s.idle, s.hosts, s.again⟩

/-- The handler `stopLbd`, main.cpp:234-253. As with a restart, loops that run make the first attempt throw. -/
def Ending.attempt (o : Opts) (s : Ending) : Res Ending :=
  if s.daemon.tries.whole.d.zones.isEmpty then do
    let w ← s.daemon.tries.whole.stop o
    .ok ⟨s.daemon, s.termAt, some w⟩
  else
    .ok ⟨{ s.daemon with
      tries := { s.daemon.tries with
        whole := s.daemon.tries.whole.cut } }, some (s.now + termDelay), none⟩

/-- What happens: what happens to the daemon, SIGTERM (main.cpp:283-286), or the timer expires. -/
inductive EndEvent where
  | other (e : ReloadEvent)
  | sigterm
  | term

/-- One step. After `io.stop()` no handler runs any more (main.cpp:423-424). -/
inductive EndStep (o : Opts) (late : Int) : Ending → EndEvent → Ending → Prop
  | other {s : Ending} {e : ReloadEvent} {x : Reloading} : s.ended = none → (∀ t, e ≠ .pass t) → ReloadStep o late s.daemon e x →
      EndStep o late s (.other e)
        { s with
          daemon := x }
  | pass {s : Ending} {t : Int} {x : Reloading} : s.ended = none → (∀ u, s.termAt = some u → t ≤ u + late) →
      ReloadStep o late s.daemon (.pass t) x →
      EndStep o late s (.other (.pass t))
        { s with
          daemon := x }
  | sigterm {s s' : Ending} : s.ended = none → s.attempt o = .ok s' → EndStep o late s .sigterm s'
  | term {s s' : Ending} {u : Int} : s.ended = none → s.termAt = some u → u ≤ s.now →
      Ending.attempt o { s with
        termAt := none } = .ok s' → EndStep o late s .term s'

/-- Several steps. -/
inductive EndRun (o : Opts) (late : Int) : Ending → List EndEvent → Ending → Prop
  | nil {s : Ending} : EndRun o late s [] s
  | cons {s s1 s2 : Ending} {e : EndEvent} {es : List EndEvent} : EndStep o late s e s1 → EndRun o late s1 es s2 →
      EndRun o late s (e :: es) s2

end Verif
