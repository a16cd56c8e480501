import Verif.Model.Whole

/-!
# When the daemon tries to start its loops

Models `tryRestartControlLoops` (main.cpp:188-228) with the time it waits, around the attempts of Model/Whole.lean. Other than
there, an attempt that finds loops running does not get beyond stopping them (main.cpp:118-121). Simplifications: handlers that
wait to be run (Model/Lifecycle.lean) are left out, so that a request never meets a retry that is already due and not yet run, and
the handlers of the loops that were stopped have run before the next event; nothing takes time, except where time is said to
pass.
-/

namespace Verif
variable [F : FloatModel]

/-- `delayTime` in milliseconds, main.cpp:190 -/
def retryDelay : Int := 10000

/-- The daemon, the time in milliseconds, and the time the static timer of main.cpp:191 expires, if a wait is pending. -/
structure Retrying where
  whole : Whole
  now : Int
  retryAt : Option Int

/-- at the start of the program, before main.cpp:417 -/
def Retrying.init (w : World) (t : Int) : Retrying := ⟨Whole.init w, t, none⟩

/-- `stopControlLoops` that throws, main.cpp:111-121: the timers of the loops are cancelled, the zones are kept. -/
def Whole.suspended (s : Whole) : Whole :=
  ⟨⟨s.d.w, {}⟩, s.d.zones.entries.map (fun e => e.2.1) ++ s.idle, s.hosts, true⟩

/-- The handler `restartLbd`, main.cpp:193-210. A loop that runs waits for its timer, and its handler owns the zone, so that the
first attempt throws at main.cpp:120 (`C73_first_fails`). The zone looked at there is the one that was started first
(main.cpp:178), so it runs if any does. -/
def Retrying.attempt (o : Opts) (r : Found) (s : Retrying) : Res Retrying :=
  if s.whole.d.zones.isEmpty then do
    let w ← s.whole.reload o r
    .ok ⟨w, s.now, if w.again then some (s.now + retryDelay) else s.retryAt⟩
  else .ok ⟨s.whole.suspended, s.now, some (s.now + retryDelay)⟩

/-- What happens. `request`: `tryRestartControlLoops(true)` (main.cpp:213-218), from `main`, from SIGHUP or from a signal on the
bus. `retry`: the timer expired. -/
inductive RetryEvent where
  | event (e : DEvent)
  | request (r : Found)
  | retry (r : Found)
  | pass (t : Int)

/-- One step. A retry is run at most `late` milliseconds after it is due. The timer is not cancelled by a request
(main.cpp:213-218), and `expires_after` replaces a wait that is pending (main.cpp:222-223). A step that ends the process is
none. -/
inductive RetryStep (o : Opts) (late : Int) : Retrying → RetryEvent → Retrying → Prop
  | event {s : Retrying} {e : DEvent} {d : Daemon} : s.whole.d.step o e = .ok d →
      RetryStep o late s (.event e)
        { s with
          whole := { s.whole with
            d := d } }
  | request {s s' : Retrying} {r : Found} : s.attempt o r = .ok s' → RetryStep o late s (.request r) s'
  | retry {s s' : Retrying} {r : Found} {t : Int} : s.retryAt = some t → t ≤ s.now →
      Retrying.attempt o r { s with
        retryAt := none } = .ok s' → RetryStep o late s (.retry r) s'
  | pass {s : Retrying} {t : Int} : s.now ≤ t → (∀ u, s.retryAt = some u → t ≤ u + late) →
      RetryStep o late s (.pass t)
        { s with
          now := t }

/-- Several steps. -/
inductive RetryRun (o : Opts) (late : Int) : Retrying → List RetryEvent → Retrying → Prop
  | nil {s : Retrying} : RetryRun o late s [] s
  | cons {s s1 s2 : Retrying} {e : RetryEvent} {es : List RetryEvent} : RetryStep o late s e s1 → RetryRun o late s1 es s2 →
      RetryRun o late s (e :: es) s2

end Verif
