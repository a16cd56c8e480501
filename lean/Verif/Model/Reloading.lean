import Verif.Model.Retry
import Verif.Model.Reload

/-!
# From a change of the configuration to running loops

Puts the timers that wait for a quiet moment (dbus/dbusconfiguration.cpp:231-245, main.cpp:273-303; alone in Model/Reload.lean)
around the attempts of Model/Retry.lean. The simplifications are those of Model/Retry.lean; in particular a signal never meets an
expiry that is due and not yet run. SIGTERM is left out (Model/Ending.lean).
-/

namespace Verif
variable [F : FloatModel]

/-- The daemon; whether the match rules are installed (dbus/dbusconfiguration.cpp:253-263, once and for all); and the times the
timers of dbus/dbusconfiguration.cpp:235 and main.cpp:275 expire, if waits are pending. -/
structure Reloading where
  tries : Retrying
  matched : Bool
  busAt : Option Int
  hupAt : Option Int

/-- at the start of the program -/
def Reloading.init (w : World) (t : Int) : Reloading := ⟨.init w t, false, none, none⟩

/-- `dbus_configuration::init` is called, main.cpp:134 and 156 -/
def Found.asksBus (r : Found) : Bool := !r.files.exists (if r.conf ≠ "" then r.conf else searchConfigurationPath r.files)

/-- What happens. `start`: main.cpp:417; `signal`: a signal on the bus; `hangup`: SIGHUP; `bus`, `hup`, `retry`: one of the three
timers expired, and the attempt that follows finds this. -/
inductive ReloadEvent where
  | event (e : DEvent)
  | start (r : Found)
  | signal (b : BusSignal)
  | hangup
  | bus (r : Found)
  | hup (r : Found)
  | retry (r : Found)
  | pass (t : Int)

/-- After an attempt: `createMatches` is called if it gets as far as reading the configuration (main.cpp:129, 134, 156 and
dbus/dbusconfiguration.cpp:463). -/
def Reloading.after (s : Reloading) (r : Found) (x : Retrying) : Reloading :=
  { s with
    tries := x, matched := s.matched || (s.tries.whole.d.zones.isEmpty && r.asksBus) }

/-- One step. -/
inductive ReloadStep (o : Opts) (late : Int) : Reloading → ReloadEvent → Reloading → Prop
  | event {s : Reloading} {e : DEvent} {x : Retrying} : RetryStep o late s.tries (.event e) x →
      ReloadStep o late s (.event e)
        { s with
          tries := x }
  | start {s : Reloading} {r : Found} {x : Retrying} : RetryStep o late s.tries (.request r) x →
      ReloadStep o late s (.start r) (s.after r x)
  | signal {s : Reloading} {b : BusSignal} :
      ReloadStep o late s (.signal b)
        { s with
          busAt := if s.matched && armsReload b then some (s.tries.now + busDelay) else s.busAt }
  | hangup {s : Reloading} :
      ReloadStep o late s .hangup
        { s with
          hupAt := some (s.tries.now + hupDelay) }
  | bus {s : Reloading} {r : Found} {x : Retrying} {t : Int} : s.busAt = some t → t ≤ s.tries.now →
      RetryStep o late s.tries (.request r) x →
      ReloadStep o late s (.bus r)
        { s.after r x with
          busAt := none }
  | hup {s : Reloading} {r : Found} {x : Retrying} {t : Int} : s.hupAt = some t → t ≤ s.tries.now →
      RetryStep o late s.tries (.request r) x →
      ReloadStep o late s (.hup r)
        { s.after r x with
          hupAt := none }
  | retry {s : Reloading} {r : Found} {x : Retrying} : RetryStep o late s.tries (.retry r) x →
      ReloadStep o late s (.retry r) (s.after r x)
  | pass {s : Reloading} {t : Int} {x : Retrying} : (∀ u, s.busAt = some u → t ≤ u + late) →
      (∀ u, s.hupAt = some u → t ≤ u + late) → RetryStep o late s.tries (.pass t) x →
      ReloadStep o late s (.pass t)
        { s with
          tries := x }

/-- Several steps. -/
inductive ReloadRun (o : Opts) (late : Int) : Reloading → List ReloadEvent → Reloading → Prop
  | nil {s : Reloading} : ReloadRun o late s [] s
  | cons {s s1 s2 : Reloading} {e : ReloadEvent} {es : List ReloadEvent} : ReloadStep o late s e s1 → ReloadRun o late s1 es s2 →
      ReloadRun o late s (e :: es) s2

end Verif
