import Verif.Model.Reloading
import Verif.Spec.Retry

/-! # Specification for changes of the configuration -/

namespace Verif
variable [F : FloatModel]

/-- the event asks for a new configuration to be read: SIGHUP, or one of the signals of C93 when the rules are installed -/
inductive Reloading.Asked (s : Reloading) : ReloadEvent → Prop
  | hangup : s.Asked .hangup
  | signal {b : BusSignal} : s.matched = true → armsReload b = true → s.Asked (.signal b)

/-- nobody asks: neither SIGHUP nor a signal of C93, and the program is not started -/
def NobodyAsks (es : List ReloadEvent) : Prop :=
  ReloadEvent.hangup ∉ es ∧ (∀ b, armsReload b = true → ReloadEvent.signal b ∉ es) ∧ ∀ r, ReloadEvent.start r ∉ es

/-- the event is an attempt that finds `r` -/
def ReloadEvent.Attempts (r : Found) (e : ReloadEvent) : Prop := e = .start r ∨ e = .bus r ∨ e = .hup r ∨ e = .retry r

/-- Whenever there is an attempt while no loop runs, what it finds is ready. -/
def FoundReady (o : Opts) (late : Int) (s : Reloading) (es : List ReloadEvent) : Prop :=
  ∀ pre e r post x, es = pre ++ e :: post → e.Attempts r → ReloadRun o late s pre x → x.tries.whole.NoneRuns →
    r.Ready o x.tries.whole

/-- no timer for an attempt is armed -/
def Reloading.Calm (s : Reloading) : Prop := s.tries.retryAt = none ∧ s.busAt = none ∧ s.hupAt = none

/-- how long the daemon waits for a quiet moment after this event, in milliseconds -/
def ReloadEvent.quietTime : ReloadEvent → Int
  | .hangup => 1000
  | _ => 2000

/-- what happens to the sensors and zones -/
def daemonEvents : List ReloadEvent → List DEvent
  | [] => []
  | .event e :: es => e :: daemonEvents es
  | _ :: es => daemonEvents es

/-- All zones run, in the state a daemon started at an attempt among the events reaches by what happened since; what was written
before is put in front. -/
def RunsFrom (o : Opts) (late : Int) (s : Reloading) (es : List ReloadEvent) (s' : Reloading) : Prop :=
  s'.tries.whole.AllRun ∧
  ∃ (pre : List ReloadEvent) (e : ReloadEvent) (r : Found) (post : List ReloadEvent) (x : Reloading) (w : World) (d0 d : Daemon),
    es = pre ++ e :: post ∧ e.Attempts r ∧ ReloadRun o late s pre x ∧ x.tries.whole.stop o = .ok w ∧
    attempt o r.conf r.files r.objects r.order r.bus r.now { w with trace := [] } = .running d0 ∧
    d0.run o (daemonEvents post) = .ok d ∧ s'.tries.whole.d = ⟨d.w.since w.trace, d.zones⟩

end Verif
