import Verif.Model.FailsafeLog

/-! # Specifications for the failsafe log -/

namespace Verif

/-- An attempt to log, and whether a line was printed. -/
structure FsAttempt where
  now : Nat
  state : Bool
  location : String
  reason : String
  printed : Option FsLine

/-- A logger made with limit `max` and state `init` handled the attempts `h`, oldest first, and is now `l`. -/
inductive FsLogged (max : Nat) (init : Bool) (zone : Int) : List FsAttempt → FsLogger → Prop
  | start : FsLogged max init zone [] (FsLogger.ctor max init)
  | attempt {h l l' line} (now : Nat) (state : Bool) (location reason : String) :
      FsLogged max init zone h l → l.output now zone state location reason = (line, l') →
      FsLogged max init zone (h ++ [⟨now, state, location, reason, line⟩]) l'

/-- The clock did not go backwards. -/
def ClockForward (h : List FsAttempt) : Prop := h.Pairwise (fun a b => a.now ≤ b.now)

/-- times fit the 64-bit counter -/
def ClockFits (h : List FsAttempt) : Prop := ∀ a ∈ h, a.now < 2 ^ 64

/-- number of lines printed in the second that starts at `t` -/
def printedInSecond (h : List FsAttempt) (t : Nat) : Nat :=
  (h.filter (fun a => a.printed.isSome && decide (t ≤ a.now) && decide (a.now < t + 1000))).length

/-- state of the zone as reported by the attempts `h` -/
def reportedState (init : Bool) (h : List FsAttempt) : Bool :=
  match h.getLast? with
  | none => init
  | some a => a.state

/-- The messages `evs` were logged after the loggers were built for `zones`. -/
inductive FsRun (max : Nat) (zones : List FsZone) : List FsEvent → FsLoggers → Prop
  | start : FsRun max zones [] (buildFailsafeLoggers max zones)
  | sensor {evs s s' lines} (now : Nat) (n : String) (state : Bool) (location reason : String) :
      FsRun max zones evs s → s.withSensor now n state location reason = (lines, s') →
      FsRun max zones (evs ++ [⟨.sensor n, now, state, location, reason, lines⟩]) s'
  | zone {evs s s' lines} (now : Nat) (i : Int) (state : Bool) (location reason : String) :
      FsRun max zones evs s → s.withZone now i state location reason = (lines, s') →
      FsRun max zones (evs ++ [⟨.zone i, now, state, location, reason, lines⟩]) s'

/-- the message is about the zone or one of its sensors -/
def FsZone.concernedBy (z : FsZone) (e : FsEvent) : Bool :=
  match e.target with
  | .sensor n => decide (n ∈ z.sensors)
  | .zone i => decide (z.id = i)

/-- a message as seen by the logger of the zone -/
def FsZone.attempt (z : FsZone) (e : FsEvent) : FsAttempt :=
  ⟨e.now, e.state, e.location, e.reason, (e.printed.filter (fun x => decide (x.zone = z.id))).head?⟩

/-- number of lines about zone `i` printed in the second that starts at `t` -/
def linesInSecond (i : Int) (evs : List FsEvent) (t : Nat) : Nat :=
  ((evs.filter (fun e => decide (t ≤ e.now) && decide (e.now < t + 1000))).flatMap
    (fun e => e.printed.filter (fun x => decide (x.zone = i)))).length

end Verif
