import Verif.Model.Zone

/-!
# The control loop of one zone

Models `pidControlLoop` of `pid/pidloop.cpp` with its timer, and the D-Bus property `Enable` of a thermal loop.
Times are nanoseconds of the steady clock.
-/

namespace Verif
variable [F : FloatModel]

/-- Setting `Object.Enable` on the D-Bus object of loop `name` (the setter generated for `ProcessObject`,
pid/zone.hpp:38-43; pid/zone.cpp:595-600 creates the objects). A loop without an object has no such property. -/
def ZoneData.setEnabled (z : ZoneData) (name : String) (b : Bool) : ZoneData :=
  match z.procs.find? name with
  | some p => { z with procs := z.procs.insert name { p with enabled := b } }
  | none => z

/-- A zone, its timer and the captured cycle counter, pid/pidloop.cpp:70. `waiting` says that a handler is waiting for the timer, which
expires at `expiry`. -/
structure Loop where
  zone : Zone
  cycleCnt : Nat
  expiry : Int
  waiting : Bool

/-- `pidControlLoop`, pid/pidloop.cpp:35-70. `now` is the clock after the first thermal
pass (`steady_clock::now()`, line 56). -/
def pidControlLoop (o : Opts) (w : World) (now : Int) (isCanceling first : Bool) (l : Loop) : Res Loop := do
  if isCanceling then .ok { l with waiting := false }
  else
    let zone ← if first then l.zone.start o w else .ok l.zone
    let nextTime := if first then now else l.expiry
    .ok { l with zone := zone, expiry := nextTime + zone.d.cycleTime.cycleIntervalTimeMS * 1000000, waiting := true }

/-- The handler given to `async_wait`, pid/pidloop.cpp:70-142; `aborted` is `ec == operation_aborted`. The tick itself is
`Zone.tick`; `now` is the time at which its work is done. -/
def Loop.handler (o : Opts) (w : World) (now : Int) (isCanceling aborted : Bool) (l : Loop) : Res (World × Loop) := do
  if aborted then .ok (w, { l with waiting := false })
  else
    let (w, zone, cnt) ← l.zone.tick o w l.cycleCnt
    let l ← pidControlLoop o w now isCanceling false { l with zone := zone, cycleCnt := cnt }
    .ok (w, l)

end Verif
