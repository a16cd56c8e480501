import Verif.Base.Basic

/-!
# Starting and stopping the control loops

Models `stopControlLoops`, `restartControlLoops`, `tryRestartControlLoops` and `tryTerminateControlLoops` of `main.cpp`
(109-269) together with the way `pidControlLoop` (pid/pidloop.cpp:35-143) arms its timer, on top of a model of
`boost::asio::io_context` run by one thread:

* handlers that are ready wait in a first-in-first-out queue and are run one at a time;
* a wait on a timer is pending until the timer expires, which makes its handler ready (success), or until it is
  cancelled, which makes the handler ready with `operation_aborted`;
* cancelling does not affect handlers that are already ready;
* a handler that is pending or ready owns what its lambda captured, here the zone (`std::shared_ptr`).

What a tick computes is modelled elsewhere (`Verif/Model/Loop.lean`); here a tick is an event. A zone object is
identified by a number that is never used again. The timer of a zone is identified with the zone.
-/

namespace Verif

/-- A ready handler: the lambdas at pid/pidloop.cpp:70, main.cpp:193 and 234. `ok = false` is `operation_aborted`. -/
inductive Job
  | loop (zone : Nat) (ok : Bool)
  | restart (ok : Bool)
  | terminate (ok : Bool)
  deriving DecidableEq

/-- What can be observed: a zone is built (main.cpp:164), a loop runs (pid/pidloop.cpp:104-141), all loops are stopped
(main.cpp:125), an attempt fails (main.cpp:204-209 and 245-251). -/
inductive LifeEv
  | start (zone : Nat)
  | tick (zone : Nat)
  | stopDone
  | failed
  deriving DecidableEq

/-- The state of main.cpp:61-71, of the io context and of the static retry timers (main.cpp:191, 232). -/
structure Life where
  /-- `state::zones` in the order of iteration -/
  zones : List Nat
  /-- zones whose timer is in `state::timers` -/
  timers : List Nat
  /-- `state::isCanceling` -/
  canceling : Bool
  /-- loops with a pending wait on their timer -/
  waiting : List Nat
  /-- ready handlers, next one first -/
  queue : List Job
  /-- pending waits on the retry timer of `tryRestartControlLoops` -/
  retryRestart : Nat
  /-- pending waits on the retry timer of `tryTerminateControlLoops` -/
  retryTerminate : Nat
  /-- number of the next zone object -/
  next : Nat
  /-- `io.stop()` was called -/
  stopped : Bool
  deriving DecidableEq

/-- at the start of the program, main.cpp:61-71 -/
def Life.init : Life :=
  { zones := [], timers := [], canceling := false, waiting := [], queue := [], retryRestart := 0, retryTerminate := 0,
    next := 0, stopped := false }

/-- the handler holds zone `z`: the capture at pid/pidloop.cpp:70 -/
def Job.holds (z : Nat) : Job → Bool
  | .loop z' _ => decide (z' = z)
  | _ => false

/-- `use_count()` (main.cpp:118) of a zone of `state::zones`: the map and every handler that holds it -/
def Life.useCount (s : Life) (z : Nat) : Nat :=
  1 + (s.waiting.filter (fun w => decide (w = z))).length + (s.queue.filter (Job.holds z)).length

/-- the loop that cancels the timers, main.cpp:111-116 -/
def Life.cancelTimers (s : Life) : Life :=
  { s with
    waiting := s.waiting.filter (fun z => decide (z ∉ s.timers))
    queue := s.queue ++ (s.waiting.filter (fun z => decide (z ∈ s.timers))).map (fun z => .loop z false)
    canceling := true, timers := [] }

/-- `stopControlLoops`, main.cpp:109-125. The Boolean tells whether it returned (`false`: it threw). -/
def Life.stopControlLoops (s : Life) : Life × Bool :=
  let s := s.cancelTimers
  match s.zones with
  | [] => ({ s with zones := [], canceling := false }, true)
  | z :: _ =>
    if 1 < s.useCount z then (s, false)
    else ({ s with zones := [], canceling := false }, true)

/-- `timer.expires_after(delay); timer.async_wait(...)`, main.cpp:222-223: pending waits are aborted, then one is added -/
def Life.armRestart (s : Life) : Life :=
  { s with queue := s.queue ++ List.replicate s.retryRestart (.restart false), retryRestart := 1 }

/-- the same for main.cpp:264-265 -/
def Life.armTerminate (s : Life) : Life :=
  { s with queue := s.queue ++ List.replicate s.retryTerminate (.terminate false), retryTerminate := 1 }

/-- What the rest of `restartControlLoops` (main.cpp:131-185) does: the configuration is not ready (156-160); `n` zones are
built and started; or something throws after `n` zones were built and the first `k` of them started (`n = 0` if building
throws). Failures that end the program are not continued. -/
inductive BuildOutcome
  | notReady
  | throws (n k : Nat)
  | zones (n : Nat)

/-- main.cpp:163-185: `n` new zones; the first `k` get a timer and a loop that is armed at once (pid/pidloop.cpp:35-70). The
next one gets its timer before its first computation throws. -/
def Life.startZones (s : Life) (n k : Nat) : Life :=
  let new := (List.range n).map (fun i => s.next + i)
  { s with zones := new, timers := s.timers ++ new.take (k + 1), waiting := s.waiting ++ new.take k, next := s.next + n }

/-- the zone objects made by `startZones`, main.cpp:164-165 -/
def Life.startEvents (s : Life) (n : Nat) : List LifeEv := (List.range n).map (fun i => LifeEv.start (s.next + i))

/-- the handler `restartLbd`, main.cpp:193-210 -/
def Life.runRestart (s : Life) (b : BuildOutcome) : Life × List LifeEv :=
  match s.stopControlLoops with
  | (s', false) => (s'.armRestart, [.failed])
  | (s', true) =>
    match b with
    | .notReady => (s', [.stopDone])
    | .throws n k => ((s'.startZones n k).armRestart, .stopDone :: s'.startEvents n ++ [.failed])
    | .zones n => (s'.startZones n n, .stopDone :: s'.startEvents n)

/-- the handler `stopLbd`, main.cpp:234-253 -/
def Life.runTerminate (s : Life) : Life × List LifeEv :=
  match s.stopControlLoops with
  | (s', false) => (s'.armTerminate, [.failed])
  | (s', true) => ({ s' with stopped := true }, [.stopDone])

/-- the handler of a loop's timer, pid/pidloop.cpp:70-142, and the call of `pidControlLoop` at its end (35-70) -/
def Life.runLoop (s : Life) (z : Nat) : Life × List LifeEv :=
  (if s.canceling then s else { s with waiting := s.waiting ++ [z] }, [.tick z])

/-- running a handler that was taken from the queue by `io.run()`, main.cpp:423 -/
def Life.run (s : Life) (b : BuildOutcome) : Job → Life × List LifeEv
  | .loop z true => s.runLoop z
  | .restart true => s.runRestart b
  | .terminate true => s.runTerminate
  | .loop _ false | .restart false | .terminate false => (s, [])

/-- Steps of the program: a timer expires, a restart or termination is requested (`boost::asio::post`, main.cpp:215-217,
258-259), or the next ready handler runs. -/
inductive LifeStep : Life → List LifeEv → Life → Prop
  | expire {s} (z : Nat) : s.stopped = false → z ∈ s.waiting →
      LifeStep s [] { s with waiting := s.waiting.erase z, queue := s.queue ++ [.loop z true] }
  | expireRestart {s} : s.stopped = false → 0 < s.retryRestart →
      LifeStep s [] { s with retryRestart := s.retryRestart - 1, queue := s.queue ++ [.restart true] }
  | expireTerminate {s} : s.stopped = false → 0 < s.retryTerminate →
      LifeStep s [] { s with retryTerminate := s.retryTerminate - 1, queue := s.queue ++ [.terminate true] }
  | requestRestart {s} : s.stopped = false → LifeStep s [] { s with queue := s.queue ++ [.restart true] }
  | requestTerminate {s} : s.stopped = false → LifeStep s [] { s with queue := s.queue ++ [.terminate true] }
  | run {s j rest} (b : BuildOutcome) : s.stopped = false → s.queue = j :: rest →
      LifeStep s (({ s with queue := rest } : Life).run b j).2 (({ s with queue := rest } : Life).run b j).1

end Verif
