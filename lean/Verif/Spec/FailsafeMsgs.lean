import Verif.Model.FailsafeMsgs
import Verif.Spec.History

/-! # Specification of the calls to the failsafe log -/

namespace Verif
variable [F : FloatModel]

/-- Histories of a zone together with the calls made so far, oldest first. -/
inductive HistMsgs (o : Opts) (d0 : ZoneData) : Zone → Nat → List Poll → List FsMsg → Prop
  | start {z z' : Zone} {ms : List FsMsg} (w : World) : Built d0 → z.d = d0 → z.start o w = .ok z' →
      z.startMsgs w = .ok ms → HistMsgs o d0 z' 0 [⟨w, w.nowThermals, d0.thermalInputs⟩] ms
  | manual {z cnt log ms} (b : Bool) : HistMsgs o d0 z cnt log ms →
      HistMsgs o d0 { z with d := z.d.setManualMode b } cnt log ms
  | enable {z cnt log ms} (name : String) (b : Bool) : HistMsgs o d0 z cnt log ms →
      HistMsgs o d0 { z with d := z.d.setEnabled name b } cnt log ms
  | tick {z cnt log ms} (w : World) {w' z' cnt' more} : HistMsgs o d0 z cnt log ms →
      z.tick o w cnt = .ok (w', z', cnt') → z.tickMsgs w cnt = .ok more →
      HistMsgs o d0 z' cnt' (log ++ tickPolls z cnt w) (ms ++ more)

/-- The state reported by the last message about the zone itself. -/
def zoneSays (init : Bool) : List FsMsg → Bool
  | [] => init
  | m :: ms =>
    match m.target with
    | .zone _ => zoneSays m.state ms
    | .sensor _ => zoneSays init ms

/-- A failure of the sensor counts: it may not be missing, and the state of the host does not excuse it. -/
def Counts (z : ZoneData) (w : World) (n : String) : Prop :=
  n ∉ z.missingAcceptable ∧ ∀ s, w.sensors.find? n = some s → s.ignoreFailIfHostOff = true → w.hostOn = true

/-- Every message reports whether the zone is in failsafe mode. -/
def Truthful (z : ZoneData) (ms : List FsMsg) : Prop := ∀ m ∈ ms, m.state = z.getFailSafeMode

/-- What C97 would say if it held: the messages sent while an input is polled report whether the zone is in failsafe mode
when the input has been processed. -/
def C97_statement : Prop :=
  ∀ (w : World) (now : Int) (n : String) (z z' : ZoneData) (ms : List FsMsg),
    z.processSensorInputMsgs w now n = .ok (z', ms) → Truthful z' ms

end Verif
