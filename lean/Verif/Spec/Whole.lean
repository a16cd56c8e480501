import Verif.Model.Whole
import Verif.Spec.Daemon

/-! # Specification for the whole life of the daemon -/

namespace Verif
variable [F : FloatModel]

/-- the same world, but the effects `t` happened before those recorded -/
def World.since (t : List Effect) (w : World) : World :=
  { w with
    trace := t ++ w.trace }

/-- Everything outside the daemon is the same: clocks, host, redundancy groups, files, fan services. -/
def SameOutside (w w' : World) : Prop :=
  w'.nowFans = w.nowFans ∧ w'.nowThermals = w.nowThermals ∧ w'.hostOn = w.hostOn ∧
    w'.redundancyFailed = w.redundancyFailed ∧ w'.files = w.files ∧ w'.busOk = w.busOk

/-- all zones run -/
def Whole.AllRun (s : Whole) : Prop := s.again = false ∧ s.idle = [] ∧ s.d.zones.isEmpty = false

/-- no zone runs -/
def Whole.NoneRuns (s : Whole) : Prop := s.d.zones.isEmpty = true

/-- Every fan of every loop of the zones is commanded, one zone after the other, with the failsafe percentage its zone has. -/
inductive LeftSafe : World → List Zone → World → Prop
  | nil (w : World) : LeftSafe w [] w
  | cons {w w1 w2 : World} {z : Zone} {zs : List Zone} :
      Drives z.d.redundantWrite w (z.fans.filterMap (·.map (fun c => (c, z.d.getFailSafePercent / 100)))) w1 →
      LeftSafe w1 zs w2 → LeftSafe w (z :: zs) w2

/-- the zones of the daemon, running or not -/
def Whole.all (s : Whole) : List Zone := s.d.zones.entries.map (fun e => e.2.1) ++ s.idle

/-- the configuration a reload finds has a host sensor at this path, and the bus does not take a second object there -/
def Found.Clashes (r : Found) (path : String) : Prop :=
  r.refuses = true ∧ ∃ c, r.read = .got c ∧ ∃ n, (path, n) ∈ hostObjects c.sensors

end Verif
