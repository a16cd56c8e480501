import Verif.Spec.Loop

/-! # Specifications for fan writers -/

namespace Verif
variable [F : FloatModel]
open Dbl

/-- The number an effect carries. -/
def Effect.value : Effect → Int
  | .dbusSet _ v _ => v
  | .sysfsWrite _ v => v

/-- Writer `wr` converts percentages with limits `min`, `max`. -/
inductive IsPercent (min max : Int) : Writer → Prop
  | dbus (path : String) (old : Int) : IsPercent min max (.dbusPercent path min max old)
  | sysfs (path : String) : IsPercent min max (.sysfsPercent path min max)

/-- Commanding `v` with the force flag sends the number `u`. -/
def Sends (wr : Writer) (v : Dbl) (u : Int) : Prop :=
  ∀ busOk, ∃ r e, wr.write busOk v true = .ok r ∧ r.effect = some e ∧ e.value = u

/-- The raw value a D-Bus fan gets for a command: `min + (max - min) * v`, or `v` itself without limits, truncated. -/
def rawCommand (limits : Option (Int × Int)) (v : Dbl) : Option Int :=
  match limits with
  | some (min, max) => (((ofInt max - ofInt min) * v) + ofInt min).toI64
  | none => v.toI64

/-- A newly created D-Bus writer (percent with limits, or plain). -/
def freshDbus (path : String) : Option (Int × Int) → Writer
  | some (min, max) => .dbusPercent path min max (-1)
  | none => .dbusRaw path (-1)

/-- One command to a fan and the message it caused. -/
structure Command where
  value : Dbl
  force : Bool
  sent : Option Effect

/-- A history of commands to one fan, starting with writer `wr0`; calls may succeed or fail. -/
inductive Commands (wr0 : Writer) : List Command → Writer → Prop
  | nil : Commands wr0 [] wr0
  | snoc {h wr r} (busOk : String → Bool) (v : Dbl) (force : Bool) : Commands wr0 h wr →
      wr.write busOk v force = .ok r → Commands wr0 (h ++ [⟨v, force, r.effect⟩]) r.writer

/-- The target of a D-Bus fan after some messages: the value of the last successful one. -/
def fanTarget (t0 : Int) : List Effect → Int
  | [] => t0
  | .dbusSet _ v true :: es => fanTarget v es
  | _ :: es => fanTarget t0 es

/-- the messages of a history, oldest first -/
def messages (h : List Command) : List Effect := h.filterMap (·.sent)

/-- The limits of sensor `n`'s writer, if it converts percentages, are ordered and small enough to be exact doubles. -/
def SaneLimits (w : World) (n : String) : Prop :=
  ∃ s rd wr, w.sensors.find? n = some s ∧ s.impl = .pluggable rd wr ∧ wr ≠ .null ∧
    ∀ min max, IsPercent min max wr → 0 ≤ min ∧ min ≤ max ∧ max ≤ 2 ^ 53

end Verif
