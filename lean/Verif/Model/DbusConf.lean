import Verif.Model.Json

/-!
# Configuration over D-Bus

Models the settings read by `dbus/dbusconfiguration.cpp`.
-/

namespace Verif
variable [F : FloatModel]

/-- `DbusVariantType`, dbus/dbusconfiguration.hpp:31-33: `uint64_t` and `int64_t` are one case. -/
inductive ConfVariant where
  | int (i : Int)
  | dbl (d : Dbl)
  | str (s : String)
  | bool (b : Bool)
  | strs (l : List String)
  | dbls (l : List Dbl)

/-- `VariantToDoubleVisitor`, dbus/dbusutil.hpp:15-30 -/
def ConfVariant.toDbl : ConfVariant → Res Dbl
  | .int i => .ok (Dbl.ofInt i)
  | .dbl d => .ok d
  | .bool b => .ok (if b then 1 else 0)
  | _ => .error (.exc "Cannot translate type to double")

/-- `getCycleTimeSetting`, dbus/dbusconfiguration.cpp:305-329, from the default `value`; the cast is undefined from
2 ^ 64 on -/
def cycleTimeFromDbus (zone : OMap String ConfVariant) (attributeName : String) (value : Nat) : Res Nat :=
  match zone.find? attributeName with
  | none => .ok value
  | some v => do
    let tmp ← v.toDbl
    if (1 : Dbl) ≤ tmp then do
      let i ← castOr "cast to uint64_t" tmp.toU64
      .ok i.toNat
    else .ok value

end Verif
