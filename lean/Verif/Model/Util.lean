import Verif.Model.Zone

/-!
# Zone numbering and input lists

Models `setZoneIndex`/`getZoneIndex` of `dbus/dbusutil.cpp` and `spliceInputs`/`splitNames` of `util.cpp`.
-/

namespace Verif

/-- the largest `int64_t`, the type of the numbers at dbus/dbusutil.cpp:22-24 -/
def int64Max : Int := 2 ^ 63 - 1

/-- The search loop of `setZoneIndex`, dbus/dbusutil.cpp:33-55: `used` are the numbers of the zones. Incrementing the
largest `int64_t` is undefined behaviour. -/
def freeIndex (used : List Int) (index : Int) : Res Int :=
  if h : index ∈ used then
    if index = int64Max then .error (.ub "signed overflow")
    else freeIndex used (index + 1)
  else .ok index
termination_by (used.filter (fun u => decide (index ≤ u))).length
decreasing_by
  have h1 : (used.filter (fun u => decide (index + 1 ≤ u))) = (used.filter (fun u => decide (index ≤ u))).filter (· ≠ index) := by
    rw [List.filter_filter]
    congr 1
    funext u
    by_cases h2 : index ≤ u <;> by_cases h3 : u = index <;> simp [h2, h3] <;> omega
  rw [h1]
  apply List.length_filter_lt_length_iff_exists.2
  exact ⟨index, by simp [h], by simp⟩

/-- `setZoneIndex`, dbus/dbusutil.cpp:22-60: the number and the new map. -/
def setZoneIndex (name : String) (zones : OMap String Int) (index : Int) : Res (Int × OMap String Int) :=
  match zones.find? name with
  | some i => .ok (i, zones)
  | none => do
    let index ← freeIndex (zones.entries.map Prod.snd) index
    .ok (index, zones.insert name index)

/-- `getZoneIndex`, dbus/dbusutil.cpp:62-73 -/
def getZoneIndex (name : String) (zones : OMap String Int) : Res (Int × OMap String Int) :=
  match zones.find? name with
  | some i => .ok (i, zones)
  | none => setZoneIndex name zones 0

section
variable [F : FloatModel]

/-- The loop over the margins, util.cpp:124-136 -/
def spliceMargins : List SensorInput → List Dbl → List SensorInput
  | [], _ => []
  | rs, [] => rs
  | r :: rs, m :: ms => { r with convertMarginZero := m, convertTempToMargin := true } :: spliceMargins rs ms

/-- `spliceInputs`, util.cpp:105-155; the set of acceptable names is only searched. -/
def spliceInputs (inputNames : List String) (inputTempToMargin : List Dbl) (missingAcceptableNames : List String) :
    List SensorInput :=
  let results := inputNames.map (fun n => (⟨n, .nan, false, false⟩ : SensorInput))
  let results := spliceMargins results inputTempToMargin
  results.map (fun r => if missingAcceptableNames.contains r.name then { r with missingIsAcceptable := true } else r)

/-- `splitNames`, util.cpp:157-169 -/
def splitNames (sensorInputs : List SensorInput) : List String := sensorInputs.map SensorInput.name

/-- Destruction of a zone's fan loops, pid/zone.hpp:253 (vector of unique pointers, destroyed in order; null pointers have
no destructor). -/
def Zone.destroyFans (o : Opts) (w : World) (z : ZoneData) : List (Option FanPid) → Res (World × ZoneData)
  | [] => .ok (w, z)
  | none :: cs => Zone.destroyFans o w z cs
  | some c :: cs => do
    let (w, z) ← c.destroy o w z
    Zone.destroyFans o w z cs

end
end Verif
