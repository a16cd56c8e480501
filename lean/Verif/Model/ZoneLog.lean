import Verif.Model.Loop

/-!
# The log file of a zone

Models the CSV log of `pid/zone.cpp`, `pid/zone.hpp` and `pid/pidloop.cpp` with `loggingEnabled` set; the model without
logging is `Verif/Model/Zone.lean`. A log is the list of the characters written so far. How the stream formats numbers is a
parameter. Not modelled: the file cannot be opened or a write fails (then nothing more is written).
-/

namespace Verif
variable [F : FloatModel]

/-- How `std::ofstream` prints a `double` and an integer, pid/zone.cpp:474-488 and pid/zone.hpp:170-172. -/
structure LogFmt [FloatModel] where
  dbl : Dbl → List Char
  int : Int → List Char

/-- `operator[]` of the caches, pid/zone.cpp:487 and pid/zone.hpp:169-171: a missing entry is created with zeros. -/
def cacheAt (m : OMap String CacheEntry) (k : String) : CacheEntry × OMap String CacheEntry :=
  match m.find? k with
  | some e => (e, m)
  | none => (⟨0, 0⟩, m.insert k ⟨0, 0⟩)

/-- one `"," << x` of a cache entry: pid/zone.cpp:488 and pid/zone.hpp:170, 172 -/
def LogFmt.entry (f : LogFmt) (e : CacheEntry) : List Char := ',' :: f.dbl e.scaled ++ ',' :: f.dbl e.unscaled

namespace ZoneData

/-- the columns of one fan, pid/zone.cpp:433-437 -/
def fanHeader (f : String) : List Char :=
  ',' :: f.toList ++ ',' :: f.toList ++ "_raw".toList ++ ',' :: f.toList ++ "_pwm,".toList ++ f.toList ++ "_pwm_raw".toList

/-- the columns of one thermal input, pid/zone.cpp:438-441 -/
def thermalHeader (t : String) : List Char := ',' :: t.toList ++ ',' :: t.toList ++ "_raw".toList

/-- `initializeLog`, pid/zone.cpp:425-445 -/
def initializeLog (z : ZoneData) : List Char :=
  "epoch_ms,setpt,requester".toList ++ z.fanInputs.flatMap fanHeader ++ z.thermalInputs.flatMap thermalHeader ++
    ",failsafe".toList ++ ['\n']

/-- The body of the loop in `processSensorInputs<true>` with logging, pid/zone.hpp:150-221. -/
def processSensorInputLog (f : LogFmt) (w : World) (now : Int) (z : ZoneData) (name : String) :
    Res (ZoneData × List Char) := do
  let sensor ← w.getSensor name
  let r ← sensor.read w now
  let z := { z with cachedValuesByName := z.cachedValuesByName.insert name ⟨r.value, r.unscaled⟩ }
  let duration := Int.tdiv (now - r.updated) 1000000000
  -- 165-174
  let v := cacheAt z.cachedValuesByName name
  let p := cacheAt z.cachedFanOutputs name
  let z := { z with cachedValuesByName := v.2, cachedFanOutputs := p.2 }
  let text := f.entry v.1 ++ f.entry p.1
  if ← sensor.getFailed w then
    .ok (z.markSensorMissing name (← sensor.getFailReason), text)
  else if sensor.timeout ≠ 0 ∧ sensor.timeout ≤ duration then
    .ok (z.markSensorMissing name "Sensor timeout", text)
  else
    .ok ({ z with failSafeSensors := z.failSafeSensors.erase name }, text)

/-- `processSensorInputs<true>` with logging, pid/zone.hpp:144-223 -/
def processSensorInputsLog (f : LogFmt) (w : World) (now : Int) : ZoneData → List String → Res (ZoneData × List Char)
  | z, [] => .ok (z, [])
  | z, name :: rest => do
    let a ← z.processSensorInputLog f w now name
    let b ← processSensorInputsLog f w now a.1 rest
    .ok (b.1, a.2 ++ b.2)

/-- the loop over the thermal inputs, pid/zone.cpp:485-489 -/
def logThermals (f : LogFmt) : ZoneData → List String → ZoneData × List Char
  | z, [] => (z, [])
  | z, t :: rest =>
    let v := cacheAt z.cachedValuesByName t
    let r := logThermals f { z with cachedValuesByName := v.2 } rest
    (r.1, f.entry v.1 ++ r.2)

/-- `updateFanTelemetry` with logging, pid/zone.cpp:465-493 -/
def updateFanTelemetryLog (f : LogFmt) (w : World) (z : ZoneData) : Res (ZoneData × List Char) := do
  let head := f.int (Int.tdiv w.nowFans 1000000) ++ ',' :: f.dbl z.maximumSetPoint ++ ',' :: z.maximumSetPointName.toList
  let fans ← z.processSensorInputsLog f w w.nowFans z.fanInputs
  let thermals := logThermals f fans.1 z.thermalInputs
  .ok (thermals.1, head ++ fans.2 ++ thermals.2)

end ZoneData

/-- the end of a line, pid/pidloop.cpp:132-134: a `bool` prints as 0 or 1 -/
def logFailsafe (z : ZoneData) : List Char := [',', if z.getFailSafeMode then '1' else '0', '\n']

/-- `Zone.start` with logging, pid/pidloop.cpp:46-57 -/
def Zone.startLog (o : Opts) (w : World) (z : Zone) : Res (Zone × List Char) := do
  let text := z.d.initializeLog
  let z ← z.start o w
  .ok (z, text)

/-- `Zone.tick` with logging, pid/pidloop.cpp:70-142 -/
def Zone.tickLog (f : LogFmt) (o : Opts) (w : World) (z : Zone) (cnt : Nat) : Res (World × Zone × Nat × List Char) := do
  if z.d.manualMode then .ok (w, z, cnt, [])
  else
    let t ← z.d.updateFanTelemetryLog f w
    let z := { z with d := t.1 }
    let (z, cnt) ←
      if z.d.cycleTime.updateThermalsTimeMS ≤ cnt then do
        let z ← z.processThermals o w
        .ok (z, cnt - z.d.cycleTime.updateThermalsTimeMS)
      else .ok (z, cnt)
    let (w, z) ← z.processFans o w
    .ok (w, z, cnt + z.d.cycleTime.cycleIntervalTimeMS, t.2 ++ logFailsafe z.d)

end Verif
