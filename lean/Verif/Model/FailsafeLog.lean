import Verif.Base.Basic

/-!
# Failsafe loggers

Models `failsafeloggers/failsafe_logger.{hpp,cpp}`, `failsafeloggers/builder.cpp` and
`failsafeloggers/failsafe_logger_utility.hpp`. Printing to stderr is modelled as returning the line.
-/

namespace Verif

/-- The maximum plus one of the unsigned 64-bit arithmetic of time stamps, failsafeloggers/failsafe_logger.cpp:17. -/
def uint64Mod : Nat := 18446744073709551616

/-- `a - b` of two `uint64_t`, failsafeloggers/failsafe_logger.cpp:23 -/
def subU64 (a b : Nat) : Nat := (a + uint64Mod - b) % uint64Mod

/-- What is printed, failsafeloggers/failsafe_logger.cpp:47-58. `enters`: "is in failsafe mode", otherwise "leaves
failsafe mode". -/
structure FsLine where
  zone : Int
  enters : Bool
  location : String
  reason : String
  deriving DecidableEq

/-- `FailsafeLogger`, failsafeloggers/failsafe_logger.hpp:29-54. The unordered set is only used for membership, so
it is a list. -/
structure FsLogger where
  logMaxCountPerSecond : Nat
  currentFailsafeState : Bool
  logTimestamps : List Nat
  logsInCurrentState : List String

/-- constructor, failsafeloggers/failsafe_logger.hpp:32-36 -/
def FsLogger.ctor (max : Nat) (state : Bool) : FsLogger :=
  { logMaxCountPerSecond := max, currentFailsafeState := state, logTimestamps := [], logsInCurrentState := [] }

/-- The loop that removes old entries, failsafeloggers/failsafe_logger.cpp:22-26 -/
def removeOutdated (now : Nat) : List Nat → List Nat
  | [] => []
  | t :: rest => if 1000 ≤ subU64 now t then removeOutdated now rest else t :: rest

/-- `FailsafeLogger::outputFailsafeLog`, failsafeloggers/failsafe_logger.cpp:11-61, at time `now` (milliseconds). -/
def FsLogger.output (l : FsLogger) (now : Nat) (zone : Int) (newState : Bool) (location reason : String) :
    Option FsLine × FsLogger :=
  -- 22-26
  let stamps := removeOutdated now l.logTimestamps
  -- 29-34
  let origin := l.currentFailsafeState
  let logs := if newState != origin then [] else l.logsInCurrentState
  let key := location ++ " @ " ++ reason
  -- 38-42
  if l.logMaxCountPerSecond ≤ stamps.length ∨ key ∈ logs then
    (none, { l with currentFailsafeState := newState, logTimestamps := stamps, logsInCurrentState := logs })
  else
    -- 43-60
    let line :=
      if newState then some { zone := zone, enters := true, location := location, reason := reason }
      else if origin then some { zone := zone, enters := false, location := location, reason := reason }
      else none
    (line, { l with currentFailsafeState := newState, logTimestamps := stamps ++ [now],
                    logsInCurrentState := key :: logs })

/-- Which of the two functions of failsafeloggers/failsafe_logger_utility.hpp:26-52 is called: for a sensor or for a
zone. -/
inductive FsTarget
  | sensor (name : String)
  | zone (id : Int)
deriving DecidableEq, Repr

/-- One call of those functions, at time `now` (milliseconds), and the lines it printed. -/
structure FsEvent where
  target : FsTarget
  now : Nat
  state : Bool
  location : String
  reason : String
  printed : List FsLine

/-- The two global maps of failsafeloggers/failsafe_logger_utility.cpp:11-17. `sensorNameToZoneId` has a vector of
zone numbers per sensor. -/
structure FsLoggers where
  zoneIdToFailsafeLogger : OMap Int FsLogger
  sensorNameToZoneId : OMap String (List Int)

/-- the names of one zone are entered, failsafeloggers/builder.cpp:39-47 -/
def addSensorZone (zone : Int) : List String → OMap String (List Int) → OMap String (List Int)
  | [], m => m
  | n :: ns, m =>
    let zs := (m.find? n).getD []
    addSensorZone zone ns (m.insert n (if zone ∈ zs then zs else zs ++ [zone]))

/-- What `buildFailsafeLoggers` asks of a zone (failsafeloggers/builder.cpp:32-38): its number, whether it is in failsafe mode (`getFailSafeMode`) and its
sensor names (`getSensorNames`). -/
structure FsZone where
  id : Int
  failsafe : Bool
  sensors : List String

/-- the loop of failsafeloggers/builder.cpp:30-52 -/
def buildFailsafeLoggersFrom (max : Nat) : List FsZone → FsLoggers → FsLoggers
  | [], s => s
  | z :: zs, s =>
    buildFailsafeLoggersFrom max zs
      { zoneIdToFailsafeLogger := s.zoneIdToFailsafeLogger.insert z.id (FsLogger.ctor max z.failsafe)
        sensorNameToZoneId := addSensorZone z.id z.sensors s.sensorNameToZoneId }

/-- `buildFailsafeLoggers`, failsafeloggers/builder.cpp:21-53. The zones are given in the order in which the
unordered map is iterated. -/
def buildFailsafeLoggers (max : Nat) (zones : List FsZone) : FsLoggers :=
  buildFailsafeLoggersFrom max zones { zoneIdToFailsafeLogger := {}, sensorNameToZoneId := {} }

/-- `outputFailsafeLogWithZone`, failsafeloggers/failsafe_logger_utility.hpp:43-52 -/
def FsLoggers.withZone (s : FsLoggers) (now : Nat) (zone : Int) (newState : Bool) (location reason : String) :
    List FsLine × FsLoggers :=
  match s.zoneIdToFailsafeLogger.find? zone with
  | none => ([], s)
  | some l =>
    let (line, l') := l.output now zone newState location reason
    (line.toList, { s with zoneIdToFailsafeLogger := s.zoneIdToFailsafeLogger.insert zone l' })

/-- the loop of `outputFailsafeLogWithSensor`, failsafeloggers/failsafe_logger_utility.hpp:30-37. Each logger reads the
clock itself; here all readings of one call are equal. -/
def FsLoggers.withZones (s : FsLoggers) (now : Nat) (newState : Bool) (location reason : String) :
    List Int → List FsLine × FsLoggers
  | [] => ([], s)
  | zone :: zones =>
    let (lines, s') := s.withZone now zone newState location reason
    let (more, s'') := s'.withZones now newState location reason zones
    (lines ++ more, s'')

/-- `outputFailsafeLogWithSensor`, failsafeloggers/failsafe_logger_utility.hpp:26-38 (`operator[]` adds an empty entry
for an unknown sensor, which has no effect). -/
def FsLoggers.withSensor (s : FsLoggers) (now : Nat) (sensor : String) (newState : Bool) (location reason : String) :
    List FsLine × FsLoggers :=
  s.withZones now newState location reason ((s.sensorNameToZoneId.find? sensor).getD [])

end Verif
