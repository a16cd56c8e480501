import Verif.Model.Collect
import Verif.Model.Daemon
import Verif.Model.Json

/-!
# Starting the daemon

Models `restartControlLoops` (main.cpp:127-186) and `tryRestartControlLoops` as one attempt: from the files and the bus to a
running daemon, or to what happens instead. Stopping the old loops is in Model/Lifecycle.lean, the failsafe loggers are in
Model/FailsafeLog.lean. The file system does not change during an attempt.
-/

namespace Verif
variable [F : FloatModel]

/-- The files a start looks at. `json` is what a file parses to, `none` if it cannot be opened or parsed
(buildjson/buildjson.cpp:47-62). A relative path is looked up in the current directory. -/
structure StartFiles [FloatModel] where
  cwd : String
  «exists» : String → Bool
  json : String → Option Json
  relative : «exists» "config.json" = «exists» (joinPath cwd "config.json")

/-- the directories, main.cpp:95-97 -/
def StartFiles.places (f : StartFiles) : List String := [f.cwd, "/var/lib/swampd", "/usr/share/swampd"]

/-- the loop over the directories, main.cpp:95-106 -/
def searchPlaces (f : StartFiles) : List String → String
  | [] => "config.json"
  | seg :: rest => if f.exists (joinPath seg "config.json") then joinPath seg "config.json" else searchPlaces f rest

/-- `searchConfigurationPath`, main.cpp:91-107 -/
def searchConfigurationPath (f : StartFiles) : String := searchPlaces f f.places

/-- `parseValidateJson`, buildjson/buildjson.cpp:47-65 -/
def parseValidateJson (f : StartFiles) (path : String) : Res Json :=
  match f.json path with
  | none => .error (.exc "Unable to open json file or failed to parse")
  | some data => do
    validateJson data
    .ok data

/-- the three tables of a configuration, main.cpp:55-59 -/
structure Config [FloatModel] where
  sensors : OMap String SensorConfig
  pids : OMap Int PIDConf
  zones : OMap Int ZoneConfig

/-- main.cpp:142-145 -/
def configFromFile (f : StartFiles) (path : String) : Res Config := do
  let data ← parseValidateJson f path
  let sensors ← buildSensorsFromJson data
  let (pids, zones) ← buildPIDsFromJson data
  .ok ⟨sensors, pids, zones⟩

/-- What an attempt comes to. -/
inductive Started [FloatModel] where
  | running (d : Daemon)
  /-- until the configuration on the bus changes, main.cpp:159 -/
  | waiting
  /-- again in ten seconds, main.cpp:204-209 -/
  | retry (why : String)
  /-- the process ends with a failure, main.cpp:150 and 175 -/
  | exit (why : String)
  | undefined (why : String)

/-- an exception caught in main.cpp:204-209 -/
def orRetry : Res Started → Started
  | .ok s => s
  | .error (.exc why) => .retry why
  | .error (.ub why) => .undefined why

/-- what follows once the configuration is there, main.cpp:163-185 -/
def launched (o : Opts) (bus : BuildBus) (now : Int) (w : World) (c : Config) : Started :=
  orRetry do
    let m ← buildSensors o bus now c.sensors
    let zones ← buildZones c.pids c.zones
    if zones.isEmpty then .ok (.exit "No zones defined, exiting.")
    else do
      let zs ← startZones o { w with sensors := m.sensors } {} zones.entries
      .ok (.running ⟨{ w with sensors := m.sensors }, zs⟩)

/-- One attempt, main.cpp:127-186 and 199-209. `conf` is the path given with `-c`, or empty. -/
def attempt (o : Opts) (conf : String) (f : StartFiles) (b : ConfBus) (h : HashOrder) (bus : BuildBus) (now : Int) (w : World) :
    Started :=
  let path := if conf ≠ "" then conf else searchConfigurationPath f
  if f.exists path then
    match configFromFile f path with
    | .ok c => launched o bus now w c
    | .error (.exc why) => .exit why
    | .error (.ub why) => .undefined why
  else
    match busInit b h with
    | .ok (true, c) => launched o bus now w ⟨c.sensors, c.pids, c.zones⟩
    | .ok (false, _) => .waiting
    | .error (.exc why) => .retry why
    | .error (.ub why) => .undefined why

end Verif
