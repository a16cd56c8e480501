import Verif.Model.CoreLog
import Verif.Model.Startup

/-!
# The command line and the files in /etc/thermal.d

Models the beginning of `main` (main.cpp:307-399): options, switches and the directory of the log files. The parser of the
command line (CLI11, not part of /repo) is reduced to its two checks of paths. Left out: the messages, and help.
-/

namespace Verif

/-- What `std::filesystem::status` says about a path. `unknown`: it fails, and `exists` throws (no permission, name too long). -/
inductive PathKind where
  | missing | file | dir | unknown
deriving DecidableEq, Repr

/-- The options, main.cpp:315-326. A path is `none` if the option is not given. -/
structure Args where
  conf : Option String := none
  log : Option String := none
  tuning : Bool := false
  debug : Bool := false
  core : Bool := false
deriving DecidableEq, Repr

/-- The files `main` looks at. `temp` is `temp_directory_path()`, `none` if it throws; `loggingLine` is the first line of
/etc/thermal.d/logging, `none` if it cannot be opened (main.cpp:346-351). -/
structure EtcFiles where
  kind : String → PathKind
  empty : kind "" = .missing
  temp : Option String
  loggingLine : Option String

/-- `std::filesystem::exists`, main.cpp:354, 371, 381 and 392 -/
def EtcFiles.exists (f : EtcFiles) (p : String) : Res Bool :=
  match f.kind p with
  | .missing => .ok false
  | .file => .ok true
  | .dir => .ok true
  | .unknown => .error (.exc "filesystem_error")

/-- The global settings, main.cpp:75 and pid/tuning.hpp:8-24 -/
structure Switches where
  conf : String
  loggingPath : String
  logging : Bool
  tuning : Bool
  debug : Bool
  core : Bool
deriving DecidableEq, Repr

/-- the default directory of the log files, main.cpp:334-343 -/
def defaultLogDir (a : Args) (f : EtcFiles) : Res String :=
  match a.log with
  | some p => .ok p
  | none => match f.temp with
    | some p => .ok p
    | none => .error (.exc "filesystem_error: temp_directory_path")

/-- whether and where to log, main.cpp:333-364 -/
def loggingSwitch (a : Args) (f : EtcFiles) : Res (Bool × String) := do
  let def_ ← defaultLogDir a f
  match f.loggingLine with
  | none => .ok (a.log.isSome, a.log.getD "")
  | some altPath => do
    let there ← f.exists altPath
    .ok (true, if there then altPath else def_)

/-- `main` up to the switches, main.cpp:333-399 -/
def readSwitches (a : Args) (f : EtcFiles) : Res Switches := do
  let l ← loggingSwitch a f
  let tuning ← f.exists "/etc/thermal.d/tuning"
  let debug ← f.exists "/etc/thermal.d/debugging"
  let core ← f.exists "/etc/thermal.d/corelogging"
  .ok ⟨a.conf.getD "", l.2, l.1, a.tuning || tuning, a.debug || debug, a.core || core⟩

/-- How `main` begins. -/
inductive MainStart where
  /-- with these settings -/
  | go (s : Switches)
  /-- the command line is not accepted, main.cpp:326 -/
  | usage
  /-- an exception that nobody catches -/
  | terminated
deriving DecidableEq, Repr

/-- `main`, main.cpp:305-399. The checks are `CLI::ExistingFile` and `CLI::ExistingDirectory`. -/
def mainStart (a : Args) (f : EtcFiles) : MainStart :=
  if a.conf.any (fun p => f.kind p ≠ .file) then .usage
  else if a.log.any (fun p => f.kind p ≠ .dir) then .usage
  else
    match readSwitches a f with
    | .ok s => .go s
    | .error _ => .terminated

/-- the log file of a zone, pid/zone.hpp:71-74 -/
def zoneLogFile (loggingPath : String) (zone : Int) : String := loggingPath ++ "/zone_" ++ toString zone ++ ".log"

end Verif
