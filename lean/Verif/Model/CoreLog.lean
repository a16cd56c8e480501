import Verif.Model.Pid

/-!
# Core logging

Models `pid/ec/logging.{hpp,cpp}` and the logging calls of `ec::pid` (pid/ec/pid.cpp:37-179). Streams are modelled by
the names of the files that are opened and by the lines that are written; how numbers are printed is not modelled.
-/

namespace Verif
variable [F : FloatModel]

/-- `PidCoreContext`, pid/ec/logging.hpp:17-44 -/
structure PidCoreContext where
  input : Dbl
  setpoint : Dbl
  error : Dbl
  proportionalTerm : Dbl
  integralTerm1 : Dbl
  integralTerm2 : Dbl
  derivativeTerm : Dbl
  feedFwdTerm : Dbl
  output1 : Dbl
  output2 : Dbl
  minOut : Dbl
  maxOut : Dbl
  integralTerm3 : Dbl
  output3 : Dbl
  integralTerm : Dbl
  output : Dbl

/-- `PidCoreContext()`: value initialisation (pid/ec/pid.cpp:40, pid/ec/logging.hpp:17-44), all zero -/
def PidCoreContext.zero : PidCoreContext := ⟨0, 0, 0, 0, 0, 0, 0, 0, 0, 0, 0, 0, 0, 0, 0, 0⟩

/-- the defaulted `operator==`, pid/ec/logging.hpp:43: all members compare equal as doubles -/
def PidCoreContext.same (a b : PidCoreContext) : Bool :=
  Dbl.eqb a.input b.input && Dbl.eqb a.setpoint b.setpoint && Dbl.eqb a.error b.error &&
  Dbl.eqb a.proportionalTerm b.proportionalTerm && Dbl.eqb a.integralTerm1 b.integralTerm1 &&
  Dbl.eqb a.integralTerm2 b.integralTerm2 && Dbl.eqb a.derivativeTerm b.derivativeTerm &&
  Dbl.eqb a.feedFwdTerm b.feedFwdTerm && Dbl.eqb a.output1 b.output1 && Dbl.eqb a.output2 b.output2 &&
  Dbl.eqb a.minOut b.minOut && Dbl.eqb a.maxOut b.maxOut && Dbl.eqb a.integralTerm3 b.integralTerm3 &&
  Dbl.eqb a.output3 b.output3 && Dbl.eqb a.integralTerm b.integralTerm && Dbl.eqb a.output b.output

/-- The intermediate values recorded by `ec::pid`, pid/ec/pid.cpp:51-171. Same computation as `pid`. -/
def pidContext (info : PidInfo) (input setpoint : Dbl) : PidCoreContext :=
  let error := setpoint - input
  let proportionalTerm := info.proportionalCoeff * error
  -- 79, 81-92
  let integralTerm1 :=
    if nonZero info.integralCoeff then info.integral + error * info.integralCoeff * info.ts else 0
  let integralTerm2 :=
    if nonZero info.integralCoeff then clamp integralTerm1 info.integralLimit.min info.integralLimit.max else 0
  let derivativeTerm := info.derivativeCoeff * ((error - info.lastError) / info.ts)
  let feedFwdTerm := (setpoint + info.feedFwdOffset) * info.feedFwdGain
  let output1 := proportionalTerm + integralTerm2 + derivativeTerm + feedFwdTerm
  let output2 := clamp output1 info.outLim.min info.outLim.max
  -- 114-115, 121-156
  let minOut := if info.initialized && nonZero info.slewNeg then info.lastOutput + info.slewNeg * info.ts else 0
  let out := if info.initialized && nonZero info.slewNeg then (if output2 < minOut then minOut else output2) else output2
  let maxOut := if info.initialized && nonZero info.slewPos then info.lastOutput + info.slewPos * info.ts else 0
  let output3 := if info.initialized && nonZero info.slewPos then (if maxOut < out then maxOut else out) else out
  let integralTerm3 :=
    if info.initialized && (nonZero info.slewNeg || nonZero info.slewPos) then output3 - proportionalTerm
    else integralTerm2
  let integralTerm := clamp integralTerm3 info.integralLimit.min info.integralLimit.max
  { input := input, setpoint := setpoint, error := error, proportionalTerm := proportionalTerm,
    integralTerm1 := integralTerm1, integralTerm2 := integralTerm2, derivativeTerm := derivativeTerm,
    feedFwdTerm := feedFwdTerm, output1 := output1, output2 := output2, minOut := minOut, maxOut := maxOut,
    integralTerm3 := integralTerm3, output3 := output3, integralTerm := integralTerm, output := output3 }

/-- `PidCoreLog`, pid/ec/logging.hpp:48-56, without the streams (see the file comment); times are milliseconds -/
structure CoreLog where
  nameOriginal : String
  nameClean : String
  lastLog : Int
  lastContext : PidCoreContext

/-- `CharValid`, pid/ec/logging.cpp:27-43. Bytes of multi-byte characters are not valid, like the characters here. -/
def charValid (c : Char) : Bool :=
  (decide ('A' ≤ c) && decide (c ≤ 'Z')) || (decide ('a' ≤ c) && decide (c ≤ 'z')) ||
  (decide ('0' ≤ c) && decide (c ≤ '9'))

/-- `StrClean`, pid/ec/logging.cpp:45-60 -/
def strClean (s : String) : String := String.ofList (s.toList.filter charValid)

/-- file names, pid/ec/logging.cpp:164-165 -/
def coreFile (loggingPath clean : String) : String := loggingPath ++ "/pidcore." ++ clean
def coeffsFile (loggingPath clean : String) : String := loggingPath ++ "/pidcoeffs." ++ clean

/-- Settings and surroundings: `coreLoggingEnabled` and `loggingPath` (pid/tuning.hpp:26 and 38) and which files can be opened. -/
structure CoreLogEnv where
  enabled : Bool
  loggingPath : String
  canOpen : String → Bool

/-- The map `nameToLog` (pid/ec/logging.cpp:25). -/
abbrev CoreLogs [FloatModel] := OMap String CoreLog

/-- `LogInit`, pid/ec/logging.cpp:122-219. Returns the files that were opened, whether a coefficient line was written and
the new map. -/
def logInit (env : CoreLogEnv) (name : String) (logs : CoreLogs) : List String × Bool × CoreLogs :=
  -- 124-128
  if !env.enabled then ([], false, logs)
  -- 130-134
  else if name = "" then ([], false, logs)
  else
    let clean := strClean name
    -- 136-142
    if clean = "" then ([], false, logs)
    else
      match logs.find? name with
      | some log =>
        -- 148, 207-218
        ([], true, logs.insert name { log with lastLog := 0, lastContext := PidCoreContext.zero })
      | none =>
        -- 154-162
        if logs.entries.any (fun e => decide (e.2.nameClean = clean)) then ([], false, logs)
        -- 170-176
        else if !env.canOpen (coreFile env.loggingPath clean) then ([], false, logs)
        -- 178-187
        else if !env.canOpen (coeffsFile env.loggingPath clean) then ([coreFile env.loggingPath clean], false, logs)
        else
          -- 189-218
          ([coreFile env.loggingPath clean, coeffsFile env.loggingPath clean], true,
            logs.insert name { nameOriginal := name, nameClean := clean, lastLog := 0,
                               lastContext := PidCoreContext.zero })

/-- `LogContext`, pid/ec/logging.cpp:232-267. Returns the line that is written, if any. -/
def logContext (log : CoreLog) (now : Int) (ctx : PidCoreContext) : Option (Int × PidCoreContext) × CoreLog :=
  let shouldLog :=
    if log.lastLog = 0 then true
    else decide (60000 ≤ now - log.lastLog)
  let shouldLog := if !log.lastContext.same ctx then true else shouldLog
  if shouldLog then (some (now, ctx), { log with lastLog := now, lastContext := ctx })
  else (none, log)

/-- What a call of `ec::pid` with a name leaves behind, pid/ec/pid.cpp:37-179. -/
structure PidLogged where
  output : Dbl
  info : PidInfo
  opened : List String
  line : Option (Int × PidCoreContext)
  logs : CoreLogs

/-- `ec::pid` with a name, pid/ec/pid.cpp:37-179: `LogInit` on the first call (40-46), `LogPeek` (48) and the time stamp,
the computation, and `LogContext` (173-176). -/
def pidNamed (env : CoreLogEnv) (logs : CoreLogs) (name : String) (now : Int) (info : PidInfo) (input setpoint : Dbl) :
    PidLogged :=
  let r := pid info input setpoint
  let ini := if !info.initialized then logInit env name logs else ([], false, logs)
  match ini.2.2.find? name with
  | none => { output := r.1, info := r.2, opened := ini.1, line := none, logs := ini.2.2 }
  | some log =>
    let l := logContext log now (pidContext info input setpoint)
    { output := r.1, info := r.2, opened := ini.1, line := l.1, logs := ini.2.2.insert name l.2 }

end Verif
