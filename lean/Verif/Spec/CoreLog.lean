import Verif.Model.CoreLog

/-! # Specifications for the core log -/

namespace Verif
variable [F : FloatModel]

/-- A computation of a named loop: when, whether it was the first of its controller, what there was to log, the line that
was written and the files that were opened. -/
structure CoreCall where
  name : String
  now : Int
  fresh : Bool
  context : PidCoreContext
  line : Option (Int × PidCoreContext)
  opened : List String

/-- The program, started with the given settings, made the calls `h`, oldest first, and the logs are now `logs`. Which files
can be opened may be different at each call. -/
inductive CoreRun (enabled : Bool) (path : String) : List CoreCall → CoreLogs → Prop
  | start : CoreRun enabled path [] {}
  | call {h logs} (canOpen : String → Bool) (name : String) (now : Int) (info : PidInfo) (input setpoint : Dbl) {r : PidLogged} :
      CoreRun enabled path h logs → pidNamed ⟨enabled, path, canOpen⟩ logs name now info input setpoint = r →
      CoreRun enabled path
        (h ++ [⟨name, now, !info.initialized, pidContext info input setpoint, r.line, r.opened⟩]) r.logs

/-- the members of a context -/
def PidCoreContext.values (c : PidCoreContext) : List Dbl :=
  [c.input, c.setpoint, c.error, c.proportionalTerm, c.integralTerm1, c.integralTerm2, c.derivativeTerm, c.feedFwdTerm,
    c.output1, c.output2, c.minOut, c.maxOut, c.integralTerm3, c.output3, c.integralTerm, c.output]

/-- Something differs from `a` to `b`, or cannot be compared because it is not a number. -/
def Changed (a b : PidCoreContext) : Prop := a.values ≠ b.values ∨ Dbl.nan ∈ b.values

/-- calls of one loop -/
def callsOf (name : String) (h : List CoreCall) : List CoreCall := h.filter (fun c => decide (c.name = name))

/-- calls that wrote a line -/
def writtenOf (h : List CoreCall) : List CoreCall := h.filter (fun c => c.line.isSome)

/-- The loop has log files: a call opened both files. -/
def HasLog (name : String) (h : List CoreCall) : Prop := ∃ c ∈ h, c.name = name ∧ c.opened.length = 2

end Verif
