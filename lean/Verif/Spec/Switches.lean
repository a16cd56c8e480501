import Verif.Model.Switches
import Verif.Spec.Startup

/-! # Specification of the switches -/

namespace Verif

/-- There is something at the path. -/
def EtcFiles.There (f : EtcFiles) (p : String) : Prop := f.kind p = .file ∨ f.kind p = .dir

/-- The file system tells whether there is something at the path. -/
def EtcFiles.Known (f : EtcFiles) (p : String) : Prop := f.kind p ≠ .unknown

/-- The command line is accepted. -/
structure Accepted (a : Args) (f : EtcFiles) : Prop where
  conf : ∀ p, a.conf = some p → f.kind p = .file
  log : ∀ p, a.log = some p → f.kind p = .dir

/-- Where log files go: what the file in /etc says has precedence over the command line. -/
inductive LogsTo (a : Args) (f : EtcFiles) : String → Prop
  | line {p} : f.loggingLine = some p → f.There p → LogsTo a f p
  | option {p} : a.log = some p → (∀ l, f.loggingLine = some l → ¬ f.There l) → LogsTo a f p
  | temp {p l} : a.log = none → f.loggingLine = some l → ¬ f.There l → f.temp = some p → LogsTo a f p

/-- Everything `main` asks the file system is answered. -/
structure Answered (a : Args) (f : EtcFiles) : Prop where
  temp : a.log = none → f.temp ≠ none
  line : ∀ l, f.loggingLine = some l → f.Known l
  switches : ∀ s ∈ ["tuning", "debugging", "corelogging"], f.Known ("/etc/thermal.d/" ++ s)

/-- The same files, as a start sees them. -/
def SameFiles [FloatModel] (f : EtcFiles) (g : StartFiles) : Prop := ∀ p, g.exists p = true ↔ f.There p

end Verif
