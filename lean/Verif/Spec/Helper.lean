import Verif.Model.Helper

/-! # Specification of what a sensor object says -/

namespace Verif
variable [F : FloatModel]

/-- `v` is a number (or a truth value, which counts as 0 or 1) with value `d`. -/
def NumberIs (v : HVal) (d : Dbl) : Prop :=
  (∃ i, v = .int i ∧ d = Dbl.ofInt i) ∨ v = .dbl d ∨ (v = .bool true ∧ d = 1) ∨ (v = .bool false ∧ d = 0)

/-- The property is absent and `d` is zero, or it is present and has the value `d`. -/
def NumberOr0 (m : OMap String HVal) (k : String) (d : Dbl) : Prop :=
  (m.find? k = none ∧ d = 0) ∨ ∃ v, m.find? k = some v ∧ NumberIs v d

def ScaleIs (m : OMap String HVal) (s : Int) : Prop :=
  (m.find? "Scale" = none ∧ s = 0) ∨ m.find? "Scale" = some (.int s)

def UnitOk (m : OMap String HVal) : Prop := m.find? "Unit" = none ∨ ∃ t, m.find? "Unit" = some (.str t)

/-- `alarm` is the alarm state the object shows: a critical alarm, or with the build option for warnings the upper
warning alarm.  Alarm properties that are looked at must be truth values; a missing interface or property counts as
no alarm. -/
def Says (m : Option (OMap String Variant)) (k : String) (b : Bool) : Prop :=
  ((m.bind fun m => m.find? k) = none ∧ b = false) ∨ (m.bind fun m => m.find? k) = some (.bool b)

def AlarmIs (o : Opts) (b : SensorReplies) (alarm : Bool) : Prop :=
  (Says b.critical "CriticalAlarmLow" true ∧ alarm = true) ∨
  (Says b.critical "CriticalAlarmLow" false ∧ Says b.critical "CriticalAlarmHigh" true ∧ alarm = true) ∨
  (Says b.critical "CriticalAlarmLow" false ∧ Says b.critical "CriticalAlarmHigh" false ∧
    if o.uncFailsafe then Says b.warning "WarningAlarmHigh" alarm else alarm = false)

/-- What the object says about the sensor. -/
structure Shows (o : Opts) (b : SensorReplies) (scale : Int) (value min max : Dbl) (available alarm : Bool) : Prop where
  map : ∃ m, b.value = some m ∧ UnitOk m ∧ ScaleIs m scale ∧ NumberOr0 m "Value" value ∧ NumberOr0 m "MinValue" min ∧
    NumberOr0 m "MaxValue" max
  available : available = (b.available ≠ some false)
  alarm : AlarmIs o b alarm

/-- Some process owns the object. -/
def Owned (b : SensorBus) : Prop := ∃ l, b.owners = some l ∧ l ≠ []

/-- Of the processes that own the object, `s` comes first in the alphabet. -/
def FirstOwner (b : SensorBus) (s : String) : Prop := ∃ l, b.owners = some l ∧ s ∈ l ∧ ∀ s' ∈ l, s = s' ∨ s < s'

end Verif
