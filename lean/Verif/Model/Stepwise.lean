import Verif.Base.Basic

/-! # Stepwise tables: `pid/ec/stepwise.hpp`, `pid/ec/stepwise.cpp` -/

namespace Verif
variable [F : FloatModel]

/-- `ec::maxStepwisePoints`, pid/ec/stepwise.hpp:26 -/
abbrev maxStepwisePoints : Nat := 20

/-- `ec::StepwiseInfo`, pid/ec/stepwise.hpp:28-36. The arrays are functions of the index. -/
structure StepwiseInfo where
  ts : Dbl
  reading : Fin maxStepwisePoints → Dbl
  output : Fin maxStepwisePoints → Dbl
  positiveHysteresis : Dbl
  negativeHysteresis : Dbl
  isCeiling : Bool

/-- The loop of `ec::stepwise`, pid/ec/stepwise.cpp:32-43, from index `ii` on with the value found so far. -/
def stepwiseLoop (info : StepwiseInfo) (input : Dbl) (ii : Nat) (value : Dbl) : Dbl :=
  if h : ii < maxStepwisePoints then
    if (info.reading ⟨ii, h⟩).isNaN then value
    else if input < info.reading ⟨ii, h⟩ then value
    else stepwiseLoop info input (ii + 1) (info.output ⟨ii, h⟩)
  else value
termination_by maxStepwisePoints - ii

/-- `ec::stepwise`, pid/ec/stepwise.cpp:27-46 -/
def stepwise (info : StepwiseInfo) (input : Dbl) : Dbl :=
  stepwiseLoop info input 1 (info.output ⟨0, by decide⟩)

/-- State of a `StepwiseController`, pid/stepwisecontroller.hpp:59-60. -/
structure StepState where
  lastInput : Dbl
  lastOutput : Dbl

/-- Initial state, pid/stepwisecontroller.hpp:59-60. -/
def StepState.init : StepState := ⟨.nan, .nan⟩

/-- The numeric part of `StepwiseController::process`, pid/stepwisecontroller.cpp:37-68 (between `inputProc` and
`outputProc`). -/
def stepwiseStep (info : StepwiseInfo) (st : StepState) (input : Dbl) : Dbl × StepState :=
  let st' : StepState :=
    if st.lastOutput.isNaN then ⟨input, stepwise info input⟩
    else if info.positiveHysteresis < input - st.lastInput then ⟨input, stepwise info input⟩
    else if info.negativeHysteresis < st.lastInput - input then ⟨input, stepwise info input⟩
    else st
  (st'.lastOutput, st')

end Verif
