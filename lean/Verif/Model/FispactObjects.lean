/- The attributes of the objects made by /repo/fispact_output_reader.py that no function assigns after `__init__`. -/
import Verif.Model.FispactOutput

namespace FispactOutput
open Py
variable {K : Type} [Field K] [LinearOrder K]

/-- fispact_output_reader.py:50-84, a `FispactTimeStep` with the attributes `is_cooling` and `flux_amp`. -/
structure StepObject (K : Type) where
  step : TimeStep K
  isCooling : Bool
  fluxAmp : K
  deriving DecidableEq

/-- fispact_output_reader.py:142-217 `read_time_step`: `is_cooling` and `flux_amp` keep the values of `__init__` (lines 56-57). -/
def readStepObject (flt : Str → Option K) (lines : List Str) (i : Nat) : Except Err (StepObject K) := do
  let t ← readTimeStep flt lines i
  pure ⟨t, false, 0⟩

/-- fispact_output_reader.py:28-47, a `FispactOutput` with the attributes `num_cool_step` and `time_days`. -/
structure OutObject (K : Type) where
  out : FisOut K
  steps : List (StepObject K)
  numCoolStep : Nat
  timeDays : List K

/-- fispact_output_reader.py:87-139 `read_fis_out`: `num_cool_step` and `time_days` keep the values of `__init__` (lines 37 and 46). The steps
    are those of `readSteps`, with their further attributes. -/
def readOutObject (flt : Str → Option K) (path : Str) (lines : List Str) : Except Err (OutObject K) := do
  let fo ← readLines flt path lines
  let inds := markers lines
  let steps ← (List.range' 1 (inds.length - 1)).mapM (fun i => do
    let s ← orErr .IndexError inds[i]?
    readStepObject flt (stepData lines inds i s) i)
  pure ⟨fo, steps, 0, []⟩

end FispactOutput
