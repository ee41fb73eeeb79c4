/- mcnp_analysis.py, the numeric functions; the plotting functions are in McnpPlots.lean. Exact numbers, no NaN. -/
import Verif.Py.Numpy
import Mathlib.Algebra.Order.Field.Basic
import Mathlib.Algebra.Order.Group.Abs

namespace McnpAnalysis
open Py
variable {K : Type} [Field K] [LinearOrder K]

/-- mcnp_analysis.py:14-19 `normalise`. -/
def normalise (data : List K) (norm : K) : List K := data.map (· * norm)

/-- mcnp_analysis.py:22-31 `calc_err_abs`; the errors are already numbers. -/
def calcErrAbs (results errors : List K) : Except Err (List K) :=
  if results.length ≠ errors.length then .error .ValueError
  else .ok (List.zipWith (· * ·) results errors)

/-- mcnp_analysis.py:34-41 `calc_bin_width` (`np.diff` with a zero in front). -/
def calcBinWidth (bins : List K) : Except Err (List K) :=
  if bins.length < 2 then .error .ValueError
  else .ok (List.zipWith (fun b a => b - a) bins (0 :: bins))

/-- Loop of mcnp_analysis.py:44-53 `calc_mid_points`. -/
def calcMidPoints : List K → List K
  | a :: b :: rest => (a + b) / 2 :: calcMidPoints (b :: rest)
  | _ => []

/-- mcnp_analysis.py:56-86 `find_peak_time`; the result matrix is a list of rows. -/
def findPeakTime (target : K) (energies times : List K) (results : List (List K)) : Except Err K := do
  let ei ← argmin (energies.map (fun e => |e - target|))
  let row ← orErr .IndexError results[ei]?
  let valid := row.take times.length
  let pi ← argmax valid
  orErr .IndexError times[pi]?

end McnpAnalysis
