/-
mcnp_analysis.py:110-181, `plot_spectra` of one tally whose result is a matrix, as `read_type_5` makes it for energy and time bins. The case
is left out of `McnpPlots.plotSpectra`. Numbers are exact.
-/
import Verif.Model.McnpPlots

namespace McnpPlots
open Py McnpAnalysis NeutUtilities
variable {K : Type} [Field K] [LinearOrder K]

/-- `m / b` for a matrix and an array of at least two entries: the array is laid along the rows. It must have one entry for each column, or
    there is a single column, which is repeated. The matrix has at least one row and rows of the same length. -/
def divMatrix (m : List (List K)) (b : List K) : Except Err (List (List K)) :=
  match m with
  | [] => .ok []
  | row :: _ =>
    if row.length = b.length then .ok (m.map (fun r => List.zipWith (· / ·) r b))
    else if row.length = 1 then .ok (m.map (fun r => b.map (fun w => r.headD 0 / w)))
    else .error .ValueError

/-- `plt.step(x, m)` for a matrix: one curve for each column; there must be one row for each entry of `x`. -/
def columnCurves (x : List K) (m : List (List K)) : Except Err (List (Curve K)) :=
  if x.length = m.length then .ok ((List.range (m.headD []).length).map (fun j => ⟨x, m.map (fun r => (r[j]?).getD 0)⟩)) else .error .ValueError

/-- `find_first_non_zero` (neut_utilities.py:133-140) of a matrix: the first row with an entry that is not zero. -/
def firstRowNonZero (m : List (List K)) : Option Nat := (((m.zipIdx).filter (fun e => e.1.any (fun v => decide (v ≠ 0)))).map (·.2)).head?

/-- mcnp_analysis.py:110-181 `plot_spectra` of a tally of a type other than 1, 2 and 4 with energies `eng` and the matrix `m`, without error
    bars. -/
def plotTimeSpectra (eng : List K) (m : List (List K)) (xlow : Option K) : Except Err (SpecFig K) := do
  let bw ← calcBinWidth eng
  let y ← divMatrix m bw
  let cs ← columnCurves eng y
  match xlow with
  | some x => pure ⟨cs, [], some x⟩
  | none => match firstRowNonZero y with
    | some (i + 1) => do
      let x ← orErr .IndexError eng[i + 1]?
      pure ⟨cs, [], some x⟩
    | _ => pure ⟨cs, [], none⟩

end McnpPlots
