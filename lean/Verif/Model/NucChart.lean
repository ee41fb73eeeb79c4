/-
fispact_analysis.py:372-436, `plot_nuc_chart` as a whole: the checks of the argument, the array that is drawn (`nucChart`), the limits of the
colour scale and the limits of the axes. Numbers are exact; the columns hold no NaN.
-/
import Verif.Model.FispactAnalysis

namespace FispactAnalysis
open Py
variable {K : Type} [Field K] [LinearOrder K]

/-- The figure: the array, the ends of the colour scale (`none` are the NaN of a table without rows), the limits of the axis of Z and of the
    axis of A, and the title. -/
structure ChartFig (K : Type) where
  cells : Chart K
  scale : Option (K × K)
  zlim : Nat × Nat
  alim : Nat × Nat
  title : Str

/-- fispact_analysis.py:398-399: the ends of the colour scale, `min + 1e-8` and `max` of the whole column. -/
def chartScale : List K → Option (K × K)
  | [] => none
  | v :: vs => some (vs.foldl min v + 1e-8, vs.foldl max v)

/-- fispact_analysis.py:372-436 `plot_nuc_chart`; `get` reads the column `prop`. -/
def plotNucChart (num : AVal → Nat) (get : Row K → K) (inv : Arg K) (prop : Str) (arange zrange : Option (Nat × Nat)) :
    Except Err (ChartFig K) :=
  match inv with
  | .other => .error .ValueError
  | .frame cols rows =>
    if prop ∉ cols then .error .ValueError
    else if p!"element" ∉ cols ∨ p!"A" ∉ cols then .error .ValueError
    else do
      let d ← nucChart num get rows arange zrange
      pure ⟨d, chartScale (rows.map get), zrange.getD (0, 118), arange.getD (0, 294), prop⟩

end FispactAnalysis
