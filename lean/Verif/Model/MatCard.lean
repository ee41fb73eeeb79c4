/-
The text of the identifiers in the output of /repo/fispact_analysis.py `output_mcnp_mat`.
-/
import Verif.Model.FispactAnalysis

namespace FispactAnalysis
open Py

/-- fispact_analysis.py:87, the text of `row['ZAID']`. `apply` with axis 1 makes each row of the two number columns a row of floats, so
    an identifier (far below 10^16) is shown with `.0`; an element that is not in the table gives nan. -/
def zaidText : Option Nat → Str
  | some n => natStr n ++ p!".0"
  | none => p!"nan"

end FispactAnalysis
