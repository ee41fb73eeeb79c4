/-
The results of /repo/fispact_output_reader.py as the arguments of /repo/fispact_analysis.py: the inventory, the table of dominant nuclides
and the gamma spectrum of a time step.
-/
import Verif.Model.FispactOutput
import Verif.Model.FispactPlots
import Verif.Model.NucChart

namespace FispactChain
open Py FispactAnalysis FispactPlots

section
variable {K : Type}

/-- fispact_output_reader.py:546-552: a row of the table made by `parse_inventory`. The mass number stays a text; the columns mass and
    dose_rate are left out. -/
def invTableRow (r : FispactOutput.InvRow K) : Row K :=
  ⟨r.element, r.nuclide, .str r.a, some r.act, some r.gEnergy, some r.bEnergy, some r.aEnergy, some r.atoms⟩

/-- fispact_output_reader.py:544-552: the names of the columns. -/
def invCols : List Str :=
  [p!"nuclide", p!"atoms", p!"mass", p!"act", p!"b_energy", p!"a_energy", p!"g_energy", p!"dose_rate", p!"element", p!"A"]

/-- fispact_output_reader.py:516-554: the table made by `parse_inventory`. -/
def invTable (rows : List (FispactOutput.InvRow K)) : Arg K := .frame invCols (rows.map invTableRow)

/-- fispact_analysis.py:406 `pd.to_numeric(…, errors='coerce').fillna(0).astype(int)`. A text of digits is its value and any other text is
    taken for NaN, that is 0; numbers with signs, points or exponents do not occur in the inventories and are not modelled. -/
def toNumeric : AVal → Nat
  | .int n => n
  | .str s => if s.all Char.isDigit then (pyNat s).getD 0 else 0

/-- fispact_output_reader.py:437-453: the table made by `parse_dominant`, for halves of the same length. -/
def dominantTable (d : List (FispactOutput.DomTop K) × List (FispactOutput.DomLow K)) : Dominant K :=
  ⟨[(p!"act", d.1.map (·.act)), (p!"act_percent", d.1.map (·.actPercent)), (p!"heat", d.1.map (·.heat)),
    (p!"heat_percent", d.1.map (·.heatPercent)), (p!"dr", d.1.map (·.dr)), (p!"dr_percent", d.1.map (·.drPercent)),
    (p!"gheat", d.2.map (·.gheat)), (p!"gheat_percent", d.2.map (·.gheatPercent)), (p!"bheat", d.2.map (·.bheat)),
    (p!"bheat_percent", d.2.map (·.bheatPercent))],
   [(p!"act_nuc", d.1.map (·.actNuc)), (p!"heat_nuc", d.1.map (·.heatNuc)), (p!"dr_nuc", d.1.map (·.drNuc)),
    (p!"gheat_nuc", d.2.map (·.gheatNuc)), (p!"bheat_nuc", d.2.map (·.bheatNuc))]⟩

/-- fispact_output_reader.py:83 and 214: `gspec` of a time step, the empty list when the step has no activity. -/
def stepSpectrum (ts : FispactOutput.TimeStep K) : List K := (ts.active.map (·.gspec)).getD []

end
end FispactChain
