/-
mcnp_analysis.py, the wavelengths in the labels of `energy_slice` and the shaded band of `plot_ET_heatmap`. Numbers are real; the rounding of
the number shown to two decimals and its formatting are left out.
-/
import Verif.Model.McnpAnalysis
import Verif.Model.NeutUtilities
import Mathlib.Analysis.Real.Sqrt

namespace McnpPlots
open Py NeutUtilities

/-- mcnp_analysis.py:344, 396: `np.sqrt(81.81 / (energy) / 1e9)`, the energy in MeV. The energy is positive (numpy gives inf for 0 and NaN for
    a negative energy). -/
noncomputable def waveLength (e : ℝ) : ℝ := Real.sqrt (81.81 / e / 1e9)

/-- A label: a wavelength or an energy. -/
inductive Label
  | wave (w : ℝ)
  | energy (e : ℝ)

/-- mcnp_analysis.py:343-347: the label of one curve. -/
noncomputable def sliceLabel (wl : Bool) (e : ℝ) : Label := if wl then .wave (waveLength e) else .energy e

/-- The labels of all curves, mcnp_analysis.py:305-347. -/
noncomputable def sliceLabels (wl : Bool) (targets energies : List ℝ) : Except Err (List Label) := do
  let idx ← targets.mapM (fun te => argmin (energies.map (fun e => |e - te|)))
  idx.mapM (fun i => do
    let e ← orErr .IndexError energies[i]?
    pure (sliceLabel wl e))

/-- mcnp_analysis.py:390-399: the title, `none` for the one of several energies; without targets `erg_indices[0]` raises. -/
noncomputable def sliceTitle (wl : Bool) (targets energies : List ℝ) : Except Err (Option Label) := do
  let labels ← sliceLabels wl targets energies
  if labels.length > 1 then pure none else (orErr .IndexError labels[0]?).map some

/-- mcnp_analysis.py:232-234: the lower and the upper end of the shaded band on the axis of energies, in MeV. -/
noncomputable def heatBand : ℝ × ℝ := ((81.81 / (10.0 ^ 2)) / 1e9, (81.81 / (2.0 ^ 2)) / 1e9)

end McnpPlots
