/-
mcnp_analysis.py:110-181, the names of the curves of `plot_spectra`: the labels of the curves, the legend that is shown and the label of the
axis. Error bars are left out (`err` is False).
-/
import Verif.Model.McnpPlots

namespace McnpPlots
open Py
variable {K : Type}

/-- A name in a legend: the number of a surface or cell, a boundary of the cosine bins, or a text of the caller. -/
inductive Name (K : Type)
  | obj (n : Nat)
  | edge (a : K)
  | text (s : Str)
  deriving DecidableEq, Repr

/-- The tallies of mcnp_analysis.py:136-140: currents on one surface with angle bins. -/
def byAngle (t : McnpOutput.Tally K) : Bool := t.tallyType = '1' && t.surfaces.length ≤ 1 && (t.angBins.getD []).length > 1

/-- The argument `label` of each curve of a tally that can be drawn, mcnp_analysis.py:131-161; `none` without the argument. -/
def curveLabels (t : McnpOutput.Tally K) : List (Option (Name K)) :=
  match t.result, byAngle t with
  | .table d, false => d.map (fun e => some (.obj e.1))
  | _, false => [none]
  | .items xs, true => xs.map (fun _ => none)
  | .mat rows, true => rows.map (fun _ => none)
  | .table d, true => d.map (fun _ => none)

/-- `plt.legend()`: the curves with a label, by their index, and the label. -/
def autoLegend (labels : List (Option (Name K))) : List (Nat × Name K) :=
  labels.zipIdx.filterMap (fun p => p.1.map (fun n => (p.2, n)))

/-- `plt.legend(names)`: the curves in order, as far as both go. -/
def givenLegend (n : Nat) (names : List (Name K)) : List (Nat × Name K) := (List.range n).zip names

/-- The labels of the curves so far, the legend shown, and the variable `legend`. -/
structure LegendSt (K : Type) where
  labels : List (Option (Name K))
  shown : Option (List (Nat × Name K))
  legend : Option (List (Name K))

/-- mcnp_analysis.py:125-161, one tally whose curves have been drawn. -/
def legendStep (st : LegendSt K) (t : McnpOutput.Tally K) : LegendSt K :=
  let labels := st.labels ++ curveLabels t
  if t.tallyType = '1' then
    if t.surfaces.length > 1 then { st with labels := labels }
    else if byAngle t then
      { st with labels := labels, legend := if (curveLabels t).isEmpty then st.legend else some ((t.angBins.getD []).map .edge) }
    else { st with labels := labels, shown := some (autoLegend labels) }
  else if t.tallyType = '2' ∨ t.tallyType = '4' then { st with labels := labels, shown := some (autoLegend labels) }
  else { st with labels := labels }

/-- The legend of `plot_spectra` for tallies that can be drawn, mcnp_analysis.py:178-179. -/
def legendShown (ts : List (McnpOutput.Tally K)) (legend : Option (List (Name K))) : Option (List (Nat × Name K)) :=
  let st := ts.foldl legendStep ⟨[], none, legend⟩
  match st.legend with
  | some names => some (givenLegend st.labels.length names)
  | none => st.shown

/-- The quantities of the label of the axis: "flux n/cm2/MeV/" and "current n/MeV/". -/
inductive Quantity
  | flux
  | current
  deriving DecidableEq, Repr

/-- mcnp_analysis.py:119, 128: the label of the axis of results; one current is enough to change it. -/
def axisQuantity (ts : List (McnpOutput.Tally K)) : Quantity := if ts.any (fun t => t.tallyType = '1') then .current else .flux

end McnpPlots
