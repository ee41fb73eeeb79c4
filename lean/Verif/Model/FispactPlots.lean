/-
fispact_analysis.py, the plotting functions `plot_summary`, `plot_spectra`, `plot_pie` and `plot_nuc_cont`. A figure is the data handed
to matplotlib; colours, the writing of the image and log messages are left out. Numbers are exact, no NaN.
-/
import Verif.Model.FispactAnalysis

namespace FispactPlots
open Py NeutUtilities FispactAnalysis
variable {K : Type} [Field K] [LinearOrder K]

/-- A table of numbers: columns by name, all of the same length, and the column `is_cooling` if there is one. -/
structure Table (K : Type) where
  cols : Dict Str (List K)
  cooling : Option (List Bool)

/-- `t[t["is_cooling"]]`. -/
def coolingRows (t : Table K) : Except Err (Table K) :=
  match t.cooling with
  | none => .error .KeyError
  | some cs => .ok ⟨t.cols.map (fun c => (c.1, ((c.2.zip cs).filter (·.2)).map (·.1))), some (cs.filter id)⟩

/-- fispact_analysis.py:201-202. -/
def chooseRows (t : Table K) (cooling : Bool) : Except Err (Table K) := if cooling then coolingRows t else .ok t

/-- The curve, the label of the values and whether the time axis is logarithmic. -/
structure SummaryFig (K : Type) where
  x : List K
  y : List K
  label : Str
  logTime : Bool
  deriving DecidableEq, Repr

/-- fispact_analysis.py:216-238: the values and the label of a column; `yUnits` may be absent. -/
def columnLabel (column : Str) (yUnits : Option Str) (data : List K) : List K × Str :=
  if column = p!"dose_rate" then (data.map (· * 1e6), p!"Dose rate $\\mu$Sv/h")
  else if column = p!"act" then
    match yUnits with
    | some u => if u = p!"Bq/kg" ∨ u = p!"Bq/g" then (data, p!"Specific Activity " ++ u) else (data, p!"Activity Bq")
    | none => (data, p!"Activity Bq")
  else if column = p!"heat_output" then (data, p!"Heat output (kW)")
  else if column = p!"ingestion_dose" then (data, p!"Ingestion dose (Sv)")
  else if column = p!"inhalation_dose" then (data, p!"Inhalation dose (Sv)")
  else if column = p!"tritium_activity" then (data, p!"Tritium activity (Bq)")
  else (data, column)

/-- `max(l)`. -/
def pyMax : List K → Except Err K
  | [] => .error .ValueError
  | a :: l => .ok (l.foldl max a)

/-- fispact_analysis.py:190-264 `plot_summary`; `none` is an argument that is no table. `plt.vline` and `plt.hline` do not exist. -/
def plotSummary (t : Option (Table K)) (column : Str) (vlines hlines : List K) (xUnits : Str) (yUnits : Option Str) (cooling : Bool) :
    Except Err (SummaryFig K) := do
  let t ← orErr .ValueError t
  let _ ← orErr .ValueError (t.cols.get column)
  let t ← chooseRows t cooling
  let data ← orErr .ValueError (t.cols.get column)
  let xUnits := checkTimeUnits xUnits
  let times ← orErr .ValueError (t.cols.get xUnits)
  let dt ← reduceToNonZero data times
  let yl := columnLabel column yUnits dt.1
  let m ← pyMax dt.2
  if vlines ≠ [] ∨ hlines ≠ [] then .error .AttributeError
  else .ok ⟨dt.2, yl.1, yl.2, decide (10 < m)⟩

/-- fispact_analysis.py:280-282, the group bounds. -/
def xbounds : List K := [0.01, 0.02, 0.05, 0.1, 0.2, 0.3, 0.4, 0.6, 0.8, 1.0, 1.22, 1.44, 1.66, 2.0, 2.5, 3.0, 4.0, 5.0, 6.5, 8.0, 10.0, 12.0, 14.0, 20.0]

/-- The figure of `plot_spectra`. -/
structure GammaFig (K : Type) where
  x : List K
  y : List K
  ymin : K
  ymax : K
  deriving DecidableEq, Repr

/-- fispact_analysis.py:267-288 `plot_spectra`; `gspec` is a list of numbers. -/
def plotGamma (gspec : List K) : Except Err (GammaFig K) := do
  let m ← pyMax gspec
  if (xbounds : List K).length = gspec.length then .ok ⟨xbounds, gspec, 1e-4, m + m * 0.5⟩ else .error .ValueError

/-- The table of dominant nuclides: columns of numbers and columns of names. -/
structure Dominant (K : Type) where
  nums : Dict Str (List K)
  names : Dict Str (List Str)

/-- fispact_analysis.py:291-320 `plot_pie`: the wedges with their labels, and the part of the circle of each. matplotlib divides by the
    sum and refuses negative values; the columns have the same length. -/
def plotPie (t : Dominant K) (param : Str) (thres : K) : Except Err (List (Str × K)) :=
  if (t.nums.get param).isNone ∧ (t.names.get param).isNone then .error .ValueError
  else do
    let pct ← orErr .KeyError (t.nums.get (param ++ p!"_percent"))
    let names ← orErr .KeyError (t.names.get (param ++ p!"_nuc"))
    let vals ← orErr .TypeError (t.nums.get param)
    let shown := (((names.zip vals).zip pct).filter (fun r => decide (thres < r.2))).map (·.1)
    if shown.any (fun r => decide (r.2 < 0)) then .error .ValueError
    else .ok (shown.map (fun r => (r.1, r.2 / (shown.map (·.2)).sum)))

/-- The curves of `plot_nuc_cont` with their labels, and the texts at the axes. -/
structure ContFig (K : Type) where
  curves : List (Str × List K × List K)
  logTime : Bool
  xLabel : Str
  yLabel : Str
  deriving DecidableEq, Repr

/-- `plt.plot(x, y, label=l)`. -/
def labelled (l : Str) (x y : List K) : Except Err (Str × List K × List K) :=
  if x.length = y.length then .ok (l, x, y) else .error .ValueError

/-- fispact_analysis.py:350-352, the total. -/
def totalCurve (sumdat : Table K) (times : List K) (param : Str) (total : Bool) : Except Err (List (Str × List K × List K)) :=
  if total then do
    let vals ← orErr .KeyError (sumdat.cols.get param)
    let c ← labelled p!"Total" times vals
    .ok [c]
  else .ok []

/-- fispact_analysis.py:328-369 `plot_nuc_cont`; `sumdat` is the summary table, `steps` the inventories, `get` reads the column `param`. -/
def plotNucCont (get : Row K → K) (sumdat : Table K) (steps : List (Arg K)) (nucs : List Str) (param : Str) (total : Bool) :
    Except Err (ContFig K) :=
  if nucs = [] then .error .ValueError
  else do
    let times ← orErr .KeyError (sumdat.cols.get p!"time_hours")
    let cs ← nucs.mapM (fun n => do
      let vals ← nucValues get n steps
      labelled n times vals)
    let tot ← totalCurve sumdat times param total
    let m ← pyMax times
    .ok ⟨cs ++ tot, decide (10 < m), p!"Time hours", p!"bq/kg"⟩

end FispactPlots
