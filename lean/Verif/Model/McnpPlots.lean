/-
mcnp_analysis.py, the plotting functions. A figure is the data handed to matplotlib: the curves and the axis limits. Titles, colours,
labels with formatted numbers, the writing of the image and log messages are left out. Numbers are exact.
-/
import Verif.Model.McnpAnalysis
import Verif.Model.McnpOutput
import Verif.Model.Constants
import Verif.Model.NeutUtilities
import Mathlib.Data.List.Sort

namespace McnpPlots
open Py McnpAnalysis NeutUtilities
variable {K : Type} [Field K] [LinearOrder K]

/-- A curve: the abscissae and the ordinates. -/
structure Curve (K : Type) where
  x : List K
  y : List K
  deriving DecidableEq, Repr

/-- `plt.plot(x, y)` and `plt.step(x, y)`: the lengths must agree. -/
def curve (x y : List K) : Except Err (Curve K) := if x.length = y.length then .ok ⟨x, y⟩ else .error .ValueError

/-- mcnp_analysis.py:247-265 `time_slice`. The matrix has at least one row. -/
def timeSlice (target : K) (energies times : List K) (results : List (List K)) (factor : K) : Except Err (Curve K) := do
  let ti ← argmin (times.map (fun t => |t - target|))
  let col ← results.mapM (fun row => orErr .IndexError row[ti]?)
  curve energies (normalise col factor)

/-- `int(np.median(l))` for a list of indices; the median of nothing is NaN, which is no integer. -/
def medianIndex (l : List Nat) : Except Err Nat :=
  let s := l.insertionSort (· ≤ ·)
  if s.length = 0 then .error .ValueError
  else if s.length % 2 = 1 then orErr .ValueError s[s.length / 2]?
  else do
    let a ← orErr .ValueError s[s.length / 2 - 1]?
    let b ← orErr .ValueError s[s.length / 2]?
    pure ((a + b) / 2)

/-- `np.sum(m, axis=0)` of a matrix with at least one row. -/
def columnSums : List (List K) → List K
  | [] => []
  | [row] => row
  | row :: rows => List.zipWith (· + ·) row (columnSums rows)

/-- The figure of `energy_slice`. -/
structure SliceFig (K : Type) where
  curves : List (Curve K)
  total : Option (Curve K)
  xlim : K × K
  ymax : K
  deriving DecidableEq, Repr

/-- One pass of the loop mcnp_analysis.py:325-351: the curve, the index of the peak and its value. -/
def energyCurve (times : List K) (results : List (List K)) (factor : K) (ei : Nat) : Except Err (Curve K × Nat × K) := do
  let row ← orErr .IndexError results[ei]?
  let flux := normalise row factor
  let peak ← argmax (flux.take times.length)
  let v ← orErr .IndexError (flux.take times.length)[peak]?
  let _ ← orErr .IndexError times[peak]?
  let c ← curve times flux.dropLast
  pure (c, peak, v)

/-- mcnp_analysis.py:361-376: the limits of the time axis. -/
def timeLimits (times : List K) (peaks : List Nat) (minT maxT : Option K) (window : Nat) : Except Err (K × K) := do
  let med ← medianIndex peaks
  let med := min med (times.length - 1)
  let lo ← orErr .IndexError times[med - window]?
  let hi ← orErr .IndexError times[min (times.length - 1) (med + window)]?
  pure (minT.getD lo, maxT.getD hi)

/-- mcnp_analysis.py:379-388: the upper limit of the other axis. -/
def yLimit (total : List K) (plotTotal : Bool) (peaks : List Nat) (values : List K) : Except Err K :=
  if plotTotal then do
    let med ← medianIndex peaks
    let y ← orErr .IndexError total[min med (total.length - 1)]?
    pure (y * 1.05)
  else
    match values with
    | [] => .error .ValueError
    | v :: vs => .ok ((vs.foldl max v) * 1.05)

/-- mcnp_analysis.py:353-357: the curve of the total. -/
def totalCurve (tc total : List K) (plotTotal : Bool) : Except Err (Option (Curve K)) :=
  if plotTotal then (curve tc total.dropLast).map some else .ok none

/-- mcnp_analysis.py:268-405 `energy_slice`; `window` is not negative. Without targets the limits cannot be found (ValueError), with or
    without the total. -/
def energySlice (targets energies times : List K) (results : List (List K)) (minT maxT : Option K) (window : Nat) (factor : K)
    (plotTotal : Bool) : Except Err (SliceFig K) := do
  let idx ← targets.mapM (fun te => argmin (energies.map (fun e => |e - te|)))
  let tc := times.map Constants.shakeToMs
  let total := normalise (columnSums results) factor
  let rs ← idx.mapM (energyCurve tc results factor)
  let tot ← totalCurve tc total plotTotal
  let peaks := rs.map (fun r => r.2.1)
  let xl ← timeLimits tc peaks minT maxT window
  let ym ← yLimit total plotTotal peaks (rs.map (fun r => r.2.2))
  pure ⟨rs.map (·.1), tot, xl, ym⟩

/-- The figure of `plot_ET_heatmap`: the edges and the values of the cells (`none` is NaN). -/
structure HeatFig (K V : Type) where
  times : List K
  energies : List K
  cells : List (List (Option V))

/-- mcnp_analysis.py:214-244 `plot_ET_heatmap`; `lg` is `np.log10` (any function). matplotlib takes as many coordinates as
    cells, or one more in both directions, and raises TypeError otherwise. The matrix has at least two rows. -/
def heatmap {V : Type} (lg : K → V) (energies times : List K) (results : List (List K)) (factor : K) : Except Err (HeatFig K V) :=
  let logs := results.map (fun row => row.map (fun v => if 0 < v then some (lg (v * factor)) else none))
  let shown := logs.dropLast.map (fun row => row.take (row.length - 2))
  let tc := times.map Constants.shakeToMs
  let ncols := (shown.headD []).length
  if (tc.length = ncols ∧ energies.length = shown.length) ∨ (tc.length = ncols + 1 ∧ energies.length = shown.length + 1) then
    .ok ⟨tc, energies, shown⟩
  else .error .TypeError

/-- Error bars: position, value, half length. -/
structure Bars (K : Type) where
  x : List K
  y : List K
  err : List K
  deriving DecidableEq, Repr

/-- The figure of `plot_spectra`. -/
structure SpecFig (K : Type) where
  curves : List (Curve K)
  bars : List (Bars K)
  xmin : Option K
  deriving DecidableEq, Repr

/-- `s / b` for a column of a table and an array: the lengths must agree. -/
def divSeries (s b : List K) : Except Err (List K) := if s.length = b.length then .ok (List.zipWith (· / ·) s b) else .error .ValueError

/-- `a / b` for two arrays: the lengths must agree, or one array has a single entry, which is repeated. -/
def divArrays (a b : List K) : Except Err (List K) :=
  if a.length = b.length then .ok (List.zipWith (· / ·) a b)
  else match a, b with
    | [x], b => .ok (b.map (x / ·))
    | a, [y] => .ok (a.map (· / y))
    | _, _ => .error .ValueError

/-- A flat list of numbers as an array. A dictionary cannot be divided (TypeError), lists of matrices cannot be drawn (ValueError). A matrix,
    whose division by the widths depends on its shape, is taken as a ValueError here; its spectra are `plotTimeSpectra` (TimeSpectra.lean). -/
def flatResult : McnpOutput.Res K → Except Err (List K)
  | .items xs => xs.mapM (fun i => match i with | .num x => Except.ok x | _ => .error .ValueError)
  | .mat _ => .error .ValueError
  | .table _ => .error .TypeError

/-- The curves of a table of objects, mcnp_analysis.py:131-133 and the like: the values of each object over the widths. -/
def tableCurves (eng bw : List K) : McnpOutput.Res K → Except Err (List (Curve K))
  | .table d => d.mapM (fun e => do
      let y ← divSeries (e.2.map (fun r => r.2.1)) bw
      curve eng y)
  | _ => .error .AttributeError

/-- The curves of a list of spectra, one per angle, mcnp_analysis.py:137-140. A single number is repeated; the loop over a dictionary
    gives its keys, which are single numbers. Matrices in the list are taken as a ValueError. -/
def angleCurves (eng bw : List K) : McnpOutput.Res K → Except Err (List (Curve K))
  | .items xs => xs.mapM (fun i => do
      let ys ← (match i with | .list ys => Except.ok ys | .num x => .ok [x] | .mat _ => .error .ValueError)
      let y ← divArrays ys bw
      curve eng y)
  | .mat rows => rows.mapM (fun ys => do
      let y ← divArrays ys bw
      curve eng y)
  | .table d => d.mapM (fun e => do
      let y ← divArrays [(e.1 : K)] bw
      curve eng y)

/-- mcnp_analysis.py:125-161, the curves of one tally; `len(None)` is a TypeError. -/
def tallyCurves (t : McnpOutput.Tally K) (eng bw : List K) : Except Err (List (Curve K)) := do
  if t.tallyType = '1' then
    if t.surfaces.length > 1 then do
      let a ← orErr .TypeError t.angBins
      if a.length > 1 then .error .NotImplementedError else tableCurves eng bw t.result
    else do
      let a ← orErr .TypeError t.angBins
      if a.length > 1 then angleCurves eng bw t.result else tableCurves eng bw t.result
  else if t.tallyType = '2' then tableCurves eng bw t.result
  else if t.tallyType = '4' then tableCurves eng bw t.result
  else do
    let ys ← flatResult t.result
    let y ← divArrays ys bw
    let c ← curve eng y
    pure [c]

/-- `plt.errorbar(x, y, yerr=e)`: a single error is repeated for all values; errors that are negative, or of another number than the
    values, are a ValueError, as are positions of another number than the values. -/
def bars (x y e : List K) : Except Err (Bars K) :=
  if x.length ≠ y.length then .error .ValueError
  else if e.any (fun v => decide (v < 0)) then .error .ValueError
  else if e.length = y.length then .ok ⟨x, y, e⟩
  else match e with
    | [v] => .ok ⟨x, y, List.replicate y.length v⟩
    | _ => .error .ValueError

/-- mcnp_analysis.py:25-29: the relative errors for `n` values. Another number of them is a ValueError; then each is converted with
    `float`, which a list or a row of several numbers refuses (TypeError). The loop over a dictionary gives its keys. -/
def errNumbers (n : Nat) : McnpOutput.Res K → Except Err (List K)
  | .items xs => if xs.length ≠ n then .error .ValueError else
      xs.mapM (fun i => match i with | .num x => Except.ok x | _ => .error .TypeError)
  | .mat rows => if rows.length ≠ n then .error .ValueError else
      rows.mapM (fun r => match r with | [x] => Except.ok x | _ => .error .TypeError)
  | .table d => if d.length ≠ n then .error .ValueError else .ok (d.map (fun e => (e.1 : K)))

/-- mcnp_analysis.py:163-168: the error bars; `ys` are the values of the last curve. -/
def errorBars (t : McnpOutput.Tally K) (eng ys : List K) : Except Err (Bars K) := do
  let errs ← errNumbers ys.length t.err
  let ab ← calcErrAbs ys errs
  bars (calcMidPoints eng) (ys.drop 1) ab.dropLast

/-- mcnp_analysis.py:123-168, the loop over the tallies; `last` is the variable `y_vals`. -/
def spectraLoop (err : Bool) : List (McnpOutput.Tally K) → List (Curve K) → List (Bars K) → Option (List K) →
    Except Err (List (Curve K) × List (Bars K) × Option (List K))
  | [], cs, bs, last => .ok (cs, bs, last)
  | t :: ts, cs, bs, last => do
    let eng ← orErr .TypeError t.eng
    let bw ← calcBinWidth eng
    let new ← tallyCurves t eng bw
    let last := (new.getLast?.map (·.y)).or last
    if err then do
      let ys ← orErr .UnboundLocalError last
      let b ← errorBars t eng ys
      spectraLoop err ts (cs ++ new) (bs ++ [b]) last
    else spectraLoop err ts (cs ++ new) bs last

/-- mcnp_analysis.py:110-181 `plot_spectra`; `xlow` is the argument of that name. -/
def plotSpectra (tallies : List (McnpOutput.Tally K)) (err : Bool) (xlow : Option K) : Except Err (SpecFig K) := do
  let r ← spectraLoop err tallies [] [] none
  match xlow with
  | some x => pure ⟨r.1, r.2.1, some x⟩
  | none => do
    let ys ← orErr .UnboundLocalError r.2.2
    match findFirstNonZero ys with
    | some (i + 1) => do
      let t ← orErr .UnboundLocalError tallies.getLast?
      let eng ← orErr .TypeError t.eng
      let x ← orErr .IndexError eng[i + 1]?
      pure ⟨r.1, r.2.1, some x⟩
    | _ => pure ⟨r.1, r.2.1, none⟩

/-- mcnp_analysis.py:89-107 `plot_raw_spectra`, the loop; every tally has the attribute `eng`. -/
def plotRawSpectra (tallies : List (McnpOutput.Tally K)) : Except Err (List (Curve K)) := do
  let cs ← tallies.mapM (fun t => match t.result with
    | .table d => d.mapM (fun e => do
        let eng ← orErr .ValueError t.eng
        curve eng (e.2.map (fun r => r.2.1)))
    | _ => .error .AttributeError)
  pure cs.flatten

/-- `np.asarray(result[0])`; a single number is a list of length 1. The table of a cell or surface with number 0, which does not exist, would
    be a matrix; only its values are kept here. -/
def firstResult : McnpOutput.Res K → Except Err (List K)
  | .items [] => .error .IndexError
  | .items (.num x :: _) => .ok [x]
  | .items (.list xs :: _) => .ok xs
  | .items (.mat _ :: _) => .error .ValueError
  | .mat [] => .error .IndexError
  | .mat (row :: _) => .ok row
  | .table d => match d.get 0 with
    | none => .error .KeyError
    | some rows => .ok (rows.map (fun r => r.2.1))

/-- mcnp_analysis.py:184-196 `plot_spectra_ratio`; no value of the second spectrum is zero. -/
def plotSpectraRatio (t1 t2 : McnpOutput.Tally K) : Except Err (Curve K) := do
  let a ← firstResult t1.result
  let b ← firstResult t2.result
  let r ← divArrays a b
  let eng ← orErr .ValueError t1.eng
  curve eng r

/-- The figure of `plot_run_comp`. -/
structure RunFig (K : Type) where
  bars : Bars K
  xlim : K × K
  deriving DecidableEq, Repr

/-- mcnp_analysis.py:199-211 `plot_run_comp`: positions, values and errors, and the limits of the axis. -/
def plotRunComp (data err : List K) : Except Err (RunFig K) := do
  let b ← bars ((List.range data.length).map (fun i => ((i + 1 : Nat) : K))) data err
  pure ⟨b, 0, ((data.length + 1 : Nat) : K)⟩

end McnpPlots
