/-
meshtal_analysis.py, the plotting functions `create_plot`, `plot_slice` and `rel_err_hist`. A figure is the data handed to matplotlib
and what matplotlib makes of it (cell boundaries, bins); colours, labels, the writing of the image and log messages are left out.
Numbers are exact. `pcolormesh` is that of matplotlib 3.5 and later, where the default of `shading` is `auto`.
-/
import Verif.Model.MeshtalAnalysis

namespace Meshtal
open Py
variable {K : Type} [Field K] [LinearOrder K]

/-- matplotlib `_interp_grid`: cell boundaries around given centres; a single centre is duplicated. -/
def edges : List K → List K
  | [] => []
  | [a] => [a, a]
  | a :: b :: l =>
    (a - (b - a) / 2) :: (List.zipWith (fun x y => x + (y - x) / 2) (a :: b :: l) (b :: l) ++
      [((b :: l).getLastD b) + (((b :: l).getLastD b) - ((a :: b :: l).dropLast.getLastD a)) / 2])

/-- One picture: boundaries of the columns and rows, the value of each cell, and the part shown. -/
structure Picture (K : Type) where
  xEdges : List K
  yEdges : List K
  cells : List (List (Option K))
  xlim : K × K
  ylim : K × K
  vmin : K
  vmax : K
  deriving DecidableEq

/-- `(min(l), max(l))`. -/
def span : List K → Except Err (K × K)
  | [] => .error .ValueError
  | a :: l => .ok (l.foldl min a, l.foldl max a)

/-- meshtal_analysis.py:196-207 `create_plot`. `pcolormesh` takes the coordinates as centres if there are as many as columns and rows;
    it would take them as boundaries if there was one more of each; otherwise it raises TypeError. -/
def createPlot (si sj : List K) (values : List (List (Option K))) (lmin lmax : K) : Except Err (Picture K) :=
  if sj.length = values.length ∧ ∀ row ∈ values, row.length = si.length then do
    let x ← span si
    let y ← span sj
    pure ⟨edges si, edges sj, values, x, y, lmin, lmax⟩
  else if values ≠ [] ∧ sj.length = values.length + 1 ∧ ∀ row ∈ values, si.length = row.length + 1 then do
    let x ← span si
    let y ← span sj
    pure ⟨si, sj, values, x, y, lmin, lmax⟩
  else .error .TypeError

/-- The figure of `plot_slice`: the position named in the title, the picture of the values, that of the errors, and the returned slice. -/
structure SliceFig (K : Type) where
  titleAt : K
  main : Picture K
  errs : Option (Picture K)
  slice : Slice K

/-- meshtal_analysis.py:210-230 `plot_slice`. -/
def plotSlice (m : Mesh K (Frame K)) (value : K) (plane : Str) (lmin lmax : K) (err : Bool) (erg time : Option K) :
    Except Err (SliceFig K) := do
  let s ← extractSlice m value plane erg time
  let p ← createPlot s.sliceI s.sliceJ s.values lmin lmax
  if err then do
    let q ← createPlot s.sliceI s.sliceJ s.errors lmin lmax
    pure ⟨value, p, some q, s⟩
  else pure ⟨value, p, none, s⟩

/-- numpy `_get_outer_edges` for finite data: the least and greatest value, (0, 1) without data, widened by a half on both sides if
    they agree. -/
def outerEdges : List K → K × K
  | [] => (0, 1)
  | a :: l => if l.foldl min a = l.foldl max a then (l.foldl min a - 1 / 2, l.foldl max a + 1 / 2) else (l.foldl min a, l.foldl max a)

/-- The bin of a value: `n` equal bins from `lo` to `hi`, the last one closed. -/
def binOf [FloorRing K] (n : Nat) (lo hi x : K) : Nat := min (⌊(x - lo) / (hi - lo) * n⌋).toNat (n - 1)

/-- The bars of a histogram: boundaries and heights. -/
structure Hist (K : Type) where
  edges : List K
  counts : List Nat
  deriving DecidableEq

/-- `np.histogram(data, bins=n)`. -/
def histogram [FloorRing K] (n : Nat) (data : List K) : Hist K :=
  let r := outerEdges data
  ⟨(List.range (n + 1)).map (fun k : Nat => r.1 + (k : K) * (r.2 - r.1) / n),
   (List.range n).map (fun k => data.countP (fun x => binOf n r.1 r.2 x == k))⟩

/-- meshtal_analysis.py:116-128 `rel_err_hist`; the argument is the column `rel_err` (`none`: no such column). NaN entries are dropped
    by pandas. -/
def relErrHist [FloorRing K] (col : Option (List (Option K))) : Except Err (Hist K) := do
  let c ← orErr .KeyError col
  pure (histogram 15 (c.filterMap id))

/-- meshtal_analysis.py:32-40 `meshtally.__str__`, the numbers in the text: voxels, bins per axis, volume. -/
def meshNumbers {D : Type} (flt : Str → Option K) (m : Mesh K D) : Except Err (Nat × Nat × Nat × Nat × Option K) := do
  let v ← voxelUniformVolume flt m
  pure (numberVoxels m, m.xM.length, m.yM.length, m.zM.length, v)

end Meshtal
