/-
The selections of /repo/meshtal_analysis.py on tables stored in single precision.  `convert_to_df` stores the columns with
`pd.to_numeric(…, downcast="float")` (lines 261-271), and comparing such a column with a Python float rounds the float in the
same way first (numpy compares an array of `float32` with a Python scalar in `float32`).  `r` is that rounding.
-/
import Verif.Model.MeshtalAnalysis

namespace Meshtal
open Py
variable {K : Type} [Field K] [LinearOrder K]

/-- The cells of a row as stored (meshtal_analysis.py:261-271). -/
def MRow.stored (r : K → K) (q : MRow K) : MRow K :=
  ⟨q.et.map r, q.x.map r, q.y.map r, q.z.map r, q.value.map r, q.err.map r⟩

/-- The table as stored. -/
def Frame.stored (r : K → K) (f : Frame K) : Frame K := ⟨f.kind, f.rows.map (fun e => (e.1, e.2.stored r))⟩

/-- meshtal_analysis.py:307-323 `pick_point` on a table in single precision. -/
def pickPoint32 (r : K → K) (x y z : K) (m : Mesh K (Frame K)) (erg time : Option K) : Except Err (List (Option K)) := do
  let x ← findNearestMid x m.xM
  let y ← findNearestMid y m.yM
  let z ← findNearestMid z m.zM
  let f := m.data.keep (fun q => decide (q.x = some (r x)))
  let f := f.keep (fun q => decide (q.y = some (r y)))
  let f := f.keep (fun q => decide (q.z = some (r z)))
  let f ← filterEnergyTime f erg time
  pure (f.rows.map (fun q => q.2.value))

/-- meshtal_analysis.py:278-304 `extract_line` on a table in single precision. -/
def extractLine32 (r : K → K) (m : Mesh K (Frame K)) (p1 p2 : K × K × K) (erg time : Option K) :
    Except Err (List (Option K)) := do
  let f ← if p1.1 = p2.1 then do
      let x ← findNearestMid p1.1 m.xM
      pure (m.data.keep (fun q => decide (q.x = some (r x))))
    else pure m.data
  let f ← if p1.2.1 = p2.2.1 then do
      let y ← findNearestMid p1.2.1 m.yM
      pure (f.keep (fun q => decide (q.y = some (r y))))
    else pure f
  let f ← if p1.2.2 = p2.2.2 then do
      let z ← findNearestMid p1.2.2 m.zM
      pure (f.keep (fun q => decide (q.z = some (r z))))
    else pure f
  let f ← filterEnergyTime f erg time
  pure (f.rows.map (fun q => q.2.value))

/-- meshtal_analysis.py:142-193 `extract_slice` on a table in single precision. -/
def extractSlice32 (r : K → K) (m : Mesh K (Frame K)) (value : K) (plane : Str) (erg time : Option K) :
    Except Err (Slice K) := do
  let f ← filterEnergyTime m.data erg time
  let (i, j, v) ← planeAxes plane
  let at' ← findNearestMid value (m.mids v)
  let rows := (f.keep (fun q => decide (q.coord v = some (r at')))).rows.map (·.2)
  let values ← arrayT ((m.mids i).map (fun c => (rows.filter (fun q => decide (q.coord i = some (r c)))).map (·.value)))
  let errors ← arrayT ((m.mids i).map (fun c => (rows.filter (fun q => decide (q.coord j = some (r c)))).map (·.err)))
  pure ⟨m.mids i, m.mids j, at', values, errors⟩

end Meshtal
