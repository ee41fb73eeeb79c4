import Verif.Model.MeshtalAnalysis

/-!
The tables of meshes with the columns that meshtal_analysis.py adds to them.
-/

namespace Meshtal
open Py

variable {K : Type} [Field K] [LinearOrder K] [IsStrictOrderedRing K] [FloorRing K]

/-- A mesh table with further columns, in the order in which they were added. -/
structure Wide (K : Type) where
  frame : Frame K
  extra : Dict Str (List (Option K))

/-- meshtal_analysis.py:326-332 `calculate_upper_mesh_vals`: the mesh itself gets the column `max_vals` and is returned (the
    argument and the result are the same object; here the result is the mesh afterwards). -/
def calculateUpperMeshVals (m : Mesh K (Wide K)) : Mesh K (Wide K) :=
  { m with data := { m.data with extra := m.data.extra.set p!"max_vals" (upperVals m.data.frame) } }

/-- meshtal_analysis.py:335-341 `calculate_lower_mesh_vals`, with the column `min_vals`. -/
def calculateLowerMeshVals (m : Mesh K (Wide K)) : Mesh K (Wide K) :=
  { m with data := { m.data with extra := m.data.extra.set p!"min_vals" (lowerVals m.data.frame) } }

end Meshtal
