/-
Model of /repo/meshtal_analysis.py (everything except the plotting functions and the unfinished `output_as_vtk`).

Numbers are elements of an ordered field `K` with a floor function: rounding to five decimals is exact decimal rounding
half to even, IEEE rounding and the `float32` downcast of `pandas.to_numeric` are not modelled.  NaN is `none`.
`flt` is `float(str)` (`none`: ValueError), `numeric` is `pandas.to_numeric` on one cell (`none`: ValueError,
`some none`: NaN).
-/
import Verif.Py.Base
import Mathlib.Algebra.Order.Floor.Ring
import Mathlib.Algebra.Order.Round
import Mathlib.Algebra.Order.Field.Basic
import Mathlib.Algebra.Order.Group.Abs
import Mathlib.Data.List.Sort

namespace Meshtal
open Py
variable {K : Type} [Field K] [LinearOrder K]

/-- The three values of `meshtally.ctype`: `6col_e`, `6col_t`, `5col`. -/
inductive CType
  | e6 | t6 | c5
  deriving DecidableEq, Repr

/-- An entry of a list of bounds: text (as stored by the reader) or a number (set by hand). -/
inductive Bnd (K : Type)
  | str (s : Str)
  | num (x : K)
  deriving DecidableEq

/-- `float(b)`. -/
def Bnd.toF (flt : Str → Option K) : Bnd K → Except Err K
  | .str s => orErr .ValueError (flt s)
  | .num x => .ok x

/-- meshtal_analysis.py:18-30 the attributes of `meshtally`; `D` is the type of `data`. -/
structure Mesh (K D : Type) where
  idnum : Option Int
  ptype : Option Str
  xB : List (Bnd K)
  yB : List (Bnd K)
  zB : List (Bnd K)
  eB : List (Bnd K)
  tB : List (Bnd K)
  data : D
  xM : List K
  yM : List K
  zM : List K
  ctype : Option CType

/-- A row of the table; `et` is the column Energy or Time (unused for five columns). -/
structure MRow (K : Type) where
  et : Option K
  x : Option K
  y : Option K
  z : Option K
  value : Option K
  err : Option K
  deriving DecidableEq

/-- The DataFrame: its kind and its rows with their index labels. -/
structure Frame (K : Type) where
  kind : CType
  rows : List (Nat × MRow K)
  deriving DecidableEq

/-! ### Mid points, uniformity, volumes -/

/-- `np.rint`: nearest integer, halves to the even one. -/
def rint [FloorRing K] (x : K) : Int :=
  let f := ⌊x⌋
  let d := Int.fract x
  if d < 1 / 2 then f else if 1 / 2 < d then f + 1 else if f % 2 = 0 then f else f + 1

/-- `np.round(x, 5)`. -/
def round5 [FloorRing K] (x : K) : K := (rint (x * 100000) : K) / 100000

/-- meshtal_analysis.py:423-428 `calc_mid_points`. -/
def calcMidPoints [FloorRing K] (flt : Str → Option K) (bounds : List (Bnd K)) : Except Err (List K) := do
  let b ← bounds.mapM (Bnd.toF flt)
  pure (List.zipWith (fun u l => round5 ((u + l) * (1 / 2))) b.tail b)

/-- meshtal_analysis.py:42-51 `number_voxels`. -/
def numberVoxels {D : Type} (m : Mesh K D) : Nat := m.xM.length * m.yM.length * m.zM.length

/-- `np.diff` of a one-dimensional array. -/
def diff (l : List K) : List K := List.zipWith (fun u l => u - l) l.tail l

/-- `np.isclose(a, b)` with the default tolerances. -/
def isclose (a b : K) : Bool := decide (|a - b| ≤ 1 / 100000000 + 1 / 100000 * |b|)

/-- meshtal_analysis.py:99-113 `check_uniform`; a single bound leaves `diff[0]` out of range. -/
def checkUniform (flt : Str → Option K) (bounds : List (Bnd K)) : Except Err Bool :=
  match bounds with
  | [] => .ok false
  | _ => do
    let b ← bounds.mapM (Bnd.toF flt)
    match diff b with
    | [] => .error .IndexError
    | d0 :: ds => .ok ((d0 :: ds).all (fun d => isclose d d0))

/-- All bounds are numbers. -/
def allNum (bounds : List (Bnd K)) : Option (List K) :=
  bounds.mapM (fun b => match b with
    | .num x => some x
    | .str _ => none)

/-- meshtal_analysis.py:80-82: `np.abs(np.diff(np.max(b), np.min(b)))`. The maximum of texts raises TypeError, that of an
    empty list ValueError. `np.diff(a, n)` returns `a` for `n = 0` and raises ValueError for every other `n` because `a`
    is a scalar. -/
def axisExtent (bounds : List (Bnd K)) : Except Err K :=
  match allNum bounds with
  | none => .error .TypeError
  | some [] => .error .ValueError
  | some (x :: xs) =>
    if xs.foldl min x = 0 then .ok |xs.foldl max x| else .error .ValueError

/-- meshtal_analysis.py:72-83 `voxel_average_volume`; the quotient by 0 voxels (a numpy warning) is infinite or NaN: `none`. -/
def voxelAverageVolume {D : Type} (m : Mesh K D) : Except Err (Option K) := do
  let x ← axisExtent m.xB
  let y ← axisExtent m.yB
  let z ← axisExtent m.zB
  if numberVoxels m = 0 then pure none else pure (some (x * y * z / (numberVoxels m : K)))

/-- The condition of meshtal_analysis.py:60 with its short circuits. -/
def allUniform {D : Type} (flt : Str → Option K) (m : Mesh K D) : Except Err Bool := do
  if ← checkUniform flt m.xB then
    if ← checkUniform flt m.yB then checkUniform flt m.zB else pure false
  else pure false

/-- `np.abs(float(b[1]) - float(b[0]))`. -/
def firstWidth (flt : Str → Option K) (b : List (Bnd K)) : Except Err K :=
  match b with
  | b0 :: b1 :: _ => do
    let u ← b1.toF flt
    let l ← b0.toF flt
    pure |u - l|
  | _ => .error .IndexError

/-- meshtal_analysis.py:53-70 `voxel_uniform_volume`. -/
def voxelUniformVolume {D : Type} (flt : Str → Option K) (m : Mesh K D) : Except Err (Option K) := do
  if ← allUniform flt m then
    let x ← firstWidth flt m.xB
    let y ← firstWidth flt m.yB
    let z ← firstWidth flt m.zB
    pure (some (x * y * z))
  else voxelAverageVolume m

/-! ### Selecting voxels -/

/-- Scan of `min(range(len(mids)), key=...)`: the first element with the least distance. -/
def nearestAux (value best : K) : List K → K
  | [] => best
  | m :: ms => if |m - value| < |best - value| then nearestAux value m ms else nearestAux value best ms

/-- meshtal_analysis.py:239-241 `find_nearest_mid`. -/
def findNearestMid (value : K) : List K → Except Err K
  | [] => .error .ValueError
  | m :: ms => .ok (nearestAux value m ms)

/-- Keep the rows satisfying a condition. -/
def Frame.keep (f : Frame K) (p : MRow K → Bool) : Frame K := { f with rows := f.rows.filter (fun r => p r.2) }

/-- `np.isclose(column, v)` for one cell; NaN is not close to anything. -/
def closeTo (v : K) (c : Option K) : Bool :=
  match c with
  | some a => isclose a v
  | none => false

/-- One `if` of meshtal_analysis.py:133-136: no request, or a request of 0, leaves the table alone. -/
def filterOne (kind : CType) (v : Option K) (f : Frame K) : Except Err (Frame K) :=
  match v with
  | none => .ok f
  | some v => if v = 0 then .ok f else if f.kind = kind then .ok (f.keep (fun r => closeTo v r.et)) else .error .KeyError

/-- meshtal_analysis.py:131-137 `filter_energy_time`. -/
def filterEnergyTime (f : Frame K) (erg time : Option K) : Except Err (Frame K) := do
  let g ← filterOne .e6 erg f
  filterOne .t6 time g

/-- meshtal_analysis.py:278-304 `extract_line`; points are triples. -/
def extractLine (m : Mesh K (Frame K)) (p1 p2 : K × K × K) (erg time : Option K) : Except Err (List (Option K)) := do
  let f ← if p1.1 = p2.1 then do
      let x ← findNearestMid p1.1 m.xM
      pure (m.data.keep (fun r => decide (r.x = some x)))
    else pure m.data
  let f ← if p1.2.1 = p2.2.1 then do
      let y ← findNearestMid p1.2.1 m.yM
      pure (f.keep (fun r => decide (r.y = some y)))
    else pure f
  let f ← if p1.2.2 = p2.2.2 then do
      let z ← findNearestMid p1.2.2 m.zM
      pure (f.keep (fun r => decide (r.z = some z)))
    else pure f
  let f ← filterEnergyTime f erg time
  pure (f.rows.map (fun r => r.2.value))

/-- meshtal_analysis.py:307-323 `pick_point`. -/
def pickPoint (x y z : K) (m : Mesh K (Frame K)) (erg time : Option K) : Except Err (List (Option K)) := do
  let x ← findNearestMid x m.xM
  let y ← findNearestMid y m.yM
  let z ← findNearestMid z m.zM
  let f := m.data.keep (fun r => decide (r.x = some x))
  let f := f.keep (fun r => decide (r.y = some y))
  let f := f.keep (fun r => decide (r.z = some z))
  let f ← filterEnergyTime f erg time
  pure (f.rows.map (fun r => r.2.value))

/-- A coordinate of a voxel. -/
inductive Axis
  | x | y | z
  deriving DecidableEq, Repr

/-- `data[axis]`. -/
def MRow.coord (r : MRow K) : Axis → Option K
  | .x => r.x
  | .y => r.y
  | .z => r.z

/-- The mid points of an axis. -/
def Mesh.mids {D : Type} (m : Mesh K D) : Axis → List K
  | .x => m.xM
  | .y => m.yM
  | .z => m.zM

/-- The attributes of `slice_object` used as a result. -/
structure Slice (K : Type) where
  sliceI : List K
  sliceJ : List K
  value : K
  values : List (List (Option K))
  errors : List (List (Option K))
  deriving DecidableEq

/-- `np.array(cols).T` for a list of columns; columns of different lengths raise ValueError (numpy 1.24 and later;
    older versions make an array of objects). -/
def arrayT {α : Type} (cols : List (List α)) : Except Err (List (List α)) :=
  match cols with
  | [] => .ok []
  | c :: cs =>
    if cs.all (fun d => d.length = c.length) then
      .ok ((List.range c.length).map (fun k => (c :: cs).filterMap (fun d => d[k]?)))
    else .error .ValueError

/-- The axes (i, j, v) of meshtal_analysis.py:149-178 for a plane name. -/
def planeAxes (plane : Str) : Except Err (Axis × Axis × Axis) :=
  if plane = p!"XZ" then .ok (.x, .z, .y)
  else if plane = p!"XY" then .ok (.x, .y, .z)
  else if plane = p!"YZ" then .ok (.y, .z, .x)
  else .error .ValueError

/-- meshtal_analysis.py:142-193 `extract_slice`. The errors are selected with `data[j_ind] == i` (line 188). -/
def extractSlice (m : Mesh K (Frame K)) (value : K) (plane : Str) (erg time : Option K) : Except Err (Slice K) := do
  let f ← filterEnergyTime m.data erg time
  let (i, j, v) ← planeAxes plane
  let at' ← findNearestMid value (m.mids v)
  let rows := (f.keep (fun r => decide (r.coord v = some at'))).rows.map (·.2)
  let values ← arrayT ((m.mids i).map (fun c => (rows.filter (fun r => decide (r.coord i = some c))).map (·.value)))
  let errors ← arrayT ((m.mids i).map (fun c => (rows.filter (fun r => decide (r.coord j = some c))).map (·.err)))
  pure ⟨m.mids i, m.mids j, at', values, errors⟩

/-! ### Arithmetic on meshes -/

/-- meshtal_analysis.py:326-332 `calculate_upper_mesh_vals`: the new column `max_vals`. -/
def upperVals (f : Frame K) : List (Option K) :=
  f.rows.map (fun r => do
    let v ← r.2.value
    let e ← r.2.err
    pure (v + v * e))

/-- meshtal_analysis.py:335-341 `calculate_lower_mesh_vals`: the new column `min_vals`. -/
def lowerVals (f : Frame K) : List (Option K) :=
  f.rows.map (fun r => do
    let v ← r.2.value
    let e ← r.2.err
    pure (v - v * e))

/-- Label of a row in a table. -/
def lookup {α : Type} (l : List (Nat × α)) (k : Nat) : Option α := (l.find? (fun e => e.1 = k)).map (·.2)

/-- Index of the result of a pandas operation on two columns (labels unique): the common index if they agree, otherwise
    the sorted union. -/
def joinIndex (a b : List Nat) : List Nat := if a = b then a else ((a ++ b).dedup).insertionSort (· ≤ ·)

/-- meshtal_analysis.py:344-394 `add_mesh` (argument meshes with a value of `ctype`). `sqrt` is `np.sqrt`. Without a column
    name `col` (five column meshes) line 370 raises UnboundLocalError. -/
def addMesh [FloorRing K] (flt : Str → Option K) (sqrt : K → K) (m1 m2 : Mesh K (Frame K)) :
    Except Err (Mesh K (Frame K)) := do
  if m1.xB ≠ m2.xB ∨ m1.yB ≠ m2.yB ∨ m1.zB ≠ m2.zB then throw .ValueError
  if m1.ctype = some .e6 ∧ m1.eB ≠ m2.eB then throw .ValueError
  if m1.ctype = some .t6 ∧ m1.tB ≠ m2.tB then throw .ValueError
  if m1.ctype ≠ m2.ctype then throw .ValueError
  if m1.ctype ≠ some .e6 ∧ m1.ctype ≠ some .t6 then throw .UnboundLocalError
  let xM ← calcMidPoints flt m1.xB
  let yM ← calcMidPoints flt m1.yB
  let zM ← calcMidPoints flt m1.zB
  let idx := joinIndex (m1.data.rows.map (·.1)) (m2.data.rows.map (·.1))
  let rows := idx.map (fun k =>
    let r1 := lookup m1.data.rows k
    let r2 := lookup m2.data.rows k
    (k, { et := r1.bind (·.et), x := r1.bind (·.x), y := r1.bind (·.y), z := r1.bind (·.z)
          value := do
            let a ← r1.bind (·.value)
            let b ← r2.bind (·.value)
            pure (a + b)
          err := do
            let a ← r1.bind (·.err)
            let b ← r2.bind (·.err)
            pure (sqrt (a ^ 2 + b ^ 2)) : MRow K }))
  pure { idnum := none, ptype := none, xB := m1.xB, yB := m1.yB, zB := m1.zB
         eB := if m1.ctype = some .e6 then m1.eB else []
         tB := if m1.ctype = some .t6 then m1.tB else []
         data := ⟨m1.data.kind, rows⟩
         xM := xM, yM := yM, zM := zM, ctype := m1.ctype }

/-- `np.where(mids == c)[0]`; NaN matches nothing. -/
def whereEq (mids : List K) (c : Option K) : List Nat :=
  ((mids.zipIdx.filter (fun e => decide (some e.1 = c))).map (·.2))

/-- Index triples addressed by `a[i, j, k]` for three index arrays after broadcasting; shapes that do not fit raise
    IndexError. -/
def broadcast3 (i j k : List Nat) : Except Err (List (Nat × Nat × Nat)) :=
  let n := if i.length ≠ 1 then i.length else if j.length ≠ 1 then j.length else k.length
  let ext := fun l : List Nat => if l.length = 1 then some (List.replicate n (l.headD 0))
    else if l.length = n then some l else none
  match ext i, ext j, ext k with
  | some a, some b, some c => .ok (List.zipWith (fun a bc => (a, bc)) a (List.zip b c))
  | _, _, _ => .error .IndexError

/-- A three-dimensional array as a function of its indices. -/
abbrev Arr (α : Type) := Nat → Nat → Nat → α

/-- `a[i, j, k] = v` for the given positions. -/
def Arr.put {α : Type} (a : Arr α) (ps : List (Nat × Nat × Nat)) (v : α) : Arr α :=
  fun i j k => if (i, j, k) ∈ ps then v else a i j k

/-- The cells of a row in column order. -/
def MRow.cells (kind : CType) (r : MRow K) : List (Option K) :=
  match kind with
  | .c5 => [r.x, r.y, r.z, r.value, r.err]
  | _ => [r.et, r.x, r.y, r.z, r.value, r.err]

/-- One iteration of meshtal_analysis.py:412-418. The columns are addressed by the positions 1 to 5. -/
def arrayStep (xM yM zM : List K) (s : Arr (Option K) × Arr (Option K)) (r : List (Option K)) :
    Except Err (Arr (Option K) × Arr (Option K)) := do
  let cell := fun n => orErr Err.IndexError (r[n]?)
  let ps ← broadcast3 (whereEq xM (← cell 1)) (whereEq yM (← cell 2)) (whereEq zM (← cell 3))
  let v ← cell 4
  let e ← cell 5
  pure (s.1.put ps v, s.2.put ps e)

/-- meshtal_analysis.py:398-420 `convert_to_3d_array`; the result holds for indices inside the shape. -/
def convertTo3dArray (m : Mesh K (Frame K)) : Except Err (Arr (Option K) × Arr (Option K)) :=
  (m.data.rows.map (fun r => r.2.cells m.data.kind)).foldlM (arrayStep m.xM m.yM m.zM)
    (fun _ _ _ => some 0, fun _ _ _ => some 0)

/-- meshtal_analysis.py:431-434 `count_zeros`: label 0.0 of the value counts; KeyError when there is none. -/
def countZeros (f : Frame K) : Except Err Nat :=
  let n := f.rows.countP (fun r => decide (r.2.value = some 0))
  if n = 0 then .error .KeyError else .ok n

/-! ### Reading -/

/-- `int(l.split(" ")[-1])`. -/
def lastInt (l : Str) : Except Err Int :=
  match (splitOn ' ' l).getLast? with
  | some w => orErr .ValueError (pyInt w)
  | none => .error .IndexError

/-- Loop of meshtal_analysis.py:441-444. -/
def tallyNumbersFrom (d : Dict Int Nat) (i : Nat) : List Str → Except Err (Dict Int Nat)
  | [] => .ok d
  | l :: ls =>
    if hasSub p!"Mesh Tally Number" l then
      match lastInt l with
      | .ok t => tallyNumbersFrom (d.set t i) (i + 1) ls
      | .error e => .error e
    else tallyNumbersFrom d (i + 1) ls

/-- meshtal_analysis.py:437-445 `find_mesh_tally_numbers`. -/
def findMeshTallyNumbers (data : List Str) : Except Err (Dict Int Nat) := tallyNumbersFrom [] 0 data

/-- Loop of meshtal_analysis.py:454-456 over the sorted keys; the index past the end raises IndexError. -/
def nextFrom (tnum : Int) (d : Dict Int Nat) : List Int → Except Err (Option Int)
  | [] => .ok none
  | v :: ks =>
    if v = tnum then
      match ks with
      | [] => .error .IndexError
      | w :: _ =>
        match d.get w with
        | some n => .ok (some (n : Int))
        | none => .error .KeyError
    else nextFrom tnum d ks

/-- meshtal_analysis.py:448-456 `find_next_mesh`; `none` is the implicit `None`. -/
def findNextMesh (tnum : Int) (d : Dict Int Nat) : Except Err (Option Int) :=
  let keys := d.keys.insertionSort (· ≤ ·)
  match keys.getLast? with
  | none => .error .IndexError
  | some last => if tnum = last then .ok (some (-1)) else nextFrom tnum d keys

/-- A mesh while its data are still lists of texts. -/
abbrev RawMesh (K : Type) := Mesh K (List (List Str))

/-- `meshtally()`. -/
def emptyMesh : RawMesh K := ⟨none, none, [], [], [], [], [], [], [], [], [], none⟩

/-- `" ".join(line.split())` then `.split(" ")`. -/
def fields (line : Str) : List Str := splitOn ' ' (join [' '] (splitWs line))

/-- Loop variables of meshtal_analysis.py:467-471. -/
structure RState (K : Type) where
  inData : Bool
  sel : Bool
  mesh : RawMesh K
  meshes : List (RawMesh K)

/-- meshtal_analysis.py:474-480: `none` stands for the early `return mesh`. -/
def nextMesh (st : RState K) (line : Str) : Option (RState K) :=
  if st.inData && hasSub p!" Mesh Tally Number" line then
    if st.sel then none
    else some { st with meshes := st.meshes ++ [st.mesh], mesh := emptyMesh, inData := false }
  else some st

/-- meshtal_analysis.py:482-486. -/
def readNumber (meshNum : Option Int) (st : RState K) (line : Str) : Except Err (RState K) :=
  if hasSub p!"Mesh Tally Number" line then do
    let t ← lastInt line
    pure { st with mesh := { st.mesh with idnum := some t }, sel := st.sel || decide (some t = meshNum) }
  else pure st

/-- meshtal_analysis.py:487-518. -/
def readLine [FloorRing K] (flt : Str → Option K) (st : RState K) (line : Str) : Except Err (RState K) :=
  if st.inData then .ok { st with mesh := { st.mesh with data := st.mesh.data ++ [splitWs (join [' '] (splitWs line))] } }
  else if hasSub p!"X direction:" line then do
    let b := ((fields line).drop 2).map Bnd.str
    let m ← calcMidPoints flt b
    pure { st with mesh := { st.mesh with xB := b, xM := m } }
  else if hasSub p!"Y direction:" line then do
    let b := ((fields line).drop 2).map Bnd.str
    let m ← calcMidPoints flt b
    pure { st with mesh := { st.mesh with yB := b, yM := m } }
  else if hasSub p!"Z direction:" line then do
    let b := ((fields line).drop 2).map Bnd.str
    let m ← calcMidPoints flt b
    pure { st with mesh := { st.mesh with zB := b, zM := m } }
  else if hasSub p!"Energy bin boundaries:" line then
    .ok { st with mesh := { st.mesh with eB := ((fields line).drop 3).map Bnd.str } }
  else if hasSub p!"Time bin boundaries:" line then
    .ok { st with mesh := { st.mesh with tB := ((fields line).drop 3).map Bnd.str } }
  else if hasSub p!"Energy         X         Y         Z     Result" line then .ok { st with inData := true }
  else if hasSub p!"Time         X         Y         Z     Result" line then
    .ok { st with inData := true, mesh := { st.mesh with ctype := some .t6 } }
  else if hasSub p!"X         Y         Z     Result" line then
    .ok { st with inData := true, mesh := { st.mesh with ctype := some .c5 } }
  else if hasSub p!"mesh tally." line then
    .ok { st with mesh := { st.mesh with ptype := some ((fields line).headD []) } }
  else .ok st

/-- Loop of meshtal_analysis.py:473-518; `inl` is the mesh returned early. -/
def readLoop [FloorRing K] (flt : Str → Option K) (meshNum : Option Int) : RState K → List Str → Except Err (RawMesh K ⊕ RState K)
  | st, [] => .ok (.inr st)
  | st, line :: rest =>
    match nextMesh st line with
    | none => .ok (.inl st.mesh)
    | some st1 =>
      match readNumber meshNum st1 line with
      | .error e => .error e
      | .ok st2 =>
        match readLine flt st2 line with
        | .error e => .error e
        | .ok st3 => readLoop flt meshNum st3 rest

/-- Number of columns of a kind of table. -/
def CType.ncols : CType → Nat
  | .c5 => 5
  | _ => 6

/-- `pandas.to_numeric` on a cell; the padding `None` of a short row is NaN. -/
def toNumeric (numeric : Str → Option (Option K)) : Option Str → Except Err (Option K)
  | none => .ok none
  | some s => orErr .ValueError (numeric s)

/-- Conversion of one row of texts; for time tables the rows to be dropped still have their other columns converted. -/
def toRow (numeric : Str → Option (Option K)) (kind : CType) (r : List Str) : Except Err (Option (MRow K)) := do
  let o := if kind = .c5 then 0 else 1
  let x ← toNumeric numeric r[o]?
  let y ← toNumeric numeric r[o + 1]?
  let z ← toNumeric numeric r[o + 2]?
  let v ← toNumeric numeric r[o + 3]?
  let e ← toNumeric numeric r[o + 4]?
  if kind = .c5 then pure (some ⟨none, x, y, z, v, e⟩)
  else if kind = .t6 ∧ (r[0]? = some p!"Total" ∨ r[0]? = some p!"0.000E+00") then pure none
  else do
    let et ← toNumeric numeric r[0]?
    pure (some ⟨et, x, y, z, v, e⟩)

/-- meshtal_analysis.py:244-275 `convert_to_df`. The number of columns of a non-empty list of rows is the length of the
    longest one and has to fit (ValueError); shorter rows are padded. All exceptions are ValueError, so the order of the
    conversions does not matter. Dropped rows leave a gap in the index. -/
def convertToDf (numeric : Str → Option (Option K)) (m : RawMesh K) : Except Err (Frame K) :=
  match m.ctype with
  | none => .error .ValueError
  | some kind =>
    if m.data ≠ [] ∧ (m.data.map List.length).foldl max 0 ≠ kind.ncols then .error .ValueError
    else do
      let rows ← m.data.mapM (toRow numeric kind)
      pure ⟨kind, rows.zipIdx.filterMap (fun e => e.1.map (fun r => (e.2, r)))⟩

/-- What `read_meshtally_file` returns: one unconverted mesh, or the list of converted meshes. -/
inductive ReadResult (K : Type)
  | one (m : RawMesh K)
  | all (ms : List (Mesh K (Frame K)))

/-- Replace the data. -/
def Mesh.withData {D E : Type} (m : Mesh K D) (d : E) : Mesh K E :=
  ⟨m.idnum, m.ptype, m.xB, m.yB, m.zB, m.eB, m.tB, d, m.xM, m.yM, m.zM, m.ctype⟩

/-- meshtal_analysis.py:459-523 `read_meshtally_file`; the text after universal newline translation. -/
def readMeshtallyText [FloorRing K] (flt : Str → Option K) (numeric : Str → Option (Option K)) (meshNum : Option Int) (text : Str) :
    Except Err (ReadResult K) :=
  match readLoop flt meshNum ⟨false, false, { emptyMesh with ctype := some .e6 }, []⟩ (keepLines text) with
  | .error e => .error e
  | .ok (.inl m) => .ok (.one m)
  | .ok (.inr st) =>
    match (st.meshes ++ [st.mesh]).mapM (fun m => (convertToDf numeric m).map m.withData) with
    | .ok ms => .ok (.all ms)
    | .error e => .error e

/-- meshtal_analysis.py:459-523 `read_meshtally_file`. -/
def readMeshtallyFile [FloorRing K] (flt : Str → Option K) (numeric : Str → Option (Option K)) (path : Str) (meshNum : Option Int) :
    PyM (ReadResult K) := do
  let text ← readText path
  PyM.lift (readMeshtallyText flt numeric meshNum text)

end Meshtal
