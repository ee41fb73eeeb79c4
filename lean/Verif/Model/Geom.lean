/-
Model of /repo/geom_utils.py.

Numbers are real numbers: IEEE rounding and overflow are not modelled.  `none` stands for NaN.  Vectors are numpy arrays of
three floats.  The scalar conversion functions (lines 509-578) are modelled for Python floats, so that dividing by zero raises
ZeroDivisionError; with numpy scalars the same division would give an infinity or NaN.
-/
import Verif.Py.Base
import Mathlib.Analysis.SpecialFunctions.Trigonometric.Inverse
import Mathlib.Analysis.SpecialFunctions.Trigonometric.Arctan

noncomputable section
open Classical

namespace Geom
open Py

/-- A numpy array of three floats. -/
@[ext] structure V3 where
  x : ℝ
  y : ℝ
  z : ℝ

instance : Add V3 := ⟨fun a b => ⟨a.x + b.x, a.y + b.y, a.z + b.z⟩⟩
instance : Sub V3 := ⟨fun a b => ⟨a.x - b.x, a.y - b.y, a.z - b.z⟩⟩
instance : SMul ℝ V3 := ⟨fun k a => ⟨k * a.x, k * a.y, k * a.z⟩⟩
instance : Zero V3 := ⟨⟨0, 0, 0⟩⟩

/-- `a / k` for an array. -/
def V3.divBy (a : V3) (k : ℝ) : V3 := ⟨a.x / k, a.y / k, a.z / k⟩

/-- `np.dot`. -/
def dot (a b : V3) : ℝ := a.x * b.x + a.y * b.y + a.z * b.z

/-- `np.linalg.norm`. -/
def norm (a : V3) : ℝ := Real.sqrt (a.x ^ 2 + a.y ^ 2 + a.z ^ 2)

/-- `np.cross`. -/
def cross (a b : V3) : V3 := ⟨a.y * b.z - a.z * b.y, a.z * b.x - a.x * b.z, a.x * b.y - a.y * b.x⟩

/-- `np.sqrt`: NaN for negative numbers. -/
def npSqrt (x : ℝ) : Option ℝ := if x < 0 then none else some (Real.sqrt x)

/-- geom_utils.py:11-14. -/
def checkPlaneExists (n : V3) : Except Err Unit := if n.x = 0 ∧ n.y = 0 ∧ n.z = 0 then .error .ValueError else .ok ()

/-- geom_utils.py:17-23 (only called on non-zero vectors). -/
def checkParallelPlanes (n1 n2 : V3) : Prop := n1.divBy (norm n1) = n2.divBy (norm n2)

/-- geom_utils.py:327-329. -/
def checkPositive (x : ℝ) : Except Err Unit := if x < 0 then .error .ValueError else .ok ()

/-- geom_utils.py:26-48; the arguments `d1`, `d2` are not used. By the Cauchy-Schwarz inequality `arccos` never gets an argument
    outside [-1, 1] in exact arithmetic. -/
def angleBetweenPlanes (n1 n2 : V3) : Except Err ℝ := do
  checkPlaneExists n1
  checkPlaneExists n2
  if checkParallelPlanes n1 n2 then .error .ValueError
  else
    let numerator := Real.sqrt (dot n1 n2 ^ 2)
    let denom := norm n1 * norm n2
    pure (Real.arccos (numerator / denom))

/-- geom_utils.py:51-76. `n2 *= ratio` changes the array of the caller: the second component is its value afterwards. A quotient by
    zero is NaN (for parallel planes both components are zero then), and the array is NaN as well (`none`). -/
def distBetweenPlanes (n1 : V3) (d1 : ℝ) (n2 : V3) (d2 : ℝ) : Except Err (Option ℝ × Option V3) := do
  checkPlaneExists n1
  checkPlaneExists n2
  if ¬ checkParallelPlanes n1 n2 then pure (some 0, some n2)
  else if n2.x = 0 then pure (none, none)
  else
    let ratio := n1.x / n2.x
    let n2 : V3 := ⟨n2.x * ratio, n2.y * ratio, n2.z * ratio⟩
    let d2 := d2 * ratio
    pure (some ((d2 - d1) / norm n2), some n2)

/-- geom_utils.py:79-118. -/
def distBetweenPointPlane (n : V3) (d : ℝ) (p : V3) : Except Err ℝ := do
  checkPlaneExists n
  if dot n p = d then pure 0
  else
    let p0 : V3 := if n.x ≠ 0 then ⟨d / n.x, 0, 0⟩ else if n.y ≠ 0 then ⟨0, d / n.y, 0⟩
      else if n.z ≠ 0 then ⟨0, 0, d / n.z⟩ else ⟨0, 0, 0⟩
    pure (dot (p0 - p) n / norm n)

/-- geom_utils.py:121-147. -/
def lineSegmentPlaneIntersection (p0 p1 n : V3) (d : ℝ) : Except Err V3 := do
  checkPlaneExists n
  if dot (p1 - p0) n = 0 then .error .ValueError
  else
    let val := (dot p0 n - d) * (dot p1 n - d)
    if val < 0 then
      let t := d - dot p0 n / dot (p1 - p0) n
      pure (p0 + t • (p1 - p0))
    else .error .ValueError

/-- geom_utils.py:150-175: radius and centre. -/
def planeSphereIntersect (n : V3) (d : ℝ) (p : V3) (R : ℝ) : Except Err (Option ℝ × V3) := do
  checkPlaneExists n
  checkPositive R
  let c ← distBetweenPointPlane n d p
  if c > R then .error .ValueError
  else pure (npSqrt (R ^ 2 - c ^ 2), p + (c • n).divBy (norm n))

/-- `np.linalg.solve` for two equations: LinAlgError for a singular matrix. -/
def solve2 (a b c d r s : ℝ) : Except Err (ℝ × ℝ) :=
  if a * d - b * c = 0 then .error .LinAlgError
  else .ok ((r * d - b * s) / (a * d - b * c), (a * s - r * c) / (a * d - b * c))

/-- geom_utils.py:178-210: point and direction. For opposite normals line 196 divides zero by zero (NaN, no exception), but then
    line 204 always raises, so the value of `q` does not matter there. -/
def planePlaneIntersect (n1 : V3) (d1 : ℝ) (n2 : V3) (d2 z : ℝ) : Except Err (V3 × V3) := do
  checkPlaneExists n1
  checkPlaneExists n2
  if checkParallelPlanes n1 n2 then .error .ValueError
  else
    let q := cross n1 n2
    let q := q.divBy (norm q)
    let x ← solve2 n1.x n1.y n2.x n2.y (d1 - n1.z * z) (d2 - n2.z * z)
    pure (⟨x.1, x.2, z⟩, q)

/-- geom_utils.py:213-219. -/
def distBetPoints (p1 p2 : V3) : ℝ := norm (p2 - p1)

/-- geom_utils.py:222-228. -/
def midpointBetPoints (p1 p2 : V3) : V3 := (p1 + p2).divBy 2

/-- `np.linalg.lstsq` for the rows `(x1, 1)`, `(x2, 1)`: the least squares solution of least norm. -/
def lstsq2 (x1 x2 y1 y2 : ℝ) : ℝ × ℝ :=
  if x1 = x2 then ((y1 + y2) / 2 * x1 / (x1 ^ 2 + 1), (y1 + y2) / 2 / (x1 ^ 2 + 1))
  else ((y2 - y1) / (x2 - x1), y1 - (y2 - y1) / (x2 - x1) * x1)

/-- geom_utils.py:231-243. -/
def coefficientsOfLineFromPoints (p1 p2 : ℝ × ℝ) : ℝ × ℝ := lstsq2 p1.1 p2.1 p1.2 p2.2

/-- geom_utils.py:246-262. -/
def rotateX (points : List V3) (o : V3) (θ : ℝ) : List V3 :=
  points.map fun p => let v := p - o
    ⟨v.x, Real.cos θ * v.y + -Real.sin θ * v.z, Real.sin θ * v.y + Real.cos θ * v.z⟩

/-- geom_utils.py:265-281. -/
def rotateY (points : List V3) (o : V3) (θ : ℝ) : List V3 :=
  points.map fun p => let v := p - o
    ⟨Real.cos θ * v.x + Real.sin θ * v.z, v.y, -Real.sin θ * v.x + Real.cos θ * v.z⟩

/-- geom_utils.py:284-300. -/
def rotateZ (points : List V3) (o : V3) (θ : ℝ) : List V3 :=
  points.map fun p => let v := p - o
    ⟨Real.cos θ * v.x + -Real.sin θ * v.y, Real.sin θ * v.x + Real.cos θ * v.y, v.z⟩

/-- geom_utils.py:303-314. -/
def translate (points : List V3) (t : V3) : List V3 := points.map fun p => p + t

/-- geom_utils.py:317-324. -/
def pythagH (l1 l2 : ℝ) : ℝ := if l1 = 0 ∨ l2 = 0 then 0 else Real.sqrt (l1 ^ 2 + l2 ^ 2)

/-- geom_utils.py:332-336. -/
def perimCircle (r : ℝ) : Except Err ℝ := do
  checkPositive r
  pure (2 * Real.pi * r)

/-- geom_utils.py:339-343. -/
def areaCircle (r : ℝ) : Except Err ℝ := do
  checkPositive r
  pure (Real.pi * r * r)

/-- geom_utils.py:346-353. -/
def areaCyl (r h : ℝ) : Except Err ℝ := do
  checkPositive r
  checkPositive h
  let e ← areaCircle r
  let s ← perimCircle r
  pure (2 * e + s * h)

/-- geom_utils.py:356-361. -/
def areaCylShell (r1 r2 : ℝ) : Except Err ℝ := do
  let a ← areaCircle r1
  let b ← areaCircle r2
  pure |a - b|

/-- geom_utils.py:364-368. -/
def areaSphere (r : ℝ) : Except Err ℝ := do
  checkPositive r
  pure (4 * Real.pi * r ^ 2)

/-- geom_utils.py:371-377. -/
def areaConeSurf (r h : ℝ) : Except Err ℝ := do
  checkPositive r
  checkPositive h
  pure (Real.pi * r * Real.sqrt (r * r + h * h))

/-- geom_utils.py:380-384. -/
def volumeSphere (r : ℝ) : Except Err ℝ := do
  checkPositive r
  pure (4 / 3 * Real.pi * r ^ 3)

/-- geom_utils.py:387-392. -/
def volumeSphericalShell (r1 r2 : ℝ) : Except Err ℝ := do
  let a ← volumeSphere r1
  let b ← volumeSphere r2
  pure |a - b|

/-- geom_utils.py:395-401. -/
def volumeCyl (r h : ℝ) : Except Err ℝ := do
  checkPositive h
  let a ← areaCircle r
  pure (a * h)

/-- geom_utils.py:404-409. -/
def volumeCylShell (r1 r2 h : ℝ) : Except Err ℝ := do
  checkPositive h
  let a ← areaCylShell r1 r2
  pure (a * h)

/-- geom_utils.py:412-415. -/
def volumeCone (r h : ℝ) : Except Err ℝ := do
  let v ← volumeCyl r h
  pure (v * (1 / 3))

/-- geom_utils.py:418-422. -/
def evaluatePlaneEq (n : V3) (d : ℝ) (p : V3) : ℝ := dot n p - d

/-- geom_utils.py:425-435. -/
def evaluateSphereEq (p c : V3) (r : ℝ) : ℝ := norm (p - c) ^ 2 - r ^ 2

/-- The nine coefficients used by geom_utils.py:444-445. -/
structure Coeffs where
  c0 : ℝ
  c1 : ℝ
  c2 : ℝ
  c3 : ℝ
  c4 : ℝ
  c5 : ℝ
  c6 : ℝ
  c7 : ℝ
  c8 : ℝ

/-- geom_utils.py:438-446. -/
def evaluateGqEq (p : V3) (c : Coeffs) (k : ℝ) : ℝ :=
  c.c0 * p.x ^ 2 + c.c1 * p.y ^ 2 + c.c2 * p.z ^ 2 + c.c3 * p.x * p.y + c.c4 * p.y * p.z + c.c5 * p.x * p.z +
    c.c6 * p.x + c.c7 * p.y + c.c8 * p.z - k

/-- The comparison at the end of the three sense functions. -/
def sense (val : ℝ) : ℤ := if val > 0 then -1 else if val < 0 then 1 else 0

/-- geom_utils.py:449-459. -/
def findSensePlane (n : V3) (d : ℝ) (p : V3) : Except Err ℤ := do
  checkPlaneExists n
  pure (sense (evaluatePlaneEq n d p))

/-- geom_utils.py:462-472. -/
def findSenseSphere (p c : V3) (r : ℝ) : Except Err ℤ := do
  checkPositive r
  pure (sense (evaluateSphereEq p c r))

/-- geom_utils.py:475-484. -/
def findSenseGq (p : V3) (c : Coeffs) (k : ℝ) : ℤ := sense (evaluateGqEq p c k)

/-- geom_utils.py:487-494. -/
def projectRay (p u : V3) (mu : ℝ) : V3 := p + ⟨u.x * mu, u.y * mu, u.z * mu⟩

/-- geom_utils.py:497-506. -/
def sphereRayIntersect (p u c : V3) (r : ℝ) : Except Err (Option ℝ × Option ℝ) := do
  checkPositive r
  let dp := p - c
  let ddot := dot dp u
  let s := npSqrt (ddot ^ 2 - norm dp ^ 2 + r ^ 2)
  pure (s.map fun s => -1 * ddot + s, s.map fun s => -1 * ddot - s)

/-- The angle of lines 513-516 and 526-529. -/
def phiOf (x y : ℝ) : Except Err ℝ :=
  if x = 0 then .error .ZeroDivisionError
  else if x ≥ 0 then .ok (Real.arctan (y / x))
  else .ok (Real.arctan (y / x) + Real.pi)

/-- geom_utils.py:509-518. -/
def cartesianToCylindrical (x y z : ℝ) : Except Err (ℝ × ℝ × ℝ) := do
  let phi ← phiOf x y
  pure (Real.sqrt (x ^ 2 + y ^ 2), phi, z)

/-- geom_utils.py:521-531. `z / r` is a quotient of numpy floats: for `r = 0` it is NaN, but then `x = 0` and line 527 raises. -/
def cartesianToSpherical (x y z : ℝ) : Except Err (ℝ × ℝ × ℝ) := do
  let r := Real.sqrt (x ^ 2 + y ^ 2 + z ^ 2)
  let phi ← phiOf x y
  pure (r, Real.arccos (z / r), phi)

/-- geom_utils.py:534-542. -/
def cylindricalToCartesian (rho phi z : ℝ) : Except Err (ℝ × ℝ × ℝ) := do
  checkPositive rho
  pure (rho * Real.cos phi, rho * Real.sin phi, z)

/-- geom_utils.py:545-554. The polar angle of the origin is NaN. -/
def cylindricalToSpherical (rho theta z : ℝ) : Except Err (ℝ × Option ℝ × ℝ) := do
  checkPositive rho
  let r := Real.sqrt (rho ^ 2 + z ^ 2)
  pure (r, if r = 0 then none else some (Real.arccos (z / r)), theta)

/-- geom_utils.py:557-566. -/
def sphericalToCartesian (r theta phi : ℝ) : Except Err (ℝ × ℝ × ℝ) := do
  checkPositive r
  pure (r * Real.sin theta * Real.cos phi, r * Real.sin theta * Real.sin phi, r * Real.cos theta)

/-- geom_utils.py:569-578. -/
def sphericalToCylindrical (r theta phi : ℝ) : Except Err (ℝ × ℝ × ℝ) := do
  checkPositive r
  pure (r * Real.sin theta, phi, r * Real.cos theta)

end Geom
