/-
C250, C251: the functions of geom_utils.py when the origin of the coordinates is moved and when the unit of length is changed.
-/
import Verif.Props.Geom1

noncomputable section
set_option linter.unusedSimpArgs false

namespace Props
open Py Geom

/-! ### C250 -/

/-- The constant of a plane after moving everything by `t`: the points on `n . p = d` go to those on `n . p = d'`. -/
def Moved (n t : V3) (d d' : ℝ) : Prop := ∀ p, OnPlane n d p ↔ OnPlane n d' (p + t)

/-- Moving the origin of a plane. -/
theorem moved_iff {n t : V3} {d d' : ℝ} (hn : n ≠ 0) : Moved n t d d' ↔ d' = d + (n.x * t.x + n.y * t.y + n.z * t.z) := by
  have hs := sumsq_pos hn
  constructor
  · intro h
    have h0 : OnPlane n d ((d / (n.x ^ 2 + n.y ^ 2 + n.z ^ 2)) • n) := by
      unfold OnPlane
      simp only [smul_x, smul_y, smul_z]
      field_simp
    have h1 := (h _).1 h0
    unfold OnPlane at h0 h1
    simp only [smul_x, smul_y, smul_z, add_x, add_y, add_z] at h0 h1
    linarith
  · rintro rfl p
    unfold OnPlane
    simp only [add_x, add_y, add_z]
    constructor <;> intro h <;> linarith

private theorem moved_dot {n t : V3} {d d' : ℝ} (hn : n ≠ 0) (h : Moved n t d d') : d' = d + dot n t := (moved_iff hn).1 h

private theorem dot_add' (a b c : V3) : dot a (b + c) = dot a b + dot a c := by
  simp only [dot, add_x, add_y, add_z]; ring

private theorem sub_shift (a b t : V3) : (a + t) - (b + t) = a - b := by
  ext <;> simp

/-- C250: distance and mid point of two points, a point on a ray. -/
theorem C250_points_partial (p q u t : V3) (mu : ℝ) :
    distBetPoints (p + t) (q + t) = distBetPoints p q ∧
    midpointBetPoints (p + t) (q + t) = midpointBetPoints p q + t ∧
    projectRay (p + t) u mu = projectRay p u mu + t := by
  refine ⟨?_, ?_, ?_⟩
  · unfold distBetPoints; rw [sub_shift]
  · unfold midpointBetPoints
    ext <;> simp <;> ring
  · unfold projectRay
    ext <;> simp <;> ring

/-- C250: distance and side of a point and a plane. -/
theorem C250_plane_partial (n t p : V3) (d d' : ℝ) (hn : n ≠ 0) (h : Moved n t d d') :
    distBetweenPointPlane n d' (p + t) = distBetweenPointPlane n d p ∧
    findSensePlane n d' (p + t) = findSensePlane n d p := by
  rw [moved_dot hn h]
  refine ⟨?_, ?_⟩
  · rw [C112_value hn, C112_value hn]
    simp only [dot, add_x, add_y, add_z]
    congr 2
    ring
  · unfold findSensePlane evaluatePlaneEq
    rw [dot_add']
    congr 3
    ring_nf

/-- C250: side of a sphere and the points where a ray meets it. -/
theorem C250_sphere_partial (p u c t : V3) (r : ℝ) :
    findSenseSphere (p + t) (c + t) r = findSenseSphere p c r ∧
    sphereRayIntersect (p + t) u (c + t) r = sphereRayIntersect p u c r := by
  constructor
  · unfold findSenseSphere evaluateSphereEq; rw [sub_shift]
  · unfold sphereRayIntersect; rw [sub_shift]

/-- C250: the circle in which a plane cuts a sphere keeps its radius, its centre is moved. -/
theorem C250_circle_partial (n t p : V3) (d d' R : ℝ) (hn : n ≠ 0) (h : Moved n t d d') :
    planeSphereIntersect n d' (p + t) R = (planeSphereIntersect n d p R).map (fun x => (x.1, x.2 + t)) := by
  unfold planeSphereIntersect
  rw [(C250_plane_partial n t p d d' hn h).1, C112_value hn, check_ok hn]
  simp only [ex_ok_bind]
  by_cases hR : R < 0
  · rw [pos_err hR]; rfl
  · rw [pos_ok (not_lt.1 hR)]
    simp only [ex_ok_bind]
    split_ifs
    · rfl
    · show Except.ok _ = Except.ok _
      congr 2
      ext <;> simp <;> ring

/-- C250: the line in which two planes meet, at the height `z`: the point is moved, the direction is the same. -/
theorem C250_line_partial (n1 n2 t : V3) (d1 d1' d2 d2' z : ℝ) (h1 : n1 ≠ 0) (h2 : n2 ≠ 0) (m1 : Moved n1 t d1 d1') (m2 : Moved n2 t d2 d2') :
    planePlaneIntersect n1 d1' n2 d2' (z + t.z) = (planePlaneIntersect n1 d1 n2 d2 z).map (fun x => (x.1 + t, x.2)) := by
  rw [moved_dot h1 m1, moved_dot h2 m2]
  unfold planePlaneIntersect
  rw [check_ok h1, check_ok h2]
  simp only [ex_ok_bind]
  by_cases hp : checkParallelPlanes n1 n2
  · rw [if_pos hp, if_pos hp]; rfl
  · rw [if_neg hp, if_neg hp]
    unfold solve2
    by_cases hdet : n1.x * n2.y - n1.y * n2.x = 0
    · rw [if_pos hdet, if_pos hdet]; rfl
    · rw [if_neg hdet, if_neg hdet]
      simp only [ex_ok_bind, ex_pure]
      show Except.ok _ = Except.ok _
      congr 2
      ext
      · simp only [add_x, dot]; rw [div_add' _ _ _ hdet]; congr 1; ring
      · simp only [add_y, dot]; rw [div_add' _ _ _ hdet]; congr 1; ring
      · simp only [add_z]

/-- C250: distance of two planes (any planes, also those that meet). -/
theorem C250_planes_partial (n1 n2 t : V3) (d1 d1' d2 d2' : ℝ) (h1 : n1 ≠ 0) (h2 : n2 ≠ 0) (m1 : Moved n1 t d1 d1') (m2 : Moved n2 t d2 d2') :
    distBetweenPlanes n1 d1' n2 d2' = distBetweenPlanes n1 d1 n2 d2 := by
  rw [moved_dot h1 m1, moved_dot h2 m2]
  unfold distBetweenPlanes
  rw [check_ok h1, check_ok h2]
  simp only [ex_ok_bind]
  by_cases hp : checkParallelPlanes n1 n2
  · rw [if_neg (not_not.2 hp), if_neg (not_not.2 hp)]
    by_cases hx : n2.x = 0
    · rw [if_pos hx, if_pos hx]
    · rw [if_neg hx, if_neg hx]
      obtain ⟨k, hk, he⟩ := (parallel_iff h1 h2).1 hp
      have hr : n1.x / n2.x = k := by rw [he]; simp only [smul_x]; field_simp
      have hd : (d2 + dot n2 t) * k - (d1 + dot n1 t) = d2 * k - d1 := by
        rw [he]; simp only [dot, smul_x, smul_y, smul_z]; ring
      simp only [hr, hd]
  · rw [if_pos hp, if_pos hp]

/-- C250: turning points about a moved origin gives the same result, so the result is relative to the origin ... -/
theorem C250_rotate_partial (ps : List V3) (o t : V3) (θ : ℝ) :
    rotateX (ps.map (· + t)) (o + t) θ = rotateX ps o θ ∧
    rotateY (ps.map (· + t)) (o + t) θ = rotateY ps o θ ∧
    rotateZ (ps.map (· + t)) (o + t) θ = rotateZ ps o θ := by
  refine ⟨?_, ?_, ?_⟩ <;>
  · first | unfold rotateX | unfold rotateY | unfold rotateZ
    rw [List.map_map]
    apply List.map_congr_left
    intro p _
    simp only [Function.comp, sub_shift]

/-- ... and C250 is violated by the three functions for every point and every move other than none: the turned point is not moved. -/
theorem C250_rotate_violated (p o t : V3) (θ : ℝ) (ht : t ≠ 0) :
    rotateX [p + t] (o + t) θ ≠ (rotateX [p] o θ).map (· + t) ∧
    rotateY [p + t] (o + t) θ ≠ (rotateY [p] o θ).map (· + t) ∧
    rotateZ [p + t] (o + t) θ ≠ (rotateZ [p] o θ).map (· + t) := by
  obtain ⟨hx, hy, hz⟩ := C250_rotate_partial [p] o t θ
  simp only [List.map_cons, List.map_nil] at hx hy hz
  have key : ∀ v : V3, [v] ≠ [v].map (· + t) := by
    intro v h
    simp only [List.map_cons, List.map_nil, List.cons.injEq, and_true] at h
    apply ht
    have e1 := congrArg V3.x h
    have e2 := congrArg V3.y h
    have e3 := congrArg V3.z h
    simp only [add_x, add_y, add_z] at e1 e2 e3
    ext <;> simp <;> linarith
  rw [hx, hy, hz]
  exact ⟨key _, key _, key _⟩

/-- C250 is violated by the point where a segment meets a plane: for every segment that is cut, moving everything along a vector
    that is not in the plane gives another point than the moved one, unless the move is one special length. -/
theorem C250_segment_violated (p0 p1 n t : V3) (d d' : ℝ) (hn : n ≠ 0) (m : Moved n t d d') (hs : (dot p0 n - d) * (dot p1 n - d) < 0)
    (ht : dot n t ≠ 0) (hk : dot (p1 - p0) n ≠ 1) :
    ∃ q, lineSegmentPlaneIntersection p0 p1 n d = .ok q ∧ lineSegmentPlaneIntersection (p0 + t) (p1 + t) n d' ≠ .ok (q + t) := by
  have hd := moved_dot hn m
  have hne : dot (p1 - p0) n ≠ 0 := by
    intro h0
    have : dot p1 n = dot p0 n := by
      simp only [dot, sub_x, sub_y, sub_z] at h0 ⊢; linarith
    rw [this] at hs
    nlinarith [mul_self_nonneg (dot p0 n - d)]
  have e : ∀ p : V3, dot (p + t) n = dot p n + dot n t := by
    intro p; simp only [dot, add_x, add_y, add_z]; ring
  refine ⟨p0 + (d - dot p0 n / dot (p1 - p0) n) • (p1 - p0), ?_, ?_⟩
  · unfold lineSegmentPlaneIntersection
    simp only [check_ok hn, ex_ok_bind, if_neg hne, if_pos hs, ex_pure]
  · unfold lineSegmentPlaneIntersection
    simp only [check_ok hn, ex_ok_bind, sub_shift, if_neg hne, e, hd, add_sub_add_right_eq_sub, if_pos hs, ex_pure]
    intro h
    have h' := Except.ok.inj h
    have e1 := congrArg V3.x h'
    have e2 := congrArg V3.y h'
    have e3 := congrArg V3.z h'
    simp only [add_x, add_y, add_z, smul_x, smul_y, smul_z] at e1 e2 e3
    set D := dot (p1 - p0) n with hD
    set a := d + dot n t - (dot p0 n + dot n t) / D with ha
    set b := d - dot p0 n / D with hb
    have hab : a - b = dot n t * (1 - 1 / D) := by rw [ha, hb]; field_simp; ring
    have hz : (a - b) * D = 0 := by
      have : (a - b) * D = n.x * ((a - b) * (p1 - p0).x) + n.y * ((a - b) * (p1 - p0).y) + n.z * ((a - b) * (p1 - p0).z) := by
        rw [hD]; simp only [dot]; ring
      rw [this]
      have f1 : (a - b) * (p1 - p0).x = 0 := by linarith
      have f2 : (a - b) * (p1 - p0).y = 0 := by linarith
      have f3 : (a - b) * (p1 - p0).z = 0 := by linarith
      rw [f1, f2, f3]; ring
    rcases mul_eq_zero.1 hz with hz | hz
    · rw [hab] at hz
      rcases mul_eq_zero.1 hz with hz | hz
      · exact ht hz
      · apply hk
        field_simp at hz
        linarith
    · exact hne hz

example : Moved ⟨1, 2, 3⟩ ⟨1, 1, 1⟩ 4 10 := (moved_iff (by rw [ne_zero_iff]; simp)).2 (by norm_num)

example : ∃ q, lineSegmentPlaneIntersection ⟨0, 0, 0⟩ ⟨2, 0, 0⟩ ⟨1, 0, 0⟩ 1 = .ok q ∧
    lineSegmentPlaneIntersection (⟨0, 0, 0⟩ + ⟨1, 0, 0⟩) (⟨2, 0, 0⟩ + ⟨1, 0, 0⟩) ⟨1, 0, 0⟩ 2 ≠ .ok (q + ⟨1, 0, 0⟩) := by
  have hn : (⟨1, 0, 0⟩ : V3) ≠ 0 := by rw [ne_zero_iff]; simp
  exact C250_segment_violated _ _ _ _ _ _ hn ((moved_iff hn).2 (by norm_num)) (by norm_num [dot]) (by norm_num [dot]) (by norm_num [dot])

/-! ### C251 -/

/-- What a measured number becomes when all lengths are given in a unit `k` times smaller: a length is multiplied once, an area
    twice, a volume three times. -/
def inUnit (k : ℝ) (dim : Nat) (x : ℝ) : ℝ := k ^ dim * x

private theorem pos_unit {k : ℝ} (hk : 0 < k) (r : ℝ) : checkPositive (inUnit k 1 r) = checkPositive r := by
  unfold checkPositive inUnit
  rw [pow_one]
  by_cases h : r < 0
  · rw [if_pos h, if_pos (mul_neg_of_pos_of_neg hk h)]
  · rw [if_neg h, if_neg (not_lt.2 (mul_nonneg hk.le (not_lt.1 h)))]

private theorem sqrt_unit {k : ℝ} (hk : 0 ≤ k) (x : ℝ) : Real.sqrt (k ^ 2 * x) = k * Real.sqrt x := by
  rw [Real.sqrt_mul (sq_nonneg k), Real.sqrt_sq hk]

private theorem norm_unit {k : ℝ} (hk : 0 ≤ k) (a : V3) : Geom.norm (k • a) = k * Geom.norm a := by
  unfold Geom.norm
  rw [← sqrt_unit hk]
  congr 1
  simp only [smul_x, smul_y, smul_z]
  ring

private theorem npSqrt_unit {k : ℝ} (hk : 0 < k) (x : ℝ) : npSqrt (k ^ 2 * x) = (npSqrt x).map (inUnit k 1) := by
  unfold npSqrt inUnit
  have hk2 : 0 < k ^ 2 := by positivity
  by_cases h : x < 0
  · rw [if_pos h, if_pos (mul_neg_of_pos_of_neg hk2 h)]; rfl
  · rw [if_neg h, if_neg (not_lt.2 (mul_nonneg hk2.le (not_lt.1 h))), sqrt_unit hk.le]
    simp

private theorem dot_unit (k : ℝ) (n a : V3) : dot n (k • a) = k * dot n a := by
  simp only [dot, smul_x, smul_y, smul_z]; ring

private theorem sub_unit (k : ℝ) (a b : V3) : k • a - k • b = k • (a - b) := by
  ext <;> simp <;> ring

private theorem sense_unit {m : ℝ} (hm : 0 < m) (x : ℝ) : sense (m * x) = sense x := by
  unfold sense
  have h1 : (m * x > 0) = (x > 0) := by
    simp only [gt_iff_lt, mul_pos_iff_of_pos_left hm]
  have h2 : (m * x < 0) = (x < 0) := by
    rw [eq_iff_iff, mul_neg_iff]
    constructor
    · rintro (h | h)
      · exact h.2
      · exact absurd h.1 (not_lt.2 hm.le)
    · intro h; exact .inl ⟨hm, h⟩
  simp only [h1, h2]

private theorem map_bind' {α β γ : Type} (c : Except Err α) (f : α → Except Err β) (g : β → γ) :
    (c >>= f).map g = c >>= fun a => (f a).map g := by
  cases c <;> rfl

private theorem bind_map' {α β γ : Type} (c : Except Err α) (f : β → Except Err γ) (g : α → β) :
    (c.map g >>= f) = c >>= fun a => f (g a) := by
  cases c <;> rfl

/-- C251: perimeter and area of circles, surfaces of cylinders, shells, spheres and cones. -/
theorem C251_areas_partial (k r r' h : ℝ) (hk : 0 < k) :
    perimCircle (inUnit k 1 r) = (perimCircle r).map (inUnit k 1) ∧
    areaCircle (inUnit k 1 r) = (areaCircle r).map (inUnit k 2) ∧
    areaCyl (inUnit k 1 r) (inUnit k 1 h) = (areaCyl r h).map (inUnit k 2) ∧
    areaCylShell (inUnit k 1 r) (inUnit k 1 r') = (areaCylShell r r').map (inUnit k 2) ∧
    areaSphere (inUnit k 1 r) = (areaSphere r).map (inUnit k 2) ∧
    areaConeSurf (inUnit k 1 r) (inUnit k 1 h) = (areaConeSurf r h).map (inUnit k 2) := by
  have h1 : ∀ r, perimCircle (inUnit k 1 r) = (perimCircle r).map (inUnit k 1) := by
    intro r
    unfold perimCircle
    rw [pos_unit hk, map_bind']
    congr 1; funext _
    simp only [ex_pure, Except.map, inUnit]
    congr 1; ring
  have h2 : ∀ r, areaCircle (inUnit k 1 r) = (areaCircle r).map (inUnit k 2) := by
    intro r
    unfold areaCircle
    rw [pos_unit hk, map_bind']
    congr 1; funext _
    simp only [ex_pure, Except.map, inUnit]
    congr 1; ring
  refine ⟨h1 r, h2 r, ?_, ?_, ?_, ?_⟩
  · unfold areaCyl
    simp only [h1, h2, pos_unit hk, map_bind', bind_map']
    congr 1; funext _; congr 1; funext _; congr 1; funext _; congr 1; funext _
    simp only [ex_pure, Except.map, inUnit]
    congr 1; ring
  · unfold areaCylShell
    simp only [h2, map_bind', bind_map']
    congr 1; funext _; congr 1; funext _
    simp only [ex_pure, Except.map, inUnit]
    rw [← mul_sub, abs_mul, abs_of_nonneg (by positivity : (0:ℝ) ≤ k ^ 2)]
  · unfold areaSphere
    rw [pos_unit hk, map_bind']
    congr 1; funext _
    simp only [ex_pure, Except.map, inUnit]
    congr 1; ring
  · unfold areaConeSurf
    simp only [pos_unit hk, map_bind']
    congr 1; funext _; congr 1; funext _
    simp only [ex_pure, Except.map, inUnit]
    have : k ^ 1 * r * (k ^ 1 * r) + k ^ 1 * h * (k ^ 1 * h) = k ^ 2 * (r * r + h * h) := by ring
    rw [this, sqrt_unit hk.le]
    congr 1; ring

/-- C251: volumes of spheres, cylinders, shells and cones. -/
theorem C251_volumes_partial (k r r' h : ℝ) (hk : 0 < k) :
    volumeSphere (inUnit k 1 r) = (volumeSphere r).map (inUnit k 3) ∧
    volumeSphericalShell (inUnit k 1 r) (inUnit k 1 r') = (volumeSphericalShell r r').map (inUnit k 3) ∧
    volumeCyl (inUnit k 1 r) (inUnit k 1 h) = (volumeCyl r h).map (inUnit k 3) ∧
    volumeCylShell (inUnit k 1 r) (inUnit k 1 r') (inUnit k 1 h) = (volumeCylShell r r' h).map (inUnit k 3) ∧
    volumeCone (inUnit k 1 r) (inUnit k 1 h) = (volumeCone r h).map (inUnit k 3) := by
  obtain ⟨_, ha, _, hs, _⟩ := C251_areas_partial k r r' h hk
  have h1 : ∀ r, volumeSphere (inUnit k 1 r) = (volumeSphere r).map (inUnit k 3) := by
    intro r
    unfold volumeSphere
    rw [pos_unit hk, map_bind']
    congr 1; funext _
    simp only [ex_pure, Except.map, inUnit]
    congr 1; ring
  have h2 : volumeCyl (inUnit k 1 r) (inUnit k 1 h) = (volumeCyl r h).map (inUnit k 3) := by
    unfold volumeCyl
    simp only [pos_unit hk, ha, map_bind', bind_map']
    congr 1; funext _; congr 1; funext _
    simp only [ex_pure, Except.map, inUnit]
    congr 1; ring
  refine ⟨h1 r, ?_, h2, ?_, ?_⟩
  · unfold volumeSphericalShell
    simp only [h1, map_bind', bind_map']
    congr 1; funext _; congr 1; funext _
    simp only [ex_pure, Except.map, inUnit]
    rw [← mul_sub, abs_mul, abs_of_nonneg (by positivity : (0:ℝ) ≤ k ^ 3)]
  · unfold volumeCylShell
    simp only [pos_unit hk, hs, map_bind', bind_map']
    congr 1; funext _; congr 1; funext _
    simp only [ex_pure, Except.map, inUnit]
    congr 1; ring
  · unfold volumeCone
    rw [h2, map_bind', bind_map']
    congr 1; funext _
    simp only [ex_pure, Except.map, inUnit]
    congr 1; ring

/-- C251: distances, mid points, points on rays, the hypotenuse, moving and turning points. -/
theorem C251_points_partial (k : ℝ) (hk : 0 < k) (p q u o t : V3) (ps : List V3) (mu a b θ : ℝ) :
    distBetPoints (k • p) (k • q) = inUnit k 1 (distBetPoints p q) ∧
    midpointBetPoints (k • p) (k • q) = k • midpointBetPoints p q ∧
    projectRay (k • p) u (inUnit k 1 mu) = k • projectRay p u mu ∧
    pythagH (inUnit k 1 a) (inUnit k 1 b) = inUnit k 1 (pythagH a b) ∧
    translate (ps.map (k • ·)) (k • t) = (translate ps t).map (k • ·) ∧
    rotateX (ps.map (k • ·)) (k • o) θ = (rotateX ps o θ).map (k • ·) ∧
    rotateY (ps.map (k • ·)) (k • o) θ = (rotateY ps o θ).map (k • ·) ∧
    rotateZ (ps.map (k • ·)) (k • o) θ = (rotateZ ps o θ).map (k • ·) := by
  refine ⟨?_, ?_, ?_, ?_, ?_, ?_, ?_, ?_⟩
  · unfold distBetPoints inUnit
    rw [sub_unit, norm_unit hk.le, pow_one]
  · unfold midpointBetPoints
    ext <;> simp <;> ring
  · unfold projectRay inUnit
    ext <;> simp <;> ring
  · unfold pythagH inUnit
    simp only [pow_one, mul_eq_zero, hk.ne', false_or]
    split_ifs
    · simp
    · rw [← sqrt_unit hk.le]; congr 1; ring
  all_goals
    first | unfold translate | unfold rotateX | unfold rotateY | unfold rotateZ
    rw [List.map_map, List.map_map]
    apply List.map_congr_left
    intro p _
    simp only [Function.comp]
    ext <;> simp <;> ring

/-- C251: distance and side of a point and a plane, and of a point and a sphere. -/
theorem C251_sides_partial (k : ℝ) (hk : 0 < k) (n p c : V3) (d r : ℝ) (hn : n ≠ 0) :
    distBetweenPointPlane n (inUnit k 1 d) (k • p) = (distBetweenPointPlane n d p).map (inUnit k 1) ∧
    findSensePlane n (inUnit k 1 d) (k • p) = findSensePlane n d p ∧
    findSenseSphere (k • p) (k • c) (inUnit k 1 r) = findSenseSphere p c r := by
  refine ⟨?_, ?_, ?_⟩
  · rw [C112_value hn, C112_value hn]
    simp only [Except.map, inUnit, smul_x, smul_y, smul_z]
    congr 1
    ring
  · unfold findSensePlane evaluatePlaneEq inUnit
    rw [dot_unit, pow_one, ← mul_sub, sense_unit hk]
  · unfold findSenseSphere evaluateSphereEq
    rw [pos_unit hk, sub_unit, norm_unit hk.le]
    unfold inUnit
    have : (k * Geom.norm (p - c)) ^ 2 - (k ^ 1 * r) ^ 2 = k ^ 2 * (Geom.norm (p - c) ^ 2 - r ^ 2) := by ring
    rw [this, sense_unit (by positivity)]

/-- C251: where a ray meets a sphere, a plane meets a sphere and two planes meet, and the distance of two planes. -/
theorem C251_meet_partial (k : ℝ) (hk : 0 < k) (n n' p u c : V3) (d d' r z : ℝ) (hn : n ≠ 0) (hn' : n' ≠ 0) :
    sphereRayIntersect (k • p) u (k • c) (inUnit k 1 r) =
      (sphereRayIntersect p u c r).map (fun x => (x.1.map (inUnit k 1), x.2.map (inUnit k 1))) ∧
    planeSphereIntersect n (inUnit k 1 d) (k • p) (inUnit k 1 r) =
      (planeSphereIntersect n d p r).map (fun x => (x.1.map (inUnit k 1), k • x.2)) ∧
    planePlaneIntersect n (inUnit k 1 d) n' (inUnit k 1 d') (inUnit k 1 z) =
      (planePlaneIntersect n d n' d' z).map (fun x => (k • x.1, x.2)) ∧
    distBetweenPlanes n (inUnit k 1 d) n' (inUnit k 1 d') =
      (distBetweenPlanes n d n' d').map (fun x => (x.1.map (inUnit k 1), x.2)) := by
  refine ⟨?_, ?_, ?_, ?_⟩
  · unfold sphereRayIntersect
    rw [pos_unit hk, map_bind']
    congr 1; funext _
    simp only [ex_pure, Except.map]
    rw [sub_unit, norm_unit hk.le]
    have hd : dot (k • (p - c)) u = k * dot (p - c) u := by simp only [dot, smul_x, smul_y, smul_z]; ring
    have : dot (k • (p - c)) u ^ 2 - (k * Geom.norm (p - c)) ^ 2 + inUnit k 1 r ^ 2 =
        k ^ 2 * (dot (p - c) u ^ 2 - Geom.norm (p - c) ^ 2 + r ^ 2) := by rw [hd, inUnit]; ring
    rw [this, npSqrt_unit hk, hd]
    congr 2
    · cases npSqrt (dot (p - c) u ^ 2 - Geom.norm (p - c) ^ 2 + r ^ 2) with
      | none => rfl
      | some s => simp only [Option.map_some, inUnit]; congr 1; ring
    · cases npSqrt (dot (p - c) u ^ 2 - Geom.norm (p - c) ^ 2 + r ^ 2) with
      | none => rfl
      | some s => simp only [Option.map_some, inUnit]; congr 1; ring
  · unfold planeSphereIntersect
    rw [(C251_sides_partial k hk n p p d r hn).1, check_ok hn, pos_unit hk, C112_value hn]
    simp only [ex_ok_bind, map_bind']
    congr 1; funext _
    simp only [Except.map, ex_ok_bind]
    set D := (d - (n.x * p.x + n.y * p.y + n.z * p.z)) / eLen n
    have hgt : (inUnit k 1 D > inUnit k 1 r) = (D > r) := by
      unfold inUnit; rw [pow_one]; simp only [gt_iff_lt, mul_lt_mul_iff_right₀ hk]
    simp only [hgt]
    split_ifs
    · rfl
    · simp only [ex_pure]
      have : inUnit k 1 r ^ 2 - inUnit k 1 D ^ 2 = k ^ 2 * (r ^ 2 - D ^ 2) := by unfold inUnit; ring
      rw [this, npSqrt_unit hk]
      congr 2
      ext <;> simp [inUnit] <;> ring
  · unfold planePlaneIntersect
    rw [check_ok hn, check_ok hn']
    simp only [ex_ok_bind]
    by_cases hp : checkParallelPlanes n n'
    · rw [if_pos hp, if_pos hp]; rfl
    · rw [if_neg hp, if_neg hp]
      unfold solve2
      by_cases hdet : n.x * n'.y - n.y * n'.x = 0
      · rw [if_pos hdet, if_pos hdet]; rfl
      · rw [if_neg hdet, if_neg hdet]
        simp only [ex_ok_bind, ex_pure, Except.map]
        congr 2
        ext
        · simp only [smul_x, inUnit]; rw [← mul_div_assoc]; congr 1; ring
        · simp only [smul_y, inUnit]; rw [← mul_div_assoc]; congr 1; ring
        · simp only [smul_z, inUnit, pow_one]
  · unfold distBetweenPlanes
    rw [check_ok hn, check_ok hn']
    simp only [ex_ok_bind]
    by_cases hp : checkParallelPlanes n n'
    · rw [if_neg (not_not.2 hp), if_neg (not_not.2 hp)]
      by_cases hx : n'.x = 0
      · rw [if_pos hx, if_pos hx]; rfl
      · rw [if_neg hx, if_neg hx]
        simp only [ex_pure, Except.map, Option.map_some, inUnit]
        congr 3
        ring
    · rw [if_pos hp, if_pos hp]
      simp [ex_pure, Except.map, inUnit]

/-- C251: the other coordinates of a point: the lengths are multiplied, the angles are the same. -/
theorem C251_coordinates_partial (k : ℝ) (hk : 0 < k) (x y z : ℝ) :
    cartesianToCylindrical (inUnit k 1 x) (inUnit k 1 y) (inUnit k 1 z) =
      (cartesianToCylindrical x y z).map (fun c => (inUnit k 1 c.1, c.2.1, inUnit k 1 c.2.2)) ∧
    cartesianToSpherical (inUnit k 1 x) (inUnit k 1 y) (inUnit k 1 z) =
      (cartesianToSpherical x y z).map (fun c => (inUnit k 1 c.1, c.2)) ∧
    cylindricalToCartesian (inUnit k 1 x) y (inUnit k 1 z) =
      (cylindricalToCartesian x y z).map (fun c => (inUnit k 1 c.1, inUnit k 1 c.2.1, inUnit k 1 c.2.2)) ∧
    cylindricalToSpherical (inUnit k 1 x) y (inUnit k 1 z) =
      (cylindricalToSpherical x y z).map (fun c => (inUnit k 1 c.1, c.2)) ∧
    sphericalToCartesian (inUnit k 1 x) y z =
      (sphericalToCartesian x y z).map (fun c => (inUnit k 1 c.1, inUnit k 1 c.2.1, inUnit k 1 c.2.2)) ∧
    sphericalToCylindrical (inUnit k 1 x) y z =
      (sphericalToCylindrical x y z).map (fun c => (inUnit k 1 c.1, c.2.1, inUnit k 1 c.2.2)) := by
  have hphi : phiOf (inUnit k 1 x) (inUnit k 1 y) = phiOf x y := by
    unfold phiOf inUnit
    have e0 : (k ^ 1 * x = 0) = (x = 0) := by simp [hk.ne']
    have e1 : (k ^ 1 * x ≥ 0) = (x ≥ 0) := by
      rw [pow_one, eq_iff_iff]; exact ⟨fun h => (mul_nonneg_iff_of_pos_left hk).1 h, fun h => mul_nonneg hk.le h⟩
    have e2 : k ^ 1 * y / (k ^ 1 * x) = y / x := by rw [pow_one, mul_div_mul_left _ _ hk.ne']
    simp only [e0, e1, e2]
  have quot : ∀ a r : ℝ, k ^ 1 * a / (k * r) = a / r := by
    intro a r; rw [pow_one, mul_div_mul_left _ _ hk.ne']
  refine ⟨?_, ?_, ?_, ?_, ?_, ?_⟩
  · unfold cartesianToCylindrical
    rw [hphi, map_bind']
    congr 1; funext _
    simp only [ex_pure, Except.map, inUnit]
    have : (k ^ 1 * x) ^ 2 + (k ^ 1 * y) ^ 2 = k ^ 2 * (x ^ 2 + y ^ 2) := by ring
    rw [this, sqrt_unit hk.le, pow_one]
  · unfold cartesianToSpherical
    rw [hphi]
    simp only [map_bind']
    congr 1; funext _
    simp only [ex_pure, Except.map, inUnit]
    have : (k ^ 1 * x) ^ 2 + (k ^ 1 * y) ^ 2 + (k ^ 1 * z) ^ 2 = k ^ 2 * (x ^ 2 + y ^ 2 + z ^ 2) := by ring
    rw [this, sqrt_unit hk.le, quot, pow_one]
  · unfold cylindricalToCartesian
    rw [pos_unit hk, map_bind']
    congr 1; funext _
    simp only [ex_pure, Except.map, inUnit, mul_assoc]
  · unfold cylindricalToSpherical
    rw [pos_unit hk, map_bind']
    congr 1; funext _
    have : Real.sqrt (inUnit k 1 x ^ 2 + inUnit k 1 z ^ 2) = k * Real.sqrt (x ^ 2 + z ^ 2) := by
      rw [← sqrt_unit hk.le]; congr 1; unfold inUnit; ring
    have hz : inUnit k 1 z / (k * Real.sqrt (x ^ 2 + z ^ 2)) = z / Real.sqrt (x ^ 2 + z ^ 2) := quot _ _
    simp only [ex_pure, Except.map, this, hz]
    by_cases h0 : Real.sqrt (x ^ 2 + z ^ 2) = 0
    · rw [if_pos h0, if_pos (by rw [h0, mul_zero])]
      simp only [inUnit, pow_one]
    · rw [if_neg h0, if_neg (mul_ne_zero hk.ne' h0)]
      simp only [inUnit, pow_one]
  · unfold sphericalToCartesian
    rw [pos_unit hk, map_bind']
    congr 1; funext _
    simp only [ex_pure, Except.map, inUnit, mul_assoc]
  · unfold sphericalToCylindrical
    rw [pos_unit hk, map_bind']
    congr 1; funext _
    simp only [ex_pure, Except.map, inUnit, mul_assoc]

/-- C251: the line through two points that are not above each other: the slope is the same, the intercept is a length. -/
theorem C251_slope_partial (k : ℝ) (hk : 0 < k) (p q : ℝ × ℝ) (h : p.1 ≠ q.1) :
    coefficientsOfLineFromPoints (inUnit k 1 p.1, inUnit k 1 p.2) (inUnit k 1 q.1, inUnit k 1 q.2) =
      ((coefficientsOfLineFromPoints p q).1, inUnit k 1 (coefficientsOfLineFromPoints p q).2) := by
  unfold coefficientsOfLineFromPoints lstsq2 inUnit
  have hne : ¬ (k ^ 1 * p.1 = k ^ 1 * q.1) := by
    rw [pow_one]; exact fun e => h (mul_left_cancel₀ hk.ne' e)
  simp only [if_neg hne, if_neg h]
  have e : (k ^ 1 * q.2 - k ^ 1 * p.2) / (k ^ 1 * q.1 - k ^ 1 * p.1) = (q.2 - p.2) / (q.1 - p.1) := by
    rw [← mul_sub, ← mul_sub, mul_div_mul_left _ _ (by positivity)]
  rw [e]
  congr 1
  ring

/-- C251 is violated by the line through two points above each other (away from the axes): the slope depends on the unit. -/
theorem C251_slope_violated (x y1 y2 k : ℝ) (hx : x ≠ 0) (hy : y1 + y2 ≠ 0) (hk : 0 < k) (h1 : k ≠ 1) :
    (coefficientsOfLineFromPoints (inUnit k 1 x, inUnit k 1 y1) (inUnit k 1 x, inUnit k 1 y2)).1 ≠
      (coefficientsOfLineFromPoints (x, y1) (x, y2)).1 := by
  unfold coefficientsOfLineFromPoints lstsq2 inUnit
  simp only [if_true, pow_one]
  intro h
  have p1 : (k * x) ^ 2 + 1 ≠ 0 := by positivity
  have p2 : x ^ 2 + 1 ≠ 0 := by positivity
  rw [div_eq_div_iff p1 p2] at h
  have : (y1 + y2) * x * (k ^ 2 - 1) = 0 := by linear_combination 2 * h
  rcases mul_eq_zero.1 this with h' | h'
  · exact (mul_ne_zero hy hx) h'
  · have : (k - 1) * (k + 1) = 0 := by linear_combination h'
    rcases mul_eq_zero.1 this with h'' | h''
    · exact h1 (by linarith)
    · linarith

/-- C251 is violated by the point where a segment meets a plane `d ≠ 0`, for every segment that is cut and every other unit. -/
theorem C251_segment_violated (k : ℝ) (hk : 0 < k) (h1 : k ≠ 1) (p0 p1 n : V3) (d : ℝ) (hn : n ≠ 0) (hd : d ≠ 0)
    (hs : (dot p0 n - d) * (dot p1 n - d) < 0) :
    ∃ q, lineSegmentPlaneIntersection p0 p1 n d = .ok q ∧
      lineSegmentPlaneIntersection (k • p0) (k • p1) n (inUnit k 1 d) ≠ .ok (k • q) := by
  have hne : dot (p1 - p0) n ≠ 0 := by
    intro h0
    have : dot p1 n = dot p0 n := by
      simp only [dot, sub_x, sub_y, sub_z] at h0 ⊢; linarith
    rw [this] at hs
    nlinarith [mul_self_nonneg (dot p0 n - d)]
  have e : ∀ p : V3, dot (k • p) n = k * dot p n := by
    intro p; simp only [dot, smul_x, smul_y, smul_z]; ring
  refine ⟨p0 + (d - dot p0 n / dot (p1 - p0) n) • (p1 - p0), ?_, ?_⟩
  · unfold lineSegmentPlaneIntersection
    simp only [check_ok hn, ex_ok_bind, if_neg hne, if_pos hs, ex_pure]
  · have hne' : k * dot (p1 - p0) n ≠ 0 := mul_ne_zero hk.ne' hne
    have hs' : (k * dot p0 n - k * d) * (k * dot p1 n - k * d) < 0 := by
      have : (k * dot p0 n - k * d) * (k * dot p1 n - k * d) = k ^ 2 * ((dot p0 n - d) * (dot p1 n - d)) := by ring
      rw [this]
      exact mul_neg_of_pos_of_neg (by positivity) hs
    unfold lineSegmentPlaneIntersection inUnit
    simp only [check_ok hn, ex_ok_bind, sub_unit, e, pow_one, if_neg hne', if_pos hs', ex_pure]
    intro h
    have h' := Except.ok.inj h
    have e1 := congrArg V3.x h'
    have e2 := congrArg V3.y h'
    have e3 := congrArg V3.z h'
    rw [mul_div_mul_left _ _ hk.ne'] at e1 e2 e3
    simp only [add_x, add_y, add_z, smul_x, smul_y, smul_z] at e1 e2 e3
    set D := dot (p1 - p0) n with hD
    have f : ∀ u : ℝ, (k * d - dot p0 n / D) * (k * u) = k * ((d - dot p0 n / D) * u) → (k - 1) * d * u = 0 := by
      intro u hu
      have : k * ((k - 1) * d * u) = 0 := by linear_combination hu
      exact (mul_eq_zero.1 this).resolve_left hk.ne'
    have f1 := f _ (by linarith : (k * d - dot p0 n / D) * (k * (p1 - p0).x) = k * ((d - dot p0 n / D) * (p1 - p0).x))
    have f2 := f _ (by linarith : (k * d - dot p0 n / D) * (k * (p1 - p0).y) = k * ((d - dot p0 n / D) * (p1 - p0).y))
    have f3 := f _ (by linarith : (k * d - dot p0 n / D) * (k * (p1 - p0).z) = k * ((d - dot p0 n / D) * (p1 - p0).z))
    have : (k - 1) * d * D = 0 := by
      rw [hD]; simp only [dot]; linear_combination n.x * f1 + n.y * f2 + n.z * f3
    rcases mul_eq_zero.1 this with h' | h'
    · rcases mul_eq_zero.1 h' with h'' | h''
      · exact h1 (by linarith)
      · exact hd h''
    · exact hne h'

example : areaCyl (inUnit 10 1 2) (inUnit 10 1 3) = (areaCyl 2 3).map (inUnit 10 2) := (C251_areas_partial 10 2 2 3 (by norm_num)).2.2.1

example : volumeCone (-1) 3 = .error .ValueError := by
  unfold volumeCone volumeCyl areaCircle checkPositive
  norm_num
  rfl

example : ∃ q, lineSegmentPlaneIntersection ⟨0, 0, 0⟩ ⟨2, 0, 0⟩ ⟨1, 0, 0⟩ 1 = .ok q ∧
    lineSegmentPlaneIntersection ((10 : ℝ) • ⟨0, 0, 0⟩) ((10 : ℝ) • ⟨2, 0, 0⟩) ⟨1, 0, 0⟩ (inUnit 10 1 1) ≠ .ok ((10 : ℝ) • q) :=
  C251_segment_violated 10 (by norm_num) (by norm_num) _ _ _ 1 (by rw [ne_zero_iff]; simp) (by norm_num) (by norm_num [dot])

end Props
