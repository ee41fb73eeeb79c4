/-
C282: the functions of geom_utils.py agree with each other.
-/
import Verif.Props.Geom1
import Verif.Props.Geom2
import Verif.Props.Geom3

noncomputable section
set_option linter.unusedSimpArgs false

namespace Props
open Py Geom

/-- C282: the side of a plane on which a point lies is the sign of its distance from the plane. -/
theorem C282_plane {n p : V3} {d r : ℝ} {s : ℤ} (hr : distBetweenPointPlane n d p = .ok r) (hs : findSensePlane n d p = .ok s) :
    (s = 1 ↔ 0 < r) ∧ (s = -1 ↔ r < 0) ∧ (s = 0 ↔ r = 0) := by
  by_cases hn : n = 0
  · rw [hn, C124_plane_error] at hs
    cases hs
  · rw [C112_value hn, Except.ok.injEq] at hr
    rw [C124_plane hn] at hs
    have hl : 0 < eLen n := Geom.norm_pos hn
    subst hr
    rw [div_pos_iff_of_pos_right hl, div_lt_iff₀ hl, zero_mul, div_eq_zero_iff, or_iff_left hl.ne']
    rcases hs with ⟨h, rfl⟩ | ⟨h, rfl⟩ | ⟨h, rfl⟩
    · exact ⟨⟨fun h => absurd h (by decide), fun h => by linarith⟩, ⟨fun _ => by linarith, fun _ => rfl⟩,
        ⟨fun h => absurd h (by decide), fun h => by linarith⟩⟩
    · exact ⟨⟨fun _ => by linarith, fun _ => rfl⟩, ⟨fun h => absurd h (by decide), fun h => by linarith⟩,
        ⟨fun h => absurd h (by decide), fun h => by linarith⟩⟩
    · exact ⟨⟨fun h => absurd h (by decide), fun h => by linarith⟩, ⟨fun h => absurd h (by decide), fun h => by linarith⟩,
        ⟨fun _ => by linarith, fun _ => rfl⟩⟩

/-- C282: a segment has a point of intersection with a plane exactly when its end points are on different sides and neither is on the plane. -/
theorem C282_segment (p0 p1 n : V3) (d : ℝ) :
    (∃ q, lineSegmentPlaneIntersection p0 p1 n d = .ok q) ↔
      ∃ s : ℤ, s ≠ 0 ∧ findSensePlane n d p0 = .ok s ∧ findSensePlane n d p1 = .ok (-s) := by
  by_cases hn : n = 0
  · rw [hn, C124_plane_error]
    unfold lineSegmentPlaneIntersection
    rw [check_zero]
    constructor
    · rintro ⟨q, hq⟩; cases hq
    · rintro ⟨s, -, h, -⟩; cases h
  · have hdef : (∃ q, lineSegmentPlaneIntersection p0 p1 n d = .ok q) ↔ Separated n d p0 p1 := by
      constructor
      · rintro ⟨q, hq⟩
        by_contra h
        rw [(C113_defined p0 p1 n d).2 h] at hq
        cases hq
      · exact (C113_defined p0 p1 n d).1
    rw [hdef]
    simp only [C124_plane hn]
    unfold Separated SenseOf
    constructor
    · rintro (⟨h1, h2⟩ | ⟨h1, h2⟩)
      · exact ⟨1, by decide, .inr (.inl ⟨by linarith, rfl⟩), .inl ⟨by linarith, rfl⟩⟩
      · exact ⟨-1, by decide, .inl ⟨by linarith, rfl⟩, .inr (.inl ⟨by linarith, rfl⟩)⟩
    · rintro ⟨s, hs, h0, h1⟩
      rcases h0 with ⟨h0, rfl⟩ | ⟨h0, rfl⟩ | ⟨h0, rfl⟩
      · rcases h1 with ⟨h1, e⟩ | ⟨h1, e⟩ | ⟨h1, e⟩
        · exact absurd e (by decide)
        · exact .inr ⟨by linarith, by linarith⟩
        · exact absurd e (by decide)
      · rcases h1 with ⟨h1, e⟩ | ⟨h1, e⟩ | ⟨h1, e⟩
        · exact .inl ⟨by linarith, by linarith⟩
        · exact absurd e (by decide)
        · exact absurd e (by decide)
      · exact absurd rfl hs

/-- C282 (part that holds): the distance between two planes whose normals point in the same direction is the distance of every point of the first from
    the second. Missing: normals without first component (C114) and opposite normals (`C282_planes_violated`). -/
theorem C282_planes_partial {n1 n2 p : V3} {k d1 d2 : ℝ} (h2 : n2 ≠ 0) (hk : 0 < k) (he : n1 = k • n2) (hx : n2.x ≠ 0) (hp : OnPlane n1 d1 p) :
    ∃ r v, distBetweenPlanes n1 d1 n2 d2 = .ok (some r, v) ∧ distBetweenPointPlane n2 d2 p = .ok r := by
  have h1 : n1 ≠ 0 := by
    rw [ne_zero_iff, he]
    intro h
    simp only [smul_x, mul_eq_zero, hk.ne', hx, or_self, false_and] at h
  have hpar : checkParallelPlanes n1 n2 := (parallel_iff h1 h2).2 ⟨k, hk, he⟩
  have hr : n1.x / n2.x = k := by rw [he]; simp only [smul_x]; field_simp
  have hv : (⟨n2.x * k, n2.y * k, n2.z * k⟩ : V3) = n1 := by
    rw [he]; ext <;> simp only [smul_x, smul_y, smul_z] <;> ring
  refine ⟨_, _, by
    unfold distBetweenPlanes
    simp only [check_ok h1, check_ok h2, ex_ok_bind, ex_pure, not_true, if_false, hpar, if_neg hx, hr, hv]
    rfl, ?_⟩
  rw [C112_value h2]
  congr 1
  have hn : norm n1 = k * eLen n2 := by
    apply norm_of_sq (mul_nonneg hk.le (Real.sqrt_nonneg _))
    have := norm_sq n2
    have hk2 : (k * norm n2) ^ 2 = k ^ 2 * (n2.x ^ 2 + n2.y ^ 2 + n2.z ^ 2) := by rw [mul_pow, this]
    rw [he]
    refine Eq.trans ?_ hk2.symm
    simp only [smul_x, smul_y, smul_z]
    ring
  have hl : 0 < eLen n2 := Geom.norm_pos h2
  unfold OnPlane at hp
  rw [he] at hp
  simp only [smul_x, smul_y, smul_z] at hp
  rw [hn, div_eq_div_iff hl.ne' (mul_pos hk hl).ne']
  linear_combination eLen n2 * -hp

/-- C282 is violated: for opposite normals the distance between the planes is 0 whatever the distances of their points. -/
theorem C282_planes_violated {n1 n2 p : V3} {k d1 d2 r : ℝ} (h1 : n1 ≠ 0) (h2 : n2 ≠ 0) (hk : k < 0) (he : n1 = k • n2) (_hp : OnPlane n1 d1 p)
    (hr : distBetweenPointPlane n2 d2 p = .ok r) (hne : r ≠ 0) :
    ∃ v, distBetweenPlanes n1 d1 n2 d2 = .ok (some 0, v) ∧ distBetweenPointPlane n2 d2 p ≠ .ok 0 := by
  have hpar : ¬ checkParallelPlanes n1 n2 := by
    rw [parallel_iff h1 h2]
    rintro ⟨j, hj, hj'⟩
    apply ne_zero_iff.1 h2
    have e := he.symm.trans hj'
    have hkj : k - j ≠ 0 := by linarith
    have ex : k * n2.x = j * n2.x := congrArg V3.x e
    have ey : k * n2.y = j * n2.y := congrArg V3.y e
    have ez : k * n2.z = j * n2.z := congrArg V3.z e
    refine ⟨?_, ?_, ?_⟩
    · exact (mul_eq_zero.1 (show (k - j) * n2.x = 0 by linarith)).resolve_left hkj
    · exact (mul_eq_zero.1 (show (k - j) * n2.y = 0 by linarith)).resolve_left hkj
    · exact (mul_eq_zero.1 (show (k - j) * n2.z = 0 by linarith)).resolve_left hkj
  refine ⟨some n2, ?_, ?_⟩
  · unfold distBetweenPlanes
    simp only [check_ok h1, check_ok h2, ex_ok_bind, ex_pure, hpar, not_false_iff, if_true]
  · rw [hr]
    intro h
    exact hne (Except.ok.inj h)

private theorem ray_val {p u c : V3} {r : ℝ} (hu : u.x ^ 2 + u.y ^ 2 + u.z ^ 2 = 1) (t : ℝ) :
    evaluateSphereEq (projectRay p u t) c r = (t + dot (p - c) u) ^ 2 - (dot (p - c) u ^ 2 - norm (p - c) ^ 2 + r ^ 2) := by
  unfold evaluateSphereEq projectRay
  rw [norm_sq, norm_sq]
  simp only [add_x, add_y, add_z, sub_x, sub_y, sub_z, dot]
  linear_combination t ^ 2 * hu

/-- C282: a point of a ray is inside the sphere between the two distances, on it at these distances, and outside elsewhere. -/
theorem C282_ray {p u c : V3} {r a b : ℝ} (hu : u.x ^ 2 + u.y ^ 2 + u.z ^ 2 = 1) (h : sphereRayIntersect p u c r = .ok (some a, some b)) (t : ℝ) :
    (findSenseSphere (projectRay p u t) c r = .ok 1 ↔ b < t ∧ t < a) ∧
    (findSenseSphere (projectRay p u t) c r = .ok 0 ↔ t = b ∨ t = a) ∧
    (findSenseSphere (projectRay p u t) c r = .ok (-1) ↔ t < b ∨ a < t) := by
  by_cases hr : r < 0
  · rw [C125_negative hr] at h
    cases h
  · have hr := not_lt.1 hr
    unfold sphereRayIntersect at h
    simp only [pos_ok hr, ex_ok_bind, ex_pure, Except.ok.injEq, Prod.mk.injEq, Option.map_eq_some_iff] at h
    obtain ⟨⟨s, hs, rfl⟩, ⟨s', hs', rfl⟩⟩ := h
    rw [hs, Option.some.injEq] at hs'
    subst hs'
    unfold npSqrt at hs
    split_ifs at hs with hneg
    rw [Option.some.injEq] at hs
    have hD := not_lt.1 hneg
    have hs2 : s ^ 2 = dot (p - c) u ^ 2 - norm (p - c) ^ 2 + r ^ 2 := by rw [← hs]; exact Real.sq_sqrt hD
    have hs0 : 0 ≤ s := by rw [← hs]; exact Real.sqrt_nonneg _
    unfold findSenseSphere
    simp only [pos_ok hr, ex_ok_bind, ex_pure, Except.ok.injEq, ray_val hu, ← hs2]
    generalize hv : t + dot (p - c) u = v
    have ht : t = v - dot (p - c) u := by linarith
    rw [ht]
    have e : v ^ 2 - s ^ 2 = (v - s) * (v + s) := by ring
    unfold sense
    rcases lt_trichotomy (v ^ 2 - s ^ 2) 0 with hlt | heq | hgt
    · rw [if_neg (by linarith), if_pos hlt]
      have h1 : -s < v ∧ v < s := abs_lt.1 (by rw [← abs_of_nonneg hs0]; exact sq_lt_sq.1 (by linarith))
      refine ⟨⟨fun _ => ⟨by linarith, by linarith⟩, fun _ => rfl⟩, ⟨fun h => absurd h (by decide), ?_⟩, ⟨fun h => absurd h (by decide), ?_⟩⟩ <;>
      · rintro (h | h) <;> exfalso <;> linarith
    · rw [if_neg (by linarith), if_neg (by linarith)]
      have h1 : v = s ∨ v = -s := sq_eq_sq_iff_eq_or_eq_neg.1 (by linarith)
      refine ⟨⟨fun h => absurd h (by decide), ?_⟩, ⟨fun _ => ?_, fun _ => rfl⟩, ⟨fun h => absurd h (by decide), ?_⟩⟩
      · rintro ⟨h2, h3⟩
        exfalso
        rcases h1 with h | h <;> linarith
      · rcases h1 with h | h
        · right; linarith
        · left; linarith
      · rintro (h2 | h2) <;> exfalso <;> rcases h1 with h | h <;> linarith
    · rw [if_pos hgt]
      have h1 : v < -s ∨ s < v := by
        have : |s| < |v| := sq_lt_sq.1 (by linarith)
        rw [abs_of_nonneg hs0] at this
        rcases lt_abs.1 this with h | h
        · exact .inr h
        · left; linarith
      refine ⟨⟨fun h => absurd h (by decide), ?_⟩, ⟨fun h => absurd h (by decide), ?_⟩, ⟨fun _ => ?_, fun _ => rfl⟩⟩
      · rintro ⟨h2, h3⟩
        exfalso
        rcases h1 with h | h <;> linarith
      · rintro (h2 | h2) <;> exfalso <;> rcases h1 with h | h <;> linarith
      · rcases h1 with h | h
        · left; linarith
        · right; linarith

/-- C282: a ray that misses the sphere has all its points outside. -/
theorem C282_missed {p u c : V3} {r : ℝ} (hu : u.x ^ 2 + u.y ^ 2 + u.z ^ 2 = 1) (h : sphereRayIntersect p u c r = .ok (none, none)) (t : ℝ) :
    findSenseSphere (projectRay p u t) c r = .ok (-1) := by
  by_cases hr : r < 0
  · rw [C125_negative hr] at h
    cases h
  · have hr := not_lt.1 hr
    unfold sphereRayIntersect at h
    simp only [pos_ok hr, ex_ok_bind, ex_pure, Except.ok.injEq, Prod.mk.injEq, Option.map_eq_none_iff, and_self] at h
    unfold npSqrt at h
    split_ifs at h with hneg
    unfold findSenseSphere
    simp only [pos_ok hr, ex_ok_bind, ex_pure, Except.ok.injEq, ray_val hu]
    unfold sense
    rw [if_pos]
    have := sq_nonneg (t + dot (p - c) u)
    linarith

/-- C282: the side of a sphere on which a point lies tells whether its distance from the centre is less than the radius. -/
theorem C282_sphere {r : ℝ} (hr : 0 ≤ r) (p c : V3) :
    (findSenseSphere p c r = .ok 1 ↔ distBetPoints p c < r) ∧ (findSenseSphere p c r = .ok 0 ↔ distBetPoints p c = r) ∧
    (findSenseSphere p c r = .ok (-1) ↔ r < distBetPoints p c) := by
  rw [C124_sphere hr, C124_sphere hr, C124_sphere hr, C128_value]
  refine ⟨⟨?_, fun h => .inr (.inl ⟨h, rfl⟩)⟩, ⟨?_, fun h => .inr (.inr ⟨h, rfl⟩)⟩, ⟨?_, fun h => .inl ⟨h, rfl⟩⟩⟩
  · rintro (⟨-, h⟩ | ⟨h, -⟩ | ⟨-, h⟩)
    · exact absurd h (by decide)
    · exact h
    · exact absurd h (by decide)
  · rintro (⟨-, h⟩ | ⟨-, h⟩ | ⟨h, -⟩)
    · exact absurd h (by decide)
    · exact absurd h (by decide)
    · exact h
  · rintro (⟨h, -⟩ | ⟨-, h⟩ | ⟨-, h⟩)
    · exact h
    · exact absurd h (by decide)
    · exact absurd h (by decide)

/-- C282: a ray in a direction of length 1 is at the given distance from its start. -/
theorem C282_project {p u : V3} (hu : u.x ^ 2 + u.y ^ 2 + u.z ^ 2 = 1) (t : ℝ) : distBetPoints p (projectRay p u t) = |t| := by
  unfold distBetPoints
  apply norm_of_sq (abs_nonneg t)
  rw [sq_abs]
  simp only [projectRay, sub_x, sub_y, sub_z, add_x, add_y, add_z]
  linear_combination t ^ 2 * hu

/-- C282: the centre of the circle in which a plane cuts a sphere is on the plane, its distance from the centre of the sphere is the distance of that
    point from the plane, and distance and radius are the legs of a right triangle with the radius of the sphere. -/
theorem C282_circle {n p c : V3} {d R r δ : ℝ} (hR : 0 ≤ R) (h : planeSphereIntersect n d p R = .ok (some r, c))
    (hd : distBetweenPointPlane n d p = .ok δ) :
    findSensePlane n d c = .ok 0 ∧ distBetPoints p c = |δ| ∧ (r ≠ 0 → δ ≠ 0 → pythagH δ r = R) := by
  by_cases hn : n = 0
  · rw [hn, C112_zero_normal] at hd
    cases hd
  · have hon := (C116_circle hn hR h).2.1
    unfold planeSphereIntersect at h
    simp only [check_ok hn, pos_ok hR, ex_ok_bind, hd, ex_pure] at h
    split_ifs at h with hc
    simp only [Except.ok.injEq, Prod.mk.injEq] at h
    obtain ⟨h1, rfl⟩ := h
    unfold npSqrt at h1
    split_ifs at h1 with hneg
    rw [Option.some.injEq] at h1
    have hl := Geom.norm_pos hn
    refine ⟨?_, ?_, ?_⟩
    · rw [C124_plane hn]
      exact .inr (.inr ⟨sub_eq_zero.2 hon, rfl⟩)
    · unfold distBetPoints
      apply norm_of_sq (abs_nonneg δ)
      have hs := norm_sq n
      rw [sq_abs]
      simp only [V3.divBy, sub_x, sub_y, sub_z, add_x, add_y, add_z, smul_x, smul_y, smul_z]
      field_simp
      linear_combination -δ ^ 2 * hs
    · intro hr0 hd0
      rw [C123_partial hd0 hr0, ← h1, Real.sq_sqrt (not_lt.1 hneg), add_sub_cancel, Real.sqrt_sq hR]

/-- C282: the points of the line in which two planes meet are on both planes. -/
theorem C282_line {n1 n2 p q : V3} {d1 d2 z : ℝ} (h : planePlaneIntersect n1 d1 n2 d2 z = .ok (p, q)) (t : ℝ) :
    findSensePlane n1 d1 (projectRay p q t) = .ok 0 ∧ findSensePlane n2 d2 (projectRay p q t) = .ok 0 := by
  have hdet : n1.x * n2.y - n1.y * n2.x ≠ 0 := by
    intro h0
    unfold planePlaneIntersect at h
    rw [ex_bind_ok] at h
    obtain ⟨-, -, h⟩ := h
    rw [ex_bind_ok] at h
    obtain ⟨-, -, h⟩ := h
    split_ifs at h
    unfold solve2 at h
    rw [if_pos h0] at h
    cases h
  have h1 : n1 ≠ 0 := by rintro rfl; simp at hdet
  have h2 : n2 ≠ 0 := by rintro rfl; simp at hdet
  obtain ⟨p', q', h', -, -, hon⟩ := C117_line_partial (d1 := d1) (d2 := d2) (z := z) hdet
  rw [h, Except.ok.injEq, Prod.mk.injEq] at h'
  obtain ⟨rfl, rfl⟩ := h'
  obtain ⟨ha, hb⟩ := hon t
  rw [← C125_project] at ha hb
  rw [C124_plane h1, C124_plane h2]
  exact ⟨.inr (.inr ⟨sub_eq_zero.2 ha, rfl⟩), .inr (.inr ⟨sub_eq_zero.2 hb, rfl⟩)⟩

/-- C282: shells without a hole are the whole body, and three cones fill a cylinder. -/
theorem C282_solids {r h : ℝ} (hr : 0 ≤ r) (hh : 0 ≤ h) :
    volumeSphericalShell r 0 = volumeSphere r ∧ areaCylShell r 0 = areaCircle r ∧ volumeCylShell r 0 h = volumeCyl r h ∧
    ∃ v w, volumeCone r h = .ok v ∧ volumeCyl r h = .ok w ∧ 3 * v = w := by
  have hp := Real.pi_pos
  have h1 : volumeSphericalShell r 0 = volumeSphere r := by
    unfold volumeSphericalShell volumeSphere
    simp only [pos_ok hr, pos_ok (le_refl (0 : ℝ)), ex_ok_bind, ex_pure]
    congr 1
    have h0 : 0 ≤ 4 / 3 * Real.pi * r ^ 3 := by positivity
    rw [zero_pow (by decide), mul_zero, sub_zero, abs_of_nonneg h0]
  have h2 : areaCylShell r 0 = areaCircle r := by
    unfold areaCylShell areaCircle
    simp only [pos_ok hr, pos_ok (le_refl (0 : ℝ)), ex_ok_bind, ex_pure]
    congr 1
    have : 0 ≤ Real.pi * r * r := by positivity
    rw [mul_zero, sub_zero, abs_of_nonneg this]
  refine ⟨h1, h2, ?_, ?_⟩
  · unfold volumeCylShell volumeCyl
    rw [h2]
  · refine ⟨_, _, by
      unfold volumeCone volumeCyl areaCircle
      simp only [pos_ok hr, pos_ok hh, ex_ok_bind, ex_pure]
      rfl, by
      unfold volumeCyl areaCircle
      simp only [pos_ok hr, pos_ok hh, ex_ok_bind, ex_pure]
      rfl, by ring⟩

/-- C282: Cartesian coordinates become spherical ones by way of cylindrical ones, with the same exception. -/
theorem C282_coordinates (x y z : ℝ) :
    (cartesianToCylindrical x y z >>= fun c => cylindricalToSpherical c.1 c.2.1 c.2.2) =
      (cartesianToSpherical x y z).map (fun s => (s.1, some s.2.1, s.2.2)) := by
  unfold cartesianToCylindrical cartesianToSpherical phiOf
  by_cases hx : x = 0
  · simp only [if_pos hx]
    rfl
  · simp only [if_neg hx]
    have hpos : 0 < x ^ 2 + y ^ 2 := by positivity
    have hpos' : 0 < x ^ 2 + y ^ 2 + z ^ 2 := by positivity
    have hne : Real.sqrt (x ^ 2 + y ^ 2 + z ^ 2) ≠ 0 := (Real.sqrt_pos.2 hpos').ne'
    split_ifs <;>
      simp only [ex_ok_bind, ex_pure, cylindricalToSpherical, pos_ok (Real.sqrt_nonneg _), Real.sq_sqrt hpos.le, if_neg hne, Except.map]

/-- The plane z = 1 and points on both sides of it; a ray through a sphere. -/
example : ∃ r s, distBetweenPointPlane ⟨0, 0, 1⟩ 1 ⟨0, 0, 3⟩ = .ok r ∧ findSensePlane ⟨0, 0, 1⟩ 1 ⟨0, 0, 3⟩ = .ok s := by
  have hn : (⟨0, 0, 1⟩ : V3) ≠ 0 := by rw [ne_zero_iff]; simp
  exact ⟨_, -1, C112_value hn _ _, (C124_plane hn _ _ _).2 (.inl ⟨by norm_num, rfl⟩)⟩
example : ∃ a b, sphereRayIntersect ⟨-2, 0, 0⟩ ⟨1, 0, 0⟩ 0 1 = .ok (some a, some b) := by
  obtain ⟨a, b, h, -⟩ := C125_solutions (p := ⟨-2, 0, 0⟩) (u := ⟨1, 0, 0⟩) (c := 0) (r := 1) (by norm_num) (by norm_num)
    ⟨1, by unfold OnSphere projectRay; simp only [add_x, add_y, add_z]; simp; norm_num⟩
  exact ⟨a, b, h⟩
example : OnPlane ⟨-1, 0, 0⟩ (-1) ⟨1, 0, 0⟩ ∧ (⟨-1, 0, 0⟩ : V3) = (-1 : ℝ) • ⟨1, 0, 0⟩ := by
  refine ⟨by unfold OnPlane; norm_num, ?_⟩
  ext <;> simp only [smul_x, smul_y, smul_z] <;> norm_num

end Props
