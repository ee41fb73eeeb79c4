/-
C275, C276: planes written with other coefficients, and pairs of objects in the other order.
-/
import Verif.Props.Geom2
import Verif.Props.Geom3

noncomputable section
set_option linter.unusedSimpArgs false

namespace Props
open Py Geom

/-! ### C275 -/

/-- Two equations with the same points. -/
def SamePlane (n : V3) (d : ℝ) (n' : V3) (d' : ℝ) : Prop := ∀ p, OnPlane n d p ↔ OnPlane n' d' p

/-- Two normals that point to the same side of the plane. -/
def SameSide (n n' : V3) : Prop := 0 < n.x * n'.x + n.y * n'.y + n.z * n'.z

private theorem multiple {n n' : V3} {d d' : ℝ} (hn : n ≠ 0) (h : SamePlane n d n' d') : ∃ k : ℝ, n' = k • n ∧ d' = k * d := by
  have hs := sumsq_pos hn
  set s := n.x ^ 2 + n.y ^ 2 + n.z ^ 2 with hsd
  set k := (n.x * n'.x + n.y * n'.y + n.z * n'.z) / s with hk
  have hks : k * s = n.x * n'.x + n.y * n'.y + n.z * n'.z := by rw [hk]; field_simp
  set u : V3 := ⟨n'.x - k * n.x, n'.y - k * n.y, n'.z - k * n.z⟩ with hu
  clear_value k s
  have hun : n.x * u.x + n.y * u.y + n.z * u.z = 0 := by
    simp only [hu]; rw [hsd] at hks; linarith
  have h0 : OnPlane n d ((d / s) • n) := by
    unfold OnPlane; simp only [smul_x, smul_y, smul_z]
    have : d / s * s = d := by field_simp
    linear_combination this - d / s * hsd
  have h1 : OnPlane n d ((d / s) • n + u) := by
    unfold OnPlane at h0 ⊢; simp only [add_x, add_y, add_z]
    linear_combination h0 + hun
  have e0 := (h _).1 h0
  have e1 := (h _).1 h1
  unfold OnPlane at e0 e1
  simp only [add_x, add_y, add_z, smul_x, smul_y, smul_z] at e0 e1
  have hu2 : u.x ^ 2 + u.y ^ 2 + u.z ^ 2 = 0 := by
    have a : n'.x * u.x + n'.y * u.y + n'.z * u.z = 0 := by linear_combination e1 - e0
    have b : u.x ^ 2 + u.y ^ 2 + u.z ^ 2 = (n'.x * u.x + n'.y * u.y + n'.z * u.z) - k * (n.x * u.x + n.y * u.y + n.z * u.z) := by
      simp only [hu]; ring
    rw [b, a, hun]; ring
  have hx : u.x = 0 := by nlinarith [sq_nonneg u.x, sq_nonneg u.y, sq_nonneg u.z]
  have hy : u.y = 0 := by nlinarith [sq_nonneg u.x, sq_nonneg u.y, sq_nonneg u.z]
  have hz : u.z = 0 := by nlinarith [sq_nonneg u.x, sq_nonneg u.y, sq_nonneg u.z]
  have en : n' = k • n := by
    simp only [hu] at hx hy hz
    ext <;> simp only [smul_x, smul_y, smul_z] <;> linarith
  refine ⟨k, en, ?_⟩
  rw [← e0, en]
  simp only [smul_x, smul_y, smul_z]
  have : d / s * s = d := by field_simp
  linear_combination k * this - k * (d / s) * hsd

private theorem elen (a : V3) : eLen a = Geom.norm a := rfl

private theorem nsmul (k : ℝ) (n : V3) : Geom.norm (k • n) = |k| * Geom.norm n := by
  unfold Geom.norm
  rw [← Real.sqrt_sq_eq_abs, ← Real.sqrt_mul (sq_nonneg k)]
  congr 1; simp only [smul_x, smul_y, smul_z]; ring

private theorem mul_neg_iff_pos {k : ℝ} (hk : 0 < k) (v : ℝ) : k * v < 0 ↔ v < 0 := by
  constructor
  · intro h; by_contra hv; nlinarith [mul_nonneg hk.le (not_lt.1 hv)]
  · intro h; exact mul_neg_of_pos_of_neg hk h

private theorem side_iff {n : V3} (hn : n ≠ 0) (k : ℝ) : SameSide n (k • n) ↔ 0 < k := by
  have hs := sumsq_pos hn
  unfold SameSide
  simp only [smul_x, smul_y, smul_z]
  rw [show n.x * (k * n.x) + n.y * (k * n.y) + n.z * (k * n.z) = k * (n.x ^ 2 + n.y ^ 2 + n.z ^ 2) by ring]
  exact mul_pos_iff_of_pos_right hs

private theorem factor {n n' : V3} {d d' : ℝ} (hn : n ≠ 0) (hn' : n' ≠ 0) (h : SamePlane n d n' d') :
    ∃ k : ℝ, k ≠ 0 ∧ n' = k • n ∧ d' = k * d ∧ (SameSide n n' ↔ 0 < k) := by
  obtain ⟨k, rfl, rfl⟩ := multiple hn h
  refine ⟨k, ?_, rfl, rfl, side_iff hn k⟩
  rintro rfl
  apply hn'
  ext <;> simp only [smul_x, smul_y, smul_z, zero_mul] <;> rfl

private theorem smul_ne {n : V3} (hn : n ≠ 0) {k : ℝ} (hk : k ≠ 0) : k • n ≠ 0 := by
  rw [ne_zero_iff] at hn ⊢
  simpa only [smul_x, smul_y, smul_z, mul_eq_zero, hk, false_or] using hn

/-- The distance of a point is the same for all ways to write a plane with the normal to the same side, and changes its sign with the other
    normals; the same holds for the side on which the point is. -/
theorem C275_point_partial {n n' : V3} {d d' : ℝ} (p : V3) (hn : n ≠ 0) (hn' : n' ≠ 0) (h : SamePlane n d n' d') :
    (SameSide n n' → distBetweenPointPlane n' d' p = distBetweenPointPlane n d p ∧ findSensePlane n' d' p = findSensePlane n d p) ∧
    (¬ SameSide n n' → distBetweenPointPlane n' d' p = (distBetweenPointPlane n d p).map (fun r => -r) ∧
      findSensePlane n' d' p = (findSensePlane n d p).map (fun r => -r)) := by
  obtain ⟨k, hk, rfl, rfl, hs⟩ := factor hn hn' h
  have hp := norm_pos hn
  rw [hs, C112_value hn', C112_value hn]
  simp only [elen, nsmul, smul_x, smul_y, smul_z]
  constructor
  · intro h0
    refine ⟨?_, ?_⟩
    · rw [abs_of_pos h0]; congr 1; field_simp
    · unfold findSensePlane
      simp only [check_ok hn, check_ok hn', ex_ok_bind, ex_pure, evaluatePlaneEq]
      have e : dot (k • n) p - k * d = k * (dot n p - d) := by unfold dot; simp only [smul_x, smul_y, smul_z]; ring
      rw [e]; unfold sense
      simp only [gt_iff_lt, mul_pos_iff_of_pos_left h0, (mul_neg_iff_pos h0 (dot n p - d))]
  · intro h0
    have h1 : k < 0 := lt_of_le_of_ne (not_lt.1 h0) hk
    refine ⟨?_, ?_⟩
    · rw [abs_of_neg h1]; simp only [Except.map]; congr 1; field_simp
    · unfold findSensePlane
      simp only [check_ok hn, check_ok hn', ex_ok_bind, ex_pure, evaluatePlaneEq, Except.map]
      have e : dot (k • n) p - k * d = k * (dot n p - d) := by unfold dot; simp only [smul_x, smul_y, smul_z]; ring
      rw [e]; unfold sense
      generalize dot n p - d = v
      rcases lt_trichotomy v 0 with hv | hv | hv
      · have : 0 < k * v := mul_pos_of_neg_of_neg h1 hv
        simp [this, hv, hv.le, hv.not_gt]
      · subst hv; simp
      · have : k * v < 0 := mul_neg_of_neg_of_pos h1 hv
        simp [this, hv, this.not_gt]

private theorem circle_value {n p : V3} {d R : ℝ} (hn : n ≠ 0) (hR : 0 ≤ R) :
    planeSphereIntersect n d p R = if (d - dot n p) / Geom.norm n > R then .error .ValueError
      else .ok (npSqrt (R ^ 2 - ((d - dot n p) / Geom.norm n) ^ 2), p + (((d - dot n p) / Geom.norm n) • n).divBy (Geom.norm n)) := by
  unfold planeSphereIntersect
  have := C112_value hn d p
  rw [elen] at this
  simp only [check_ok hn, pos_ok hR, ex_ok_bind, this, ex_pure]
  rfl

/-- The circle in which a plane meets a sphere: the same for all ways to write the plane with the normal to the same side, and also for the
    others if plane and sphere do meet. -/
theorem C275_circle_partial {n n' : V3} {d d' : ℝ} (p : V3) (R : ℝ) (hn : n ≠ 0) (hn' : n' ≠ 0) (hR : 0 ≤ R) (h : SamePlane n d n' d')
    (hs : SameSide n n' ∨ ∃ q, OnPlane n d q ∧ eDist q p ≤ R) :
    planeSphereIntersect n' d' p R = planeSphereIntersect n d p R := by
  obtain ⟨k, hk, rfl, rfl, he⟩ := factor hn hn' h
  have hp := norm_pos hn
  rw [circle_value hn' hR, circle_value hn hR]
  have e : dot (k • n) p = k * dot n p := by unfold dot; simp only [smul_x, smul_y, smul_z]; ring
  rw [e, nsmul]
  by_cases h0 : 0 < k
  · have e1 : (k * d - k * dot n p) / (|k| * Geom.norm n) = (d - dot n p) / Geom.norm n := by rw [abs_of_pos h0]; field_simp
    rw [e1, abs_of_pos h0]
    have e2 : (((d - dot n p) / Geom.norm n) • k • n).divBy (k * Geom.norm n) = (((d - dot n p) / Geom.norm n) • n).divBy (Geom.norm n) := by
      ext <;> simp only [divBy_x, divBy_y, divBy_z, smul_x, smul_y, smul_z] <;> field_simp
    rw [e2]
  · obtain ⟨q, hq, hqR⟩ := hs.resolve_left (fun h => h0 (he.1 h))
    have h1 : k < 0 := lt_of_le_of_ne (not_lt.1 h0) hk
    obtain ⟨r, hr⟩ : ∃ r, distBetweenPointPlane n d p = .ok r := ⟨_, C112_value hn d p⟩
    have hmin : |(d - dot n p) / Geom.norm n| ≤ R := by
      have e3 : d - dot n p = dot n (q - p) := by
        unfold OnPlane at hq; unfold dot; simp only [sub_x, sub_y, sub_z]; linear_combination -hq
      rw [abs_div, abs_of_pos hp, div_le_iff₀ hp, e3]
      have := abs_dot_le n (q - p)
      have hd : eDist q p = Geom.norm (q - p) := rfl
      rw [hd] at hqR
      nlinarith
    have e1 : (k * d - k * dot n p) / (|k| * Geom.norm n) = -((d - dot n p) / Geom.norm n) := by rw [abs_of_neg h1]; field_simp
    rw [e1, abs_of_neg h1]
    generalize (d - dot n p) / Geom.norm n = c at hmin
    rw [if_neg (by linarith [neg_abs_le c]), if_neg (by linarith [le_abs_self c])]
    have e2 : (-c • k • n).divBy (-k * Geom.norm n) = (c • n).divBy (Geom.norm n) := by
      ext <;> simp only [divBy_x, divBy_y, divBy_z, smul_x, smul_y, smul_z] <;> field_simp
    rw [e2, neg_sq]

private theorem par_scale {a b : V3} (ha : a ≠ 0) (hb : b ≠ 0) {k m : ℝ} (hk : 0 < k) (hm : 0 < m) :
    checkParallelPlanes (k • a) (m • b) ↔ checkParallelPlanes a b := by
  unfold checkParallelPlanes
  have e : ∀ {c : V3} {j : ℝ}, c ≠ 0 → 0 < j → (j • c).divBy (Geom.norm (j • c)) = c.divBy (Geom.norm c) := by
    intro c j hc hj
    have := norm_pos hc
    rw [nsmul, abs_of_pos hj]
    ext <;> simp only [divBy_x, divBy_y, divBy_z, smul_x, smul_y, smul_z] <;> field_simp
  rw [e ha hk, e hb hm]

/-- The angle, the distance and the line of intersection of two planes, when each of them is written anew with the normal to the same side. -/
theorem C275_planes_partial {n1 n1' n2 n2' : V3} {d1 d1' d2 d2' : ℝ} (z : ℝ) (h1 : n1 ≠ 0) (h1' : n1' ≠ 0) (h2 : n2 ≠ 0) (h2' : n2' ≠ 0)
    (e1 : SamePlane n1 d1 n1' d1') (e2 : SamePlane n2 d2 n2' d2') (s1 : SameSide n1 n1') (s2 : SameSide n2 n2') :
    angleBetweenPlanes n1' n2' = angleBetweenPlanes n1 n2 ∧
    (distBetweenPlanes n1' d1' n2' d2').map (·.1) = (distBetweenPlanes n1 d1 n2 d2).map (·.1) ∧
    planePlaneIntersect n1' d1' n2' d2' z = planePlaneIntersect n1 d1 n2 d2 z := by
  obtain ⟨k, hk, rfl, rfl, he⟩ := factor h1 h1' e1
  obtain ⟨m, hm, rfl, rfl, hf⟩ := factor h2 h2' e2
  have k0 := he.1 s1
  have m0 := hf.1 s2
  have p1 := norm_pos h1
  have p2 := norm_pos h2
  have hpar := par_scale h1 h2 k0 m0
  refine ⟨?_, ?_, ?_⟩
  · unfold angleBetweenPlanes
    simp only [check_ok h1, check_ok h1', check_ok h2, check_ok h2', ex_ok_bind, ex_pure]
    by_cases hp : checkParallelPlanes n1 n2
    · rw [if_pos hp, if_pos (hpar.2 hp)]
    rw [if_neg hp, if_neg (fun h => hp (hpar.1 h))]
    congr 2
    have : dot (k • n1) (m • n2) = k * m * dot n1 n2 := by unfold dot; simp only [smul_x, smul_y, smul_z]; ring
    rw [this, nsmul, nsmul, Real.sqrt_sq_eq_abs, Real.sqrt_sq_eq_abs, abs_mul, abs_mul]
    have : |k| ≠ 0 := abs_ne_zero.2 hk
    have : |m| ≠ 0 := abs_ne_zero.2 hm
    field_simp
  · unfold distBetweenPlanes
    simp only [check_ok h1, check_ok h1', check_ok h2, check_ok h2', ex_ok_bind, ex_pure]
    by_cases hp : checkParallelPlanes n1 n2
    · rw [if_neg (not_not.2 hp), if_neg (not_not.2 (hpar.2 hp))]
      obtain ⟨j, hj, rfl⟩ := (parallel_iff h1 h2).1 hp
      by_cases hx : n2.x = 0
      · simp only [smul_x, hx, mul_zero, if_true]
      · simp only [smul_x, smul_y, smul_z, hx, mul_eq_zero, hm, or_self, Except.map]
        have r1 : k * (j * n2.x) / (m * n2.x) = k * j / m := by field_simp
        have r2 : j * n2.x / n2.x = j := by field_simp
        rw [r1, r2]
        have v1 : (⟨m * n2.x * (k * j / m), m * n2.y * (k * j / m), m * n2.z * (k * j / m)⟩ : V3) = k • (⟨n2.x * j, n2.y * j, n2.z * j⟩ : V3) := by
          ext <;> simp only [smul_x, smul_y, smul_z] <;> field_simp
        rw [v1, nsmul, abs_of_pos k0]
        have v2 : (⟨n2.x * j, n2.y * j, n2.z * j⟩ : V3) = j • n2 := by ext <;> simp only [smul_x, smul_y, smul_z] <;> ring
        rw [v2]
        simp only [if_false]
        congr 2
        field_simp
    · rw [if_pos hp, if_pos (fun h => hp (hpar.1 h))]; rfl
  · unfold planePlaneIntersect
    simp only [check_ok h1, check_ok h1', check_ok h2, check_ok h2', ex_ok_bind, ex_pure]
    by_cases hp : checkParallelPlanes n1 n2
    · rw [if_pos hp, if_pos (hpar.2 hp)]
    · rw [if_neg hp, if_neg (fun h => hp (hpar.1 h))]
      simp only [solve2, smul_x, smul_y, smul_z]
      have g : k * n1.x * (m * n2.y) - k * n1.y * (m * n2.x) = k * m * (n1.x * n2.y - n1.y * n2.x) := by ring
      rw [g]
      by_cases hd : n1.x * n2.y - n1.y * n2.x = 0
      · simp only [hd, mul_zero, if_true, ex_err_bind]
      · have : k * m * (n1.x * n2.y - n1.y * n2.x) ≠ 0 := mul_ne_zero (mul_ne_zero hk hm) hd
        rw [if_neg this, if_neg hd]
        simp only [ex_ok_bind]
        have hc : cross (k • n1) (m • n2) = (k * m) • cross n1 n2 := by
          ext <;> simp only [cross, smul_x, smul_y, smul_z] <;> ring
        have hc0 : cross n1 n2 ≠ 0 := fun h => hd (congrArg V3.z h)
        have hcp := norm_pos hc0
        rw [hc, nsmul, abs_of_pos (mul_pos k0 m0)]
        simp only [Except.ok.injEq, Prod.mk.injEq]
        refine ⟨?_, ?_⟩
        · ext <;> simp only
          · field_simp
          · field_simp
        · ext <;> simp only [divBy_x, divBy_y, divBy_z, smul_x, smul_y, smul_z] <;> field_simp

/-- Two planes that are not parallel and the second normal to the other side: the line is the same and runs the other way. -/
theorem C275_line_partial {n1 n2 n2' p q : V3} {d1 d2 d2' z : ℝ} (h2 : n2 ≠ 0) (h2' : n2' ≠ 0) (e2 : SamePlane n2 d2 n2' d2') (s2 : ¬ SameSide n2 n2')
    (h : planePlaneIntersect n1 d1 n2 d2 z = .ok (p, q)) : planePlaneIntersect n1 d1 n2' d2' z = .ok (p, (-1 : ℝ) • q) := by
  obtain ⟨m, hm, rfl, rfl, hf⟩ := factor h2 h2' e2
  rw [hf] at s2
  have m0 : m < 0 := lt_of_le_of_ne (not_lt.1 s2) hm
  by_cases h1 : n1 = 0
  · subst h1; unfold planePlaneIntersect at h; rw [check_zero] at h; cases h
  unfold planePlaneIntersect at h ⊢
  simp only [check_ok h1, check_ok h2, check_ok h2', ex_ok_bind, ex_pure] at h ⊢
  split at h
  · cases h
  · simp only [solve2] at h
    split at h
    · cases h
    · rename_i hd
      have hc0 : cross n1 n2 ≠ 0 := fun h => hd (congrArg V3.z h)
      have hcp := norm_pos hc0
      have hc : cross n1 (m • n2) = m • cross n1 n2 := by ext <;> simp only [cross, smul_x, smul_y, smul_z] <;> ring
      have np : ¬ checkParallelPlanes n1 (m • n2) := by
        rw [parallel_iff h1 h2']
        rintro ⟨j, _, rfl⟩
        apply hd; simp only [smul_x, smul_y]; ring
      have g : n1.x * (m * n2.y) - n1.y * (m * n2.x) = m * (n1.x * n2.y - n1.y * n2.x) := by ring
      rw [if_neg np]
      simp only [solve2, smul_x, smul_y, smul_z, g, if_neg (mul_ne_zero hm hd), ex_ok_bind, hc, nsmul, abs_of_neg m0]
      simp only [ex_ok_bind, Except.ok.injEq, Prod.mk.injEq] at h ⊢
      obtain ⟨rfl, rfl⟩ := h
      refine ⟨?_, ?_⟩
      · ext <;> simp only
        · field_simp
        · field_simp
      · ext <;> simp only [divBy_x, divBy_y, divBy_z, smul_x, smul_y, smul_z] <;> field_simp


/-- The same plane with the normal to the other side: between a plane and itself there is no angle in one case and the angle 0 in the other. -/
theorem C275_angle_violated {n : V3} (d : ℝ) (hn : n ≠ 0) :
    SamePlane n d ((-1 : ℝ) • n) (-d) ∧ angleBetweenPlanes n n = .error .ValueError ∧ angleBetweenPlanes ((-1 : ℝ) • n) n = .ok 0 := by
  have hn' : (-1 : ℝ) • n ≠ 0 := smul_ne hn (by norm_num)
  have hp := norm_pos hn
  refine ⟨?_, ?_, ?_⟩
  · intro p
    unfold OnPlane; simp only [smul_x, smul_y, smul_z]
    constructor <;> intro h <;> linarith
  · unfold angleBetweenPlanes
    simp only [check_ok hn, ex_ok_bind]
    exact if_pos rfl
  · unfold angleBetweenPlanes
    simp only [check_ok hn, check_ok hn', ex_ok_bind, ex_pure]
    have np : ¬ checkParallelPlanes ((-1 : ℝ) • n) n := by
      rw [parallel_iff hn' hn]
      rintro ⟨k, hk, he⟩
      have hx := congrArg V3.x he
      have hy := congrArg V3.y he
      have hz := congrArg V3.z he
      simp only [smul_x, smul_y, smul_z] at hx hy hz
      have f : ∀ a : ℝ, -1 * a = k * a → a = 0 := by
        intro a ha
        have : (k + 1) * a = 0 := by linarith
        exact (mul_eq_zero.1 this).resolve_left (by linarith)
      exact ne_zero_iff.1 hn ⟨f _ hx, f _ hy, f _ hz⟩
    rw [if_neg np, nsmul, Real.sqrt_sq_eq_abs]
    have e : dot ((-1 : ℝ) • n) n = -(Geom.norm n ^ 2) := by
      rw [norm_sq]; unfold dot; simp only [smul_x, smul_y, smul_z]; ring
    rw [e, abs_neg, abs_of_nonneg (sq_nonneg _), abs_neg, abs_one, one_mul, ← sq, div_self (by positivity), Real.arccos_one]

/-- Two parallel planes at a distance: 0 when the first one is written with the normal to the other side. -/
theorem C275_distance_violated {n : V3} {d e : ℝ} (hx : n.x ≠ 0) (hd : d ≠ e) :
    SamePlane n d ((-1 : ℝ) • n) (-d) ∧ ∃ r, r ≠ 0 ∧ (distBetweenPlanes n d n e).map (·.1) = .ok (some r) ∧
      (distBetweenPlanes ((-1 : ℝ) • n) (-d) n e).map (·.1) = .ok (some 0) := by
  have hn : n ≠ 0 := by rintro rfl; exact hx rfl
  have hn' : (-1 : ℝ) • n ≠ 0 := smul_ne hn (by norm_num)
  have hp := norm_pos hn
  refine ⟨(C275_angle_violated d hn).1, (e - d) / Geom.norm n, div_ne_zero (sub_ne_zero.2 hd.symm) hp.ne', ?_, ?_⟩
  · unfold distBetweenPlanes
    simp only [check_ok hn, ex_ok_bind, ex_pure]
    have hp : checkParallelPlanes n n := rfl
    rw [if_neg (not_not.2 hp), if_neg hx]
    simp only [div_self hx, mul_one, Except.map]
  · rw [(C114_opposite_violated hn' hn (by norm_num) rfl (-d) e).1]; rfl

/-- A plane that does not meet the sphere: ValueError with the normal to one side, a circle of radius NaN with the normal to the other. -/
theorem C275_circle_violated {n p : V3} {d R : ℝ} (hn : n ≠ 0) (hR : 0 ≤ R) (h : R < (d - (n.x * p.x + n.y * p.y + n.z * p.z)) / eLen n) :
    SamePlane n d ((-1 : ℝ) • n) (-d) ∧ planeSphereIntersect n d p R = .error .ValueError ∧
      ∃ c, planeSphereIntersect ((-1 : ℝ) • n) (-d) p R = .ok (none, c) := by
  have hn' : (-1 : ℝ) • n ≠ 0 := smul_ne hn (by norm_num)
  rw [elen] at h
  have e : (-d - dot ((-1 : ℝ) • n) p) / Geom.norm ((-1 : ℝ) • n) = -((d - dot n p) / Geom.norm n) := by
    rw [nsmul, abs_neg, abs_one, one_mul]; unfold dot; simp only [smul_x, smul_y, smul_z]; ring
  have h' : R < (d - dot n p) / Geom.norm n := h
  refine ⟨(C275_angle_violated d hn).1, ?_, ?_⟩
  · rw [circle_value hn hR, if_pos h']
  · rw [circle_value hn' hR, e]
    generalize (d - dot n p) / Geom.norm n = c at h'
    rw [if_neg (by linarith), neg_sq]
    have : R ^ 2 - c ^ 2 < 0 := by nlinarith
    exact ⟨_, by rw [npSqrt, if_pos this]⟩

/-- The point of a line segment: it depends on the factor, for all planes that do not contain the origin. -/
theorem C275_segment_violated {n p0 p1 : V3} {d k : ℝ} (hk : 0 < k) (h1 : k ≠ 1) (hd : d ≠ 0)
    (hs : (n.x * p0.x + n.y * p0.y + n.z * p0.z - d) * (n.x * p1.x + n.y * p1.y + n.z * p1.z - d) < 0) :
    SamePlane n d (k • n) (k * d) ∧ ∃ q q', lineSegmentPlaneIntersection p0 p1 n d = .ok q ∧
      lineSegmentPlaneIntersection p0 p1 (k • n) (k * d) = .ok q' ∧ q ≠ q' := by
  have hn : n ≠ 0 := by
    rintro rfl
    have z : ((0 : V3).x = 0 ∧ (0 : V3).y = 0 ∧ (0 : V3).z = 0) := ⟨rfl, rfl, rfl⟩
    rw [z.1, z.2.1, z.2.2] at hs; nlinarith [sq_nonneg d]
  have hn' := smul_ne hn hk.ne'
  refine ⟨?_, ?_⟩
  · intro p
    unfold OnPlane; simp only [smul_x, smul_y, smul_z]
    constructor
    · intro h; rw [← h]; ring
    · intro h; apply mul_left_cancel₀ hk.ne'; rw [← h]; ring
  · have a0 : dot p0 n = n.x * p0.x + n.y * p0.y + n.z * p0.z := by unfold dot; ring
    have a1 : dot p1 n = n.x * p1.x + n.y * p1.y + n.z * p1.z := by unfold dot; ring
    rw [← a0, ← a1] at hs
    have b : ∀ q, dot q (k • n) = k * dot q n := by intro q; unfold dot; simp only [smul_x, smul_y, smul_z]; ring
    have c : dot (p1 - p0) n = dot p1 n - dot p0 n := by unfold dot; simp only [sub_x, sub_y, sub_z]; ring
    have c0 : dot (p1 - p0) n ≠ 0 := by
      rw [c]; intro h
      have : dot p1 n = dot p0 n := by linarith
      rw [this] at hs; nlinarith [sq_nonneg (dot p0 n - d)]
    have hs' : (dot p0 (k • n) - k * d) * (dot p1 (k • n) - k * d) < 0 := by
      rw [b, b]
      have : (k * dot p0 n - k * d) * (k * dot p1 n - k * d) = k ^ 2 * ((dot p0 n - d) * (dot p1 n - d)) := by ring
      rw [this]; exact mul_neg_of_pos_of_neg (by positivity) hs
    refine ⟨_, _, by
      unfold lineSegmentPlaneIntersection
      simp only [check_ok hn, ex_ok_bind, ex_pure, if_neg c0, if_pos hs]
      rfl, by
      unfold lineSegmentPlaneIntersection
      simp only [check_ok hn', ex_ok_bind, ex_pure, if_pos hs']
      rw [if_neg (by rw [b]; exact mul_ne_zero hk.ne' c0)], ?_⟩
    intro h
    have e := congrArg (fun v => dot v n) h
    have lin : ∀ t : ℝ, dot (p0 + t • (p1 - p0)) n = dot p0 n + t * dot (p1 - p0) n := by
      intro t; unfold dot; simp only [add_x, add_y, add_z, smul_x, smul_y, smul_z]; ring
    simp only [lin, b] at e
    have e2 := mul_right_cancel₀ c0 (add_left_cancel e)
    rw [mul_div_mul_left _ _ hk.ne'] at e2
    have : (k - 1) * d = 0 := by linarith
    rcases mul_eq_zero.1 this with h | h
    · exact h1 (by linarith)
    · exact hd h

/-- The plane x + 2 y = 3 written as 2 x + 4 y = 6, and as - x - 2 y = - 3. -/
example : SamePlane ⟨1, 2, 0⟩ 3 ⟨2, 4, 0⟩ 6 ∧ SameSide ⟨1, 2, 0⟩ ⟨2, 4, 0⟩ ∧ SamePlane ⟨1, 2, 0⟩ 3 ⟨-1, -2, 0⟩ (-3) ∧
    ¬ SameSide ⟨1, 2, 0⟩ ⟨-1, -2, 0⟩ := by
  refine ⟨?_, ?_, ?_, ?_⟩
  · intro p; unfold OnPlane; constructor <;> intro h <;> simp only at h ⊢ <;> linarith
  · unfold SameSide; norm_num
  · intro p; unfold OnPlane; constructor <;> intro h <;> simp only at h ⊢ <;> linarith
  · unfold SameSide; norm_num

/-- The plane x = 3 and the sphere of radius 1 about the origin, the segment from the origin to (6, 0, 0). -/
example : (1 : ℝ) < (3 - ((1 : ℝ) * 0 + 0 * 0 + 0 * 0)) / eLen ⟨1, 0, 0⟩ ∧
    ((1 : ℝ) * 0 + 0 * 0 + 0 * 0 - 3) * ((1 : ℝ) * 6 + 0 * 0 + 0 * 0 - 3) < 0 := by
  constructor
  · unfold eLen; norm_num
  · norm_num

/-! ### C276 -/

/-- The order of two points, two lengths or two radii does not matter. -/
theorem C276_pairs_partial (p q : V3) (a b : ℝ × ℝ) (r s h : ℝ) :
    distBetPoints p q = distBetPoints q p ∧ midpointBetPoints p q = midpointBetPoints q p ∧
    coefficientsOfLineFromPoints a b = coefficientsOfLineFromPoints b a ∧ pythagH r s = pythagH s r ∧
    angleBetweenPlanes p q = angleBetweenPlanes q p ∧
    volumeSphericalShell r s = volumeSphericalShell s r ∧ areaCylShell r s = areaCylShell s r ∧ volumeCylShell r s h = volumeCylShell s r h := by
  have hcyl : areaCylShell r s = areaCylShell s r := by
    unfold areaCylShell areaCircle checkPositive
    by_cases hr : r < 0 <;> by_cases hs : s < 0 <;> simp [hr, hs, ex_ok_bind, ex_err_bind, ex_pure, abs_sub_comm]
  refine ⟨?_, ?_, ?_, ?_, C115_symmetric p q, ?_, hcyl, ?_⟩
  · unfold distBetPoints Geom.norm; congr 1; simp only [sub_x, sub_y, sub_z]; ring
  · unfold midpointBetPoints; congr 1; ext <;> simp only [add_x, add_y, add_z] <;> ring
  · unfold coefficientsOfLineFromPoints lstsq2
    by_cases hx : a.1 = b.1
    · rw [if_pos hx, if_pos hx.symm, hx, add_comm]
    · rw [if_neg hx, if_neg (Ne.symm hx)]
      have h1 : b.1 - a.1 ≠ 0 := sub_ne_zero.2 (Ne.symm hx)
      have h2 : a.1 - b.1 ≠ 0 := sub_ne_zero.2 hx
      have e : (a.2 - b.2) / (a.1 - b.1) = (b.2 - a.2) / (b.1 - a.1) := by
        rw [div_eq_div_iff h2 h1]; ring
      rw [e, Prod.mk.injEq]
      refine ⟨rfl, ?_⟩
      field_simp; ring
  · unfold pythagH; simp only [or_comm, add_comm]
  · unfold volumeSphericalShell volumeSphere checkPositive
    by_cases hr : r < 0 <;> by_cases hs : s < 0 <;> simp [hr, hs, ex_ok_bind, ex_err_bind, ex_pure, abs_sub_comm]
  · unfold volumeCylShell; rw [hcyl]

/-- The line of two planes is the same and runs the other way. -/
theorem C276_line_partial {n1 n2 p q : V3} {d1 d2 z : ℝ} (h : planePlaneIntersect n1 d1 n2 d2 z = .ok (p, q)) :
    planePlaneIntersect n2 d2 n1 d1 z = .ok (p, (-1 : ℝ) • q) := by
  by_cases h1 : n1 = 0
  · subst h1; unfold planePlaneIntersect at h; rw [check_zero] at h; cases h
  by_cases h2 : n2 = 0
  · subst h2; unfold planePlaneIntersect at h; rw [check_ok h1, check_zero] at h; cases h
  unfold planePlaneIntersect at h ⊢
  simp only [check_ok h1, check_ok h2, ex_ok_bind, ex_pure] at h ⊢
  split at h
  · cases h
  · rename_i hp
    simp only [solve2] at h
    split at h
    · cases h
    · rename_i hd
      have hc0 : cross n1 n2 ≠ 0 := fun h => hd (congrArg V3.z h)
      have hcp := norm_pos hc0
      have hc : cross n2 n1 = (-1 : ℝ) • cross n1 n2 := by ext <;> simp only [cross, smul_x, smul_y, smul_z] <;> ring
      have g : n2.x * n1.y - n2.y * n1.x = -(n1.x * n2.y - n1.y * n2.x) := by ring
      have hp' : ¬ checkParallelPlanes n2 n1 := fun h => hp (Eq.symm h)
      rw [if_neg hp']
      simp only [solve2, g, if_neg (neg_ne_zero.2 hd), ex_ok_bind, hc, nsmul, abs_neg, abs_one, one_mul]
      simp only [ex_ok_bind, Except.ok.injEq, Prod.mk.injEq] at h ⊢
      obtain ⟨rfl, rfl⟩ := h
      refine ⟨?_, ?_⟩
      · ext <;> simp only
        · rw [div_neg, ← neg_div]; congr 1; ring
        · rw [div_neg, ← neg_div]; congr 1; ring
      · ext <;> simp only [divBy_x, divBy_y, divBy_z, smul_x, smul_y, smul_z] <;> ring

/-- The distance of two planes changes its sign. -/
theorem C276_planes_violated {n1 n2 : V3} {d1 d2 r : ℝ} (hr : r ≠ 0) (h : (distBetweenPlanes n1 d1 n2 d2).map (·.1) = .ok (some r)) :
    (distBetweenPlanes n2 d2 n1 d1).map (·.1) = .ok (some (-r)) := by
  by_cases h1 : n1 = 0
  · subst h1; unfold distBetweenPlanes at h; rw [check_zero] at h; cases h
  by_cases h2 : n2 = 0
  · subst h2; unfold distBetweenPlanes at h; rw [check_ok h1, check_zero] at h; cases h
  have q1 := norm_pos h1
  have q2 := norm_pos h2
  unfold distBetweenPlanes at h ⊢
  simp only [check_ok h1, check_ok h2, ex_ok_bind, ex_pure] at h ⊢
  by_cases hp : checkParallelPlanes n1 n2
  · rw [if_neg (not_not.2 hp)] at h
    have hp' : checkParallelPlanes n2 n1 := Eq.symm hp
    rw [if_neg (not_not.2 hp')]
    obtain ⟨k, hk, rfl⟩ := (parallel_iff h1 h2).1 hp
    by_cases hx : n2.x = 0
    · rw [if_pos hx] at h; cases h
    · rw [if_neg hx] at h
      have hx1 : ¬ (k • n2).x = 0 := mul_ne_zero hk.ne' hx
      rw [if_neg hx1]
      simp only [Except.map, Except.ok.injEq, Option.some.injEq, smul_x, smul_y, smul_z] at h ⊢
      have r1 : k * n2.x / n2.x = k := by field_simp
      have r2 : n2.x / (k * n2.x) = 1 / k := by field_simp
      rw [r1] at h; rw [r2]
      have v1 : (⟨n2.x * k, n2.y * k, n2.z * k⟩ : V3) = k • n2 := by ext <;> simp only [smul_x, smul_y, smul_z] <;> ring
      have v2 : (⟨k * n2.x * (1 / k), k * n2.y * (1 / k), k * n2.z * (1 / k)⟩ : V3) = n2 := by ext <;> simp only <;> field_simp
      rw [v1, nsmul, abs_of_pos hk] at h
      rw [v2, ← h]
      field_simp; ring
  · rw [if_pos hp] at h
    simp only [Except.map, Except.ok.injEq, Option.some.injEq] at h
    exact absurd h.symm hr

/-- The point of a line segment is another one when the segment is given from its other end, for all planes that do not
    contain the origin. -/
theorem C276_segment_violated {n p0 p1 : V3} {d : ℝ}
    (hs : (n.x * p0.x + n.y * p0.y + n.z * p0.z - d) * (n.x * p1.x + n.y * p1.y + n.z * p1.z - d) < 0) (hd : d ≠ 0) :
    ∃ q q', lineSegmentPlaneIntersection p0 p1 n d = .ok q ∧ lineSegmentPlaneIntersection p1 p0 n d = .ok q' ∧ q ≠ q' := by
  have hn : n ≠ 0 := by
    rintro rfl
    have z : ((0 : V3).x = 0 ∧ (0 : V3).y = 0 ∧ (0 : V3).z = 0) := ⟨rfl, rfl, rfl⟩
    rw [z.1, z.2.1, z.2.2] at hs; nlinarith [sq_nonneg d]
  have a0 : dot p0 n = n.x * p0.x + n.y * p0.y + n.z * p0.z := by unfold dot; ring
  have a1 : dot p1 n = n.x * p1.x + n.y * p1.y + n.z * p1.z := by unfold dot; ring
  rw [← a0, ← a1] at hs
  have c : dot (p1 - p0) n = dot p1 n - dot p0 n := by unfold dot; simp only [sub_x, sub_y, sub_z]; ring
  have c' : dot (p0 - p1) n = -dot (p1 - p0) n := by unfold dot; simp only [sub_x, sub_y, sub_z]; ring
  have c0 : dot (p1 - p0) n ≠ 0 := by
    rw [c]; intro h
    have : dot p1 n = dot p0 n := by linarith
    rw [this] at hs; nlinarith [sq_nonneg (dot p0 n - d)]
  refine ⟨_, _, by
    unfold lineSegmentPlaneIntersection
    simp only [check_ok hn, ex_ok_bind, ex_pure, if_neg c0, if_pos hs]
    rfl, by
    unfold lineSegmentPlaneIntersection
    simp only [check_ok hn, ex_ok_bind, ex_pure]
    rw [if_neg (by rw [c']; exact neg_ne_zero.2 c0), if_pos (by linarith)], ?_⟩
  intro h
  have e := congrArg (fun v => dot v n) h
  have lin : ∀ (t : ℝ) (a b : V3), dot (a + t • b) n = dot a n + t * dot b n := by
    intro t a b; unfold dot; simp only [add_x, add_y, add_z, smul_x, smul_y, smul_z]; ring
  simp only [lin, c'] at e
  have h0 : dot p0 n / dot (p1 - p0) n * dot (p1 - p0) n = dot p0 n := by field_simp
  have h1 : dot p1 n / -dot (p1 - p0) n * -dot (p1 - p0) n = dot p1 n := by field_simp
  have e2 : 2 * d * dot (p1 - p0) n = dot p1 n - dot p0 n + (dot p0 n - dot p1 n) := by linarith
  have : d * dot (p1 - p0) n = 0 := by linarith
  exact (mul_ne_zero hd c0) this

/-- The planes x = 0 and x = 1, and the planes x = 2 and y = 3. -/
example : (distBetweenPlanes ⟨1, 0, 0⟩ 0 ⟨1, 0, 0⟩ 1).map (·.1) = .ok (some 1) ∧
    ∃ p q, planePlaneIntersect ⟨1, 0, 0⟩ 2 ⟨0, 1, 0⟩ 3 0 = .ok (p, q) := by
  have hn : (⟨1, 0, 0⟩ : V3) ≠ 0 := by rw [ne_zero_iff]; simp
  constructor
  · have hp : checkParallelPlanes ⟨1, 0, 0⟩ ⟨1, 0, 0⟩ := rfl
    unfold distBetweenPlanes
    simp only [check_ok hn, ex_ok_bind, ex_pure]
    rw [if_neg (not_not.2 hp), if_neg one_ne_zero]
    simp [Except.map, Geom.norm]
  · obtain ⟨p, q, h, _⟩ := C117_line_partial (n1 := ⟨1, 0, 0⟩) (n2 := ⟨0, 1, 0⟩) (d1 := 2) (d2 := 3) (z := 0) (by norm_num)
    exact ⟨p, q, h⟩

end Props
