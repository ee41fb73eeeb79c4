/- Property C290 of geom_utils.py: points moved a little give results that differ a little. -/
import Verif.Props.Geom2
import Mathlib.Tactic.Linarith

noncomputable section

namespace Props
open Py Geom

private theorem eTri (p q s : V3) : eDist p s ≤ eDist p q + eDist q s := by
  have h := (C128_metric p q s).2.2.2
  rwa [C128_value, C128_value, C128_value] at h

private theorem eSym (p q : V3) : eDist p q = eDist q p := by
  have h := (C128_metric p q q).2.2.1
  rwa [C128_value, C128_value] at h

/-- C290: the distance between two points changes by no more than the points are moved. -/
theorem C290_points (p q p' q' : V3) : |distBetPoints p q - distBetPoints p' q'| ≤ eDist p p' + eDist q q' := by
  rw [C128_value, C128_value, abs_le]
  have h1 := eTri p p' q
  have h2 := eTri p' q' q
  have h3 := eTri p' p q'
  have h4 := eTri p q q'
  rw [eSym q' q] at h2
  rw [eSym p' p] at h3
  constructor <;> linarith

example : |distBetPoints ⟨0, 0, 0⟩ ⟨5, 0, 0⟩ - distBetPoints ⟨0, 1, 0⟩ ⟨5, 0, 1⟩| ≤ eDist ⟨0, 0, 0⟩ ⟨0, 1, 0⟩ + eDist ⟨5, 0, 0⟩ ⟨5, 0, 1⟩ :=
  C290_points _ _ _ _

/-- C290: the point half way moves by no more than the mean of the two movements. -/
theorem C290_middle (p q p' q' : V3) :
    eDist (midpointBetPoints p q) (midpointBetPoints p' q') ≤ (eDist p p' + eDist q q') / 2 := by
  have t := eTri (midpointBetPoints p q) (midpointBetPoints p' q) (midpointBetPoints p' q')
  have half : ∀ a b c : V3, eDist (midpointBetPoints a c) (midpointBetPoints b c) = eDist a b / 2 := by
    intro a b c
    unfold eDist midpointBetPoints
    have : ∀ x : ℝ, 0 ≤ x → Real.sqrt x / 2 = Real.sqrt (x / 2 ^ 2) := by
      intro x hx
      rw [Real.sqrt_div hx, Real.sqrt_sq (by norm_num)]
    rw [this _ (by positivity)]
    congr 1
    simp only [divBy_x, divBy_y, divBy_z, add_x, add_y, add_z]; ring
  have c : ∀ a b : V3, midpointBetPoints a b = midpointBetPoints b a := fun a b => (C128_midpoint a b).2.2
  rw [half p p' q, c p' q, c p' q', half q q' p'] at t
  rw [c q' p'] at t
  linarith

example : eDist (midpointBetPoints ⟨0, 0, 0⟩ ⟨2, 0, 0⟩) (midpointBetPoints ⟨0, 1, 0⟩ ⟨2, 0, 0⟩) ≤
    (eDist ⟨0, 0, 0⟩ ⟨0, 1, 0⟩ + eDist ⟨2, 0, 0⟩ ⟨2, 0, 0⟩) / 2 := C290_middle _ _ _ _

private theorem plane_move (n p q : V3) :
    |(n.x * p.x + n.y * p.y + n.z * p.z) - (n.x * q.x + n.y * q.y + n.z * q.z)| ≤ eLen n * eDist p q := by
  have h := abs_dot_le n (p - q)
  have e : dot n (p - q) = (n.x * p.x + n.y * p.y + n.z * p.z) - (n.x * q.x + n.y * q.y + n.z * q.z) := by
    unfold dot; simp only [sub_x, sub_y, sub_z]; ring
  rw [e] at h
  exact h

private theorem eLen_pos {n : V3} (hn : n ≠ 0) : 0 < eLen n := norm_pos hn

/-- C290: the distance of a point from a plane changes by no more than the point is moved. -/
theorem C290_plane {n : V3} (hn : n ≠ 0) (d : ℝ) (p q : V3) :
    ∃ r s, distBetweenPointPlane n d p = .ok r ∧ distBetweenPointPlane n d q = .ok s ∧ |r - s| ≤ eDist p q := by
  refine ⟨_, _, C112_value hn d p, C112_value hn d q, ?_⟩
  have hp := eLen_pos hn
  rw [← sub_div, abs_div, abs_of_pos hp, div_le_iff₀ hp]
  have h := plane_move n q p
  rw [eSym q p] at h
  calc |d - (n.x * p.x + n.y * p.y + n.z * p.z) - (d - (n.x * q.x + n.y * q.y + n.z * q.z))|
      = |(n.x * q.x + n.y * q.y + n.z * q.z) - (n.x * p.x + n.y * p.y + n.z * p.z)| := by congr 1; ring
    _ ≤ eLen n * eDist p q := h
    _ = eDist p q * eLen n := mul_comm _ _

example : ∃ r s, distBetweenPointPlane ⟨0, 0, 2⟩ 8 ⟨0, 0, 0⟩ = .ok r ∧ distBetweenPointPlane ⟨0, 0, 2⟩ 8 ⟨0, 0, 1⟩ = .ok s ∧
    |r - s| ≤ eDist ⟨0, 0, 0⟩ ⟨0, 0, 1⟩ := C290_plane (by rw [ne_zero_iff]; norm_num) _ _ _

/-- C290: the distance from the plane is also the distance within which every point is on the same side. -/
theorem C290_sense_plane {n : V3} (hn : n ≠ 0) (d : ℝ) (p q : V3) {r : ℝ} (hr : distBetweenPointPlane n d p = .ok r)
    (h : eDist p q < |r|) : findSensePlane n d q = findSensePlane n d p := by
  rw [C112_value hn, Except.ok.injEq] at hr
  have hp := eLen_pos hn
  have hm := plane_move n p q
  subst hr
  rw [abs_div, abs_of_pos hp, lt_div_iff₀ hp] at h
  rw [mul_comm] at h
  have hlt := lt_of_le_of_lt hm h
  rcases lt_trichotomy (n.x * p.x + n.y * p.y + n.z * p.z - d) 0 with g | g | g
  · rw [(C124_plane hn d p 1).2 (Or.inr (Or.inl ⟨g, rfl⟩)), (C124_plane hn d q 1).2 (Or.inr (Or.inl ⟨?_, rfl⟩))]
    rw [abs_of_pos (by linarith : 0 < d - (n.x * p.x + n.y * p.y + n.z * p.z)), abs_lt] at hlt
    linarith [hlt.1]
  · exfalso
    rw [show d - (n.x * p.x + n.y * p.y + n.z * p.z) = 0 by linarith, abs_zero] at hlt
    exact absurd hlt (not_lt.2 (abs_nonneg _))
  · rw [(C124_plane hn d p (-1)).2 (Or.inl ⟨g, rfl⟩), (C124_plane hn d q (-1)).2 (Or.inl ⟨?_, rfl⟩)]
    rw [abs_of_neg (by linarith : d - (n.x * p.x + n.y * p.y + n.z * p.z) < 0), abs_lt] at hlt
    linarith [hlt.2]

/-- C290: and no greater distance will do: some point at exactly that distance is on the plane. -/
theorem C290_sense_plane_sharp {n : V3} (hn : n ≠ 0) (d : ℝ) (p : V3) {r : ℝ} (hr : distBetweenPointPlane n d p = .ok r) :
    ∃ q, eDist p q = |r| ∧ findSensePlane n d q = .ok 0 := by
  have hp := eLen_pos hn
  have hsq : eLen n ^ 2 = n.x ^ 2 + n.y ^ 2 + n.z ^ 2 := Real.sq_sqrt (by positivity)
  rw [C112_value hn, Except.ok.injEq] at hr
  have hrd : r * eLen n = d - (n.x * p.x + n.y * p.y + n.z * p.z) := by rw [← hr]; field_simp
  refine ⟨⟨p.x + r / eLen n * n.x, p.y + r / eLen n * n.y, p.z + r / eLen n * n.z⟩, ?_, ?_⟩
  · unfold eDist
    simp only
    rw [show (p.x - (p.x + r / eLen n * n.x)) ^ 2 + (p.y - (p.y + r / eLen n * n.y)) ^ 2 + (p.z - (p.z + r / eLen n * n.z)) ^ 2 = r ^ 2 from ?_,
      Real.sqrt_sq_eq_abs]
    calc _ = (r / eLen n) ^ 2 * (n.x ^ 2 + n.y ^ 2 + n.z ^ 2) := by ring
      _ = r ^ 2 := by rw [← hsq]; field_simp
  · rw [C124_plane hn]
    refine Or.inr (Or.inr ⟨?_, rfl⟩)
    simp only
    calc _ = (n.x * p.x + n.y * p.y + n.z * p.z) + r / eLen n * (n.x ^ 2 + n.y ^ 2 + n.z ^ 2) - d := by ring
      _ = (n.x * p.x + n.y * p.y + n.z * p.z) + r * eLen n - d := by rw [← hsq]; field_simp
      _ = 0 := by rw [hrd]; ring

example : ∃ r, distBetweenPointPlane ⟨0, 0, 2⟩ 8 ⟨0, 0, 0⟩ = .ok r ∧ ∃ q, eDist ⟨0, 0, 0⟩ q = |r| ∧ findSensePlane ⟨0, 0, 2⟩ 8 q = .ok 0 :=
  ⟨_, C112_value (by rw [ne_zero_iff]; norm_num) _ _, C290_sense_plane_sharp (by rw [ne_zero_iff]; norm_num) _ _ (C112_value (by rw [ne_zero_iff]; norm_num) _ _)⟩

example : findSensePlane ⟨0, 0, 1⟩ 8 ⟨0, 0, 1⟩ = findSensePlane ⟨0, 0, 1⟩ 8 ⟨0, 0, 0⟩ := by
  refine C290_sense_plane (by rw [ne_zero_iff]; norm_num) 8 ⟨0, 0, 0⟩ ⟨0, 0, 1⟩ (C112_value (by rw [ne_zero_iff]; norm_num) _ _) ?_
  have : eDist ⟨0, 0, 0⟩ ⟨0, 0, 1⟩ = 1 := by unfold eDist; norm_num
  have e : eLen ⟨0, 0, 1⟩ = 1 := by unfold eLen; norm_num
  rw [this, e]; norm_num

/-- C290: a point nearer to another than to a sphere is on the same side of the sphere. -/
theorem C290_sense_sphere {R : ℝ} (hR : 0 ≤ R) (c p q : V3) (h : eDist p q < |eDist p c - R|) :
    findSenseSphere q c R = findSenseSphere p c R := by
  have t1 := eTri p q c
  have t2 := eTri q p c
  rw [eSym q p] at t2
  rcases lt_trichotomy (eDist p c) R with g | g | g
  · rw [abs_of_neg (by linarith)] at h
    rw [(C124_sphere hR p c 1).2 (Or.inr (Or.inl ⟨g, rfl⟩)), (C124_sphere hR q c 1).2 (Or.inr (Or.inl ⟨by linarith, rfl⟩))]
  · exfalso
    rw [g, sub_self, abs_zero] at h
    exact absurd h (not_lt.2 (Real.sqrt_nonneg _))
  · rw [abs_of_pos (by linarith)] at h
    rw [(C124_sphere hR p c (-1)).2 (Or.inl ⟨g, rfl⟩), (C124_sphere hR q c (-1)).2 (Or.inl ⟨by linarith, rfl⟩)]

example : findSenseSphere ⟨1, 0, 0⟩ ⟨0, 0, 0⟩ 5 = findSenseSphere ⟨0, 0, 0⟩ ⟨0, 0, 0⟩ 5 := by
  refine C290_sense_sphere (by norm_num) _ _ _ ?_
  have : eDist ⟨0, 0, 0⟩ ⟨1, 0, 0⟩ = 1 := by unfold eDist; norm_num
  have e : eDist ⟨0, 0, 0⟩ ⟨0, 0, 0⟩ = 0 := by unfold eDist; norm_num
  rw [this, e]; norm_num

/-- C290: for legs that are not 0 the hypotenuse changes by no more than the legs do.  Missing: legs of length 0. -/
theorem C290_hypotenuse_partial {a b a' b' : ℝ} (ha : a ≠ 0) (hb : b ≠ 0) (ha' : a' ≠ 0) (hb' : b' ≠ 0) :
    |pythagH a b - pythagH a' b'| ≤ |a - a'| + |b - b'| := by
  have e : ∀ x y : ℝ, x ≠ 0 → y ≠ 0 → pythagH x y = eDist ⟨x, y, 0⟩ 0 := by
    intro x y hx hy
    unfold pythagH eDist
    rw [if_neg (by rintro (h | h); exacts [hx h, hy h])]
    congr 1; simp
  have m : eDist ⟨a, b, 0⟩ ⟨a', b', 0⟩ ≤ |a - a'| + |b - b'| := by
    unfold eDist
    apply Real.sqrt_le_iff.2
    refine ⟨by positivity, ?_⟩
    simp only
    nlinarith [sq_abs (a - a'), sq_abs (b - b'), mul_nonneg (abs_nonneg (a - a')) (abs_nonneg (b - b'))]
  rw [e a b ha hb, e a' b' ha' hb']
  refine le_trans ?_ m
  rw [abs_le]
  have t1 := eTri ⟨a, b, 0⟩ ⟨a', b', 0⟩ 0
  have t2 := eTri ⟨a', b', 0⟩ ⟨a, b, 0⟩ 0
  rw [eSym ⟨a', b', 0⟩ ⟨a, b, 0⟩] at t2
  constructor <;> linarith

example : |pythagH 3 4 - pythagH 3 5| ≤ |(3 : ℝ) - 3| + |(4 : ℝ) - 5| :=
  C290_hypotenuse_partial (by norm_num) (by norm_num) (by norm_num) (by norm_num)

/-- C290 is violated: however small a leg is, the hypotenuse jumps by at least the other leg when it becomes 0. -/
theorem C290_hypotenuse_violated (b : ℝ) (hb : b ≠ 0) (e : ℝ) (he : e ≠ 0) : |b| ≤ |pythagH e b - pythagH 0 b| := by
  have h0 : pythagH 0 b = 0 := if_pos (Or.inl rfl)
  have h1 : pythagH e b = Real.sqrt (e ^ 2 + b ^ 2) := if_neg (by rintro (h | h); exacts [he h, hb h])
  rw [h0, sub_zero, h1, abs_of_nonneg (Real.sqrt_nonneg _)]
  apply Real.le_sqrt_of_sq_le
  rw [sq_abs]; nlinarith [sq_nonneg e]

example : |(4 : ℝ)| ≤ |pythagH (1 / 1000) 4 - pythagH 0 4| := C290_hypotenuse_violated 4 (by norm_num) _ (by norm_num)

end Props
