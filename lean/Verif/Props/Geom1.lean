/- Properties C112-C117 of geom_utils.py: planes and spheres. -/
import Verif.Proofs.Geom

noncomputable section
set_option linter.unusedSimpArgs false

namespace Props
open Py Geom

/-- The point `p` lies on the plane `n . p = d`. -/
def OnPlane (n : V3) (d : ℝ) (p : V3) : Prop := n.x * p.x + n.y * p.y + n.z * p.z = d

/-- Euclidean distance. -/
def eDist (p q : V3) : ℝ := Real.sqrt ((p.x - q.x) ^ 2 + (p.y - q.y) ^ 2 + (p.z - q.z) ^ 2)

/-- Length of a vector. -/
def eLen (p : V3) : ℝ := Real.sqrt (p.x ^ 2 + p.y ^ 2 + p.z ^ 2)

private theorem eLen_norm (p : V3) : eLen p = norm p := rfl

private theorem eDist_norm (p q : V3) : eDist p q = norm (p - q) := rfl

/-! ### C112 -/

theorem C112_value {n : V3} (hn : n ≠ 0) (d : ℝ) (p : V3) :
    distBetweenPointPlane n d p = .ok ((d - (n.x * p.x + n.y * p.y + n.z * p.z)) / eLen n) := by
  have hp := norm_pos hn
  unfold distBetweenPointPlane
  simp only [check_ok hn, ex_ok_bind, ex_pure]
  by_cases h : dot n p = d
  · rw [if_pos h]
    unfold dot at h
    rw [h]; simp
  · rw [if_neg h]
    congr 1
    have key : ∀ q : V3, dot n q = d → dot (q - p) n / norm n = (d - (n.x * p.x + n.y * p.y + n.z * p.z)) / eLen n := by
      intro q hq
      rw [eLen_norm]
      congr 1
      unfold dot at hq ⊢
      simp only [sub_x, sub_y, sub_z]
      linarith
    by_cases hx : n.x ≠ 0
    · rw [if_pos hx]
      apply key
      simp only [dot, mul_zero, add_zero]
      field_simp
    · rw [if_neg hx]
      by_cases hy : n.y ≠ 0
      · rw [if_pos hy]
        apply key
        simp only [dot, mul_zero, add_zero, zero_add]
        field_simp
      · rw [if_neg hy]
        by_cases hz : n.z ≠ 0
        · rw [if_pos hz]
          apply key
          simp only [dot, mul_zero, add_zero, zero_add]
          field_simp
        · exfalso
          push Not at hx hy hz
          exact ne_zero_iff.1 hn ⟨hx, hy, hz⟩

theorem C112_zero_normal (d : ℝ) (p : V3) : distBetweenPointPlane 0 d p = .error .ValueError := by
  unfold distBetweenPointPlane
  rw [check_zero]; rfl

/-- The absolute value is the least distance from `p` to a point of the plane. -/
theorem C112_minimal {n : V3} {d r : ℝ} {p : V3} (hn : n ≠ 0) (h : distBetweenPointPlane n d p = .ok r) :
    (∀ q, OnPlane n d q → |r| ≤ eDist q p) ∧ ∃ q, OnPlane n d q ∧ eDist q p = |r| := by
  have hp := norm_pos hn
  rw [C112_value hn, Except.ok.injEq, eLen_norm] at h
  constructor
  · intro q hq
    have h1 : r * norm n = dot n (q - p) := by
      rw [← h, div_mul_cancel₀ _ hp.ne', ← hq]
      simp only [dot, sub_x, sub_y, sub_z]; ring
    have h2 := abs_dot_le n (q - p)
    rw [← h1, abs_mul, abs_of_pos hp, mul_comm] at h2
    rw [eDist_norm]
    exact le_of_mul_le_mul_left h2 hp
  · refine ⟨p + (r / norm n) • n, ?_, ?_⟩
    · unfold OnPlane
      have h2 := norm_sq n
      have h3 : r / norm n * (norm n ^ 2) = d - (n.x * p.x + n.y * p.y + n.z * p.z) := by
        rw [← h]; field_simp
      simp only [add_x, add_y, add_z, smul_x, smul_y, smul_z]
      rw [h2] at h3
      linarith
    · rw [eDist_norm]
      apply norm_of_sq (abs_nonneg r)
      rw [sq_abs]
      simp only [sub_x, sub_y, sub_z, add_x, add_y, add_z, smul_x, smul_y, smul_z]
      have h2 := norm_sq n
      have : (p.x + r / norm n * n.x - p.x) ^ 2 + (p.y + r / norm n * n.y - p.y) ^ 2 + (p.z + r / norm n * n.z - p.z) ^ 2 =
          (r / norm n) ^ 2 * (n.x ^ 2 + n.y ^ 2 + n.z ^ 2) := by ring
      rw [this, ← h2, ← mul_pow, div_mul_cancel₀ _ hp.ne']

theorem C112_zero_iff {n : V3} {d r : ℝ} {p : V3} (hn : n ≠ 0) (h : distBetweenPointPlane n d p = .ok r) : r = 0 ↔ OnPlane n d p := by
  have hp := norm_pos hn
  rw [C112_value hn, Except.ok.injEq, eLen_norm] at h
  unfold OnPlane
  rw [← h, div_eq_zero_iff]
  constructor
  · rintro (h | h)
    · linarith
    · exact absurd h hp.ne'
  · intro h; left; linarith

theorem C112_scale {n : V3} (hn : n ≠ 0) (d : ℝ) (p : V3) {k : ℝ} (hk : 0 < k) :
    distBetweenPointPlane (k • n) (k * d) p = distBetweenPointPlane n d p := by
  have hkn : k • n ≠ 0 := by
    intro h
    apply ne_zero_iff.1 hn
    have hx := congrArg V3.x h
    have hy := congrArg V3.y h
    have hz := congrArg V3.z h
    simp only [smul_x, smul_y, smul_z, zero_x, zero_y, zero_z, mul_eq_zero, hk.ne', false_or] at hx hy hz
    exact ⟨hx, hy, hz⟩
  have hl : eLen (k • n) = k * eLen n := by
    rw [eLen_norm, eLen_norm]
    apply norm_of_sq (mul_nonneg hk.le (norm_nonneg n))
    rw [mul_pow, norm_sq]
    simp only [smul_x, smul_y, smul_z]; ring
  rw [C112_value hkn, C112_value hn, hl]
  congr 1
  have hp := norm_pos hn
  rw [← eLen_norm] at hp
  simp only [smul_x, smul_y, smul_z]
  field_simp

example : distBetweenPointPlane ⟨0, 0, 2⟩ 6 ⟨1, 1, 1⟩ = .ok 2 := by
  rw [C112_value (by rw [ne_zero_iff]; norm_num)]
  have : eLen ⟨0, 0, 2⟩ = 2 := by rw [eLen_norm]; apply norm_of_sq <;> norm_num
  rw [this]; norm_num

/-! ### C113 -/

/-- The end points are strictly on different sides. -/
def Separated (n : V3) (d : ℝ) (p q : V3) : Prop :=
  (n.x * p.x + n.y * p.y + n.z * p.z < d ∧ d < n.x * q.x + n.y * q.y + n.z * q.z) ∨
  (n.x * q.x + n.y * q.y + n.z * q.z < d ∧ d < n.x * p.x + n.y * p.y + n.z * p.z)

private theorem separated_iff {n : V3} {d : ℝ} {p q : V3} : Separated n d p q ↔ (dot p n - d) * (dot q n - d) < 0 := by
  unfold Separated
  rw [mul_neg_iff]
  simp only [dot, sub_pos, sub_neg, mul_comm p.x, mul_comm p.y, mul_comm p.z, mul_comm q.x, mul_comm q.y, mul_comm q.z]
  tauto

private theorem separated_ne {n : V3} {d : ℝ} {p q : V3} (h : Separated n d p q) : n ≠ 0 ∧ dot (q - p) n ≠ 0 := by
  have hs : dot (q - p) n = (n.x * q.x + n.y * q.y + n.z * q.z) - (n.x * p.x + n.y * p.y + n.z * p.z) := by
    simp only [dot, sub_x, sub_y, sub_z]; ring
  have h2 : dot (q - p) n ≠ 0 := by
    rw [hs]
    rcases h with h | h
    · have := h.1.trans h.2; intro h0; linarith
    · have := h.1.trans h.2; intro h0; linarith
  refine ⟨?_, h2⟩
  rintro rfl
  apply h2
  simp [dot]

/-- A point is returned exactly when the end points are strictly on different sides; otherwise ValueError. -/
theorem C113_defined (p0 p1 n : V3) (d : ℝ) :
    (Separated n d p0 p1 → ∃ q, lineSegmentPlaneIntersection p0 p1 n d = .ok q) ∧
    (¬ Separated n d p0 p1 → lineSegmentPlaneIntersection p0 p1 n d = .error .ValueError) := by
  constructor
  · intro h
    obtain ⟨hn, hs⟩ := separated_ne h
    unfold lineSegmentPlaneIntersection
    simp only [check_ok hn, ex_ok_bind, if_neg hs, if_pos (separated_iff.1 h), ex_pure]
    exact ⟨_, rfl⟩
  · intro h
    unfold lineSegmentPlaneIntersection
    by_cases hn : n = 0
    · subst hn; rw [check_zero]; rfl
    · simp only [check_ok hn, ex_ok_bind]
      split
      · rfl
      · rw [if_neg (fun h' => h (separated_iff.2 h'))]

private theorem segment_value {p0 p1 n : V3} {d : ℝ} (h : Separated n d p0 p1) :
    lineSegmentPlaneIntersection p0 p1 n d = .ok (p0 + (d - dot p0 n / dot (p1 - p0) n) • (p1 - p0)) := by
  obtain ⟨hn, hs⟩ := separated_ne h
  unfold lineSegmentPlaneIntersection
  simp only [check_ok hn, ex_ok_bind, if_neg hs, if_pos (separated_iff.1 h), ex_pure]

/-- The returned point is on the plane only if `d` is 0 or the segment happens to advance by exactly 1 along the normal: in line 142
    only the second term is divided. -/
theorem C113_not_on_plane_violated {p0 p1 n q : V3} {d : ℝ} (hs : Separated n d p0 p1) (h : lineSegmentPlaneIntersection p0 p1 n d = .ok q) :
    OnPlane n d q ↔ d = 0 ∨ n.x * (p1.x - p0.x) + n.y * (p1.y - p0.y) + n.z * (p1.z - p0.z) = 1 := by
  obtain ⟨hn, hne⟩ := separated_ne hs
  rw [segment_value hs, Except.ok.injEq] at h
  have hd : dot (p1 - p0) n = n.x * (p1.x - p0.x) + n.y * (p1.y - p0.y) + n.z * (p1.z - p0.z) := by
    simp only [dot, sub_x, sub_y, sub_z]; ring
  have hq : n.x * q.x + n.y * q.y + n.z * q.z = d * dot (p1 - p0) n := by
    rw [← h]
    simp only [add_x, add_y, add_z, smul_x, smul_y, smul_z, sub_x, sub_y, sub_z]
    have : n.x * (p0.x + (d - dot p0 n / dot (p1 - p0) n) * (p1.x - p0.x)) + n.y * (p0.y + (d - dot p0 n / dot (p1 - p0) n) * (p1.y - p0.y)) +
        n.z * (p0.z + (d - dot p0 n / dot (p1 - p0) n) * (p1.z - p0.z)) = dot p0 n + (d - dot p0 n / dot (p1 - p0) n) * dot (p1 - p0) n := by
      rw [hd]; simp only [dot]; ring
    rw [this, sub_mul, div_mul_cancel₀ _ hne]; ring
  unfold OnPlane
  rw [hq, ← hd]
  constructor
  · intro h
    have : d * (dot (p1 - p0) n - 1) = 0 := by linarith
    rcases mul_eq_zero.1 this with h | h
    · exact Or.inl h
    · right; linarith
  · rintro (rfl | h)
    · ring
    · rw [h]; ring

/-- Planes through the origin: the point is on the plane and strictly between the end points. -/
theorem C113_origin_partial {p0 p1 n q : V3} (hs : Separated n 0 p0 p1) (h : lineSegmentPlaneIntersection p0 p1 n 0 = .ok q) :
    OnPlane n 0 q ∧ ∃ t : ℝ, 0 < t ∧ t < 1 ∧ q.x = p0.x + t * (p1.x - p0.x) ∧ q.y = p0.y + t * (p1.y - p0.y) ∧ q.z = p0.z + t * (p1.z - p0.z) := by
  refine ⟨(C113_not_on_plane_violated hs h).2 (Or.inl rfl), ?_⟩
  obtain ⟨hn, hne⟩ := separated_ne hs
  rw [segment_value hs, Except.ok.injEq] at h
  subst h
  refine ⟨0 - dot p0 n / dot (p1 - p0) n, ?_, ?_, rfl, rfl, rfl⟩
  · have hd : dot (p1 - p0) n = dot p1 n - dot p0 n := by simp only [dot, sub_x, sub_y, sub_z]; ring
    rw [zero_sub, neg_pos, hd, div_neg_iff]
    have := separated_iff.1 hs
    rw [mul_neg_iff] at this
    rcases this with h | h
    · left; constructor <;> linarith
    · right; constructor <;> linarith
  · have hd : dot (p1 - p0) n = dot p1 n - dot p0 n := by simp only [dot, sub_x, sub_y, sub_z]; ring
    have h1 : 1 - (0 - dot p0 n / dot (p1 - p0) n) = dot p1 n / dot (p1 - p0) n := by
      rw [eq_div_iff hne, sub_mul, sub_mul, div_mul_cancel₀ _ hne, hd]; ring
    have h2 : 0 < dot p1 n / dot (p1 - p0) n := by
      rw [hd, div_pos_iff]
      have := separated_iff.1 hs
      rw [mul_neg_iff] at this
      rcases this with h | h
      · right; constructor <;> linarith
      · left; constructor <;> linarith
    linarith

/-- The segment from the origin to (0, 0, 4) and the plane z = 2: the returned point is (0, 0, 8). -/
example : lineSegmentPlaneIntersection ⟨0, 0, 0⟩ ⟨0, 0, 4⟩ ⟨0, 0, 1⟩ 2 = .ok ⟨0, 0, 8⟩ := by
  rw [segment_value (by left; norm_num)]
  congr 1
  ext <;> simp [dot]; norm_num

/-! ### C114 -/

/-- The signed distance from plane 1 to plane 2 along the normal of plane 1: where the normal through a point of plane 1 meets
    plane 2. -/
def SignedDist (n1 : V3) (d1 : ℝ) (n2 : V3) (d2 r : ℝ) : Prop :=
  ∀ p, OnPlane n1 d1 p → OnPlane n2 d2 ⟨p.x + r * (n1.x / eLen n1), p.y + r * (n1.y / eLen n1), p.z + r * (n1.z / eLen n1)⟩

private theorem dist_parallel {n1 n2 : V3} {k d1 d2 : ℝ} (h1 : n1 ≠ 0) (h2 : n2 ≠ 0) (hk : 0 < k) (he : n1 = k • n2) (hx : n2.x ≠ 0) :
    distBetweenPlanes n1 d1 n2 d2 = .ok (some ((d2 * k - d1) / norm n1), some n1) := by
  have hpar : checkParallelPlanes n1 n2 := (parallel_iff h1 h2).2 ⟨k, hk, he⟩
  have hr : n1.x / n2.x = k := by rw [he]; simp only [smul_x]; field_simp
  have hv : (⟨n2.x * k, n2.y * k, n2.z * k⟩ : V3) = n1 := by
    rw [he]; ext <;> simp only [smul_x, smul_y, smul_z] <;> ring
  unfold distBetweenPlanes
  simp only [check_ok h1, check_ok h2, ex_ok_bind, ex_pure, not_true, if_false, hpar, if_neg hx, hr, hv]

/-- Parallel planes whose normals have the same direction and a non-zero first component: the signed distance from the first to the
    second. -/
theorem C114_distance_partial {n1 n2 : V3} {k d1 d2 : ℝ} (h2 : n2 ≠ 0) (hk : 0 < k) (he : n1 = k • n2) (hx : n2.x ≠ 0) :
    ∃ r v, distBetweenPlanes n1 d1 n2 d2 = .ok (some r, v) ∧ SignedDist n1 d1 n2 d2 r := by
  have h1 : n1 ≠ 0 := by
    rw [ne_zero_iff, he]
    intro h
    simp only [smul_x, mul_eq_zero, hk.ne', hx, or_self, false_and] at h
  refine ⟨_, _, dist_parallel h1 h2 hk he hx, ?_⟩
  intro p hp
  have hl := norm_pos h1
  unfold OnPlane at hp ⊢
  rw [eLen_norm]
  have hs := norm_sq n1
  simp only
  have e1 : n2.x = n1.x / k := by rw [he]; simp only [smul_x]; field_simp
  have e2 : n2.y = n1.y / k := by rw [he]; simp only [smul_y]; field_simp
  have e3 : n2.z = n1.z / k := by rw [he]; simp only [smul_z]; field_simp
  rw [e1, e2, e3]
  field_simp
  linear_combination (norm n1 ^ 2) * hp - (d2 * k - d1) * hs

/-- Planes that are not parallel: 0, arguments unchanged. -/
theorem C114_intersecting {n1 n2 : V3} (h1 : n1 ≠ 0) (h2 : n2 ≠ 0) (d1 d2 : ℝ) (h : ¬ ∃ k : ℝ, n1 = k • n2) :
    distBetweenPlanes n1 d1 n2 d2 = .ok (some 0, some n2) := by
  have : ¬ checkParallelPlanes n1 n2 := by
    rw [parallel_iff h1 h2]
    rintro ⟨k, _, hk⟩; exact h ⟨k, hk⟩
  unfold distBetweenPlanes
  simp only [check_ok h1, check_ok h2, ex_ok_bind, ex_pure, this, not_false_iff, if_true]

/-- Two parallel planes whose normals have first component 0: NaN, and the second normal is overwritten by NaN. -/
theorem C114_first_component_violated {n1 n2 : V3} {k : ℝ} (h1 : n1 ≠ 0) (h2 : n2 ≠ 0) (hk : 0 < k) (he : n1 = k • n2) (hx : n2.x = 0)
    (d1 d2 : ℝ) : distBetweenPlanes n1 d1 n2 d2 = .ok (none, none) := by
  have hpar : checkParallelPlanes n1 n2 := (parallel_iff h1 h2).2 ⟨k, hk, he⟩
  unfold distBetweenPlanes
  simp only [check_ok h1, check_ok h2, ex_ok_bind, ex_pure, not_true, if_false, hpar, hx, if_true]

/-- Parallel planes written with opposite normals count as intersecting: 0, although for `d2 * k ≠ d1` they have no common point. -/
theorem C114_opposite_violated {n1 n2 : V3} {k : ℝ} (h1 : n1 ≠ 0) (h2 : n2 ≠ 0) (hk : k < 0) (he : n1 = k • n2) (d1 d2 : ℝ) :
    distBetweenPlanes n1 d1 n2 d2 = .ok (some 0, some n2) ∧ (d2 * k ≠ d1 → ¬ ∃ p, OnPlane n1 d1 p ∧ OnPlane n2 d2 p) := by
  constructor
  · have : ¬ checkParallelPlanes n1 n2 := by
      rw [parallel_iff h1 h2]
      rintro ⟨m, hm, hk'⟩
      rw [he] at hk'
      apply ne_zero_iff.1 h2
      have hx := congrArg V3.x hk'
      have hy := congrArg V3.y hk'
      have hz := congrArg V3.z hk'
      simp only [smul_x, smul_y, smul_z] at hx hy hz
      have hkm : k - m ≠ 0 := by intro h; linarith
      have f : ∀ a : ℝ, k * a = m * a → a = 0 := by
        intro a ha
        have : (k - m) * a = 0 := by linarith
        exact (mul_eq_zero.1 this).resolve_left hkm
      exact ⟨f _ hx, f _ hy, f _ hz⟩
    unfold distBetweenPlanes
    simp only [check_ok h1, check_ok h2, ex_ok_bind, ex_pure, this, not_false_iff, if_true]
  · rintro hne ⟨p, hp1, hp2⟩
    unfold OnPlane at hp1 hp2
    rw [he] at hp1
    simp only [smul_x, smul_y, smul_z] at hp1
    apply hne
    rw [← hp1, ← hp2]; ring

/-- The normal of the second plane is overwritten by the first one. -/
theorem C114_argument_violated {n1 n2 : V3} {k d1 d2 : ℝ} (h1 : n1 ≠ 0) (h2 : n2 ≠ 0) (hk : 0 < k) (hk1 : k ≠ 1) (he : n1 = k • n2) (hx : n2.x ≠ 0) :
    ∃ r v, distBetweenPlanes n1 d1 n2 d2 = .ok (r, some v) ∧ v ≠ n2 := by
  refine ⟨_, _, dist_parallel h1 h2 hk he hx, ?_⟩
  intro h
  have := congrArg V3.x (he.symm.trans h)
  simp only [smul_x] at this
  have h3 : (k - 1) * n2.x = 0 := by linarith
  rcases mul_eq_zero.1 h3 with h | h
  · exact hk1 (by linarith)
  · exact hx h

example : (⟨2, 0, 0⟩ : V3) = (2 : ℝ) • (⟨1, 0, 0⟩ : V3) := by ext <;> simp

/-! ### C115 -/

private theorem angle_value {n1 n2 : V3} {θ : ℝ} (h : angleBetweenPlanes n1 n2 = .ok θ) :
    n1 ≠ 0 ∧ n2 ≠ 0 ∧ ¬ checkParallelPlanes n1 n2 ∧ θ = Real.arccos (|dot n1 n2| / (norm n1 * norm n2)) := by
  have h1 : n1 ≠ 0 := by rintro rfl; unfold angleBetweenPlanes at h; rw [check_zero] at h; cases h
  have h2 : n2 ≠ 0 := by
    rintro rfl
    unfold angleBetweenPlanes at h
    simp only [check_ok h1, check_zero, ex_ok_bind] at h
    cases h
  unfold angleBetweenPlanes at h
  simp only [check_ok h1, check_ok h2, ex_ok_bind, ex_pure] at h
  split at h
  · cases h
  · rename_i hp
    rw [Except.ok.injEq, Real.sqrt_sq_eq_abs] at h
    exact ⟨h1, h2, hp, h.symm⟩

private theorem angle_of {n1 n2 : V3} (h1 : n1 ≠ 0) (h2 : n2 ≠ 0) (h : ¬ checkParallelPlanes n1 n2) :
    angleBetweenPlanes n1 n2 = .ok (Real.arccos (|dot n1 n2| / (norm n1 * norm n2))) := by
  unfold angleBetweenPlanes
  simp only [check_ok h1, check_ok h2, ex_ok_bind, ex_pure]
  rw [if_neg h, Real.sqrt_sq_eq_abs]

/-- An angle is returned for all pairs of non-zero normals but those of the same direction. -/
theorem C115_defined {n1 n2 : V3} (h1 : n1 ≠ 0) (h2 : n2 ≠ 0) :
    ((∃ k : ℝ, 0 < k ∧ n1 = k • n2) → angleBetweenPlanes n1 n2 = .error .ValueError) ∧
    ((¬ ∃ k : ℝ, 0 < k ∧ n1 = k • n2) → ∃ θ, angleBetweenPlanes n1 n2 = .ok θ) := by
  rw [← parallel_iff h1 h2]
  constructor
  · intro h
    unfold angleBetweenPlanes
    simp only [check_ok h1, check_ok h2, ex_ok_bind, ex_pure, if_pos h]
  · intro h
    exact ⟨_, angle_of h1 h2 h⟩

theorem C115_range {n1 n2 : V3} {θ : ℝ} (h : angleBetweenPlanes n1 n2 = .ok θ) : 0 ≤ θ ∧ θ ≤ Real.pi / 2 := by
  obtain ⟨h1, h2, _, rfl⟩ := angle_value h
  refine ⟨Real.arccos_nonneg _, Real.arccos_le_pi_div_two.2 ?_⟩
  have := norm_nonneg n1
  have := norm_nonneg n2
  positivity

/-- Its cosine is the absolute value of the cosine of the angle between the normals. -/
theorem C115_cosine {n1 n2 : V3} {θ : ℝ} (h : angleBetweenPlanes n1 n2 = .ok θ) :
    Real.cos θ * (eLen n1 * eLen n2) = |n1.x * n2.x + n1.y * n2.y + n1.z * n2.z| := by
  obtain ⟨h1, h2, _, rfl⟩ := angle_value h
  have p1 := norm_pos h1
  have p2 := norm_pos h2
  rw [eLen_norm, eLen_norm, Real.cos_arccos]
  · rw [div_mul_cancel₀ _ (by positivity)]; rfl
  · have : 0 ≤ |dot n1 n2| / (norm n1 * norm n2) := by positivity
    linarith
  · rw [div_le_one (by positivity)]
    exact abs_dot_le n1 n2

theorem C115_symmetric (n1 n2 : V3) : angleBetweenPlanes n1 n2 = angleBetweenPlanes n2 n1 := by
  by_cases h1 : n1 = 0
  · subst h1
    by_cases h2 : n2 = 0
    · subst h2; rfl
    · unfold angleBetweenPlanes
      simp only [check_ok h2, check_zero, ex_ok_bind]; rfl
  · by_cases h2 : n2 = 0
    · subst h2
      unfold angleBetweenPlanes
      simp only [check_ok h1, check_zero, ex_ok_bind]; rfl
    · have hs : checkParallelPlanes n1 n2 ↔ checkParallelPlanes n2 n1 := by unfold checkParallelPlanes; exact eq_comm
      by_cases h : checkParallelPlanes n1 n2
      · unfold angleBetweenPlanes
        simp only [check_ok h1, check_ok h2, ex_ok_bind, if_pos h, if_pos (hs.1 h)]
      · rw [angle_of h1 h2 h, angle_of h2 h1 (fun h' => h (hs.2 h'))]
        have : dot n1 n2 = dot n2 n1 := by simp only [dot]; ring
        rw [this, mul_comm (norm n1)]

private theorem norm_smul (k : ℝ) (n : V3) : norm (k • n) = |k| * norm n := by
  apply norm_of_sq (mul_nonneg (abs_nonneg k) (norm_nonneg n))
  rw [mul_pow, norm_sq, sq_abs]
  simp only [smul_x, smul_y, smul_z]; ring

/-- Scaling or reversing a normal does not change the angle (whenever both calls return). -/
theorem C115_scale {n1 n2 : V3} {k θ φ : ℝ} (hk : k ≠ 0) (h : angleBetweenPlanes n1 n2 = .ok θ) (h' : angleBetweenPlanes (k • n1) n2 = .ok φ) : φ = θ := by
  obtain ⟨h1, h2, _, rfl⟩ := angle_value h
  obtain ⟨_, _, _, rfl⟩ := angle_value h'
  have p1 := norm_pos h1
  have p2 := norm_pos h2
  have pk := abs_pos.2 hk
  congr 1
  have hd : dot (k • n1) n2 = k * dot n1 n2 := by simp only [dot, smul_x, smul_y, smul_z]; ring
  rw [hd, norm_smul, abs_mul]
  field_simp

theorem C115_right_angle {n1 n2 : V3} {θ : ℝ} (h : angleBetweenPlanes n1 n2 = .ok θ) :
    θ = Real.pi / 2 ↔ n1.x * n2.x + n1.y * n2.y + n1.z * n2.z = 0 := by
  obtain ⟨h1, h2, _, rfl⟩ := angle_value h
  have p1 := norm_pos h1
  have p2 := norm_pos h2
  rw [Real.arccos_eq_pi_div_two, div_eq_zero_iff, abs_eq_zero]
  constructor
  · rintro (h | h)
    · exact h
    · exact absurd h (by positivity)
  · intro h; exact Or.inl h

theorem C115_zero_angle {n1 n2 : V3} {θ : ℝ} (h : angleBetweenPlanes n1 n2 = .ok θ) : θ = 0 ↔ ∃ k : ℝ, n1 = k • n2 := by
  obtain ⟨h1, h2, _, rfl⟩ := angle_value h
  have p1 := norm_pos h1
  have p2 := norm_pos h2
  rw [Real.arccos_eq_zero, one_le_div (by positivity)]
  constructor
  · intro hle
    have heq : dot n1 n2 ^ 2 = (n1.x ^ 2 + n1.y ^ 2 + n1.z ^ 2) * (n2.x ^ 2 + n2.y ^ 2 + n2.z ^ 2) := by
      apply le_antisymm (dot_sq_le n1 n2)
      rw [← norm_sq, ← norm_sq, ← mul_pow, ← sq_abs (dot n1 n2)]
      exact pow_le_pow_left₀ (by positivity) hle 2
    have s2 := sumsq_pos h2
    have hl : (n1.x * n2.y - n1.y * n2.x) ^ 2 + (n1.x * n2.z - n1.z * n2.x) ^ 2 + (n1.y * n2.z - n1.z * n2.y) ^ 2 = 0 := by
      unfold dot at heq; linarith
    have z1 : n1.x * n2.y - n1.y * n2.x = 0 := by
      apply pow_eq_zero_iff two_ne_zero |>.1
      nlinarith [sq_nonneg (n1.x * n2.y - n1.y * n2.x), sq_nonneg (n1.x * n2.z - n1.z * n2.x), sq_nonneg (n1.y * n2.z - n1.z * n2.y)]
    have z2 : n1.x * n2.z - n1.z * n2.x = 0 := by
      apply pow_eq_zero_iff two_ne_zero |>.1
      nlinarith [sq_nonneg (n1.x * n2.y - n1.y * n2.x), sq_nonneg (n1.x * n2.z - n1.z * n2.x), sq_nonneg (n1.y * n2.z - n1.z * n2.y)]
    have z3 : n1.y * n2.z - n1.z * n2.y = 0 := by
      apply pow_eq_zero_iff two_ne_zero |>.1
      nlinarith [sq_nonneg (n1.x * n2.y - n1.y * n2.x), sq_nonneg (n1.x * n2.z - n1.z * n2.x), sq_nonneg (n1.y * n2.z - n1.z * n2.y)]
    refine ⟨dot n1 n2 / (n2.x ^ 2 + n2.y ^ 2 + n2.z ^ 2), ?_⟩
    ext
    · simp only [smul_x, dot]; field_simp; linear_combination n2.y * z1 + n2.z * z2
    · simp only [smul_y, dot]; field_simp; linear_combination -n2.x * z1 + n2.z * z3
    · simp only [smul_z, dot]; field_simp; linear_combination -n2.x * z2 - n2.y * z3
  · rintro ⟨k, rfl⟩
    rw [norm_smul]
    have hd : dot (k • n2) n2 = k * norm n2 ^ 2 := by rw [norm_sq]; simp only [dot, smul_x, smul_y, smul_z]; ring
    rw [hd, abs_mul, abs_of_nonneg (sq_nonneg (norm n2))]
    apply le_of_eq; ring

example : ∃ θ, angleBetweenPlanes ⟨1, 0, 0⟩ ⟨0, 1, 0⟩ = .ok θ := by
  refine (C115_defined (by rw [ne_zero_iff]; norm_num) (by rw [ne_zero_iff]; norm_num)).2 ?_
  rintro ⟨k, _, h⟩
  have := congrArg V3.x h
  simp at this

/-! ### C116 -/

/-- `q` is on the sphere. -/
def OnSphere (c : V3) (r : ℝ) (q : V3) : Prop := (q.x - c.x) ^ 2 + (q.y - c.y) ^ 2 + (q.z - c.z) ^ 2 = r ^ 2

private theorem sphere_value {n p : V3} {d R : ℝ} (hn : n ≠ 0) (hR : 0 ≤ R) :
    planeSphereIntersect n d p R = if (d - dot n p) / norm n > R then .error .ValueError
      else .ok (npSqrt (R ^ 2 - ((d - dot n p) / norm n) ^ 2), p + (((d - dot n p) / norm n) • n).divBy (norm n)) := by
  unfold planeSphereIntersect
  have := C112_value hn d p
  rw [eLen_norm] at this
  simp only [check_ok hn, pos_ok hR, ex_ok_bind, this, ex_pure]
  rfl

/-- When a radius is returned, the points of plane and sphere are exactly the points of the plane at that distance from the centre, and
    the centre is on the plane. -/
theorem C116_circle {n p c : V3} {d R r : ℝ} (hn : n ≠ 0) (hR : 0 ≤ R) (h : planeSphereIntersect n d p R = .ok (some r, c)) :
    0 ≤ r ∧ OnPlane n d c ∧ ∀ q, OnPlane n d q → (OnSphere p R q ↔ eDist q c = r) := by
  rw [sphere_value hn hR] at h
  split at h
  · cases h
  · simp only [Except.ok.injEq, Prod.mk.injEq] at h
    obtain ⟨h1, rfl⟩ := h
    unfold npSqrt at h1
    split at h1
    · cases h1
    · rename_i hnn
      rw [Option.some.injEq] at h1
      push Not at hnn
      have pn := norm_pos hn
      have hs := norm_sq n
      generalize hc : (d - dot n p) / norm n = c at *
      have hcn : c * norm n = d - dot n p := by rw [← hc]; field_simp
      have e : ∀ a : ℝ, c * a / norm n = c / norm n * a := by intro a; ring
      have hplane : OnPlane n d (p + (c • n).divBy (norm n)) := by
        unfold OnPlane
        simp only [add_x, add_y, add_z, divBy_x, divBy_y, divBy_z, smul_x, smul_y, smul_z, e]
        have : n.x * (p.x + c / norm n * n.x) + n.y * (p.y + c / norm n * n.y) + n.z * (p.z + c / norm n * n.z) =
            dot n p + c / norm n * (n.x ^ 2 + n.y ^ 2 + n.z ^ 2) := by simp only [dot]; ring
        rw [this, ← hs]
        have : c / norm n * norm n ^ 2 = c * norm n := by field_simp
        rw [this, hcn]; ring
      refine ⟨by rw [← h1]; exact Real.sqrt_nonneg _, hplane, ?_⟩
      intro q hq
      have hr2 : r ^ 2 = R ^ 2 - c ^ 2 := by rw [← h1, Real.sq_sqrt hnn]
      have hr0 : 0 ≤ r := by rw [← h1]; exact Real.sqrt_nonneg _
      have hqn : n.x * (q.x - p.x) + n.y * (q.y - p.y) + n.z * (q.z - p.z) = c * norm n := by
        rw [hcn, ← hq]; simp only [dot]; ring
      have key : (q.x - (p.x + c / norm n * n.x)) ^ 2 + (q.y - (p.y + c / norm n * n.y)) ^ 2 + (q.z - (p.z + c / norm n * n.z)) ^ 2 =
          (q.x - p.x) ^ 2 + (q.y - p.y) ^ 2 + (q.z - p.z) ^ 2 - c ^ 2 := by
        have : (q.x - (p.x + c / norm n * n.x)) ^ 2 + (q.y - (p.y + c / norm n * n.y)) ^ 2 + (q.z - (p.z + c / norm n * n.z)) ^ 2 =
          (q.x - p.x) ^ 2 + (q.y - p.y) ^ 2 + (q.z - p.z) ^ 2 - 2 * (c / norm n) * (n.x * (q.x - p.x) + n.y * (q.y - p.y) + n.z * (q.z - p.z)) +
            (c / norm n) ^ 2 * (n.x ^ 2 + n.y ^ 2 + n.z ^ 2) := by ring
        rw [this, hqn, ← hs]
        field_simp
        ring
      unfold OnSphere eDist
      simp only [add_x, add_y, add_z, divBy_x, divBy_y, divBy_z, smul_x, smul_y, smul_z, e]
      rw [key]
      constructor
      · intro hsph
        rw [hsph, ← hr2, Real.sqrt_sq hr0]
      · intro hd
        have hpos : 0 ≤ (q.x - p.x) ^ 2 + (q.y - p.y) ^ 2 + (q.z - p.z) ^ 2 - c ^ 2 := by rw [← key]; positivity
        have := Real.sq_sqrt hpos
        rw [hd, hr2] at this
        linarith

/-- ValueError when the plane misses the sphere on the side of its normal, a circle when plane and sphere meet. -/
theorem C116_defined_partial {n p : V3} {d R : ℝ} (hn : n ≠ 0) (hR : 0 ≤ R) :
    ((∃ q, OnPlane n d q ∧ OnSphere p R q) → ∃ r c, planeSphereIntersect n d p R = .ok (some r, c)) ∧
    (R < (d - (n.x * p.x + n.y * p.y + n.z * p.z)) / eLen n → planeSphereIntersect n d p R = .error .ValueError) := by
  rw [sphere_value hn hR]
  constructor
  · rintro ⟨q, hq, hs⟩
    have pn := norm_pos hn
    have hmin := (C112_minimal hn (C112_value hn d p)).1 q hq
    rw [eLen_norm] at hmin
    have hqR : eDist q p = R := by unfold eDist; unfold OnSphere at hs; rw [hs, Real.sqrt_sq hR]
    rw [hqR] at hmin
    have hle : (d - dot n p) / norm n ≤ R := (le_abs_self _).trans hmin
    rw [if_neg (not_lt.2 hle)]
    unfold npSqrt
    rw [if_neg]
    · exact ⟨_, _, rfl⟩
    · have : ((d - dot n p) / norm n) ^ 2 ≤ R ^ 2 := sq_le_sq' (abs_le.1 hmin).1 hle
      linarith
  · intro h
    rw [if_pos]
    exact h

/-- On the other side no exception is raised: the radius is NaN. -/
theorem C116_other_side_violated {n p : V3} {d R : ℝ} (hn : n ≠ 0) (hR : 0 ≤ R)
    (h : (d - (n.x * p.x + n.y * p.y + n.z * p.z)) / eLen n < -R) :
    (∃ c, planeSphereIntersect n d p R = .ok (none, c)) ∧ ¬ ∃ q, OnPlane n d q ∧ OnSphere p R q := by
  constructor
  · rw [sphere_value hn hR]
    have h' : (d - dot n p) / norm n < -R := h
    rw [if_neg (by linarith)]
    unfold npSqrt
    rw [if_pos]
    · exact ⟨_, rfl⟩
    · nlinarith
  · rintro ⟨q, hq, hs⟩
    have hmin := (C112_minimal hn (C112_value hn d p)).1 q hq
    have hqR : eDist q p = R := by unfold eDist; unfold OnSphere at hs; rw [hs, Real.sqrt_sq hR]
    rw [hqR] at hmin
    have := (abs_le.1 hmin).1
    linarith

example : OnPlane ⟨0, 0, 1⟩ 1 ⟨0, 0, 1⟩ ∧ OnSphere ⟨0, 0, 0⟩ 1 ⟨0, 0, 1⟩ := by unfold OnPlane OnSphere; norm_num

/-! ### C117 -/

/-- Point and direction when the traces of the planes in the planes z = const intersect. -/
theorem C117_line_partial {n1 n2 : V3} {d1 d2 z : ℝ} (hdet : n1.x * n2.y - n1.y * n2.x ≠ 0) :
    ∃ p q, planePlaneIntersect n1 d1 n2 d2 z = .ok (p, q) ∧ p.z = z ∧ eLen q = 1 ∧
      ∀ t : ℝ, OnPlane n1 d1 ⟨p.x + t * q.x, p.y + t * q.y, p.z + t * q.z⟩ ∧ OnPlane n2 d2 ⟨p.x + t * q.x, p.y + t * q.y, p.z + t * q.z⟩ := by
  have h1 : n1 ≠ 0 := by rintro rfl; simp at hdet
  have h2 : n2 ≠ 0 := by rintro rfl; simp at hdet
  have hp : ¬ checkParallelPlanes n1 n2 := by
    rw [parallel_iff h1 h2]
    rintro ⟨k, _, rfl⟩
    apply hdet; simp only [smul_x, smul_y]; ring
  have hc : cross n1 n2 ≠ 0 := by
    intro h
    exact hdet (congrArg V3.z h)
  have pc := norm_pos hc
  refine ⟨_, _, by
    unfold planePlaneIntersect
    simp only [check_ok h1, check_ok h2, ex_ok_bind, ex_pure, if_neg hp, solve2, if_neg hdet]
    rfl, rfl, ?_, ?_⟩
  · rw [eLen_norm]
    apply norm_of_sq zero_le_one
    simp only [divBy_x, divBy_y, divBy_z, div_pow]
    rw [← add_div, ← add_div, ← norm_sq, one_pow, div_self (by positivity)]
  · intro t
    have o1 : n1.x * (cross n1 n2).x + n1.y * (cross n1 n2).y + n1.z * (cross n1 n2).z = 0 := by simp only [cross]; ring
    have o2 : n2.x * (cross n1 n2).x + n2.y * (cross n1 n2).y + n2.z * (cross n1 n2).z = 0 := by simp only [cross]; ring
    generalize cross n1 n2 = q at *
    have f1 : n1.x * (q.x / norm q) + n1.y * (q.y / norm q) + n1.z * (q.z / norm q) = 0 := by
      have : n1.x * (q.x / norm q) + n1.y * (q.y / norm q) + n1.z * (q.z / norm q) = (n1.x * q.x + n1.y * q.y + n1.z * q.z) / norm q := by ring
      rw [this, o1, zero_div]
    have f2 : n2.x * (q.x / norm q) + n2.y * (q.y / norm q) + n2.z * (q.z / norm q) = 0 := by
      have : n2.x * (q.x / norm q) + n2.y * (q.y / norm q) + n2.z * (q.z / norm q) = (n2.x * q.x + n2.y * q.y + n2.z * q.z) / norm q := by ring
      rw [this, o2, zero_div]
    simp only [OnPlane, divBy_x, divBy_y, divBy_z]
    constructor
    · have g : n1.x * (((d1 - n1.z * z) * n2.y - n1.y * (d2 - n2.z * z)) / (n1.x * n2.y - n1.y * n2.x)) +
          n1.y * ((n1.x * (d2 - n2.z * z) - (d1 - n1.z * z) * n2.x) / (n1.x * n2.y - n1.y * n2.x)) + n1.z * z = d1 := by
        field_simp; ring
      linear_combination g + t * f1
    · have g : n2.x * (((d1 - n1.z * z) * n2.y - n1.y * (d2 - n2.z * z)) / (n1.x * n2.y - n1.y * n2.x)) +
          n2.y * ((n1.x * (d2 - n2.z * z) - (d1 - n1.z * z) * n2.x) / (n1.x * n2.y - n1.y * n2.x)) + n2.z * z = d2 := by
        rw [← mul_div_assoc, ← mul_div_assoc, ← add_div, div_add' _ _ _ hdet, div_eq_iff hdet]; ring
      linear_combination g + t * f2

/-- Parallel planes raise: ValueError for normals of the same direction, LinAlgError for opposite ones. -/
theorem C117_parallel {n1 n2 : V3} {k : ℝ} (h1 : n1 ≠ 0) (h2 : n2 ≠ 0) (he : n1 = k • n2) (d1 d2 z : ℝ) :
    ∃ e, planePlaneIntersect n1 d1 n2 d2 z = .error e ∧ (e = .ValueError ∨ e = .LinAlgError) := by
  unfold planePlaneIntersect
  simp only [check_ok h1, check_ok h2, ex_ok_bind, ex_pure]
  split
  · exact ⟨_, rfl, Or.inl rfl⟩
  · have : n1.x * n2.y - n1.y * n2.x = 0 := by rw [he]; simp only [smul_x, smul_y]; ring
    simp only [solve2, if_pos this]
    exact ⟨_, rfl, Or.inr rfl⟩

/-- Planes that do intersect are rejected with LinAlgError when their line of intersection is parallel to the plane z = 0. -/
theorem C117_horizontal_line_violated {n1 n2 : V3} (h1 : n1 ≠ 0) (h2 : n2 ≠ 0) (hnp : ¬ ∃ k : ℝ, n1 = k • n2)
    (hdet : n1.x * n2.y - n1.y * n2.x = 0) (d1 d2 z : ℝ) : planePlaneIntersect n1 d1 n2 d2 z = .error .LinAlgError := by
  have hp : ¬ checkParallelPlanes n1 n2 := by
    rw [parallel_iff h1 h2]
    rintro ⟨k, _, h⟩; exact hnp ⟨k, h⟩
  unfold planePlaneIntersect
  simp only [check_ok h1, check_ok h2, ex_ok_bind, ex_pure, if_neg hp, solve2, if_pos hdet]
  rfl

/-- The planes x = 0 and z = 0. -/
example : (⟨1, 0, 0⟩ : V3) ≠ 0 ∧ (⟨0, 0, 1⟩ : V3) ≠ 0 ∧ (¬ ∃ k : ℝ, (⟨1, 0, 0⟩ : V3) = k • (⟨0, 0, 1⟩ : V3)) := by
  refine ⟨by rw [ne_zero_iff]; norm_num, by rw [ne_zero_iff]; norm_num, ?_⟩
  rintro ⟨k, h⟩
  have := congrArg V3.x h
  simp at this

end Props
