/- Properties C118, C119, C123-C128 of geom_utils.py: movements, senses, rays, coordinates and points. -/
import Verif.Proofs.Geom
import Verif.Props.Geom1

noncomputable section
set_option linter.unusedSimpArgs false

namespace Props
open Py Geom

private theorem sin_cos (θ : ℝ) : Real.sin θ ^ 2 + Real.cos θ ^ 2 = 1 := Real.sin_sq_add_cos_sq θ

/-! ### C118 -/

/-- The three axes. -/
inductive Axis | x | y | z

/-- The function of the code for an axis. -/
def rotateAbout : Axis → List V3 → V3 → ℝ → List V3
  | .x => rotateX
  | .y => rotateY
  | .z => rotateZ

/-- The rotation of a single vector about an axis through 0, counter-clockwise when looking against the axis. -/
def turned : Axis → ℝ → V3 → V3
  | .x, θ, v => ⟨v.x, v.y * Real.cos θ - v.z * Real.sin θ, v.y * Real.sin θ + v.z * Real.cos θ⟩
  | .y, θ, v => ⟨v.z * Real.sin θ + v.x * Real.cos θ, v.y, v.z * Real.cos θ - v.x * Real.sin θ⟩
  | .z, θ, v => ⟨v.x * Real.cos θ - v.y * Real.sin θ, v.x * Real.sin θ + v.y * Real.cos θ, v.z⟩

/-- Each point is moved to the rotated difference from `o`; `o` is not added again. -/
theorem C118_points (a : Axis) (ps : List V3) (o : V3) (θ : ℝ) : rotateAbout a ps o θ = ps.map fun p => turned a θ (p - o) := by
  cases a <;> simp only [rotateAbout, rotateX, rotateY, rotateZ] <;> apply List.map_congr_left <;> intro p _ <;>
    ext <;> simp only [turned, sub_x, sub_y, sub_z] <;> ring

/-- Distances between points are preserved. -/
theorem C118_distances (a : Axis) (o : V3) (θ : ℝ) (p q : V3) : ∃ p' q', rotateAbout a [p, q] o θ = [p', q'] ∧ eDist p' q' = eDist p q := by
  rw [C118_points]
  refine ⟨_, _, rfl, ?_⟩
  have h := sin_cos θ
  unfold eDist
  congr 1
  cases a <;> simp only [turned, sub_x, sub_y, sub_z]
  · linear_combination ((p.y - q.y) ^ 2 + (p.z - q.z) ^ 2) * h
  · linear_combination ((p.x - q.x) ^ 2 + (p.z - q.z) ^ 2) * h
  · linear_combination ((p.x - q.x) ^ 2 + (p.y - q.y) ^ 2) * h

/-- The coordinate along the axis relative to `o` does not change. -/
theorem C118_axis (o : V3) (θ : ℝ) (p : V3) :
    (∃ q, rotateX [p] o θ = [q] ∧ q.x = p.x - o.x) ∧ (∃ q, rotateY [p] o θ = [q] ∧ q.y = p.y - o.y) ∧
    (∃ q, rotateZ [p] o θ = [q] ∧ q.z = p.z - o.z) :=
  ⟨⟨_, rfl, rfl⟩, ⟨_, rfl, rfl⟩, ⟨_, rfl, rfl⟩⟩

private theorem turned_add (a : Axis) (α β : ℝ) (v : V3) : turned a β (turned a α v) = turned a (α + β) v := by
  cases a <;> ext <;> simp only [turned, Real.sin_add, Real.cos_add] <;> ring

private theorem sub_zero3 (v : V3) : v - 0 = v := by ext <;> simp

/-- A second rotation about 0 adds its angle. -/
theorem C118_add (a : Axis) (ps : List V3) (o : V3) (α β : ℝ) : rotateAbout a (rotateAbout a ps o α) 0 β = rotateAbout a ps o (α + β) := by
  rw [C118_points, C118_points, C118_points, List.map_map]
  apply List.map_congr_left
  intro p _
  simp only [Function.comp, sub_zero3, turned_add]

private theorem turned_zero (a : Axis) (v : V3) : turned a 0 v = v := by
  cases a <;> ext <;> simp [turned]

/-- The rotations about 0: identity, full turn and fixed point. -/
theorem C118_origin_partial (a : Axis) (ps : List V3) (θ : ℝ) (k : ℤ) :
    rotateAbout a ps 0 0 = ps ∧ rotateAbout a ps 0 (k * (2 * Real.pi)) = ps ∧ rotateAbout a ps 0 (θ + k * (2 * Real.pi)) = rotateAbout a ps 0 θ ∧
    rotateAbout a [0] 0 θ = [0] := by
  have hk : ∀ v, turned a (k * (2 * Real.pi)) v = v := by
    intro v
    have h1 : Real.cos (k * (2 * Real.pi)) = 1 := Real.cos_int_mul_two_pi k
    have h2 : Real.sin (k * (2 * Real.pi)) = 0 := by
      have := Real.sin_add_int_mul_two_pi 0 k
      rw [zero_add, Real.sin_zero] at this; exact this
    cases a <;> ext <;> simp [turned, h1, h2]
  refine ⟨?_, ?_, ?_, ?_⟩
  · rw [C118_points]; simp only [sub_zero3, turned_zero, List.map_id']
  · rw [C118_points]; simp only [sub_zero3, hk, List.map_id']
  · rw [C118_points, C118_points]; simp only [sub_zero3, ← turned_add, hk]
  · rw [C118_points]; cases a <;> simp [turned] <;> rfl

/-- The centre of rotation is moved to 0, so it stays fixed only if it is 0. -/
theorem C118_centre_violated (a : Axis) (o : V3) (θ : ℝ) : rotateAbout a [o] o θ = [0] ∧ (rotateAbout a [o] o θ = [o] ↔ o = 0) := by
  have h : rotateAbout a [o] o θ = [0] := by
    rw [C118_points]
    cases a <;> simp [turned] <;> rfl
  refine ⟨h, ?_⟩
  rw [h]
  constructor
  · intro h; exact (List.cons.inj h).1.symm
  · rintro rfl; rfl

/-- A full turn about another centre shifts the points by `-o`. -/
theorem C118_full_turn_violated (a : Axis) (p o : V3) : rotateAbout a [p] o (2 * Real.pi) = [p - o] ∧ (rotateAbout a [p] o (2 * Real.pi) = [p] ↔ o = 0) := by
  have h : rotateAbout a [p] o (2 * Real.pi) = [p - o] := by
    rw [C118_points]
    have : turned a (2 * Real.pi) (p - o) = p - o := by cases a <;> ext <;> simp [turned]
    rw [List.map_cons, this, List.map_nil]
  refine ⟨h, ?_⟩
  rw [h]
  constructor
  · intro h
    have h := (List.cons.inj h).1
    have hx := congrArg V3.x h
    have hy := congrArg V3.y h
    have hz := congrArg V3.z h
    simp only [sub_x, sub_y, sub_z] at hx hy hz
    ext <;> simp only [zero_x, zero_y, zero_z] <;> linarith
  · rintro rfl; rw [sub_zero3]

example : rotateZ [⟨1, 0, 5⟩] 0 (Real.pi / 2) = [⟨0, 1, 5⟩] := by
  show rotateAbout .z _ _ _ = _
  rw [C118_points]
  simp [turned]

/-! ### C119 -/

theorem C119_translate (ps : List V3) (a b : V3) :
    (translate ps a).length = ps.length ∧ translate ps 0 = ps ∧ translate (translate ps a) b = translate ps (a + b) ∧
    translate (translate ps a) ⟨-a.x, -a.y, -a.z⟩ = ps ∧
    ∀ (i : ℕ) (p q : V3), ps[i]? = some p → (translate ps a)[i]? = some q → q.x - p.x = a.x ∧ q.y - p.y = a.y ∧ q.z - p.z = a.z := by
  have hz : ∀ v : V3, v + 0 = v := by intro v; ext <;> simp
  refine ⟨by simp [translate], by simp [translate, hz], ?_, ?_, ?_⟩
  · unfold translate
    rw [List.map_map]
    apply List.map_congr_left
    intro p _
    ext <;> simp only [Function.comp, add_x, add_y, add_z] <;> ring
  · unfold translate
    rw [List.map_map]
    conv_rhs => rw [← List.map_id ps]
    apply List.map_congr_left
    intro p _
    ext <;> simp only [Function.comp, add_x, add_y, add_z, id] <;> ring
  · intro i p q hp hq
    simp only [translate, List.getElem?_map, hp, Option.map_some, Option.some.injEq] at hq
    subst hq
    simp

/-- Differences between points are preserved. -/
theorem C119_differences (a p q : V3) : ∃ p' q', translate [p, q] a = [p', q'] ∧ q' - p' = q - p := by
  refine ⟨_, _, rfl, ?_⟩
  ext <;> simp

example : translate [⟨1, 2, 3⟩] ⟨1, 1, 1⟩ = [⟨2, 3, 4⟩] := by
  simp only [translate, List.map_cons, List.map_nil, List.cons.injEq, and_true]
  ext <;> norm_num

/-! ### C123 -/

theorem C123_partial {a b : ℝ} (ha : a ≠ 0) (hb : b ≠ 0) : pythagH a b = Real.sqrt (a ^ 2 + b ^ 2) := by
  unfold pythagH
  rw [if_neg]
  rintro (h | h)
  · exact ha h
  · exact hb h

/-- With a zero leg the result is 0 instead of the length of the other leg. -/
theorem C123_zero_leg_violated {b : ℝ} (hb : b ≠ 0) : pythagH 0 b = 0 ∧ pythagH b 0 = 0 ∧ Real.sqrt (0 ^ 2 + b ^ 2) ≠ 0 := by
  refine ⟨by simp [pythagH], by simp [pythagH], ?_⟩
  rw [Real.sqrt_ne_zero']
  positivity

example : pythagH 3 4 = 5 := by
  rw [C123_partial (by norm_num) (by norm_num), show (3 : ℝ) ^ 2 + 4 ^ 2 = 5 ^ 2 by norm_num, Real.sqrt_sq (by norm_num)]

/-! ### C124 -/

/-- -1 for positive, 1 for negative, 0 for zero values. -/
def SenseOf (v : ℝ) (s : ℤ) : Prop := (0 < v ∧ s = -1) ∨ (v < 0 ∧ s = 1) ∨ (v = 0 ∧ s = 0)

private theorem sense_iff (v : ℝ) (s : ℤ) : sense v = s ↔ SenseOf v s := by
  unfold sense SenseOf
  rcases lt_trichotomy v 0 with h | h | h
  · rw [if_neg (not_lt.2 h.le), if_pos h]
    constructor
    · rintro rfl; exact Or.inr (Or.inl ⟨h, rfl⟩)
    · rintro (⟨h', _⟩ | ⟨_, h'⟩ | ⟨h', _⟩)
      · linarith
      · exact h'.symm
      · linarith
  · rw [if_neg (by linarith), if_neg (by linarith)]
    constructor
    · rintro rfl; exact Or.inr (Or.inr ⟨h, rfl⟩)
    · rintro (⟨h', _⟩ | ⟨h', _⟩ | ⟨_, h'⟩)
      · linarith
      · linarith
      · exact h'.symm
  · rw [if_pos h]
    constructor
    · rintro rfl; exact Or.inl ⟨h, rfl⟩
    · rintro (⟨_, h'⟩ | ⟨h', _⟩ | ⟨h', _⟩)
      · exact h'.symm
      · linarith
      · linarith

theorem C124_plane {n : V3} (hn : n ≠ 0) (d : ℝ) (p : V3) (s : ℤ) :
    findSensePlane n d p = .ok s ↔ SenseOf (n.x * p.x + n.y * p.y + n.z * p.z - d) s := by
  unfold findSensePlane
  simp only [check_ok hn, ex_ok_bind, ex_pure, Except.ok.injEq, sense_iff]
  rfl

theorem C124_plane_error (d : ℝ) (p : V3) : findSensePlane 0 d p = .error .ValueError := by
  unfold findSensePlane; rw [check_zero]; rfl

/-- Reversing normal and offset reverses the sense. -/
theorem C124_plane_reversed {n : V3} (hn : n ≠ 0) (d : ℝ) (p : V3) (s : ℤ) (h : findSensePlane n d p = .ok s) :
    findSensePlane ⟨-n.x, -n.y, -n.z⟩ (-d) p = .ok (-s) := by
  have hn' : (⟨-n.x, -n.y, -n.z⟩ : V3) ≠ 0 := by
    rw [ne_zero_iff] at hn ⊢
    simpa only [neg_eq_zero] using hn
  rw [C124_plane hn'] 
  rw [C124_plane hn] at h
  unfold SenseOf at h ⊢
  simp only
  rcases h with ⟨h, rfl⟩ | ⟨h, rfl⟩ | ⟨h, rfl⟩
  · right; left; exact ⟨by linarith, rfl⟩
  · left; exact ⟨by linarith, rfl⟩
  · right; right; exact ⟨by linarith, rfl⟩

private theorem sphere_eq (p c : V3) (r : ℝ) : evaluateSphereEq p c r = (p.x - c.x) ^ 2 + (p.y - c.y) ^ 2 + (p.z - c.z) ^ 2 - r ^ 2 := by
  unfold evaluateSphereEq
  rw [norm_sq]; rfl

/-- 1 inside, -1 outside, 0 on the sphere. -/
theorem C124_sphere {r : ℝ} (hr : 0 ≤ r) (p c : V3) (s : ℤ) :
    findSenseSphere p c r = .ok s ↔ (r < eDist p c ∧ s = -1) ∨ (eDist p c < r ∧ s = 1) ∨ (eDist p c = r ∧ s = 0) := by
  unfold findSenseSphere
  simp only [pos_ok hr, ex_ok_bind, ex_pure, Except.ok.injEq, sense_iff]
  rw [sphere_eq]
  unfold SenseOf eDist
  have hS : 0 ≤ (p.x - c.x) ^ 2 + (p.y - c.y) ^ 2 + (p.z - c.z) ^ 2 := by positivity
  generalize (p.x - c.x) ^ 2 + (p.y - c.y) ^ 2 + (p.z - c.z) ^ 2 = S at *
  have hq := Real.sq_sqrt hS
  have hq0 := Real.sqrt_nonneg S
  generalize Real.sqrt S = e at *
  subst hq
  have e1 : 0 < e ^ 2 - r ^ 2 ↔ r < e := by rw [sub_pos]; exact pow_lt_pow_iff_left₀ hr hq0 two_ne_zero
  have e2 : e ^ 2 - r ^ 2 < 0 ↔ e < r := by rw [sub_neg]; exact pow_lt_pow_iff_left₀ hq0 hr two_ne_zero
  have e3 : e ^ 2 - r ^ 2 = 0 ↔ e = r := by rw [sub_eq_zero]; exact pow_left_inj₀ hq0 hr two_ne_zero
  rw [e1, e2, e3]

theorem C124_sphere_error {r : ℝ} (hr : r < 0) (p c : V3) : findSenseSphere p c r = .error .ValueError := by
  unfold findSenseSphere; rw [pos_err hr]; rfl

theorem C124_gq (p : V3) (c : Coeffs) (k : ℝ) (s : ℤ) :
    findSenseGq p c k = s ↔ SenseOf (c.c0 * p.x ^ 2 + c.c1 * p.y ^ 2 + c.c2 * p.z ^ 2 + c.c3 * p.x * p.y + c.c4 * p.y * p.z + c.c5 * p.x * p.z +
      c.c6 * p.x + c.c7 * p.y + c.c8 * p.z - k) s := sense_iff _ s

/-- A sphere written as a general quadric has the same senses. -/
theorem C124_gq_sphere {r : ℝ} (hr : 0 ≤ r) (p c : V3) :
    findSenseSphere p c r = .ok (findSenseGq p ⟨1, 1, 1, 0, 0, 0, -2 * c.x, -2 * c.y, -2 * c.z⟩ (r ^ 2 - (c.x ^ 2 + c.y ^ 2 + c.z ^ 2))) := by
  unfold findSenseSphere findSenseGq
  simp only [pos_ok hr, ex_ok_bind, ex_pure]
  rw [sphere_eq]
  congr 2
  simp only [evaluateGqEq]; ring

/-- A plane written as a general quadric has the same senses. -/
theorem C124_gq_plane {n : V3} (hn : n ≠ 0) (d : ℝ) (p : V3) :
    findSensePlane n d p = .ok (findSenseGq p ⟨0, 0, 0, 0, 0, 0, n.x, n.y, n.z⟩ d) := by
  unfold findSensePlane findSenseGq
  simp only [check_ok hn, ex_ok_bind, ex_pure]
  congr 2
  simp only [evaluateGqEq, evaluatePlaneEq, dot]; ring

example : SenseOf 2 (-1) := Or.inl ⟨by norm_num, rfl⟩

/-! ### C125 -/

private theorem ray_sq {p u c : V3} {r : ℝ} (hu : u.x ^ 2 + u.y ^ 2 + u.z ^ 2 = 1) (t : ℝ) :
    OnSphere c r (projectRay p u t) ↔ (t + dot (p - c) u) ^ 2 = dot (p - c) u ^ 2 - norm (p - c) ^ 2 + r ^ 2 := by
  unfold OnSphere projectRay
  rw [norm_sq]
  simp only [add_x, add_y, add_z, sub_x, sub_y, sub_z, dot]
  constructor
  · intro h; linear_combination h - t ^ 2 * hu
  · intro h; linear_combination h + t ^ 2 * hu

/-- The line meets the sphere: two distances, the larger one first, and exactly these lead to points of the sphere. -/
theorem C125_solutions {p u c : V3} {r : ℝ} (hr : 0 ≤ r) (hu : u.x ^ 2 + u.y ^ 2 + u.z ^ 2 = 1) (hm : ∃ t, OnSphere c r (projectRay p u t)) :
    ∃ a b, sphereRayIntersect p u c r = .ok (some a, some b) ∧ b ≤ a ∧ ∀ t, OnSphere c r (projectRay p u t) ↔ t = a ∨ t = b := by
  obtain ⟨t0, h0⟩ := hm
  rw [ray_sq hu] at h0
  have hD : 0 ≤ dot (p - c) u ^ 2 - norm (p - c) ^ 2 + r ^ 2 := by rw [← h0]; positivity
  have hs := Real.sq_sqrt hD
  have hs0 := Real.sqrt_nonneg (dot (p - c) u ^ 2 - norm (p - c) ^ 2 + r ^ 2)
  refine ⟨_, _, by
    unfold sphereRayIntersect npSqrt
    simp only [pos_ok hr, ex_ok_bind, ex_pure, if_neg (not_lt.2 hD), Option.map_some]
    rfl, by linarith, ?_⟩
  intro t
  rw [ray_sq hu]
  generalize Real.sqrt (dot (p - c) u ^ 2 - Geom.norm (p - c) ^ 2 + r ^ 2) = s at *
  rw [← hs, sq_eq_sq_iff_eq_or_eq_neg]
  constructor
  · rintro (h | h)
    · left; linarith
    · right; linarith
  · rintro (h | h)
    · left; linarith
    · right; linarith

/-- The line misses the sphere: both distances are NaN. -/
theorem C125_missed {p u c : V3} {r : ℝ} (hr : 0 ≤ r) (hu : u.x ^ 2 + u.y ^ 2 + u.z ^ 2 = 1) (hm : ¬ ∃ t, OnSphere c r (projectRay p u t)) :
    sphereRayIntersect p u c r = .ok (none, none) := by
  have hD : dot (p - c) u ^ 2 - norm (p - c) ^ 2 + r ^ 2 < 0 := by
    by_contra h
    push Not at h
    apply hm
    refine ⟨-dot (p - c) u + Real.sqrt (dot (p - c) u ^ 2 - norm (p - c) ^ 2 + r ^ 2), ?_⟩
    rw [ray_sq hu]
    have := Real.sq_sqrt h
    linear_combination this
  unfold sphereRayIntersect npSqrt
  simp only [pos_ok hr, ex_ok_bind, ex_pure, if_pos hD, Option.map_none]

theorem C125_negative {p u c : V3} {r : ℝ} (hr : r < 0) : sphereRayIntersect p u c r = .error .ValueError := by
  unfold sphereRayIntersect; rw [pos_err hr]; rfl

/-- The point is at the given distance in the given direction. -/
theorem C125_project (p u : V3) (t : ℝ) : projectRay p u t = ⟨p.x + t * u.x, p.y + t * u.y, p.z + t * u.z⟩ := by
  unfold projectRay
  ext <;> simp only [add_x, add_y, add_z] <;> ring

example : OnSphere 0 1 (projectRay ⟨-2, 0, 0⟩ ⟨1, 0, 0⟩ 1) := by
  rw [C125_project]; unfold OnSphere; norm_num

/-! ### C126 -/

private theorem phi_spec {x y : ℝ} (hx : x ≠ 0) : ∃ φ, phiOf x y = .ok φ ∧ Real.sqrt (x ^ 2 + y ^ 2) * Real.cos φ = x ∧ Real.sqrt (x ^ 2 + y ^ 2) * Real.sin φ = y := by
  have h1 : Real.sqrt (1 + (y / x) ^ 2) = Real.sqrt (x ^ 2 + y ^ 2) / |x| := by
    rw [← Real.sqrt_sq_eq_abs, ← Real.sqrt_div (by positivity)]
    congr 1; field_simp
  have hp : 0 < Real.sqrt (x ^ 2 + y ^ 2) := Real.sqrt_pos.2 (by positivity)
  have ha : 0 < |x| := abs_pos.2 hx
  have hc : Real.sqrt (x ^ 2 + y ^ 2) * Real.cos (Real.arctan (y / x)) = |x| := by
    rw [Real.cos_arctan, h1]; field_simp
  have hs : Real.sqrt (x ^ 2 + y ^ 2) * Real.sin (Real.arctan (y / x)) = |x| * (y / x) := by
    rw [Real.sin_arctan, h1]; field_simp
  unfold phiOf
  rw [if_neg hx]
  by_cases h : x ≥ 0
  · rw [if_pos h]
    refine ⟨_, rfl, ?_, ?_⟩
    · rw [hc, abs_of_nonneg h]
    · rw [hs, abs_of_nonneg h]; field_simp
  · rw [if_neg h]
    push Not at h
    refine ⟨_, rfl, ?_, ?_⟩
    · rw [Real.cos_add_pi, mul_neg, hc, abs_of_neg h, neg_neg]
    · rw [Real.sin_add_pi, mul_neg, hs, abs_of_neg h]; field_simp

theorem C126_cylindrical_partial {x : ℝ} (hx : x ≠ 0) (y z : ℝ) :
    ∃ c, cartesianToCylindrical x y z = .ok c ∧ 0 ≤ c.1 ∧ cylindricalToCartesian c.1 c.2.1 c.2.2 = .ok (x, y, z) := by
  obtain ⟨φ, h, hc, hs⟩ := phi_spec (y := y) hx
  refine ⟨_, by unfold cartesianToCylindrical; rw [h]; rfl, Real.sqrt_nonneg _, ?_⟩
  unfold cylindricalToCartesian
  simp only [pos_ok (Real.sqrt_nonneg _), ex_ok_bind, ex_pure, hc, hs]

private theorem polar {ρ z : ℝ} (hρ : 0 ≤ ρ) (h : ¬ (ρ = 0 ∧ z = 0)) :
    Real.sqrt (ρ ^ 2 + z ^ 2) * Real.sin (Real.arccos (z / Real.sqrt (ρ ^ 2 + z ^ 2))) = ρ ∧
    Real.sqrt (ρ ^ 2 + z ^ 2) * Real.cos (Real.arccos (z / Real.sqrt (ρ ^ 2 + z ^ 2))) = z := by
  have hS : 0 < ρ ^ 2 + z ^ 2 := by
    by_contra h'
    apply h
    constructor <;> apply pow_eq_zero_iff two_ne_zero |>.1 <;> nlinarith [sq_nonneg ρ, sq_nonneg z]
  have hp := Real.sqrt_pos.2 hS
  have hsq := Real.sq_sqrt hS.le
  generalize Real.sqrt (ρ ^ 2 + z ^ 2) = r at *
  have hz : |z| ≤ r := abs_le_of_sq_le_sq (by nlinarith [sq_nonneg ρ]) hp.le
  constructor
  · rw [Real.sin_arccos]
    have : 1 - (z / r) ^ 2 = (ρ / r) ^ 2 := by field_simp; linarith
    rw [this, Real.sqrt_sq (by positivity)]; field_simp
  · rw [Real.cos_arccos]
    · field_simp
    · rw [le_div_iff₀ hp]; linarith [(abs_le.1 hz).1]
    · rw [div_le_one hp]; exact (abs_le.1 hz).2

theorem C126_spherical_partial {x : ℝ} (hx : x ≠ 0) (y z : ℝ) :
    ∃ c, cartesianToSpherical x y z = .ok c ∧ 0 ≤ c.1 ∧ 0 ≤ c.2.1 ∧ c.2.1 ≤ Real.pi ∧ sphericalToCartesian c.1 c.2.1 c.2.2 = .ok (x, y, z) := by
  obtain ⟨φ, h, hc, hs⟩ := phi_spec (y := y) hx
  have hr : Real.sqrt (x ^ 2 + y ^ 2 + z ^ 2) = Real.sqrt (Real.sqrt (x ^ 2 + y ^ 2) ^ 2 + z ^ 2) := by rw [Real.sq_sqrt (by positivity)]
  have hρ : 0 < Real.sqrt (x ^ 2 + y ^ 2) := Real.sqrt_pos.2 (by positivity)
  refine ⟨_, by unfold cartesianToSpherical; rw [h]; rfl, Real.sqrt_nonneg _, Real.arccos_nonneg _, Real.arccos_le_pi _, ?_⟩
  obtain ⟨p1, p2⟩ := polar (z := z) hρ.le (fun h => hρ.ne' h.1)
  unfold sphericalToCartesian
  simp only [pos_ok (Real.sqrt_nonneg _), ex_ok_bind, ex_pure, hr, p1, p2, hc, hs]

/-- Cylindrical to spherical coordinates and back, for every point but the origin. -/
theorem C126_cylindrical_spherical {ρ φ z : ℝ} (hρ : 0 ≤ ρ) (h : ¬ (ρ = 0 ∧ z = 0)) :
    ∃ r θ, cylindricalToSpherical ρ φ z = .ok (r, some θ, φ) ∧ sphericalToCylindrical r θ φ = .ok (ρ, φ, z) := by
  have hS : 0 < ρ ^ 2 + z ^ 2 := by
    by_contra h'
    apply h
    constructor <;> apply pow_eq_zero_iff two_ne_zero |>.1 <;> nlinarith [sq_nonneg ρ, sq_nonneg z]
  obtain ⟨p1, p2⟩ := polar hρ h
  refine ⟨_, _, by
    unfold cylindricalToSpherical
    simp only [pos_ok hρ, ex_ok_bind, ex_pure, if_neg (Real.sqrt_pos.2 hS).ne']
    rfl, ?_⟩
  unfold sphericalToCylindrical
  simp only [pos_ok (Real.sqrt_nonneg _), ex_ok_bind, ex_pure, p1, p2]

/-- Spherical to cylindrical coordinates and back, for positive radii and polar angles in [0, π]. -/
theorem C126_spherical_cylindrical {r θ φ : ℝ} (hr : 0 < r) (h0 : 0 ≤ θ) (hπ : θ ≤ Real.pi) :
    ∃ ρ z, sphericalToCylindrical r θ φ = .ok (ρ, φ, z) ∧ cylindricalToSpherical ρ φ z = .ok (r, some θ, φ) := by
  have hs : 0 ≤ Real.sin θ := Real.sin_nonneg_of_nonneg_of_le_pi h0 hπ
  refine ⟨_, _, by
    unfold sphericalToCylindrical
    simp only [pos_ok hr.le, ex_ok_bind, ex_pure]
    rfl, ?_⟩
  have he : Real.sqrt ((r * Real.sin θ) ^ 2 + (r * Real.cos θ) ^ 2) = r := by
    have : (r * Real.sin θ) ^ 2 + (r * Real.cos θ) ^ 2 = r ^ 2 := by linear_combination r ^ 2 * sin_cos θ
    rw [this, Real.sqrt_sq hr.le]
  have hq : r * Real.cos θ / r = Real.cos θ := by field_simp
  unfold cylindricalToSpherical
  simp only [pos_ok (mul_nonneg hr.le hs), ex_ok_bind, ex_pure, he, if_neg hr.ne', hq, Real.arccos_cos h0 hπ]

/-- The two conversions to Cartesian coordinates agree. -/
theorem C126_triangle {r θ φ : ℝ} (hr : 0 ≤ r) (hs : 0 ≤ Real.sin θ) :
    ∃ c, sphericalToCylindrical r θ φ = .ok c ∧ cylindricalToCartesian c.1 c.2.1 c.2.2 = sphericalToCartesian r θ φ := by
  refine ⟨_, by
    unfold sphericalToCylindrical
    simp only [pos_ok hr, ex_ok_bind, ex_pure]
    rfl, ?_⟩
  unfold cylindricalToCartesian sphericalToCartesian
  simp only [pos_ok hr, pos_ok (mul_nonneg hr hs), ex_ok_bind, ex_pure]

/-- Points with `x = 0`, on or off the axis, raise ZeroDivisionError. -/
theorem C126_x_zero_violated (y z : ℝ) :
    cartesianToCylindrical 0 y z = .error .ZeroDivisionError ∧ cartesianToSpherical 0 y z = .error .ZeroDivisionError := by
  unfold cartesianToCylindrical cartesianToSpherical phiOf
  rw [if_pos rfl]
  exact ⟨rfl, rfl⟩

/-- The origin in cylindrical coordinates gets an undefined polar angle. -/
theorem C126_origin_nan (φ : ℝ) : cylindricalToSpherical 0 φ 0 = .ok (0, none, φ) := by
  unfold cylindricalToSpherical
  simp [pos_ok (le_refl (0 : ℝ)), ex_ok_bind, ex_pure]

theorem C126_negative {r : ℝ} (hr : r < 0) (a b : ℝ) :
    cylindricalToCartesian r a b = .error .ValueError ∧ cylindricalToSpherical r a b = .error .ValueError ∧
    sphericalToCartesian r a b = .error .ValueError ∧ sphericalToCylindrical r a b = .error .ValueError := by
  unfold cylindricalToCartesian cylindricalToSpherical sphericalToCartesian sphericalToCylindrical
  rw [pos_err hr]
  exact ⟨rfl, rfl, rfl, rfl⟩

example : (0 : ℝ) ≤ Real.pi / 2 ∧ Real.pi / 2 ≤ Real.pi := ⟨by positivity, by linarith [Real.pi_pos]⟩

/-! ### C127 -/

/-- Both points are on the returned line. -/
theorem C127_line {p q : ℝ × ℝ} (h : p.1 ≠ q.1) : ∃ m c, coefficientsOfLineFromPoints p q = (m, c) ∧ p.2 = m * p.1 + c ∧ q.2 = m * q.1 + c := by
  have h' : q.1 - p.1 ≠ 0 := sub_ne_zero.2 h.symm
  unfold coefficientsOfLineFromPoints lstsq2
  rw [if_neg h]
  refine ⟨_, _, rfl, by ring, ?_⟩
  field_simp; ring

/-- The sum of squared deviations of the two points from a line. -/
def deviation (p q : ℝ × ℝ) (m c : ℝ) : ℝ := (m * p.1 + c - p.2) ^ 2 + (m * q.1 + c - q.2) ^ 2

/-- For all points (also on a vertical line): the line of least squares, and among these the one with the smallest coefficients. -/
theorem C127_least_squares (p q : ℝ × ℝ) :
    ∃ m c, coefficientsOfLineFromPoints p q = (m, c) ∧ (∀ m' c', deviation p q m c ≤ deviation p q m' c') ∧
      ∀ m' c', deviation p q m' c' = deviation p q m c → m ^ 2 + c ^ 2 ≤ m' ^ 2 + c' ^ 2 := by
  by_cases h : p.1 = q.1
  · unfold coefficientsOfLineFromPoints lstsq2
    rw [if_pos h]
    have key : (p.2 + q.2) / 2 * p.1 / (p.1 ^ 2 + 1) * p.1 + (p.2 + q.2) / 2 / (p.1 ^ 2 + 1) = (p.2 + q.2) / 2 := by field_simp
    have hdev : ∀ m c, deviation p q m c = 2 * (m * p.1 + c - (p.2 + q.2) / 2) ^ 2 + (p.2 - q.2) ^ 2 / 2 := by
      intro m c; unfold deviation; rw [← h]; ring
    refine ⟨_, _, rfl, ?_, ?_⟩
    · intro m' c'
      rw [hdev, hdev, key]
      nlinarith [sq_nonneg (m' * p.1 + c' - (p.2 + q.2) / 2)]
    · intro m' c' he
      rw [hdev, hdev, key] at he
      have h0 : (m' * p.1 + c' - (p.2 + q.2) / 2) ^ 2 = 0 := by linarith
      have h1 : m' * p.1 + c' = (p.2 + q.2) / 2 := by
        have := pow_eq_zero_iff two_ne_zero |>.1 h0
        linarith
      rw [← h1]
      have hpos : 0 < p.1 ^ 2 + 1 := by positivity
      have : ((m' * p.1 + c') * p.1 / (p.1 ^ 2 + 1)) ^ 2 + ((m' * p.1 + c') / (p.1 ^ 2 + 1)) ^ 2 = (m' * p.1 + c') ^ 2 / (p.1 ^ 2 + 1) := by
        field_simp
      rw [this, div_le_iff₀ hpos]
      nlinarith [sq_nonneg (m' - c' * p.1)]
  · obtain ⟨m, c, he, h1, h2⟩ := C127_line h
    have hd : deviation p q m c = 0 := by unfold deviation; rw [h1, h2]; ring
    refine ⟨m, c, he, ?_, ?_⟩
    · intro m' c'; rw [hd]; unfold deviation; positivity
    · intro m' c' h'
      rw [hd] at h'
      unfold deviation at h'
      have z1 : m' * p.1 + c' - p.2 = 0 := by
        apply pow_eq_zero_iff two_ne_zero |>.1
        nlinarith [sq_nonneg (m' * p.1 + c' - p.2), sq_nonneg (m' * q.1 + c' - q.2)]
      have z2 : m' * q.1 + c' - q.2 = 0 := by
        apply pow_eq_zero_iff two_ne_zero |>.1
        nlinarith [sq_nonneg (m' * p.1 + c' - p.2), sq_nonneg (m' * q.1 + c' - q.2)]
      have hm : (m' - m) * (p.1 - q.1) = 0 := by rw [h1] at z1; rw [h2] at z2; linarith
      have hm' : m' = m := by
        rcases mul_eq_zero.1 hm with h3 | h3
        · linarith
        · exact absurd (by linarith) h
      have hc' : c' = c := by rw [hm', h1] at z1; linarith
      rw [hm', hc']

example : ∃ m c, coefficientsOfLineFromPoints (0, 1) (2, 5) = (m, c) ∧ (1 : ℝ) = m * 0 + c ∧ (5 : ℝ) = m * 2 + c := C127_line (by norm_num)

/-! ### C128 -/

private theorem tri (a b : V3) : norm (a + b) ≤ norm a + norm b := by
  apply le_of_sq_le_sq _ (add_nonneg (norm_nonneg a) (norm_nonneg b))
  have h1 := norm_sq a
  have h2 := norm_sq b
  have h3 := norm_sq (a + b)
  have h4 := (le_abs_self _).trans (abs_dot_le a b)
  simp only [add_x, add_y, add_z] at h3
  unfold dot at h4
  nlinarith

theorem C128_value (p q : V3) : distBetPoints p q = eDist p q := by
  unfold distBetPoints eDist Geom.norm
  congr 1
  simp only [sub_x, sub_y, sub_z]; ring

theorem C128_metric (p q s : V3) :
    0 ≤ distBetPoints p q ∧ (distBetPoints p q = 0 ↔ p = q) ∧ distBetPoints p q = distBetPoints q p ∧
    distBetPoints p s ≤ distBetPoints p q + distBetPoints q s := by
  refine ⟨norm_nonneg _, ?_, ?_, ?_⟩
  · unfold distBetPoints
    rw [norm_eq_zero]
    constructor
    · intro h
      have hx := congrArg V3.x h
      have hy := congrArg V3.y h
      have hz := congrArg V3.z h
      simp only [sub_x, sub_y, sub_z, zero_x, zero_y, zero_z] at hx hy hz
      ext <;> linarith
    · rintro rfl; ext <;> simp
  · unfold distBetPoints Geom.norm
    congr 1
    simp only [sub_x, sub_y, sub_z]; ring
  · unfold distBetPoints
    have : s - p = (q - p) + (s - q) := by ext <;> simp only [sub_x, sub_y, sub_z, add_x, add_y, add_z] <;> ring
    rw [this]; exact tri _ _

theorem C128_midpoint (p q : V3) :
    distBetPoints p (midpointBetPoints p q) = distBetPoints p q / 2 ∧ distBetPoints q (midpointBetPoints p q) = distBetPoints p q / 2 ∧
    midpointBetPoints p q = midpointBetPoints q p := by
  have h := norm_sq (q - p)
  have h0 := norm_nonneg (q - p)
  refine ⟨?_, ?_, ?_⟩
  · unfold distBetPoints midpointBetPoints
    apply norm_of_sq (by positivity)
    rw [div_pow, h]
    simp only [sub_x, sub_y, sub_z, add_x, add_y, add_z, divBy_x, divBy_y, divBy_z]; ring
  · unfold distBetPoints midpointBetPoints
    apply norm_of_sq (by positivity)
    rw [div_pow, h]
    simp only [sub_x, sub_y, sub_z, add_x, add_y, add_z, divBy_x, divBy_y, divBy_z]; ring
  · unfold midpointBetPoints
    ext <;> simp only [add_x, add_y, add_z, divBy_x, divBy_y, divBy_z] <;> ring

/-- The mid point is the only point at half the distance from both. -/
theorem C128_midpoint_unique {p q m : V3} (h1 : distBetPoints p m = distBetPoints p q / 2) (h2 : distBetPoints q m = distBetPoints p q / 2) :
    m = midpointBetPoints p q := by
  have a := norm_sq (q - p)
  have b := norm_sq (m - p)
  have c := norm_sq (m - q)
  unfold distBetPoints at h1 h2
  rw [h1, div_pow, a] at b
  rw [h2, div_pow, a] at c
  simp only [sub_x, sub_y, sub_z] at b c
  have key : (m.x - (p.x + q.x) / 2) ^ 2 + (m.y - (p.y + q.y) / 2) ^ 2 + (m.z - (p.z + q.z) / 2) ^ 2 = 0 := by linarith
  have hx := sq_nonneg (m.x - (p.x + q.x) / 2)
  have hy := sq_nonneg (m.y - (p.y + q.y) / 2)
  have hz := sq_nonneg (m.z - (p.z + q.z) / 2)
  unfold midpointBetPoints
  ext <;> simp only [add_x, add_y, add_z, divBy_x, divBy_y, divBy_z] <;> apply sub_eq_zero.1 <;>
    apply pow_eq_zero_iff two_ne_zero |>.1 <;> linarith

example : midpointBetPoints ⟨0, 0, 0⟩ ⟨2, 4, 6⟩ = ⟨1, 2, 3⟩ := by
  unfold midpointBetPoints; ext <;> norm_num

end Props
