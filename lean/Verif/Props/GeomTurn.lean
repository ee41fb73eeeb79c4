/-
C252: the functions of geom_utils.py when everything is turned with rotate_x, rotate_y or rotate_z about the origin.
-/
import Verif.Props.GeomShift

noncomputable section
set_option linter.unusedSimpArgs false

namespace Props
open Py Geom

/-- `q` is the point `p` turned about the origin by one of the three functions. -/
def TurnedTo (θ : ℝ) (rot : List V3 → V3 → ℝ → List V3) (f : V3 → V3) : Prop :=
  (rot = rotateX ∨ rot = rotateY ∨ rot = rotateZ) ∧ ∀ p, rot [p] 0 θ = [f p]

/-- What the proofs need of a turn. -/
private structure Turn (f : V3 → V3) : Prop where
  add : ∀ a b, f (a + b) = f a + f b
  smul : ∀ (k : ℝ) a, f (k • a) = k • f a
  dot : ∀ a b, Geom.dot (f a) (f b) = Geom.dot a b

private theorem turn_of {θ : ℝ} {rot : List V3 → V3 → ℝ → List V3} {f : V3 → V3} (h : TurnedTo θ rot f) : Turn f := by
  have hcs := Real.sin_sq_add_cos_sq θ
  obtain ⟨hr, hf⟩ := h
  rcases hr with rfl | rfl | rfl
  · have hf' : ∀ p, f p = ⟨p.x, Real.cos θ * p.y + -Real.sin θ * p.z, Real.sin θ * p.y + Real.cos θ * p.z⟩ := by
      intro p
      have := hf p
      simp only [rotateX, List.map_cons, List.map_nil, List.cons.injEq, and_true] at this
      rw [← this]; ext <;> simp
    refine ⟨fun a b => ?_, fun k a => ?_, fun a b => ?_⟩
    · simp only [hf']; ext <;> simp <;> ring
    · simp only [hf']; ext <;> simp <;> ring
    · simp only [hf', Geom.dot]; linear_combination (a.y * b.y + a.z * b.z) * hcs
  · have hf' : ∀ p, f p = ⟨Real.cos θ * p.x + Real.sin θ * p.z, p.y, -Real.sin θ * p.x + Real.cos θ * p.z⟩ := by
      intro p
      have := hf p
      simp only [rotateY, List.map_cons, List.map_nil, List.cons.injEq, and_true] at this
      rw [← this]; ext <;> simp
    refine ⟨fun a b => ?_, fun k a => ?_, fun a b => ?_⟩
    · simp only [hf']; ext <;> simp <;> ring
    · simp only [hf']; ext <;> simp <;> ring
    · simp only [hf', Geom.dot]; linear_combination (a.x * b.x + a.z * b.z) * hcs
  · have hf' : ∀ p, f p = ⟨Real.cos θ * p.x + -Real.sin θ * p.y, Real.sin θ * p.x + Real.cos θ * p.y, p.z⟩ := by
      intro p
      have := hf p
      simp only [rotateZ, List.map_cons, List.map_nil, List.cons.injEq, and_true] at this
      rw [← this]; ext <;> simp
    refine ⟨fun a b => ?_, fun k a => ?_, fun a b => ?_⟩
    · simp only [hf']; ext <;> simp <;> ring
    · simp only [hf']; ext <;> simp <;> ring
    · simp only [hf', Geom.dot]; linear_combination (a.x * b.x + a.y * b.y) * hcs

namespace Turn
variable {f : V3 → V3} (h : Turn f)
include h

theorem sub (a b : V3) : f (a - b) = f a - f b := by
  have e : a - b = a + (-1 : ℝ) • b := by ext <;> simp <;> ring
  rw [e, h.add, h.smul]; ext <;> simp <;> ring

theorem divBy (a : V3) (k : ℝ) : f (a.divBy k) = (f a).divBy k := by
  have e : ∀ v : V3, v.divBy k = (1 / k) • v := by intro v; ext <;> simp <;> ring
  rw [e, e, h.smul]

theorem norm (a : V3) : Geom.norm (f a) = Geom.norm a := by
  unfold Geom.norm
  have := h.dot a a
  unfold Geom.dot at this
  congr 1
  linarith

theorem ne_zero {a : V3} (ha : a ≠ 0) : f a ≠ 0 := by
  intro h0
  apply ha
  rw [← norm_eq_zero, ← h.norm, h0, norm_eq_zero]

theorem inj {a b : V3} (he : f a = f b) : a = b := by
  have : f (a - b) = 0 := by rw [h.sub, he]; ext <;> simp
  by_contra hne
  apply h.ne_zero (a := a - b) _ this
  intro h0
  apply hne
  have e1 := congrArg V3.x h0
  have e2 := congrArg V3.y h0
  have e3 := congrArg V3.z h0
  simp only [sub_x, sub_y, sub_z, zero_x, zero_y, zero_z] at e1 e2 e3
  ext <;> linarith

theorem parallel (a b : V3) : checkParallelPlanes (f a) (f b) ↔ checkParallelPlanes a b := by
  unfold checkParallelPlanes
  rw [h.norm, h.norm, ← h.divBy, ← h.divBy]
  exact ⟨fun e => h.inj e, fun e => by rw [e]⟩

end Turn

/-- C252: points: distance, mid point and points on a ray. -/
theorem C252_points_partial (θ : ℝ) (rot : List V3 → V3 → ℝ → List V3) (f : V3 → V3) (h : TurnedTo θ rot f) (p q u : V3) (mu : ℝ) :
    distBetPoints (f p) (f q) = distBetPoints p q ∧
    midpointBetPoints (f p) (f q) = f (midpointBetPoints p q) ∧
    projectRay (f p) (f u) mu = f (projectRay p u mu) := by
  have t := turn_of h
  refine ⟨?_, ?_, ?_⟩
  · unfold distBetPoints; rw [← t.sub, t.norm]
  · unfold midpointBetPoints; rw [← t.add, t.divBy]
  · have e : ∀ p u : V3, projectRay p u mu = p + mu • u := by
      intro p u; unfold projectRay; ext <;> simp <;> ring
    rw [e, e, t.add, t.smul]

/-- C252: distance and side of a point and a plane, and of a point and a sphere. -/
theorem C252_sides_partial (θ : ℝ) (rot : List V3 → V3 → ℝ → List V3) (f : V3 → V3) (h : TurnedTo θ rot f) (n p c : V3) (d r : ℝ)
    (hn : n ≠ 0) :
    distBetweenPointPlane (f n) d (f p) = distBetweenPointPlane n d p ∧
    findSensePlane (f n) d (f p) = findSensePlane n d p ∧
    findSenseSphere (f p) (f c) r = findSenseSphere p c r := by
  have t := turn_of h
  refine ⟨?_, ?_, ?_⟩
  · rw [C112_value hn, C112_value (t.ne_zero hn)]
    have hd := t.dot n p
    have hl := t.norm n
    unfold dot at hd
    rw [hd, show eLen (f n) = Geom.norm (f n) from rfl, show eLen n = Geom.norm n from rfl, hl]
  · unfold findSensePlane evaluatePlaneEq
    rw [check_ok hn, check_ok (t.ne_zero hn), t.dot]
  · unfold findSenseSphere evaluateSphereEq
    rw [← t.sub, t.norm]

/-- C252: the angle between planes, and where rays, segments and planes meet spheres and planes. -/
theorem C252_meet_partial (θ : ℝ) (rot : List V3 → V3 → ℝ → List V3) (f : V3 → V3) (h : TurnedTo θ rot f) (n n' p q u c : V3)
    (d r : ℝ) (hn : n ≠ 0) (hn' : n' ≠ 0) :
    angleBetweenPlanes (f n) (f n') = angleBetweenPlanes n n' ∧
    sphereRayIntersect (f p) (f u) (f c) r = sphereRayIntersect p u c r ∧
    planeSphereIntersect (f n) d (f p) r = (planeSphereIntersect n d p r).map (fun x => (x.1, f x.2)) ∧
    lineSegmentPlaneIntersection (f p) (f q) (f n) d = (lineSegmentPlaneIntersection p q n d).map f := by
  have t := turn_of h
  refine ⟨?_, ?_, ?_, ?_⟩
  · unfold angleBetweenPlanes
    simp only [check_ok hn, check_ok hn', check_ok (t.ne_zero hn), check_ok (t.ne_zero hn'), ex_ok_bind, t.dot, t.norm]
    by_cases hp : checkParallelPlanes n n'
    · rw [if_pos hp, if_pos ((t.parallel _ _).2 hp)]
    · rw [if_neg hp, if_neg (fun e => hp ((t.parallel _ _).1 e))]
  · unfold sphereRayIntersect
    simp only [← t.sub, t.dot, t.norm]
  · unfold planeSphereIntersect
    rw [(C252_sides_partial θ rot f h n p p d r hn).1, C112_value hn, check_ok hn, check_ok (t.ne_zero hn)]
    simp only [ex_ok_bind]
    by_cases hR : r < 0
    · rw [pos_err hR]; rfl
    · rw [pos_ok (not_lt.1 hR)]
      simp only [ex_ok_bind]
      split_ifs
      · rfl
      · show Except.ok _ = Except.ok _
        simp only [t.add, t.divBy, t.smul, t.norm]
  · unfold lineSegmentPlaneIntersection
    simp only [check_ok hn, check_ok (t.ne_zero hn), ex_ok_bind, ← t.sub, t.dot]
    split_ifs
    · rfl
    · show Except.ok _ = Except.ok _
      rw [t.add, t.smul]
    · rfl

/-- C252: the line in which two planes meet at the height `z`, for turns about the z axis (the others change the height). -/
theorem C252_line_partial (θ : ℝ) (f : V3 → V3) (h : TurnedTo θ rotateZ f) (n n' : V3) (d d' z : ℝ) (hn : n ≠ 0) (hn' : n' ≠ 0) :
    planePlaneIntersect (f n) d (f n') d' z = (planePlaneIntersect n d n' d' z).map (fun x => (f x.1, f x.2)) := by
  have t := turn_of h
  have hcs := Real.sin_sq_add_cos_sq θ
  have hf' : ∀ p, f p = ⟨Real.cos θ * p.x + -Real.sin θ * p.y, Real.sin θ * p.x + Real.cos θ * p.y, p.z⟩ := by
    intro p
    have := h.2 p
    simp only [rotateZ, List.map_cons, List.map_nil, List.cons.injEq, and_true] at this
    rw [← this]; ext <;> simp
  have hdet : (f n).x * (f n').y - (f n).y * (f n').x = n.x * n'.y - n.y * n'.x := by
    simp only [hf']; linear_combination (n.x * n'.y - n.y * n'.x) * hcs
  have hcross : cross (f n) (f n') = f (cross n n') := by
    simp only [hf', cross]
    ext
    · simp only; ring
    · simp only; ring
    · simp only; linear_combination (n.x * n'.y - n.y * n'.x) * hcs
  unfold planePlaneIntersect
  simp only [check_ok hn, check_ok hn', check_ok (t.ne_zero hn), check_ok (t.ne_zero hn'), ex_ok_bind]
  by_cases hp : checkParallelPlanes n n'
  · rw [if_pos hp, if_pos ((t.parallel _ _).2 hp)]; rfl
  · rw [if_neg hp, if_neg (fun e => hp ((t.parallel _ _).1 e)), hcross, t.norm, ← t.divBy]
    unfold solve2
    rw [hdet]
    by_cases h0 : n.x * n'.y - n.y * n'.x = 0
    · rw [if_pos h0, if_pos h0]; rfl
    · rw [if_neg h0, if_neg h0]
      simp only [ex_ok_bind, ex_pure, Except.map]
      congr 2
      have hz : ∀ v, (f v).z = v.z := by intro v; rw [hf']
      have hx : ∀ v, (f v).x = Real.cos θ * v.x + -Real.sin θ * v.y := by intro v; rw [hf']
      have hy : ∀ v, (f v).y = Real.sin θ * v.x + Real.cos θ * v.y := by intro v; rw [hf']
      ext
      · simp only [hx, hy, hz]
        field_simp
        ring
      · simp only [hx, hy, hz]
        field_simp
        ring
      · simp only [hz]

/-- C252: the distance of two planes, as long as no normal vector has x = 0. -/
theorem C252_planes_partial (θ : ℝ) (rot : List V3 → V3 → ℝ → List V3) (f : V3 → V3) (h : TurnedTo θ rot f) (n n' : V3) (d d' : ℝ)
    (hn : n ≠ 0) (hn' : n' ≠ 0) (hx : n'.x ≠ 0) (hx' : (f n').x ≠ 0) :
    distBetweenPlanes (f n) d (f n') d' = (distBetweenPlanes n d n' d').map (fun x => (x.1, x.2.map f)) := by
  have t := turn_of h
  unfold distBetweenPlanes
  simp only [check_ok hn, check_ok hn', check_ok (t.ne_zero hn), check_ok (t.ne_zero hn'), ex_ok_bind]
  by_cases hp : checkParallelPlanes n n'
  · rw [if_neg (not_not.2 hp), if_neg (not_not.2 ((t.parallel _ _).2 hp)), if_neg hx, if_neg hx']
    obtain ⟨k, hk, he⟩ := (parallel_iff hn hn').1 hp
    have h1 : n.x / n'.x = k := by rw [he]; simp only [smul_x]; field_simp
    have h2 : (f n).x / (f n').x = k := by rw [he, t.smul]; simp only [smul_x]; field_simp
    have e : ∀ v : V3, (⟨v.x * k, v.y * k, v.z * k⟩ : V3) = k • v := by intro v; ext <;> simp <;> ring
    simp only [h1, h2, e, ex_pure, Except.map, Option.map_some, ← t.smul, t.norm]
  · rw [if_pos hp, if_pos (fun e => hp ((t.parallel _ _).1 e))]
    rfl

/-- C252 is violated by the distance of two planes: whatever parallel planes were given (normal vector with x not 0), there is an
    angle about the z axis after which the distance of the turned planes is NaN. -/
theorem C252_planes_violated (n n' : V3) (d d' k : ℝ) (hn' : n' ≠ 0) (hk : 0 < k) (he : n = k • n') (hx : n'.x ≠ 0) :
    (∃ v w, distBetweenPlanes n d n' d' = .ok (some v, some w)) ∧
    ∃ θ f, TurnedTo θ rotateZ f ∧ distBetweenPlanes (f n) d (f n') d' = .ok (none, none) := by
  have hn : n ≠ 0 := by
    rw [he, ne_zero_iff]
    simp only [smul_x, smul_y, smul_z, mul_eq_zero, hk.ne', false_or]
    exact ne_zero_iff.1 hn'
  have hp : checkParallelPlanes n n' := (parallel_iff hn hn').2 ⟨k, hk, he⟩
  constructor
  · unfold distBetweenPlanes
    simp only [check_ok hn, check_ok hn', ex_ok_bind]
    rw [if_neg (not_not.2 hp), if_neg hx]
    exact ⟨_, _, rfl⟩
  · obtain ⟨θ, hθ⟩ : ∃ θ : ℝ, Real.cos θ * n'.x + -Real.sin θ * n'.y = 0 := by
      by_cases hy : n'.y = 0
      · exact ⟨Real.pi / 2, by rw [Real.cos_pi_div_two, hy]; ring⟩
      · refine ⟨Real.arctan (n'.x / n'.y), ?_⟩
        have hc := Real.cos_arctan_pos (n'.x / n'.y)
        have ht := Real.tan_arctan (n'.x / n'.y)
        rw [Real.tan_eq_sin_div_cos, div_eq_div_iff hc.ne' hy] at ht
        linarith
    refine ⟨θ, fun p => ⟨Real.cos θ * p.x + -Real.sin θ * p.y, Real.sin θ * p.x + Real.cos θ * p.y, p.z⟩, ⟨.inr (.inr rfl), ?_⟩, ?_⟩
    · intro p
      simp [rotateZ]
    · have t : TurnedTo θ rotateZ (fun p => ⟨Real.cos θ * p.x + -Real.sin θ * p.y, Real.sin θ * p.x + Real.cos θ * p.y, p.z⟩) :=
        ⟨.inr (.inr rfl), fun p => by simp [rotateZ]⟩
      have t' := turn_of t
      unfold distBetweenPlanes
      rw [check_ok (t'.ne_zero hn), check_ok (t'.ne_zero hn')]
      simp only [ex_ok_bind]
      rw [if_neg (not_not.2 ((t'.parallel _ _).2 hp)), if_pos hθ]
      rfl

example : TurnedTo (Real.pi / 2) rotateZ (fun p => ⟨-p.y, p.x, p.z⟩) :=
  ⟨.inr (.inr rfl), fun p => by simp [rotateZ]⟩

example : distBetPoints ⟨-2, 1, 3⟩ ⟨-5, 4, 6⟩ = distBetPoints ⟨1, 2, 3⟩ ⟨4, 5, 6⟩ :=
  (C252_points_partial (Real.pi / 2) rotateZ (fun p => ⟨-p.y, p.x, p.z⟩) ⟨.inr (.inr rfl), fun p => by simp [rotateZ]⟩
    ⟨1, 2, 3⟩ ⟨4, 5, 6⟩ 0 0).1

example : ∃ θ f, TurnedTo θ rotateZ f ∧ distBetweenPlanes (f ⟨2, 0, 0⟩) 1 (f ⟨1, 0, 0⟩) 3 = .ok (none, none) :=
  (C252_planes_violated ⟨2, 0, 0⟩ ⟨1, 0, 0⟩ 1 3 2 (by rw [ne_zero_iff]; simp) (by norm_num) (by ext <;> simp) (by simp)).2

end Props
