/- Helper lemmas for the properties of geom_utils.py. -/
import Verif.Model.Geom
import Verif.Proofs.Except
import Mathlib.Tactic.Ring
import Mathlib.Tactic.Linarith
import Mathlib.Tactic.LinearCombination
import Mathlib.Tactic.FieldSimp
import Mathlib.Tactic.Positivity

noncomputable section

namespace Geom
open Py

@[simp] theorem add_x (a b : V3) : (a + b).x = a.x + b.x := rfl
@[simp] theorem add_y (a b : V3) : (a + b).y = a.y + b.y := rfl
@[simp] theorem add_z (a b : V3) : (a + b).z = a.z + b.z := rfl
@[simp] theorem sub_x (a b : V3) : (a - b).x = a.x - b.x := rfl
@[simp] theorem sub_y (a b : V3) : (a - b).y = a.y - b.y := rfl
@[simp] theorem sub_z (a b : V3) : (a - b).z = a.z - b.z := rfl
@[simp] theorem smul_x (k : ℝ) (a : V3) : (k • a).x = k * a.x := rfl
@[simp] theorem smul_y (k : ℝ) (a : V3) : (k • a).y = k * a.y := rfl
@[simp] theorem smul_z (k : ℝ) (a : V3) : (k • a).z = k * a.z := rfl
@[simp] theorem zero_x : (0 : V3).x = 0 := rfl
@[simp] theorem zero_y : (0 : V3).y = 0 := rfl
@[simp] theorem zero_z : (0 : V3).z = 0 := rfl
@[simp] theorem divBy_x (k : ℝ) (a : V3) : (a.divBy k).x = a.x / k := rfl
@[simp] theorem divBy_y (k : ℝ) (a : V3) : (a.divBy k).y = a.y / k := rfl
@[simp] theorem divBy_z (k : ℝ) (a : V3) : (a.divBy k).z = a.z / k := rfl

theorem norm_sq (a : V3) : norm a ^ 2 = a.x ^ 2 + a.y ^ 2 + a.z ^ 2 := Real.sq_sqrt (by positivity)

theorem norm_nonneg (a : V3) : 0 ≤ norm a := Real.sqrt_nonneg _

theorem ne_zero_iff {a : V3} : a ≠ 0 ↔ ¬ (a.x = 0 ∧ a.y = 0 ∧ a.z = 0) := by
  rw [ne_eq, V3.ext_iff]; rfl

theorem sumsq_pos {a : V3} (h : a ≠ 0) : 0 < a.x ^ 2 + a.y ^ 2 + a.z ^ 2 := by
  rw [ne_zero_iff] at h
  by_contra h'
  have hx := sq_nonneg a.x
  have hy := sq_nonneg a.y
  have hz := sq_nonneg a.z
  apply h
  refine ⟨?_, ?_, ?_⟩ <;> apply pow_eq_zero_iff (two_ne_zero) |>.1 <;> linarith

theorem norm_pos {a : V3} (h : a ≠ 0) : 0 < norm a := Real.sqrt_pos.2 (sumsq_pos h)

theorem norm_eq_zero {a : V3} : norm a = 0 ↔ a = 0 := by
  constructor
  · intro h; by_contra h'; exact absurd h (norm_pos h').ne'
  · rintro rfl; simp [norm]

theorem norm_of_sq {a : V3} {k : ℝ} (hk : 0 ≤ k) (h : a.x ^ 2 + a.y ^ 2 + a.z ^ 2 = k ^ 2) : norm a = k := by
  unfold norm; rw [h, Real.sqrt_sq hk]

theorem check_ok {n : V3} (h : n ≠ 0) : checkPlaneExists n = .ok () := if_neg (ne_zero_iff.1 h)

theorem check_zero : checkPlaneExists 0 = .error .ValueError := if_pos ⟨rfl, rfl, rfl⟩

theorem pos_ok {x : ℝ} (h : 0 ≤ x) : checkPositive x = .ok () := if_neg (not_lt.2 h)

theorem pos_err {x : ℝ} (h : x < 0) : checkPositive x = .error .ValueError := if_pos h

/-- Cauchy-Schwarz. -/
theorem dot_sq_le (a b : V3) : dot a b ^ 2 ≤ (a.x ^ 2 + a.y ^ 2 + a.z ^ 2) * (b.x ^ 2 + b.y ^ 2 + b.z ^ 2) := by
  unfold dot
  nlinarith [sq_nonneg (a.x * b.y - a.y * b.x), sq_nonneg (a.x * b.z - a.z * b.x), sq_nonneg (a.y * b.z - a.z * b.y)]

theorem abs_dot_le (a b : V3) : |dot a b| ≤ norm a * norm b := by
  apply abs_le_of_sq_le_sq _ (mul_nonneg (norm_nonneg a) (norm_nonneg b))
  rw [mul_pow, norm_sq, norm_sq]
  exact dot_sq_le a b

/-- Unit vectors agree exactly for positive multiples. -/
theorem parallel_iff {a b : V3} (ha : a ≠ 0) (hb : b ≠ 0) : checkParallelPlanes a b ↔ ∃ k : ℝ, 0 < k ∧ a = k • b := by
  have pa := norm_pos ha
  have pb := norm_pos hb
  unfold checkParallelPlanes
  constructor
  · intro h
    refine ⟨norm a / norm b, by positivity, ?_⟩
    have hx := congrArg V3.x h
    have hy := congrArg V3.y h
    have hz := congrArg V3.z h
    simp only [divBy_x, divBy_y, divBy_z] at hx hy hz
    rw [div_eq_div_iff pa.ne' pb.ne'] at hx hy hz
    ext <;> simp only [smul_x, smul_y, smul_z] <;> field_simp <;> linarith
  · rintro ⟨k, hk, rfl⟩
    have hn : norm (k • b) = k * norm b := by
      apply norm_of_sq (by positivity)
      rw [mul_pow, norm_sq]
      simp only [smul_x, smul_y, smul_z]; ring
    ext <;> simp only [divBy_x, divBy_y, divBy_z, smul_x, smul_y, smul_z, hn] <;> field_simp

end Geom
