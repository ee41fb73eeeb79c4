/- Properties C156 and C157 of neut_constants.py: agreement with the physical values. -/
import Verif.Model.Constants
import Mathlib.Algebra.Order.Field.Basic
import Mathlib.Algebra.Order.Group.Abs
import Mathlib.Algebra.Order.Ring.Abs
import Mathlib.Tactic.NormNum
import Mathlib.Tactic.Ring
import Mathlib.Tactic.FieldSimp
import Mathlib.Tactic.Linarith
import Mathlib.Tactic.LinearCombination

set_option linter.unusedSectionVars false

namespace Props
open Py Constants
variable {K : Type} [Field K] [LinearOrder K] [IsStrictOrderedRing K]

/-- `x` agrees with the positive reference value within the relative tolerance. -/
def Accurate (tol ref x : K) : Prop := 0 < ref ∧ |x - ref| ≤ tol * ref

private theorem agrees_of {tol ref x : K} (h0 : 0 < ref) (h1 : x - ref ≤ tol * ref) (h2 : ref - x ≤ tol * ref) : Accurate tol ref x :=
  ⟨h0, abs_le.2 ⟨by linarith, h1⟩⟩

private theorem agrees_scale {tol ref x u : K} (hu : 0 < u) (h : Accurate tol ref x) : Accurate tol (u * ref) (u * x) := by
  obtain ⟨h0, h1⟩ := h
  refine ⟨mul_pos hu h0, ?_⟩
  rw [← mul_sub, abs_mul, abs_of_pos hu, mul_left_comm]
  exact mul_le_mul_of_nonneg_left h1 hu.le

/-- The constants agree with CODATA 2018 within one part in a million: charge in C, masses in g. -/
theorem C156_constants :
    Accurate (1 / 10 ^ 6 : K) (1602176634 / 10 ^ 28) getE ∧
    Accurate (1 / 10 ^ 6 : K) (167262192369 / 10 ^ 35) getPMass ∧
    Accurate (1 / 10 ^ 6 : K) (167492749804 / 10 ^ 35) getNMass ∧
    Accurate (1 / 10 ^ 6 : K) (91093837015 / 10 ^ 38) getEMass := by
  unfold getE getPMass getNMass getEMass
  refine ⟨?_, ?_, ?_, ?_⟩ <;> refine agrees_of ?_ ?_ ?_ <;> norm_num

example : (getPMass : ℚ) < getNMass := by unfold getPMass getNMass; norm_num

/-- The conversions with an exact definition: rem and sievert, hours and days, shakes, barns. -/
theorem C157_exact (v : K) :
    remToSv v = v * (1 / 100) ∧ svToRem v = v * 100 ∧ secondToHour v * (60 * 60) = v ∧ secondToDay v * (24 * 60 * 60) = v ∧
    hourToSecond v = v * (60 * 60) ∧ dayToSecond v = v * (24 * 60 * 60) ∧ shakeToSecond v = v * (1 / 10 ^ 8) ∧ secondToShake v = v * 10 ^ 8 ∧
    barnToCm2 v = v * (1 / 10 ^ 24) ∧ cm2ToBarn v = v * 10 ^ 24 := by
  unfold remToSv svToRem secondToHour secondToDay hourToSecond dayToSecond shakeToSecond secondToShake barnToCm2 cm2ToBarn
  refine ⟨?_, ?_, ?_, ?_, ?_, ?_, ?_, ?_, ?_, ?_⟩ <;> norm_num <;> ring

/-- The conversions with a measured factor are right within two parts in ten thousand: the electron volt, the wavelength of a photon
    (hc = 1.98644586e-25 J m), the energy of a neutron (h² / 2m = 81.804 meV Å²); years are right within one part in a thousand. -/
theorem C157_measured_partial (v : K) (hv : 0 < v) :
    Accurate (2 / 10 ^ 4) (v * (1602176634 / 10 ^ 28)) (eVToJoule v) ∧
    Accurate (2 / 10 ^ 4) (v / (1602176634 / 10 ^ 28)) (jouleToEV v) ∧
    (∃ w, eVToWavelengthPhoton v = .ok w ∧ Accurate (2 / 10 ^ 4) ((198644586 / 10 ^ 33) / (v * (1602176634 / 10 ^ 28))) w) ∧
    (∃ e, wavelengthToMeVNeutron v = .ok e ∧ Accurate (2 / 10 ^ 4) (81804 / 1000 / v ^ 2) e) ∧
    Accurate (1 / 10 ^ 3) (v / (365.25 * 24 * 60 * 60)) (secondToYear v) ∧
    yearsToSeconds v = v * (365.25 * 24 * 60 * 60) ∧ yearsToHrs v = v * (365.25 * 24) ∧ yearsToDays v = v * 365.25 := by
  have hv2 : 0 < v⁻¹ := inv_pos.2 hv
  refine ⟨?_, ?_, ?_, ?_, ?_, ?_, ?_, ?_⟩
  · exact agrees_scale hv (agrees_of (by norm_num) (by norm_num) (by norm_num))
  · have : Accurate (2 / 10 ^ 4 : K) (1 / (1602176634 / 10 ^ 28)) (1 / 1.602e-19) := agrees_of (by norm_num) (by norm_num) (by norm_num)
    have := agrees_scale hv this
    rwa [mul_one_div, mul_one_div] at this
  · refine ⟨1.24e-6 / v, by unfold eVToWavelengthPhoton; rw [if_neg hv.ne'], ?_⟩
    have : Accurate (2 / 10 ^ 4 : K) ((198644586 / 10 ^ 33) / (1602176634 / 10 ^ 28)) 1.24e-6 := agrees_of (by norm_num) (by norm_num) (by norm_num)
    have := agrees_scale hv2 this
    rw [inv_mul_eq_div, inv_mul_eq_div, div_div] at this
    rwa [mul_comm v]
  · refine ⟨81.81 / (v * v), by unfold wavelengthToMeVNeutron; rw [if_neg (mul_pos hv hv).ne'], ?_⟩
    have : Accurate (2 / 10 ^ 4 : K) (81804 / 1000) 81.81 := agrees_of (by norm_num) (by norm_num) (by norm_num)
    have := agrees_scale (inv_pos.2 (mul_pos hv hv)) this
    rw [inv_mul_eq_div, inv_mul_eq_div] at this
    rwa [pow_two]
  · have : Accurate (1 / 10 ^ 3 : K) (1 / (365.25 * 24 * 60 * 60)) (1 / 3.1536e07) := agrees_of (by norm_num) (by norm_num) (by norm_num)
    have := agrees_scale hv this
    rwa [mul_one_div, mul_one_div] at this
  · unfold yearsToSeconds; ring
  · unfold yearsToHrs; ring
  · rfl

/-- Activities: a curie is 3.7e10 Bq, but both conversions are far off: for every positive activity the result is more than 10²⁰ times too
    large, or 10²⁰ times too small. -/
theorem C157_activity_violated (v : K) (hv : 0 < v) :
    bqToCurie v > 10 ^ 20 * (v / (37 * 10 ^ 9)) ∧ 10 ^ 20 * curieToBq v < v * (37 * 10 ^ 9) := by
  unfold bqToCurie curieToBq
  constructor
  · rw [gt_iff_lt, mul_div_assoc', div_lt_iff₀ (by norm_num)]
    norm_num
    linarith
  · norm_num
    linarith

/-- `shake_to_ms` does not give milliseconds but microseconds, for every time. -/
theorem C157_ms_violated (t : K) (ht : 0 < t) : shakeToMs t * (1 / 10 ^ 6) = t * (1 / 10 ^ 8) ∧ shakeToMs t * (1 / 10 ^ 3) ≠ t * (1 / 10 ^ 8) := by
  unfold shakeToMs
  constructor
  · ring
  · intro h
    have : t * (1 / 10 ^ 5 - 1 / 10 ^ 8) = 0 := by linear_combination h
    rcases mul_eq_zero.1 this with h | h
    · exact ht.ne' h
    · norm_num at h

end Props
