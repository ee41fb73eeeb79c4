/- Property C218: the wavelengths shown by the plots of mcnp_analysis.py. -/
import Verif.Model.Wave
import Verif.Model.Constants
import Verif.Props.McnpPlots
import Mathlib.Tactic.Positivity

set_option linter.unusedSectionVars false

namespace Props
open Py McnpPlots NeutUtilities

/-- The wavelength in Å of a neutron with the energy `e` in MeV, from h / √(2 m E) with the values of CODATA 2018. -/
noncomputable def deBroglie (e : ℝ) : ℝ :=
  (662607015 / 10 ^ 42) / Real.sqrt (2 * (167492749804 / 10 ^ 38) * (e * 10 ^ 6 * (1602176634 / 10 ^ 28))) * 10 ^ 10

private theorem wave_pos {e : ℝ} (he : 0 < e) : 0 < waveLength e := by
  unfold waveLength
  exact Real.sqrt_pos.2 (by positivity)

private theorem wave_sq {e : ℝ} (he : 0 < e) : waveLength e ^ 2 = 81.81 / e / 1e9 := by
  unfold waveLength
  exact Real.sq_sqrt (by positivity)

private theorem broglie_pos {e : ℝ} (he : 0 < e) : 0 < deBroglie e := by
  unfold deBroglie
  have : 0 < Real.sqrt (2 * (167492749804 / 10 ^ 38) * (e * 10 ^ 6 * (1602176634 / 10 ^ 28))) := Real.sqrt_pos.2 (by positivity)
  positivity

private theorem broglie_sq {e : ℝ} (he : 0 < e) :
    deBroglie e ^ 2 = (662607015 / 10 ^ 42) ^ 2 / (2 * (167492749804 / 10 ^ 38) * (e * 10 ^ 6 * (1602176634 / 10 ^ 28))) * 10 ^ 20 := by
  unfold deBroglie
  rw [mul_pow, div_pow, Real.sq_sqrt (by positivity)]
  norm_num

/-- The wavelength is that of a neutron with the energy, within one part in ten thousand. -/
theorem C218_physical (e : ℝ) (he : 0 < e) : |waveLength e - deBroglie e| ≤ 1 / 10 ^ 4 * deBroglie e := by
  have h1 := wave_pos he
  have h2 := broglie_pos he
  have h3 := wave_sq he
  have h4 := broglie_sq he
  have hk : ∀ k : ℝ, deBroglie e ^ 2 = k * (1 / e) → waveLength e ^ 2 = 81.81 / 1e9 * (1 / e) := by
    intro k _
    rw [h3]
    field_simp
  have hb : deBroglie e ^ 2 = ((662607015 / 10 ^ 42) ^ 2 / (2 * (167492749804 / 10 ^ 38) * (10 ^ 6 * (1602176634 / 10 ^ 28))) * 10 ^ 20) * (1 / e) := by
    rw [h4]
    field_simp
  have hw := hk _ hb
  have hi : 0 < 1 / e := by positivity
  rw [abs_le]
  constructor
  · have : ((1 - 1 / 10 ^ 4) * deBroglie e) ^ 2 ≤ waveLength e ^ 2 := by
      rw [mul_pow, hb, hw, ← mul_assoc]
      refine mul_le_mul_of_nonneg_right ?_ hi.le
      norm_num
    have := (pow_le_pow_iff_left₀ (by norm_num; exact h2.le) h1.le (two_ne_zero)).1 this
    linarith
  · have : waveLength e ^ 2 ≤ ((1 + 1 / 10 ^ 4) * deBroglie e) ^ 2 := by
      rw [mul_pow, hb, hw, ← mul_assoc]
      refine mul_le_mul_of_nonneg_right ?_ hi.le
      norm_num
    have := (pow_le_pow_iff_left₀ h1.le (by positivity) (two_ne_zero)).1 this
    linarith

/-- The wavelength is the one that the conversion of the constants module turns into the energy (in meV). -/
theorem C218_inverse (e : ℝ) (he : 0 < e) : Constants.wavelengthToMeVNeutron (waveLength e) = .ok (e * 10 ^ 9) := by
  have h1 := wave_pos he
  unfold Constants.wavelengthToMeVNeutron
  rw [if_neg (mul_pos h1 h1).ne', ← pow_two, wave_sq he]
  congr 1
  field_simp
  norm_num

/-- The shaded band holds exactly the energies with a wavelength from 2 to 10 Å. -/
theorem C218_band (e : ℝ) (he : 0 < e) : heatBand.1 ≤ e ∧ e ≤ heatBand.2 ↔ 2 ≤ waveLength e ∧ waveLength e ≤ 10 := by
  have h1 := wave_pos he
  have h3 := wave_sq he
  have hA : heatBand.1 ≤ e ↔ waveLength e ≤ 10 := by
    rw [← pow_le_pow_iff_left₀ h1.le (by norm_num : (0 : ℝ) ≤ 10) two_ne_zero, h3, div_div, div_le_iff₀ (by positivity)]
    unfold heatBand
    simp only
    rw [div_div, div_le_iff₀ (by norm_num)]
    constructor <;> intro h <;> norm_num at h ⊢ <;> linarith
  have hB : e ≤ heatBand.2 ↔ 2 ≤ waveLength e := by
    rw [← pow_le_pow_iff_left₀ (by norm_num : (0 : ℝ) ≤ 2) h1.le two_ne_zero, h3, div_div, le_div_iff₀ (by positivity)]
    unfold heatBand
    simp only
    rw [div_div, le_div_iff₀ (by norm_num)]
    constructor <;> intro h <;> norm_num at h ⊢ <;> linarith
  rw [hA, hB, and_comm]

/-- The label of a curve names the wavelength, or the energy, of the energy drawn: the one nearest to the target. The title does so for a
    single target. -/
theorem C218_labels {wl : Bool} {targets energies : List ℝ} (hne : energies ≠ []) :
    ∃ labels, sliceLabels wl targets energies = .ok labels ∧
      List.Forall₂ (fun te l => ∃ i e, Nearest energies te i ∧ energies[i]? = some e ∧ l = if wl then .wave (waveLength e) else .energy e) targets labels ∧
      (targets.length = 1 → ∃ l, labels = [l] ∧ sliceTitle wl targets energies = .ok (some l)) ∧
      (2 ≤ targets.length → sliceTitle wl targets energies = .ok none) := by
  have hmin : ∀ te, ∃ i e, argmin (energies.map (fun e => |e - te|)) = .ok i ∧ Nearest energies te i ∧ energies[i]? = some e := by
    intro te
    obtain ⟨i, hi, _⟩ := argmin_spec (l := energies.map (fun e => |e - te|)) (by simpa using hne)
    have hn := (mp_argmin_nearest energies te i).1 hi
    obtain ⟨a, ha, _⟩ := hn
    exact ⟨i, a, hi, (mp_argmin_nearest energies te i).1 hi, ha⟩
  choose idx val h1 h2 h3 using hmin
  have hm : targets.mapM (fun te => argmin (energies.map (fun e => |e - te|))) = .ok (targets.map idx) :=
    mapM_except_ok_of (g := idx) (fun te _ => h1 te)
  have hl : sliceLabels wl targets energies = .ok (targets.map (fun te => sliceLabel wl (val te))) := by
    unfold sliceLabels
    rw [hm, ex_ok_bind]
    rw [mapM_except_ok_iff, List.forall₂_map_left_iff, List.forall₂_map_right_iff, List.forall₂_same]
    intro te _
    rw [h3 te]
    rfl
  refine ⟨_, hl, ?_, fun h => ?_, fun h => ?_⟩
  · rw [List.forall₂_map_right_iff, List.forall₂_same]
    exact fun te _ => ⟨idx te, val te, h2 te, h3 te, rfl⟩
  · obtain ⟨te, rfl⟩ := List.length_eq_one_iff.1 h
    refine ⟨_, rfl, ?_⟩
    unfold sliceTitle
    rw [hl]
    rfl
  · unfold sliceTitle
    rw [hl, ex_ok_bind, if_pos (by rw [List.length_map]; omega)]
    rfl

/-- 81.81 meV is the energy of a wavelength of 1 Å. -/
example : waveLength (81.81 / 1e9) = 1 := by
  unfold waveLength
  rw [Real.sqrt_eq_one]
  norm_num

example : Nearest [(1 : ℝ), 2] 2 1 :=
  ⟨2, rfl, by simp, fun j b hj hb => by
    obtain rfl : j = 0 := by omega
    cases hb
    norm_num⟩

end Props
