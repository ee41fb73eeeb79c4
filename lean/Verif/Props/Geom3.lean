/- Properties C120-C122 of geom_utils.py: volumes and areas. -/
import Verif.Proofs.Geom
import Mathlib.MeasureTheory.Measure.Lebesgue.VolumeOfBalls
import Mathlib.MeasureTheory.Measure.Prod
import Mathlib.MeasureTheory.Integral.IntervalIntegral.FundThmCalculus
import Mathlib.Analysis.SpecialFunctions.Integrals.Basic

noncomputable section
set_option linter.unusedSimpArgs false

namespace Props
open Py Geom MeasureTheory

private theorem circle_val {r : ℝ} (hr : 0 ≤ r) : areaCircle r = .ok (Real.pi * r * r) := by
  unfold areaCircle; simp only [pos_ok hr, ex_ok_bind, ex_pure]

private theorem perim_val {r : ℝ} (hr : 0 ≤ r) : perimCircle r = .ok (2 * Real.pi * r) := by
  unfold perimCircle; simp only [pos_ok hr, ex_ok_bind, ex_pure]

private theorem sphere_val {r : ℝ} (hr : 0 ≤ r) : volumeSphere r = .ok (4 / 3 * Real.pi * r ^ 3) := by
  unfold volumeSphere; simp only [pos_ok hr, ex_ok_bind, ex_pure]

private theorem asphere_val {r : ℝ} (hr : 0 ≤ r) : areaSphere r = .ok (4 * Real.pi * r ^ 2) := by
  unfold areaSphere; simp only [pos_ok hr, ex_ok_bind, ex_pure]

private theorem cyl_val {r h : ℝ} (hr : 0 ≤ r) (hh : 0 ≤ h) : volumeCyl r h = .ok (Real.pi * r * r * h) := by
  unfold volumeCyl; simp only [pos_ok hh, circle_val hr, ex_ok_bind, ex_pure]

private theorem cone_val {r h : ℝ} (hr : 0 ≤ r) (hh : 0 ≤ h) : volumeCone r h = .ok (Real.pi * r * r * h * (1 / 3)) := by
  unfold volumeCone; simp only [cyl_val hr hh, ex_ok_bind, ex_pure]

/-! ### C120 -/

/-- The plane. -/
abbrev Plane2 := EuclideanSpace ℝ (Fin 2)

/-- The disc: points of the plane at distance at most `r` from `c`. -/
def disc (c : Plane2) (r : ℝ) : Set Plane2 := {p | dist p c ≤ r}

/-- The ball in space. -/
def ball3 (c : EuclideanSpace ℝ (Fin 3)) (r : ℝ) : Set (EuclideanSpace ℝ (Fin 3)) := {p | dist p c ≤ r}

/-- The upright cylinder: points over the disc between the heights 0 and `h`. -/
def cylinder (c : Plane2) (r h : ℝ) : Set (Plane2 × ℝ) := {p | dist p.1 c ≤ r ∧ 0 ≤ p.2 ∧ p.2 ≤ h}

/-- The upright cone with its base at height 0 and its tip at height `h`. -/
def cone (c : Plane2) (r h : ℝ) : Set (Plane2 × ℝ) := {p | dist p.1 c ≤ r * (1 - p.2 / h) ∧ 0 ≤ p.2 ∧ p.2 ≤ h}

theorem C120_disc {r : ℝ} (hr : 0 ≤ r) (c : Plane2) : ∃ a, areaCircle r = .ok a ∧ volume (disc c r) = ENNReal.ofReal a := by
  refine ⟨_, circle_val hr, ?_⟩
  show volume (Metric.closedBall c r) = _
  rw [EuclideanSpace.volume_closedBall_fin_two, ← ENNReal.ofReal_pow hr, ← ENNReal.ofReal_mul (by positivity)]
  congr 1; ring

theorem C120_ball {r : ℝ} (hr : 0 ≤ r) (c : EuclideanSpace ℝ (Fin 3)) : ∃ v, volumeSphere r = .ok v ∧ volume (ball3 c r) = ENNReal.ofReal v := by
  refine ⟨_, sphere_val hr, ?_⟩
  show volume (Metric.closedBall c r) = _
  rw [EuclideanSpace.volume_closedBall_fin_three, ← ENNReal.ofReal_pow hr, ← ENNReal.ofReal_mul (by positivity)]
  congr 1; ring

theorem C120_cylinder {r h : ℝ} (hr : 0 ≤ r) (hh : 0 ≤ h) (c : Plane2) : ∃ v, volumeCyl r h = .ok v ∧ volume (cylinder c r h) = ENNReal.ofReal v := by
  refine ⟨_, cyl_val hr hh, ?_⟩
  have he : cylinder c r h = Metric.closedBall c r ×ˢ Set.Icc 0 h := by
    ext p; simp [cylinder, Metric.mem_closedBall]
  rw [he, Measure.volume_eq_prod, Measure.prod_prod, EuclideanSpace.volume_closedBall_fin_two, Real.volume_Icc, sub_zero,
    ← ENNReal.ofReal_pow hr, ← ENNReal.ofReal_mul (by positivity), ← ENNReal.ofReal_mul (by positivity)]
  congr 1; ring

theorem C120_cone {r h : ℝ} (hr : 0 ≤ r) (hh : 0 < h) (c : Plane2) : ∃ v, volumeCone r h = .ok v ∧ volume (cone c r h) = ENNReal.ofReal v := by
  refine ⟨_, cone_val hr hh.le, ?_⟩
  have hm : MeasurableSet (cone c r h) := by
    apply IsClosed.measurableSet
    have h1 : IsClosed {p : Plane2 × ℝ | dist p.1 c ≤ r * (1 - p.2 / h)} := isClosed_le (by fun_prop) (by fun_prop)
    have h2 : IsClosed {p : Plane2 × ℝ | 0 ≤ p.2} := isClosed_le (by fun_prop) (by fun_prop)
    have h3 : IsClosed {p : Plane2 × ℝ | p.2 ≤ h} := isClosed_le (by fun_prop) (by fun_prop)
    exact h1.inter (h2.inter h3)
  rw [Measure.volume_eq_prod, Measure.prod_apply_symm hm]
  have hf : ∀ t : ℝ, volume ((fun p : Plane2 => (p, t)) ⁻¹' cone c r h) =
      (Set.Icc 0 h).indicator (fun t => ENNReal.ofReal (Real.pi * r ^ 2 * (1 - t / h) ^ 2)) t := by
    intro t
    by_cases ht : t ∈ Set.Icc 0 h
    · rw [Set.indicator_of_mem ht]
      have h1 : 0 ≤ 1 - t / h := by rw [sub_nonneg, div_le_one hh]; exact ht.2
      have : (fun p : Plane2 => (p, t)) ⁻¹' cone c r h = Metric.closedBall c (r * (1 - t / h)) := by
        ext p; simp [cone, Metric.mem_closedBall, ht.1, ht.2]
      rw [this, EuclideanSpace.volume_closedBall_fin_two, ← ENNReal.ofReal_pow (by positivity), ← ENNReal.ofReal_mul (by positivity)]
      congr 1; ring
    · rw [Set.indicator_of_notMem ht]
      have : (fun p : Plane2 => (p, t)) ⁻¹' cone c r h = ∅ := by
        ext p
        simp only [cone, Set.mem_preimage, Set.mem_ofPred_eq, Set.mem_empty_iff_false, iff_false]
        rintro ⟨_, h2⟩; exact ht h2
      rw [this, measure_empty]
  rw [lintegral_congr hf, lintegral_indicator measurableSet_Icc, ← ofReal_integral_eq_lintegral_ofReal]
  · congr 1
    rw [integral_Icc_eq_integral_Ioc, ← intervalIntegral.integral_of_le hh.le]
    have hd : ∀ t ∈ Set.uIcc 0 h, HasDerivAt (fun t => -(Real.pi * r ^ 2 * h / 3) * (1 - t / h) ^ 3) (Real.pi * r ^ 2 * (1 - t / h) ^ 2) t := by
      intro t _
      have h1 : HasDerivAt (fun t : ℝ => 1 - t / h) (-(1 / h)) t := by
        simpa using ((hasDerivAt_id t).div_const h).const_sub 1
      have h2 := (h1.pow 3).const_mul (-(Real.pi * r ^ 2 * h / 3))
      refine h2.congr_deriv ?_
      push_cast
      field_simp
    rw [intervalIntegral.integral_eq_sub_of_hasDerivAt hd (Continuous.intervalIntegrable (by fun_prop) _ _)]
    field_simp
    ring
  · exact Continuous.integrableOn_Icc (by fun_prop)
  · exact Filter.Eventually.of_forall fun t => by positivity

/-- A cone without height has no volume. -/
theorem C120_flat_cone {r : ℝ} (hr : 0 ≤ r) : volumeCone r 0 = .ok 0 := by
  rw [cone_val hr le_rfl]; congr 1; ring

/-- Circumference and sphere surface are the rates at which area and volume grow with the radius. -/
theorem C120_derivatives {r : ℝ} (hr : 0 < r) :
    (∃ v, perimCircle r = .ok v ∧ ∀ f : ℝ → ℝ, (∀ x, 0 ≤ x → areaCircle x = .ok (f x)) → HasDerivAt f v r) ∧
    (∃ v, areaSphere r = .ok v ∧ ∀ f : ℝ → ℝ, (∀ x, 0 ≤ x → volumeSphere x = .ok (f x)) → HasDerivAt f v r) := by
  constructor
  · refine ⟨_, perim_val hr.le, ?_⟩
    intro f hf
    have h1 : HasDerivAt (fun x : ℝ => Real.pi * x ^ 2) (2 * Real.pi * r) r := by
      have := (hasDerivAt_pow 2 r).const_mul Real.pi
      refine this.congr_deriv ?_
      push_cast; ring
    apply h1.congr_of_eventuallyEq
    filter_upwards [lt_mem_nhds hr] with x hx
    have := hf x hx.le
    rw [circle_val hx.le, Except.ok.injEq] at this
    rw [← this]; ring
  · refine ⟨_, asphere_val hr.le, ?_⟩
    intro f hf
    have h1 : HasDerivAt (fun x : ℝ => 4 / 3 * Real.pi * x ^ 3) (4 * Real.pi * r ^ 2) r := by
      have := (hasDerivAt_pow 3 r).const_mul (4 / 3 * Real.pi)
      refine this.congr_deriv ?_
      push_cast; ring
    apply h1.congr_of_eventuallyEq
    filter_upwards [lt_mem_nhds hr] with x hx
    have := hf x hx.le
    rw [sphere_val hx.le, Except.ok.injEq] at this
    rw [← this]

/-- A negative radius or height is rejected. -/
theorem C120_negative {r h : ℝ} :
    (r < 0 → areaCircle r = .error .ValueError ∧ perimCircle r = .error .ValueError ∧ volumeSphere r = .error .ValueError ∧
      areaSphere r = .error .ValueError) ∧
    (r < 0 ∨ h < 0 → volumeCyl r h = .error .ValueError ∧ volumeCone r h = .error .ValueError ∧ areaCyl r h = .error .ValueError ∧
      areaConeSurf r h = .error .ValueError) := by
  constructor
  · intro hr
    unfold areaCircle perimCircle volumeSphere areaSphere
    rw [pos_err hr]
    exact ⟨rfl, rfl, rfl, rfl⟩
  · intro hn
    have key : volumeCyl r h = .error .ValueError := by
      unfold volumeCyl areaCircle
      by_cases hh : h < 0
      · rw [pos_err hh]; rfl
      · rw [pos_ok (not_lt.1 hh), pos_err (hn.resolve_right hh)]; rfl
    refine ⟨key, by unfold volumeCone; rw [key]; rfl, ?_, ?_⟩
    · unfold areaCyl
      by_cases hr : r < 0
      · rw [pos_err hr]; rfl
      · rw [pos_ok (not_lt.1 hr), pos_err (hn.resolve_left hr)]; rfl
    · unfold areaConeSurf
      by_cases hr : r < 0
      · rw [pos_err hr]; rfl
      · rw [pos_ok (not_lt.1 hr), pos_err (hn.resolve_left hr)]; rfl

example : ∃ v, volumeCone 1 3 = .ok v ∧ v = Real.pi := ⟨_, cone_val (by norm_num) (by norm_num), by ring⟩

/-! ### C121 -/

private theorem sshell_val {a b : ℝ} (ha : 0 ≤ a) (hb : 0 ≤ b) : volumeSphericalShell a b = .ok |4 / 3 * Real.pi * a ^ 3 - 4 / 3 * Real.pi * b ^ 3| := by
  unfold volumeSphericalShell; simp only [sphere_val ha, sphere_val hb, ex_ok_bind, ex_pure]

private theorem ashell_val {a b : ℝ} (ha : 0 ≤ a) (hb : 0 ≤ b) : areaCylShell a b = .ok |Real.pi * a * a - Real.pi * b * b| := by
  unfold areaCylShell; simp only [circle_val ha, circle_val hb, ex_ok_bind, ex_pure]

private theorem vshell_val {a b h : ℝ} (ha : 0 ≤ a) (hb : 0 ≤ b) (hh : 0 ≤ h) : volumeCylShell a b h = .ok (|Real.pi * a * a - Real.pi * b * b| * h) := by
  unfold volumeCylShell; simp only [pos_ok hh, ashell_val ha hb, ex_ok_bind, ex_pure]

/-- The shell between two balls with a common centre. -/
theorem C121_spherical_shell_measure {a b : ℝ} (hb : 0 ≤ b) (hab : b ≤ a) (c : EuclideanSpace ℝ (Fin 3)) :
    ∃ v, volumeSphericalShell a b = .ok v ∧ volumeSphericalShell b a = .ok v ∧ volume (ball3 c a \ ball3 c b) = ENNReal.ofReal v := by
  have ha := hb.trans hab
  have hle : 4 / 3 * Real.pi * b ^ 3 ≤ 4 / 3 * Real.pi * a ^ 3 := by
    apply mul_le_mul_of_nonneg_left (pow_le_pow_left₀ hb hab 3) (by positivity)
  refine ⟨_, sshell_val ha hb, by rw [sshell_val hb ha, abs_sub_comm], ?_⟩
  obtain ⟨va, h1, h2⟩ := C120_ball ha c
  obtain ⟨vb, h3, h4⟩ := C120_ball hb c
  rw [sphere_val ha, Except.ok.injEq] at h1
  rw [sphere_val hb, Except.ok.injEq] at h3
  subst h1 h3
  rw [measure_sdiff, h2, h4, ← ENNReal.ofReal_sub _ (by positivity), abs_of_nonneg (by linarith)]
  · intro p hp; exact le_trans hp hab
  · exact Metric.isClosed_closedBall.measurableSet.nullMeasurableSet
  · rw [h4]; exact ENNReal.ofReal_ne_top

/-- The ring between two circles, and the pipe of height `h` over it. -/
theorem C121_cyl_shell_measure {a b h : ℝ} (hb : 0 ≤ b) (hab : b ≤ a) (hh : 0 ≤ h) (c : Plane2) :
    (∃ v, areaCylShell a b = .ok v ∧ areaCylShell b a = .ok v ∧ volume (disc c a \ disc c b) = ENNReal.ofReal v) ∧
    (∃ v, volumeCylShell a b h = .ok v ∧ volumeCylShell b a h = .ok v ∧ volume (cylinder c a h \ cylinder c b h) = ENNReal.ofReal v) := by
  have ha := hb.trans hab
  have hle : Real.pi * b * b ≤ Real.pi * a * a := by
    have := mul_le_mul_of_nonneg_left (mul_self_le_mul_self hb hab) Real.pi_pos.le
    linarith
  constructor
  · refine ⟨_, ashell_val ha hb, by rw [ashell_val hb ha, abs_sub_comm], ?_⟩
    obtain ⟨va, h1, h2⟩ := C120_disc ha c
    obtain ⟨vb, h3, h4⟩ := C120_disc hb c
    rw [circle_val ha, Except.ok.injEq] at h1
    rw [circle_val hb, Except.ok.injEq] at h3
    subst h1 h3
    rw [measure_sdiff, h2, h4, ← ENNReal.ofReal_sub _ (by positivity), abs_of_nonneg (by linarith)]
    · intro p hp; exact le_trans hp hab
    · exact Metric.isClosed_closedBall.measurableSet.nullMeasurableSet
    · rw [h4]; exact ENNReal.ofReal_ne_top
  · refine ⟨_, vshell_val ha hb hh, by rw [vshell_val hb ha hh, abs_sub_comm], ?_⟩
    obtain ⟨va, h1, h2⟩ := C120_cylinder ha hh c
    obtain ⟨vb, h3, h4⟩ := C120_cylinder hb hh c
    rw [cyl_val ha hh, Except.ok.injEq] at h1
    rw [cyl_val hb hh, Except.ok.injEq] at h3
    subst h1 h3
    rw [measure_sdiff, h2, h4, ← ENNReal.ofReal_sub _ (by positivity), abs_of_nonneg (by linarith), sub_mul]
    · rintro p ⟨hp, h5⟩; exact ⟨le_trans hp hab, h5⟩
    · apply MeasurableSet.nullMeasurableSet
      apply IsClosed.measurableSet
      have h1 : IsClosed {p : Plane2 × ℝ | dist p.1 c ≤ b} := isClosed_le (by fun_prop) (by fun_prop)
      have h2 : IsClosed {p : Plane2 × ℝ | 0 ≤ p.2} := isClosed_le (by fun_prop) (by fun_prop)
      have h3 : IsClosed {p : Plane2 × ℝ | p.2 ≤ h} := isClosed_le (by fun_prop) (by fun_prop)
      exact h1.inter (h2.inter h3)
    · rw [h4]; exact ENNReal.ofReal_ne_top

/-- Zero exactly for equal radii (and no height). -/
theorem C121_zero {a b h : ℝ} (ha : 0 ≤ a) (hb : 0 ≤ b) (hh : 0 ≤ h) :
    (volumeSphericalShell a b = .ok 0 ↔ a = b) ∧ (areaCylShell a b = .ok 0 ↔ a = b) ∧ (volumeCylShell a b h = .ok 0 ↔ a = b ∨ h = 0) := by
  have hp := Real.pi_pos
  have h2 : |Real.pi * a * a - Real.pi * b * b| = 0 ↔ a = b := by
    rw [abs_eq_zero, sub_eq_zero, mul_assoc, mul_assoc, mul_right_inj' hp.ne', mul_self_inj ha hb]
  rw [sshell_val ha hb, ashell_val ha hb, vshell_val ha hb hh]
  simp only [Except.ok.injEq]
  refine ⟨?_, h2, by rw [mul_eq_zero, h2]⟩
  rw [abs_eq_zero, sub_eq_zero, mul_right_inj' (by positivity)]
  exact pow_left_inj₀ ha hb (by norm_num)

/-- Nested shells add up. -/
theorem C121_additive {a b c h : ℝ} (ha : 0 ≤ a) (hab : a ≤ b) (hbc : b ≤ c) (hh : 0 ≤ h) :
    (∃ x y, volumeSphericalShell a b = .ok x ∧ volumeSphericalShell b c = .ok y ∧ volumeSphericalShell a c = .ok (x + y)) ∧
    (∃ x y, areaCylShell a b = .ok x ∧ areaCylShell b c = .ok y ∧ areaCylShell a c = .ok (x + y)) ∧
    (∃ x y, volumeCylShell a b h = .ok x ∧ volumeCylShell b c h = .ok y ∧ volumeCylShell a c h = .ok (x + y)) := by
  have hb := ha.trans hab
  have hc := hb.trans hbc
  have m3 : ∀ {x y : ℝ}, 0 ≤ x → x ≤ y → 4 / 3 * Real.pi * x ^ 3 ≤ 4 / 3 * Real.pi * y ^ 3 := fun hx hxy =>
    mul_le_mul_of_nonneg_left (pow_le_pow_left₀ hx hxy 3) (by positivity)
  have m2 : ∀ {x y : ℝ}, 0 ≤ x → x ≤ y → Real.pi * x * x ≤ Real.pi * y * y := by
    intro x y hx hxy
    have := mul_le_mul_of_nonneg_left (mul_self_le_mul_self hx hxy) Real.pi_pos.le
    linarith
  have s1 := m3 ha hab
  have s2 := m3 hb hbc
  have t1 := m2 ha hab
  have t2 := m2 hb hbc
  refine ⟨⟨_, _, sshell_val ha hb, sshell_val hb hc, ?_⟩, ⟨_, _, ashell_val ha hb, ashell_val hb hc, ?_⟩,
    ⟨_, _, vshell_val ha hb hh, vshell_val hb hc hh, ?_⟩⟩
  · rw [sshell_val ha hc, abs_of_nonpos (by linarith), abs_of_nonpos (by linarith), abs_of_nonpos (by linarith)]
    congr 1; ring
  · rw [ashell_val ha hc, abs_of_nonpos (by linarith), abs_of_nonpos (by linarith), abs_of_nonpos (by linarith)]
    congr 1; ring
  · rw [vshell_val ha hc hh, abs_of_nonpos (by linarith), abs_of_nonpos (by linarith), abs_of_nonpos (by linarith)]
    congr 1; ring

/-- A value for non-negative inputs, ValueError otherwise. -/
theorem C121_errors (a b h : ℝ) :
    (0 ≤ a ∧ 0 ≤ b → (∃ v, 0 ≤ v ∧ volumeSphericalShell a b = .ok v) ∧ (∃ v, 0 ≤ v ∧ areaCylShell a b = .ok v)) ∧
    (¬ (0 ≤ a ∧ 0 ≤ b) → volumeSphericalShell a b = .error .ValueError ∧ areaCylShell a b = .error .ValueError) ∧
    (0 ≤ a ∧ 0 ≤ b ∧ 0 ≤ h → ∃ v, 0 ≤ v ∧ volumeCylShell a b h = .ok v) ∧
    (¬ (0 ≤ a ∧ 0 ≤ b ∧ 0 ≤ h) → volumeCylShell a b h = .error .ValueError) := by
  have e : ¬ (0 ≤ a ∧ 0 ≤ b) → areaCylShell a b = .error .ValueError := by
    intro hn
    unfold areaCylShell
    by_cases ha : a < 0
    · rw [(C120_negative (h := 0)).1 ha |>.1]; rfl
    · have hb : b < 0 := by by_contra hb; exact hn ⟨not_lt.1 ha, not_lt.1 hb⟩
      rw [circle_val (not_lt.1 ha), (C120_negative (h := 0)).1 hb |>.1]; rfl
  refine ⟨?_, ?_, ?_, ?_⟩
  · rintro ⟨ha, hb⟩
    exact ⟨⟨_, abs_nonneg _, sshell_val ha hb⟩, ⟨_, abs_nonneg _, ashell_val ha hb⟩⟩
  · intro hn
    refine ⟨?_, e hn⟩
    unfold volumeSphericalShell
    by_cases ha : a < 0
    · rw [(C120_negative (h := 0)).1 ha |>.2.2.1]; rfl
    · have hb : b < 0 := by by_contra hb; exact hn ⟨not_lt.1 ha, not_lt.1 hb⟩
      rw [sphere_val (not_lt.1 ha), (C120_negative (h := 0)).1 hb |>.2.2.1]; rfl
  · rintro ⟨ha, hb, hh⟩
    exact ⟨_, mul_nonneg (abs_nonneg _) hh, vshell_val ha hb hh⟩
  · intro hn
    unfold volumeCylShell
    by_cases hh : h < 0
    · rw [pos_err hh]; rfl
    · rw [pos_ok (not_lt.1 hh), e (fun h' => hn ⟨h'.1, h'.2, not_lt.1 hh⟩)]; rfl

example : areaCylShell 1 2 = areaCylShell 2 1 := by
  rw [ashell_val (by norm_num) (by norm_num), ashell_val (by norm_num) (by norm_num), abs_sub_comm]

/-! ### C122 -/

/-- Two discs and a rectangle of the circumference and the height. -/
theorem C122_cylinder {r h : ℝ} (hr : 0 ≤ r) (hh : 0 ≤ h) :
    ∃ d l, areaCircle r = .ok d ∧ perimCircle r = .ok l ∧ areaCyl r h = .ok (2 * d + l * h) ∧ 2 * d + l * h = 2 * Real.pi * r * (r + h) := by
  refine ⟨_, _, circle_val hr, perim_val hr, ?_, by ring⟩
  unfold areaCyl
  simp only [pos_ok hr, pos_ok hh, circle_val hr, perim_val hr, ex_ok_bind, ex_pure]

/-- Pi times radius times the slant height, the distance from the tip to the rim. -/
theorem C122_cone {r h : ℝ} (hr : 0 ≤ r) (hh : 0 ≤ h) : areaConeSurf r h = .ok (Real.pi * r * Real.sqrt (r ^ 2 + h ^ 2)) := by
  unfold areaConeSurf
  simp only [pos_ok hr, pos_ok hh, ex_ok_bind, ex_pure]
  rw [sq, sq]

/-- Both grow with radius and height. -/
theorem C122_monotone {r h r' h' : ℝ} (hr : 0 ≤ r) (hh : 0 ≤ h) (hrr : r ≤ r') (hhh : h ≤ h') :
    (∃ a b, areaCyl r h = .ok a ∧ areaCyl r' h' = .ok b ∧ a ≤ b) ∧ (∃ a b, areaConeSurf r h = .ok a ∧ areaConeSurf r' h' = .ok b ∧ a ≤ b) := by
  have hr' := hr.trans hrr
  have hh' := hh.trans hhh
  have hp := Real.pi_pos
  constructor
  · obtain ⟨_, _, _, _, h1, h2⟩ := C122_cylinder hr hh
    obtain ⟨_, _, _, _, h3, h4⟩ := C122_cylinder hr' hh'
    refine ⟨_, _, h1, h3, ?_⟩
    rw [h2, h4]
    gcongr
  · refine ⟨_, _, C122_cone hr hh, C122_cone hr' hh', ?_⟩
    gcongr

/-- Without height: two discs, one disc. -/
theorem C122_flat {r : ℝ} (hr : 0 ≤ r) : ∃ d, areaCircle r = .ok d ∧ areaCyl r 0 = .ok (2 * d) ∧ areaConeSurf r 0 = .ok d := by
  obtain ⟨d, l, h1, h2, h3, _⟩ := C122_cylinder hr le_rfl
  refine ⟨d, h1, by rw [h3, mul_zero, add_zero], ?_⟩
  rw [circle_val hr, Except.ok.injEq] at h1
  rw [C122_cone hr le_rfl, ← h1]
  congr 1
  rw [zero_pow two_ne_zero, add_zero, Real.sqrt_sq hr]

example : areaConeSurf 3 4 = .ok (Real.pi * 3 * 5) := by
  rw [C122_cone (by norm_num) (by norm_num), show (3 : ℝ) ^ 2 + 4 ^ 2 = 5 ^ 2 by norm_num, Real.sqrt_sq (by norm_num)]

end Props
