/-
C316: larger solids have larger volumes and areas.
-/
import Verif.Props.Geom3

namespace Props
open Geom Py

/-- Both results exist, and the second one is not smaller; it is larger if `strict` holds. -/
def SizeGrows (a b : Except Err ℝ) (strict : Prop) : Prop := ∃ v w, a = .ok v ∧ b = .ok w ∧ v ≤ w ∧ (strict → v < w)

/-- Surface `a` and volume `v` of a solid: no solid has more volume than the ball of the same surface. -/
def BallBest (a v : ℝ) : Prop := 36 * Real.pi * v ^ 2 ≤ a ^ 3

private theorem pos_ok' {x : ℝ} (h : 0 ≤ x) : checkPositive x = .ok () := by unfold checkPositive; rw [if_neg (not_lt.2 h)]

/-- C316: circle and ball grow with the radius. -/
theorem C316_round {r s : ℝ} (hr : 0 ≤ r) (h : r ≤ s) :
    SizeGrows (perimCircle r) (perimCircle s) (r < s) ∧ SizeGrows (areaCircle r) (areaCircle s) (r < s) ∧ SizeGrows (areaSphere r) (areaSphere s) (r < s) ∧
    SizeGrows (volumeSphere r) (volumeSphere s) (r < s) := by
  have hs := hr.trans h
  have hp := Real.pi_pos
  unfold perimCircle areaCircle areaSphere volumeSphere
  rw [pos_ok' hr, pos_ok' hs]
  have e2 : Real.pi * r * r ≤ Real.pi * s * s := by
    rw [mul_assoc, mul_assoc]; exact mul_le_mul_of_nonneg_left (mul_self_le_mul_self hr h) hp.le
  have l2 : r < s → Real.pi * r * r < Real.pi * s * s := fun hl => by
    rw [mul_assoc, mul_assoc]; exact mul_lt_mul_of_pos_left (mul_self_lt_mul_self hr hl) hp
  refine ⟨⟨_, _, rfl, rfl, ?_, fun hl => ?_⟩, ⟨_, _, rfl, rfl, e2, l2⟩, ⟨_, _, rfl, rfl, ?_, fun hl => ?_⟩, ⟨_, _, rfl, rfl, ?_, fun hl => ?_⟩⟩
  · exact mul_le_mul_of_nonneg_left h (by positivity)
  · exact mul_lt_mul_of_pos_left hl (by positivity)
  · nlinarith
  · nlinarith [l2 hl]
  · exact mul_le_mul_of_nonneg_left (pow_le_pow_left₀ hr h 3) (by positivity)
  · exact mul_lt_mul_of_pos_left (pow_lt_pow_left₀ hl hr (by norm_num)) (by positivity)

/-- C316: cylinder and cone grow with radius and height. -/
theorem C316_high {r s h k : ℝ} (hr : 0 ≤ r) (hrs : r ≤ s) (hh : 0 ≤ h) (hhk : h ≤ k) :
    SizeGrows (volumeCyl r h) (volumeCyl s k) ((r < s ∧ 0 < k) ∨ (h < k ∧ 0 < s)) ∧
    SizeGrows (volumeCone r h) (volumeCone s k) ((r < s ∧ 0 < k) ∨ (h < k ∧ 0 < s)) ∧
    SizeGrows (areaCyl r h) (areaCyl s k) (r < s ∨ (h < k ∧ 0 < s)) ∧
    SizeGrows (areaConeSurf r h) (areaConeSurf s k) (r < s ∨ (h < k ∧ 0 < s)) := by
  have hs := hr.trans hrs
  have hk := hh.trans hhk
  have hp := Real.pi_pos
  have e2 : r * r ≤ s * s := mul_self_le_mul_self hr hrs
  have v1 : r * r * h ≤ s * s * k := mul_le_mul e2 hhk hh (by positivity)
  have v2 : ((r < s ∧ 0 < k) ∨ (h < k ∧ 0 < s)) → r * r * h < s * s * k := by
    rintro (⟨h1, h2⟩ | ⟨h1, h2⟩)
    · calc r * r * h ≤ r * r * k := mul_le_mul_of_nonneg_left hhk (by positivity)
        _ < s * s * k := mul_lt_mul_of_pos_right (mul_self_lt_mul_self hr h1) h2
    · calc r * r * h ≤ s * s * h := mul_le_mul_of_nonneg_right e2 hh
        _ < s * s * k := mul_lt_mul_of_pos_left h1 (by positivity)
  have q1 : r * h ≤ s * k := mul_le_mul hrs hhk hh hs
  have q2 : (r < s ∨ (h < k ∧ 0 < s)) → r * r + r * h < s * s + s * k := by
    rintro (h1 | ⟨h1, h2⟩)
    · linarith [mul_self_lt_mul_self hr h1]
    · have : r * h < s * k := (mul_le_mul_of_nonneg_right hrs hh).trans_lt (mul_lt_mul_of_pos_left h1 h2)
      linarith
  have g1 : Real.sqrt (r * r + h * h) ≤ Real.sqrt (s * s + k * k) := Real.sqrt_le_sqrt (by linarith [mul_self_le_mul_self hh hhk])
  have g2 : (r < s ∨ (h < k ∧ 0 < s)) → r * Real.sqrt (r * r + h * h) < s * Real.sqrt (s * s + k * k) := by
    rintro (h1 | ⟨h1, h2⟩)
    · have h3 : 0 < Real.sqrt (s * s + k * k) := Real.sqrt_pos.2 (by have := hr.trans_lt h1; positivity)
      exact (mul_le_mul_of_nonneg_left g1 hr).trans_lt (mul_lt_mul_of_pos_right h1 h3)
    · have h3 : Real.sqrt (r * r + h * h) < Real.sqrt (s * s + k * k) :=
        Real.sqrt_lt_sqrt (by positivity) (by linarith [mul_self_lt_mul_self hh h1])
      exact (mul_le_mul_of_nonneg_right hrs (Real.sqrt_nonneg _)).trans_lt (mul_lt_mul_of_pos_left h3 h2)
  unfold volumeCone volumeCyl areaCyl areaConeSurf areaCircle perimCircle
  rw [pos_ok' hr, pos_ok' hs, pos_ok' hh, pos_ok' hk]
  have c1 := mul_le_mul_of_nonneg_left v1 hp.le
  have c2 := fun a => mul_lt_mul_of_pos_left (v2 a) hp
  have d1 := mul_le_mul_of_nonneg_left (add_le_add e2 q1) hp.le
  have d2 := fun a => mul_lt_mul_of_pos_left (q2 a) hp
  have f1 := mul_le_mul_of_nonneg_left (mul_le_mul hrs g1 (Real.sqrt_nonneg _) hs) hp.le
  have f2 := fun a => mul_lt_mul_of_pos_left (g2 a) hp
  refine ⟨⟨_, _, rfl, rfl, ?_, fun a => ?_⟩, ⟨_, _, rfl, rfl, ?_, fun a => ?_⟩, ⟨_, _, rfl, rfl, ?_, fun a => ?_⟩, ⟨_, _, rfl, rfl, ?_, fun a => ?_⟩⟩
  · nlinarith
  · nlinarith [c2 a]
  · nlinarith
  · nlinarith [c2 a]
  · nlinarith
  · nlinarith [d2 a]
  · nlinarith
  · nlinarith [f2 a]

/-- C316: the surface of a ball is the smallest for its volume; ball and cylinder. -/
theorem C316_ball {r : ℝ} (hr : 0 ≤ r) : ∃ a v, areaSphere r = .ok a ∧ volumeSphere r = .ok v ∧ 36 * Real.pi * v ^ 2 = a ^ 3 := by
  unfold areaSphere volumeSphere
  rw [pos_ok' hr]
  exact ⟨_, _, rfl, rfl, by ring⟩

theorem C316_cylinder {r h : ℝ} (hr : 0 ≤ r) (hh : 0 ≤ h) : ∃ a v, areaCyl r h = .ok a ∧ volumeCyl r h = .ok v ∧ BallBest a v := by
  have hp := Real.pi_pos
  unfold areaCyl volumeCyl areaCircle perimCircle
  rw [pos_ok' hr, pos_ok' hh]
  refine ⟨_, _, rfl, rfl, ?_⟩
  unfold BallBest
  have key : 9 * (r * h ^ 2) ≤ 2 * (r + h) ^ 3 := by
    have : 0 ≤ 2 * r ^ 3 + 6 * r ^ 2 * h + 2 * h ^ 3 - 3 * r * h ^ 2 := by
      have h1 : 0 ≤ h * (2 * (h - 3 / 4 * r) ^ 2 + 39 / 8 * r ^ 2) + 2 * r ^ 3 := by positivity
      nlinarith
    nlinarith
  have : 0 ≤ 4 * Real.pi ^ 3 * r ^ 3 * (2 * (r + h) ^ 3 - 9 * (r * h ^ 2)) := by
    have := sub_nonneg.2 key
    positivity
  nlinarith

example : SizeGrows (volumeSphere 1) (volumeSphere 2) True := by
  obtain ⟨v, w, a, b, c, d⟩ := (C316_round (r := 1) (s := 2) (by norm_num) (by norm_num)).2.2.2
  exact ⟨v, w, a, b, c, fun _ => d (by norm_num)⟩
example : ¬ SizeGrows (volumeSphere 1) (volumeSphere 1) True := by
  rintro ⟨v, w, a, b, -, d⟩
  rw [a] at b; cases b; exact lt_irrefl _ (d trivial)

end Props
