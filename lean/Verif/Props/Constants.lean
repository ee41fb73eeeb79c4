/- Properties C31-C33 of neut_constants.py, for exact numbers of any ordered field. -/
import Verif.Model.Constants
import Verif.Proofs.Dict
import Mathlib.Algebra.Order.Field.Basic
import Mathlib.Tactic.NormNum
import Mathlib.Tactic.Ring
import Mathlib.Tactic.FieldSimp
import Mathlib.Tactic.Positivity
import Mathlib.Tactic.Linarith
import Mathlib.Tactic.LinearCombination

namespace Props
open Py Constants
variable {K : Type} [Field K] [LinearOrder K] [IsStrictOrderedRing K]

/-- C31 (part that holds): the pairs rem/Sv, eV/J, s/h, s/day, s/shake and barn/cm2 undo each other in both directions.
    Missing: Bq/Ci and s/year (`C31_violated`). -/
theorem C31_pairs_partial (v : K) :
    (svToRem (remToSv v) = v ∧ remToSv (svToRem v) = v) ∧
    (eVToJoule (jouleToEV v) = v ∧ jouleToEV (eVToJoule v) = v) ∧
    (hourToSecond (secondToHour v) = v ∧ secondToHour (hourToSecond v) = v) ∧
    (dayToSecond (secondToDay v) = v ∧ secondToDay (dayToSecond v) = v) ∧
    (shakeToSecond (secondToShake v) = v ∧ secondToShake (shakeToSecond v) = v) ∧
    (barnToCm2 (cm2ToBarn v) = v ∧ cm2ToBarn (barnToCm2 v) = v) := by
  unfold svToRem remToSv eVToJoule jouleToEV hourToSecond secondToHour dayToSecond secondToDay shakeToSecond secondToShake
    barnToCm2 cm2ToBarn
  refine ⟨⟨?_, ?_⟩, ⟨?_, ?_⟩, ⟨?_, ?_⟩, ⟨?_, ?_⟩, ⟨?_, ?_⟩, ⟨?_, ?_⟩⟩ <;> first | (field_simp; done) | (norm_num; try ring_nf; try simp)

/-- C31 is violated for Bq/Ci and s/year: for every non-zero value neither round trip gives it back. -/
theorem C31_violated (v : K) (hv : v ≠ 0) :
    curieToBq (bqToCurie v) ≠ v ∧ bqToCurie (curieToBq v) ≠ v ∧
    secondToYear (yearsToSeconds v) ≠ v ∧ yearsToSeconds (secondToYear v) ≠ v := by
  unfold curieToBq bqToCurie secondToYear yearsToSeconds
  refine ⟨?_, ?_, ?_, ?_⟩ <;> intro h <;> apply hv
  · have : v * (2.703e11 * 3.7e-12 - 1) = 0 := by linear_combination h
    rcases mul_eq_zero.1 this with h | h
    · exact h
    · norm_num at h
  · have : v * (2.703e11 * 3.7e-12 - 1) = 0 := by linear_combination h
    rcases mul_eq_zero.1 this with h | h
    · exact h
    · norm_num at h
  · have : v * (365.25 * 24 * 60 * 60 / 3.1536e07 - 1) = 0 := by linear_combination h
    rcases mul_eq_zero.1 this with h | h
    · exact h
    · norm_num at h
  · have : v * (365.25 * 24 * 60 * 60 / 3.1536e07 - 1) = 0 := by linear_combination h
    rcases mul_eq_zero.1 this with h | h
    · exact h
    · norm_num at h

example : (1 : ℚ) ≠ 0 := by norm_num

/-- C32: years to seconds, through days and through hours, agree. -/
theorem C32_chains_partial (v : K) :
    yearsToSeconds v = dayToSecond (yearsToDays v) ∧ yearsToSeconds v = hourToSecond (yearsToHrs v) ∧
    secondToDay (yearsToSeconds v) = yearsToDays v ∧ secondToHour (yearsToSeconds v) = yearsToHrs v := by
  unfold yearsToSeconds dayToSecond yearsToDays hourToSecond yearsToHrs secondToDay secondToHour
  refine ⟨by ring, by ring, by ring, by ring⟩

/-- C32: every conversion is linear and strictly increasing. Missing: the milliseconds (`C32_violated`). -/
theorem C32_linear_partial (f : K → K)
    (hf : f ∈ [remToSv, svToRem, yearsToSeconds, yearsToHrs, yearsToDays, bqToCurie, curieToBq, eVToJoule, jouleToEV,
      secondToHour, secondToDay, secondToYear, hourToSecond, dayToSecond, shakeToSecond, secondToShake, shakeToMs,
      barnToCm2, cm2ToBarn]) :
    (∀ a b x y, f (a * x + b * y) = a * f x + b * f y) ∧ StrictMono f ∧ f 0 = 0 := by
  have key : ∀ c : K, 0 < c → (∀ x, f x = x * c) →
      (∀ a b x y, f (a * x + b * y) = a * f x + b * f y) ∧ StrictMono f ∧ f 0 = 0 := by
    intro c hc h
    refine ⟨?_, ?_, by rw [h]; ring⟩
    · intro a b x y; simp only [h]; ring
    · intro x y hxy; simp only [h]; exact mul_lt_mul_of_pos_right hxy hc
  simp only [List.mem_cons, List.not_mem_nil, or_false] at hf
  rcases hf with rfl | rfl | rfl | rfl | rfl | rfl | rfl | rfl | rfl | rfl | rfl | rfl | rfl | rfl | rfl | rfl | rfl |
    rfl | rfl
  · exact key (1 / 100.0) (by norm_num) (fun x => div_eq_mul_one_div x _)
  · exact key 100.0 (by norm_num) (fun x => rfl)
  · exact key (365.25 * 24 * 60 * 60) (by norm_num) (fun x => by unfold yearsToSeconds; ring)
  · exact key (365.25 * 24) (by norm_num) (fun x => by unfold yearsToHrs; ring)
  · exact key 365.25 (by norm_num) (fun x => rfl)
  · exact key 2.703e11 (by norm_num) (fun x => rfl)
  · exact key 3.7e-12 (by norm_num) (fun x => rfl)
  · exact key 1.602e-19 (by norm_num) (fun x => rfl)
  · exact key (1 / 1.602e-19) (by norm_num) (fun x => div_eq_mul_one_div x _)
  · exact key (1 / 3600) (by norm_num) (fun x => div_eq_mul_one_div x _)
  · exact key (1 / 86400) (by norm_num) (fun x => div_eq_mul_one_div x _)
  · exact key (1 / 3.1536e07) (by norm_num) (fun x => div_eq_mul_one_div x _)
  · exact key 3600 (by norm_num) (fun x => rfl)
  · exact key 86400 (by norm_num) (fun x => rfl)
  · exact key 1e-8 (by norm_num) (fun x => rfl)
  · exact key 1e8 (by norm_num) (fun x => rfl)
  · exact key (1 / 100) (by norm_num) (fun x => div_eq_mul_one_div x _)
  · exact key (1 / 1e24) (by norm_num) (fun x => div_eq_mul_one_div x _)
  · exact key 1e24 (by norm_num) (fun x => rfl)

/-- C32 is violated: shakes to milliseconds is a factor 1000 too large compared with shakes to seconds. -/
theorem C32_violated (v : K) (hv : v ≠ 0) :
    shakeToMs v ≠ 1000 * shakeToSecond v ∧ shakeToMs v = 1000 * (1000 * shakeToSecond v) := by
  unfold shakeToMs shakeToSecond
  constructor
  · intro h
    apply hv
    have : v * (1 / 100 - 1000 * 1e-8) = 0 := by linear_combination h
    rcases mul_eq_zero.1 this with h | h
    · exact h
    · norm_num at h
  · norm_num; ring

/-- C33: the element table. -/
theorem C33_elements :
    zDict.keys.Nodup ∧ zDict.length = 118 ∧
    (∀ z : Nat, 1 ≤ z → z ≤ 118 → ∃! s : Str, zDict.get s = some z) ∧
    (∀ s z, zDict.get s = some z → 1 ≤ z ∧ z ≤ 118) ∧
    (∀ s ∈ zDict.keys, (∃ c, s = [c] ∧ c.isUpper) ∨ ∃ c d, s = [c, d] ∧ c.isUpper ∧ d.isLower) := by
  have hget : ∀ s z, zDict.get s = some z → (s, z) ∈ zDict := by
    intro s z h
    unfold Dict.get at h
    rw [Option.map_eq_some_iff] at h
    obtain ⟨⟨a, b⟩, h1, h2⟩ := h
    have h3 := List.find?_some h1
    simp at h3 h2
    subst h3 h2
    exact List.mem_of_find?_eq_some h1
  have hall : zDict.all (fun e => decide (zDict.get e.1 = some e.2) && decide (1 ≤ e.2 ∧ e.2 ≤ 118)) = true := by
    decide +kernel
  rw [List.all_eq_true] at hall
  have hvals : zDict.map (·.2) = (List.range 118).map (· + 1) := by decide +kernel
  have hvn : (zDict.map (·.2)).Nodup := by
    rw [hvals]
    exact List.nodup_range.map (fun a b h => by simpa using h)
  refine ⟨by decide +kernel, by decide +kernel, ?_, ?_, ?_⟩
  · intro z h1 h2
    have hz : z ∈ zDict.map (·.2) := by
      rw [hvals, List.mem_map]
      exact ⟨z - 1, by rw [List.mem_range]; omega, by omega⟩
    rw [List.mem_map] at hz
    obtain ⟨⟨s, z'⟩, hs, rfl⟩ := hz
    refine ⟨s, ?_, ?_⟩
    · have := hall _ hs
      simp at this
      simpa using this.1
    · intro s' hs'
      have := List.inj_on_of_nodup_map hvn (hget _ _ hs') hs rfl
      simpa using congrArg Prod.fst this
  · intro s z h
    have := hall _ (hget s z h)
    simp at this
    exact this.2
  · have : zDict.keys.all (fun s => match s with
        | [c] => c.isUpper
        | [c, d] => c.isUpper && d.isLower
        | _ => false) = true := by decide +kernel
    rw [List.all_eq_true] at this
    intro s hs
    have h := this s hs
    rcases s with _ | ⟨c, _ | ⟨d, _ | ⟨e, t⟩⟩⟩
    · simp at h
    · exact Or.inl ⟨c, rfl, h⟩
    · simp at h; exact Or.inr ⟨c, d, rfl, h⟩
    · simp at h

example : zDict.get p!"Fe" = some 26 := by decide +kernel

end Props
