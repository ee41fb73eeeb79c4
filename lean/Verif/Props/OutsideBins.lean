/-
C310: energies and times outside the bins of a tally.
-/
import Verif.Props.McnpPlots
import Verif.Proofs.Except

set_option linter.unusedSectionVars false

namespace Props
open Py McnpAnalysis McnpPlots NeutUtilities
variable {K : Type} [Field K] [LinearOrder K] [IsStrictOrderedRing K]

/-- The energy or time `v` lies above the last of the bins, `c`, or below the first one. -/
def BeyondBins (v : K) (bins : List K) (c : K) : Prop := (∀ a ∈ bins, a ≤ c) ∧ c ≤ v ∨ (∀ a ∈ bins, c ≤ a) ∧ v ≤ c

private theorem beyond_bins {v c : K} {bins : List K} (h : BeyondBins v bins c) :
    argmin (bins.map (fun a => |a - v|)) = argmin (bins.map (fun a => |a - c|)) := by
  obtain ⟨s, hs⟩ : ∃ s : K, ∀ a ∈ bins, |a - v| = |a - c| + s := by
    rcases h with ⟨h1, h2⟩ | ⟨h1, h2⟩
    · refine ⟨v - c, fun a ha => ?_⟩
      rw [abs_of_nonpos (by linarith [h1 a ha]), abs_of_nonpos (by linarith [h1 a ha])]
      ring
    · refine ⟨c - v, fun a ha => ?_⟩
      rw [abs_of_nonneg (by linarith [h1 a ha]), abs_of_nonneg (by linarith [h1 a ha])]
      ring
  have key : ∀ i, Nearest bins v i ↔ Nearest bins c i := by
    intro i
    unfold Nearest
    constructor
    · rintro ⟨a, ha, h1, h2⟩
      have ea := hs a (List.mem_of_getElem? ha)
      refine ⟨a, ha, fun b hb => ?_, fun j b hj hb => ?_⟩
      · have := h1 b hb; rw [ea, hs b hb] at this; linarith
      · have := h2 j b hj hb; rw [ea, hs b (List.mem_of_getElem? hb)] at this; linarith
    · rintro ⟨a, ha, h1, h2⟩
      have ea := hs a (List.mem_of_getElem? ha)
      refine ⟨a, ha, fun b hb => ?_, fun j b hj hb => ?_⟩
      · have := h1 b hb; rw [ea, hs b hb]; linarith
      · have := h2 j b hj hb; rw [ea, hs b (List.mem_of_getElem? hb)]; linarith
  by_cases hb : bins = []
  · subst hb; rfl
  · obtain ⟨i, hi, _⟩ := argmin_spec (l := bins.map (fun a => |a - v|)) (by simpa using hb)
    rw [hi]
    exact ((mp_argmin_nearest bins c i).2 ((key i).1 ((mp_argmin_nearest bins v i).1 hi))).symm

/-- C310 is violated: the spectrum at a time after the last bin, or before the first one, is that of the outermost bin. -/
theorem C310_time_violated {v c : K} {times : List K} (h : BeyondBins v times c) (energies : List K) (results : List (List K)) (f : K) :
    timeSlice v energies times results f = timeSlice c energies times results f := by
  unfold timeSlice
  rw [beyond_bins h]

/-- C310 is violated: the peak time at an energy above all bins, or below them, is that of the outermost bin. -/
theorem C310_peak_violated {v c : K} {energies : List K} (h : BeyondBins v energies c) (times : List K) (results : List (List K)) :
    findPeakTime v energies times results = findPeakTime c energies times results := by
  unfold findPeakTime
  rw [beyond_bins h]

/-- C310 is violated: the time distribution at such an energy is that of the outermost bin. -/
theorem C310_energy_violated {v c : K} {energies : List K} (h : BeyondBins v energies c) (a b times : List K) (results : List (List K))
    (minT maxT : Option K) (window : Nat) (f : K) (pt : Bool) :
    energySlice (a ++ v :: b) energies times results minT maxT window f pt = energySlice (a ++ c :: b) energies times results minT maxT window f pt := by
  unfold energySlice
  simp only [List.mapM_append, List.mapM_cons, beyond_bins h]

/-- C310 (part that holds): for an energy or time that belongs to a bin that bin is taken. Missing: those that belong to none. -/
theorem C310_bin_partial {v : K} {bins : List K} (hv : v ∈ bins) {i : Nat} : argmin (bins.map (fun a => |a - v|)) = .ok i → bins[i]? = some v := by
  rw [mp_argmin_nearest]
  rintro ⟨a, ha, h1, _⟩
  have := h1 v hv
  rw [sub_self, abs_zero] at this
  have e : a - v = 0 := abs_eq_zero.1 (le_antisymm this (abs_nonneg _))
  rw [ha, sub_eq_zero.1 e]

/-- C310 (part that holds): so the spectrum at the time of a bin has the values of that bin. -/
theorem C310_slice_partial {v : K} {energies times : List K} (hv : v ∈ times) {results : List (List K)} {f : K} {c : Curve K}
    (h : timeSlice v energies times results f = .ok c) :
    ∃ i : Nat, times[i]? = some v ∧ List.Forall₂ (fun row y => ∃ x, row[i]? = some x ∧ y = x * f) results c.y := by
  obtain ⟨i, hi, _, _, hf⟩ := (C146_time_slice v energies times results f c).1 h
  exact ⟨i, C310_bin_partial hv ((mp_argmin_nearest times v i).2 hi), hf⟩

example : BeyondBins (1000000 : ℚ) [1, 2, 3] 3 ∧ BeyondBins (-7 : ℚ) [1, 2, 3] 1 := by
  refine ⟨.inl ⟨?_, by norm_num⟩, .inr ⟨?_, by norm_num⟩⟩ <;> intro a ha <;> simp at ha <;> rcases ha with rfl | rfl | rfl <;> norm_num
example : timeSlice (1000000 : ℚ) [1, 2] [1, 2, 3] [[4, 5, 6], [7, 8, 9]] 1 = .ok ⟨[1, 2], [6, 9]⟩ := by decide +kernel
example : findPeakTime (1000000 : ℚ) [1, 2] [1, 2, 3] [[4, 5, 6], [7, 9, 8]] = .ok 2 := by decide +kernel

end Props
