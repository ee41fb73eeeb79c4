/- Further parts of C152: the errors of spectra by angle. -/
import Verif.Props.McnpPlots3

set_option linter.unusedSectionVars false

namespace Props
open Py McnpAnalysis McnpPlots
variable {K : Type} [Field K] [LinearOrder K] [IsStrictOrderedRing K]

/-- C152 (violated): a current in several directions has a list of errors per direction. Its errors are counted against the bins and then
    each list is taken for a number, so nothing is drawn: ValueError, or TypeError if there are as many directions as energy bins. -/
theorem C152_angles_violated (t : McnpOutput.Tally K) (ts : List (McnpOutput.Tally K)) (xlow : Option K) (eng a : List K) (rows errs : List (List K))
    (h1 : t.tallyType = '1') (hs : t.surfaces.length ≤ 1) (ha : t.angBins = some a) (ha1 : 1 < a.length) (he : t.eng = some eng)
    (h2 : 2 ≤ eng.length) (hr : t.result = .items (rows.map .list)) (hne : rows ≠ []) (hlen : ∀ r ∈ rows, r.length = eng.length)
    (hE : t.err = .items (errs.map .list)) :
    plotSpectra (t :: ts) true xlow = .error (if errs.length = eng.length then .TypeError else .ValueError) := by
  have hw : calcBinWidth eng = .ok (List.zipWith (fun b a => b - a) eng (0 :: eng)) := by unfold calcBinWidth; rw [if_neg (by omega)]
  generalize hbw : List.zipWith (fun b a => b - a) eng (0 :: eng) = bw at hw
  have hbl : bw.length = eng.length := by rw [← hbw]; simp
  have hc : tallyCurves t eng bw = .ok (rows.map (fun ys => ⟨eng, List.zipWith (· / ·) ys bw⟩)) := by
    unfold tallyCurves
    rw [if_pos h1, if_neg (by omega), ha]
    simp only [orErr, ex_ok_bind]
    rw [if_pos ha1, hr]
    simp only [angleCurves]
    rw [mapM_except_ok_iff]
    clear hr hne
    induction rows with
    | nil => exact .nil
    | cons r rows ih =>
      have hrl := hlen r (by simp)
      refine .cons ?_ (ih (fun q hq => hlen q (by simp [hq])))
      simp only [ex_ok_bind]
      unfold divArrays curve
      rw [if_pos (by omega)]
      simp only [ex_ok_bind]
      rw [if_pos (by simp; omega)]
  obtain ⟨ys, hys, hyl⟩ : ∃ ys, (((rows.map (fun ys => (⟨eng, List.zipWith (· / ·) ys bw⟩ : Curve K))).getLast?.map (·.y)).or none = some ys) ∧ ys.length = eng.length := by
    obtain ⟨l, r, rfl⟩ := List.eq_nil_or_concat rows |>.resolve_left hne
    refine ⟨List.zipWith (· / ·) r bw, by simp, ?_⟩
    have := hlen r (by simp)
    simp; omega
  have hbar : errorBars t eng ys = .error (if errs.length = eng.length then .TypeError else .ValueError) := by
    unfold errorBars
    rw [hE]
    simp only [errNumbers, List.length_map]
    by_cases hl : errs.length = eng.length
    · rw [if_neg (by rw [hyl]; exact not_not.2 hl), if_pos hl]
      cases errs with
      | nil => simp only [List.length_nil] at hl; omega
      | cons e errs => rfl
    · rw [if_pos (by rw [hyl]; exact hl), if_neg hl]
      rfl
  unfold plotSpectra
  simp only [spectraLoop, he, orErr, ex_ok_bind, hw, hc, if_true, hys, hbar]
  rfl

/-- Two directions and two energy bins, and two directions and three energy bins. -/
example : plotSpectra ([{ number := 1, tallyType := '1', particle := p!"neutrons", nps := .inr 1, surfaces := [p!"5"], angBins := some [-1, 0, 1], eng := some [1, 3], result := .items [.list [5, 8], .list [2, 6]], err := .items [.list [0, 0], .list [0, 0]] }] : List (McnpOutput.Tally ℚ)) true none
    = .error .TypeError := by decide +kernel
example : plotSpectra ([{ number := 1, tallyType := '1', particle := p!"neutrons", nps := .inr 1, surfaces := [p!"5"], angBins := some [-1, 0, 1], eng := some [1, 3, 4], result := .items [.list [5, 8, 1], .list [2, 6, 1]], err := .items [.list [0, 0, 0], .list [0, 0, 0]] }] : List (McnpOutput.Tally ℚ)) true none
    = .error .ValueError := by decide +kernel

end Props
