/- Errors of the plotting functions of mcnp_analysis.py (C147, C150) and bins that are drawn in the wrong place (C150). -/
import Verif.Props.McnpPlots2
import Verif.Props.McnpPlots3

set_option linter.unusedSectionVars false

namespace Props
open Py McnpAnalysis McnpPlots NeutUtilities
variable {K : Type} [Field K] [LinearOrder K] [IsStrictOrderedRing K]

/-! ### C147: the errors of `energy_slice` -/

private theorem curve_missing {tc : List K} {results : List (List K)} {f : K} {ei : Nat} (h : results.length ≤ ei) :
    energyCurve tc results f ei = .error .IndexError := by
  unfold energyCurve
  rw [List.getElem?_eq_none h]
  rfl

private theorem curve_bad {tc : List K} {results : List (List K)} {f : K} {ei : Nat} {row : List K} (hr : results[ei]? = some row)
    (h : row.length ≠ tc.length + 1 ∨ tc = []) : energyCurve tc results f ei = .error .ValueError := by
  unfold energyCurve
  rw [hr]
  show (do
    let peak ← argmax ((normalise row f).take tc.length)
    let v ← orErr .IndexError ((normalise row f).take tc.length)[peak]?
    let _ ← orErr .IndexError tc[peak]?
    let c ← curve tc (normalise row f).dropLast
    pure (c, peak, v)) = _
  by_cases hn : (normalise row f).take tc.length = []
  · rw [hn]
    rfl
  · obtain ⟨i, hi, a, ha, _⟩ := argmax_spec hn
    have hl := (List.getElem?_eq_some_iff.1 ha).1
    rw [List.length_take] at hl
    rw [hi, ex_ok_bind, ha]
    show (do
      let _ ← orErr .IndexError tc[i]?
      let c ← curve tc (normalise row f).dropLast
      pure (c, i, a)) = _
    rw [List.getElem?_eq_getElem (show i < tc.length by omega)]
    show (do
      let c ← curve tc (normalise row f).dropLast
      pure (c, i, a)) = _
    have hne : curve tc (normalise row f).dropLast = .error .ValueError := by
      unfold curve
      rw [if_neg]
      have hrl : (normalise row f).length = row.length := by simp [normalise]
      rw [List.length_dropLast, hrl]
      rw [hrl] at hl
      rcases h with h | rfl
      · omega
      · simp at hl
    rw [hne]
    rfl

private theorem curve_good {tc : List K} {results : List (List K)} {f : K} {ei : Nat} {row : List K} (hr : results[ei]? = some row)
    (h : row.length = tc.length + 1) (htc : tc ≠ []) : ∃ r, energyCurve tc results f ei = .ok r := by
  have htl := List.length_pos_iff.2 htc
  have hrl : (normalise row f).length = row.length := by simp [normalise]
  have hn : (normalise row f).take tc.length ≠ [] := by
    rw [← List.length_pos_iff, List.length_take]
    omega
  obtain ⟨i, hi, a, ha, _⟩ := argmax_spec hn
  have hl := (List.getElem?_eq_some_iff.1 ha).1
  rw [List.length_take] at hl
  refine ⟨(⟨tc, (normalise row f).dropLast⟩, i, a), ?_⟩
  unfold energyCurve
  simp only [ex_bind_ok, orErr_ok_iff, mp_curve_ok, ex_pure, Except.ok.injEq]
  exact ⟨row, hr, i, hi, a, ha, tc[i], List.getElem?_eq_getElem (by omega), _, ⟨by rw [List.length_dropLast]; omega, rfl⟩, rfl⟩

private theorem nearest_all {targets energies : List K} {ns : List Nat} (h : List.Forall₂ (Nearest energies) targets ns) :
    targets.mapM (fun te => argmin (energies.map (fun e => |e - te|))) = .ok ns := by
  rw [mapM_except_ok_iff]
  exact h.imp (fun te n hn => (mp_argmin_nearest energies te n).2 hn)

/-- Without targets or without energies: ValueError. -/
theorem C147_empty (targets energies times : List K) (results : List (List K)) (minT maxT : Option K) (window : Nat) (f : K) (pt : Bool)
    (h : targets = [] ∨ energies = []) : energySlice targets energies times results minT maxT window f pt = .error .ValueError := by
  unfold energySlice
  by_cases ht : targets = []
  · subst ht
    show (do
      let tot ← totalCurve (times.map Constants.shakeToMs) (normalise (columnSums results) f) pt
      let xl ← timeLimits (times.map Constants.shakeToMs) [] minT maxT window
      let ym ← yLimit (normalise (columnSums results) f) pt [] []
      pure (SliceFig.mk [] tot xl ym)) = _
    cases hc : totalCurve (times.map Constants.shakeToMs) (normalise (columnSums results) f) pt with
    | ok c => rfl
    | error e =>
      have : e = .ValueError := by
        unfold totalCurve curve at hc
        cases pt with
        | false => cases hc
        | true =>
          rw [if_pos rfl] at hc
          split at hc
          · cases hc
          · cases hc
            rfl
      rw [this]
      rfl
  · rcases h with h | rfl
    · exact absurd h ht
    · obtain ⟨a, l, rfl⟩ := List.exists_cons_of_ne_nil ht
      have : (a :: l).mapM (fun te => argmin (([] : List K).map (fun e => |e - te|))) = .error .ValueError :=
        mapM_except_err_of (fun _ _ e he => by cases he; rfl) ⟨a, List.mem_cons_self, _, rfl⟩
      rw [this]
      rfl

/-- If the row of an energy nearest to a target is missing and all rows fit the times: IndexError. If all these rows are there, and one of
    them does not have one value more than there are times, or there are no times: ValueError. -/
theorem C147_errors {targets energies times : List K} {results : List (List K)} {ns : List Nat}
    (hn : List.Forall₂ (Nearest energies) targets ns) (minT maxT : Option K) (window : Nat) (f : K) (pt : Bool) :
    (times ≠ [] → (∀ row ∈ results, row.length = times.length + 1) → (∃ n ∈ ns, results.length ≤ n) →
      energySlice targets energies times results minT maxT window f pt = .error .IndexError) ∧
    ((∀ n ∈ ns, n < results.length) → (∃ n ∈ ns, ∃ row, results[n]? = some row ∧ (row.length ≠ times.length + 1 ∨ times = [])) →
      energySlice targets energies times results minT maxT window f pt = .error .ValueError) := by
  have hlen : (times.map Constants.shakeToMs).length = times.length := List.length_map _
  constructor
  · rintro ht hr ⟨n, hm, hl⟩
    unfold energySlice
    rw [nearest_all hn, ex_ok_bind]
    have : ns.mapM (energyCurve (times.map Constants.shakeToMs) results f) = .error .IndexError := by
      refine mapM_except_err_of (fun k _ e he => ?_) ⟨n, hm, _, curve_missing hl⟩
      cases hk : results[k]? with
      | none =>
        rw [curve_missing (List.getElem?_eq_none_iff.1 hk)] at he
        cases he
        rfl
      | some row =>
        obtain ⟨r, hr'⟩ := curve_good (f := f) hk (by rw [hlen]; exact hr row (List.mem_of_getElem? hk)) (by simpa using ht)
        rw [hr'] at he
        cases he
    show (do
      let rs ← ns.mapM (energyCurve (times.map Constants.shakeToMs) results f)
      _) = _
    rw [this]
    rfl
  · rintro hall ⟨n, hm, row, hrow, hbad⟩
    unfold energySlice
    rw [nearest_all hn, ex_ok_bind]
    have : ns.mapM (energyCurve (times.map Constants.shakeToMs) results f) = .error .ValueError := by
      refine mapM_except_err_of (fun k hk e he => ?_) ⟨n, hm, _, curve_bad hrow (by rw [hlen]; exact hbad.imp id (by simp))⟩
      have hk' := List.getElem?_eq_getElem (hall k hk)
      by_cases hg : (results[k]'(hall k hk)).length ≠ (times.map Constants.shakeToMs).length + 1 ∨ times.map Constants.shakeToMs = []
      · rw [curve_bad hk' hg] at he
        cases he
        rfl
      · push Not at hg
        obtain ⟨r, hr'⟩ := curve_good (f := f) hk' hg.1 hg.2
        rw [hr'] at he
        cases he
    show (do
      let rs ← ns.mapM (energyCurve (times.map Constants.shakeToMs) results f)
      _) = _
    rw [this]
    rfl

example : energySlice ([2] : List ℚ) [1, 2] [1] [[3, 4]] none none 5 1 false = .error .IndexError := by decide +kernel
example : energySlice ([1] : List ℚ) [1, 2] [1] [[3, 4, 5]] none none 5 1 false = .error .ValueError := by decide +kernel
example : energySlice ([] : List ℚ) [1, 2] [1] [[3, 4]] none none 5 1 true = .error .ValueError := by decide +kernel

/-! ### C150: bins are drawn one late -/

/-- The energies and times of a tally are the upper boundaries of its bins: entry (i, j) of the results belongs to the energies up to
    `energies[i]` and the times up to `times[j]`, and down to the boundaries before. C150 is violated by every bin that lies between two
    energies and two times: in its place the heat map shows the result of the bin before, of energies and of times. In particular it is
    left blank, although its result is positive, if the other result is zero. -/
theorem C150_late_violated {V : Type} (lg : K → V) (energies times : List K) (results : List (List K)) (f : K) (hne : 2 ≤ results.length)
    (h1 : ∀ row ∈ results, row.length = times.length + 1) (h2 : energies.length = results.length) (h3 : times ≠ [])
    {i j : Nat} (hi : i + 1 < energies.length) (hj : j + 1 < times.length) {before bin : List K} {v w : K}
    (hr : results[i]? = some before) (hv : before[j]? = some v) (_hr' : results[i + 1]? = some bin) (_hw : bin[j + 1]? = some w) :
    ∃ fig cells, heatmap lg energies times results f = .ok fig ∧ fig.cells[i]? = some cells ∧
      (0 < v → cells[j]? = some (some (lg (v * f)))) ∧ (v ≤ 0 → 0 < w → cells[j]? = some none) := by
  obtain ⟨fig, h, _, _, _, _, hc⟩ := C150_cells lg energies times results f hne h1 h2 h3
  obtain ⟨cells, hcell, hcj⟩ := hc i before hr hi
  have := hcj j v hv hj
  refine ⟨fig, cells, h, hcell, fun h0 => ?_, fun h0 _ => ?_⟩
  · rw [this, if_pos h0]
  · rw [this, if_neg (not_lt.2 h0)]

/-- Energies up to 1, 2 and 3 and times up to 1, 2: the only positive result belongs to the energies from 1 to 2 and the times from 1 to 2,
    the only cell in this place is blank. -/
example : ∃ fig, heatmap (id : ℚ → ℚ) [1, 2] [1, 2] [[0, 0, 0], [0, 5, 5]] 1 = .ok fig ∧ fig.cells = [[none]] := ⟨_, rfl, by decide +kernel⟩

end Props
