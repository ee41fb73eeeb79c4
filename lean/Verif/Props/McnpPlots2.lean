/- Properties C148-C150 of the plotting functions of mcnp_analysis.py: the axis limits of `energy_slice` and the heat map. -/
import Verif.Props.McnpPlots
import Mathlib.Algebra.Order.BigOperators.Group.List

set_option linter.unusedSectionVars false
set_option linter.unusedSimpArgs false

namespace Props
open Py McnpAnalysis McnpPlots NeutUtilities
variable {K : Type} [Field K] [LinearOrder K] [IsStrictOrderedRing K]

/-! ### C148 -/

/-- Limits that are given are used. -/
theorem C148_given {targets energies times : List K} {results : List (List K)} {minT maxT : Option K} {window : Nat} {f : K} {pt : Bool}
    {fig : SliceFig K} (h : energySlice targets energies times results minT maxT window f pt = .ok fig) :
    (∀ a, minT = some a → fig.xlim.1 = a) ∧ (∀ b, maxT = some b → fig.xlim.2 = b) := by
  obtain ⟨rs, _, _, _, _, hx, _⟩ := mp_energySlice_ok h
  unfold timeLimits at hx
  simp only [ex_bind_ok, orErr_ok_iff, ex_pure, Except.ok.injEq] at hx
  obtain ⟨m, _, lo, _, hi, _, hx⟩ := hx
  rw [← hx]
  exact ⟨fun a ha => by rw [ha]; rfl, fun b hb => by rw [hb]; rfl⟩

private theorem median_single (p : Nat) : medianIndex [p] = .ok p := by
  simp [medianIndex, orErr]

private theorem shake_le {a b : K} (h : a ≤ b) : Constants.shakeToMs a ≤ Constants.shakeToMs b := by
  unfold Constants.shakeToMs
  linarith

private theorem sorted_get {l : List K} (hs : l.Pairwise (· ≤ ·)) {i j : Nat} {a b : K} (hij : i ≤ j) (hi : l[i]? = some a) (hj : l[j]? = some b) : a ≤ b := by
  rcases Nat.lt_or_eq_of_le hij with h | rfl
  · obtain ⟨h1, rfl⟩ := List.getElem?_eq_some_iff.1 hi
    obtain ⟨h2, rfl⟩ := List.getElem?_eq_some_iff.1 hj
    exact List.pairwise_iff_getElem.1 hs _ _ h1 h2 h
  · rw [hi] at hj; cases hj; exact le_refl _

/-- The automatic limits for one target and increasing times: the time of the peak is shown, and the limits are times of bins at most
    `window` bins away. -/
theorem C148_single_partial {te : K} {energies times : List K} {results : List (List K)} {window : Nat} {f : K} {pt : Bool}
    {fig : SliceFig K} (hs : times.Pairwise (· ≤ ·)) (h : energySlice [te] energies times results none none window f pt = .ok fig) :
    ∃ c p t, fig.curves = [c] ∧ Peak c.y p ∧ c.x[p]? = some t ∧ fig.xlim.1 ≤ t ∧ t ≤ fig.xlim.2 ∧
      c.x[p - window]? = some fig.xlim.1 ∧ c.x[min (c.x.length - 1) (p + window)]? = some fig.xlim.2 := by
  obtain ⟨rs, h1, h2, _, _, hx, _⟩ := mp_energySlice_ok h
  obtain ⟨r, rs', ⟨ei, hn, hr⟩, hnil, rfl⟩ := List.forall₂_cons_left_iff.1 h1
  rw [List.forall₂_nil_left_iff] at hnil
  subst hnil
  obtain ⟨row, hrow, hc, hlen, hp, hv⟩ := mp_energyCurve_ok hr
  unfold timeLimits at hx
  simp only [List.map_cons, List.map_nil, median_single, ex_ok_bind, ex_bind_ok, orErr_ok_iff, ex_pure, Except.ok.injEq, Option.getD_none] at hx
  obtain ⟨lo, hlo, hi, hhi, hxe⟩ := hx
  have hpl : r.2.1 < (times.map Constants.shakeToMs).length := by
    have := (List.getElem?_eq_some_iff.1 hv).1
    simp only [List.length_map, List.length_dropLast] at this hlen ⊢
    omega
  have hmin : min r.2.1 ((times.map Constants.shakeToMs).length - 1) = r.2.1 := by omega
  rw [hmin] at hlo hhi
  have hsc : (times.map Constants.shakeToMs).Pairwise (· ≤ ·) := List.pairwise_map.2 (hs.imp shake_le)
  have hpt := List.getElem?_eq_getElem hpl
  have hcx : r.1.x = times.map Constants.shakeToMs := by rw [hc]
  have hcy : r.1.y = row.dropLast.map (· * f) := by rw [hc]
  refine ⟨r.1, r.2.1, _, h2, by rw [hcy]; exact hp, by rw [hcx]; exact hpt, ?_, ?_, ?_, ?_⟩
  · rw [← hxe]; exact sorted_get hsc (by omega) hlo hpt
  · rw [← hxe]; exact sorted_get hsc (by omega) hpt hhi
  · rw [hcx, ← hxe]; exact hlo
  · rw [hcx, ← hxe]; exact hhi

/-- With two targets no peak need be shown: the window is put around the median of the peaks. -/
theorem C148_two_violated : ∃ (targets energies times : List ℚ) (results : List (List ℚ)) (fig : SliceFig ℚ),
    energySlice targets energies times results none none 50 1 false = .ok fig ∧ times.Pairwise (· ≤ ·) ∧
      ∀ c ∈ fig.curves, ∃ p t, Peak c.y p ∧ c.x[p]? = some t ∧ (t < fig.xlim.1 ∨ fig.xlim.2 < t) := by
  have he : energySlice ([1, 2] : List ℚ) [1, 2] ((List.range 121).map (fun i => (i : ℚ) * 100))
      [(List.range 122).map (fun i => if i = 0 then 1 else 0), (List.range 122).map (fun i => if i = 120 then 1 else 0)] none none 50 1 false =
      .ok ⟨[⟨(List.range 121).map (fun i => (i : ℚ)), (List.range 121).map (fun i => if i = 0 then 1 else 0)⟩,
        ⟨(List.range 121).map (fun i => (i : ℚ)), (List.range 121).map (fun i => if i = 120 then 1 else 0)⟩], none, (10, 110), 1.05⟩ := by decide +kernel
  refine ⟨_, _, _, _, _, he, by decide +kernel, ?_⟩
  intro c hc
  simp only [List.mem_cons, List.not_mem_nil, or_false] at hc
  rcases hc with rfl | rfl
  · refine ⟨0, 0, ⟨1, by decide +kernel, by decide +kernel, fun j b hj => absurd hj (by omega)⟩, by decide +kernel, .inl (by norm_num)⟩
  · refine ⟨120, 120, ⟨1, by decide +kernel, by decide +kernel, ?_⟩, by decide +kernel, .inr (by norm_num)⟩
    intro j b hj hb
    rw [List.getElem?_map, List.getElem?_range (by omega)] at hb
    simp only [Option.map_some, Option.some.injEq] at hb
    rw [if_neg (by omega)] at hb
    rw [← hb]; norm_num

example : energySlice ([2] : List ℚ) [1, 2] [100, 200, 300] [[1, 2, 3, 0], [4, 3, 7, 0]] none none 1 2 false =
    .ok ⟨[⟨[1, 2, 3], [8, 6, 14]⟩], none, (2, 3), 14.7⟩ := by decide +kernel

/-! ### C149 -/

private theorem foldl_max_le (l : List K) (v : K) : v ≤ l.foldl max v ∧ ∀ x ∈ l, x ≤ l.foldl max v := by
  induction l generalizing v with
  | nil => simp
  | cons a l ih =>
    obtain ⟨h1, h2⟩ := ih (max v a)
    refine ⟨le_trans (le_max_left v a) h1, ?_⟩
    intro x hx
    rcases List.mem_cons.1 hx with rfl | hx
    · exact le_trans (le_max_right v x) h1
    · exact h2 x hx

private theorem le_105 {a b : K} (h : a ≤ b) (hb : 0 ≤ b) : a ≤ b * 1.05 := by
  have : b * 1.05 = b + b * 0.05 := by
    rw [show (1.05 : K) = 1 + 0.05 by norm_num]; ring
  rw [this]
  have : 0 ≤ b * (0.05 : K) := mul_nonneg hb (by norm_num)
  linarith

/-- Without the total every point of every curve is below the upper limit. -/
theorem C149_curves_partial {targets energies times : List K} {results : List (List K)} {minT maxT : Option K} {window : Nat} {f : K}
    {fig : SliceFig K} (hf : 0 ≤ f) (hr : ∀ row ∈ results, ∀ v ∈ row, 0 ≤ v)
    (h : energySlice targets energies times results minT maxT window f false = .ok fig) :
    ∀ c ∈ fig.curves, ∀ y ∈ c.y, y ≤ fig.ymax := by
  obtain ⟨rs, h1, h2, _, _, _, hy⟩ := mp_energySlice_ok h
  intro c hc y hyc
  rw [h2, List.mem_map] at hc
  obtain ⟨r, hr', rfl⟩ := hc
  have hall : ∀ r ∈ rs, ∃ te ei, Nearest energies te ei ∧ energyCurve (times.map Constants.shakeToMs) results f ei = .ok r := by
    clear hy h2 h hr'
    clear * - h1
    induction h1 with
    | nil => simp
    | cons h _ ih =>
      intro r hr
      rcases List.mem_cons.1 hr with rfl | hr
      · exact ⟨_, h⟩
      · exact ih r hr
  obtain ⟨te, ei, _, he⟩ := hall r hr'
  obtain ⟨row, hrow, hcv, _, hp, hv⟩ := mp_energyCurve_ok he
  have hyle : y ≤ r.2.2 := by
    obtain ⟨a, ha, hb, _⟩ := hp
    rw [hv] at ha
    cases ha
    rw [hcv] at hyc
    exact hb y hyc
  have hv0 : 0 ≤ r.2.2 := by
    have := List.mem_of_getElem? hv
    rw [List.mem_map] at this
    obtain ⟨x, hx, hxe⟩ := this
    rw [← hxe]
    exact mul_nonneg (hr row (List.mem_of_getElem? hrow) x (List.dropLast_subset _ hx)) hf
  unfold yLimit at hy
  simp only [Bool.false_eq_true, if_false] at hy
  have hmem : r.2.2 ∈ rs.map (fun r => r.2.2) := List.mem_map.2 ⟨r, hr', rfl⟩
  generalize rs.map (fun r => r.2.2) = vals at hy hmem
  cases vals with
  | nil => simp at hmem
  | cons v vs =>
    simp only [Except.ok.injEq] at hy
    rw [← hy]
    obtain ⟨g1, g2⟩ := foldl_max_le vs v
    have hle : r.2.2 ≤ vs.foldl max v := by
      rcases List.mem_cons.1 hmem with hm | hm
      · rw [hm]; exact g1
      · exact g2 _ hm
    exact le_105 (le_trans hyle hle) (le_trans hv0 hle)

private theorem le_sum_of_mem {l : List K} (h0 : ∀ x ∈ l, 0 ≤ x) {a : K} (ha : a ∈ l) : a ≤ l.sum := by
  induction l with
  | nil => simp at ha
  | cons x l ih =>
    have hs : 0 ≤ l.sum := List.sum_nonneg (fun y hy => h0 y (by simp [hy]))
    have hx : 0 ≤ x := h0 x (by simp)
    rw [List.sum_cons]
    rcases List.mem_cons.1 ha with rfl | ha
    · linarith
    · have := ih (fun y hy => h0 y (by simp [hy])) ha
      linarith

/-- With the total and one target the curve of the target is below the upper limit. -/
theorem C149_single_partial {te : K} {energies times : List K} {results : List (List K)} {minT maxT : Option K} {window n : Nat} {f : K}
    {fig : SliceFig K} (hf : 0 ≤ f) (hr : ∀ row ∈ results, ∀ v ∈ row, 0 ≤ v) (hn : ∀ row ∈ results, row.length = n)
    (h : energySlice [te] energies times results minT maxT window f true = .ok fig) :
    ∀ c ∈ fig.curves, ∀ y ∈ c.y, y ≤ fig.ymax := by
  obtain ⟨rs, h1, h2, _, _, _, hy⟩ := mp_energySlice_ok h
  obtain ⟨r, rs', ⟨ei, _, he⟩, hnil, rfl⟩ := List.forall₂_cons_left_iff.1 h1
  rw [List.forall₂_nil_left_iff] at hnil
  subst hnil
  obtain ⟨row, hrow, hcv, hlen, hp, hv⟩ := mp_energyCurve_ok he
  intro c hc y hyc
  rw [h2] at hc
  simp only [List.map_cons, List.map_nil, List.mem_singleton] at hc
  rw [hc, hcv] at hyc
  have hyle : y ≤ r.2.2 := by
    obtain ⟨a, ha, hb, _⟩ := hp
    rw [hv] at ha
    cases ha
    exact hb y hyc
  have hmem := List.mem_of_getElem? hrow
  have hne : results ≠ [] := List.ne_nil_of_mem hmem
  obtain ⟨hcl, hcg⟩ := mp_columnSums_get results n hne hn
  have hrn := hn row hmem
  have hpl := (List.getElem?_eq_some_iff.1 hv).1
  rw [List.length_map, List.length_dropLast] at hpl
  have hpn : r.2.1 < n := by omega
  have hvx : r.2.2 = row[r.2.1]?.getD 0 * f := by
    rw [List.getElem?_map, List.getElem?_dropLast, if_pos (by omega)] at hv
    rw [List.getElem?_eq_getElem (by omega)] at hv ⊢
    simpa using hv.symm
  unfold yLimit at hy
  simp only [if_true, List.map_cons, List.map_nil, median_single, ex_ok_bind, ex_bind_ok, orErr_ok_iff, ex_pure, Except.ok.injEq] at hy
  obtain ⟨tp, htp, hym⟩ := hy
  have hmin : min r.2.1 ((normalise (columnSums results) f).length - 1) = r.2.1 := by
    simp only [normalise, List.length_map, hcl]; omega
  rw [hmin, normalise, List.getElem?_map, hcg _ hpn] at htp
  simp only [Option.map_some, Option.some.injEq] at htp
  have hnn : ∀ x ∈ results.map (fun row => row[r.2.1]?.getD 0), 0 ≤ x := by
    intro x hx
    rw [List.mem_map] at hx
    obtain ⟨row', hr', rfl⟩ := hx
    cases hg : row'[r.2.1]? with
    | none => simp
    | some v => exact hr row' hr' v (List.mem_of_getElem? hg)
  have hle : r.2.2 ≤ tp := by
    rw [hvx, ← htp]
    exact mul_le_mul_of_nonneg_right (le_sum_of_mem hnn (List.mem_map.2 ⟨row, hmem, rfl⟩)) hf
  have h0 : 0 ≤ tp := by rw [← htp]; exact mul_nonneg (List.sum_nonneg hnn) hf
  rw [← hym]
  exact le_105 (le_trans hyle hle) h0

/-- The total is drawn as well, but can lie far above the limit: the limit is taken at the peak of the target. -/
theorem C149_total_violated : ∃ (energies times : List ℚ) (results : List (List ℚ)) (fig : SliceFig ℚ) (c : Curve ℚ),
    (∀ row ∈ results, ∀ v ∈ row, 0 ≤ v) ∧ energySlice [1] energies times results none none 50 1 true = .ok fig ∧ fig.total = some c ∧
      ∃ y ∈ c.y, 10 * fig.ymax < y :=
  ⟨[1, 2], [100, 200], [[1, 0, 0], [0, 20, 0]], ⟨[⟨[1, 2], [1, 0]⟩], some ⟨[1, 2], [1, 20]⟩, (1, 2), 1.05⟩, ⟨[1, 2], [1, 20]⟩,
    by decide +kernel, by decide +kernel, rfl, 20, by decide +kernel, by norm_num⟩

/-- With several targets a target's own peak can lie above the limit. -/
theorem C149_targets_violated : ∃ (energies times : List ℚ) (results : List (List ℚ)) (fig : SliceFig ℚ) (c : Curve ℚ),
    (∀ row ∈ results, ∀ v ∈ row, 0 ≤ v) ∧ energySlice [1, 2] energies times results none none 50 1 true = .ok fig ∧ c ∈ fig.curves ∧
      ∃ y ∈ c.y, fig.ymax < y :=
  ⟨[1, 2], [100, 200, 300], [[9, 0, 0, 0], [0, 0, 8, 0]], ⟨[⟨[1, 2, 3], [9, 0, 0]⟩, ⟨[1, 2, 3], [0, 0, 8]⟩], some ⟨[1, 2, 3], [9, 0, 8]⟩, (1, 3), 0⟩,
    ⟨[1, 2, 3], [9, 0, 0]⟩, by decide +kernel, by decide +kernel, by simp, 9, by simp, by norm_num⟩

/-! ### C150 -/

/-- The heat map of a rectangular matrix with one row per energy and one time fewer than columns: the cell between energies i and i+1 and
    times j and j+1 shows the logarithm of the normalised entry (i, j), or nothing if that entry is not positive. -/
theorem C150_cells {V : Type} (lg : K → V) (energies times : List K) (results : List (List K)) (f : K) (hne : 2 ≤ results.length)
    (h1 : ∀ row ∈ results, row.length = times.length + 1) (h2 : energies.length = results.length) (h3 : times ≠ []) :
    ∃ fig, heatmap lg energies times results f = .ok fig ∧ fig.energies = energies ∧ List.Forall₂ Microseconds times fig.times ∧
      fig.cells.length + 1 = energies.length ∧ (∀ cells ∈ fig.cells, cells.length + 1 = times.length) ∧
      ∀ i row, results[i]? = some row → i + 1 < energies.length → ∃ cells, fig.cells[i]? = some cells ∧
        ∀ j v, row[j]? = some v → j + 1 < times.length → cells[j]? = some (if 0 < v then some (lg (v * f)) else none) := by
  have htl : 0 < times.length := List.length_pos_iff.2 h3
  unfold heatmap
  simp only
  rw [if_pos]
  · refine ⟨_, rfl, rfl, ?_, ?_, ?_, ?_⟩
    · show List.Forall₂ _ times (times.map Constants.shakeToMs)
      rw [List.forall₂_map_right_iff]
      exact List.forall₂_same.2 (fun t _ => mp_micro t)
    · simp only [List.length_map, List.length_dropLast]; omega
    · intro cells hc
      simp only [List.mem_map] at hc
      obtain ⟨lrow, hl, rfl⟩ := hc
      have hl := List.dropLast_subset _ hl
      rw [List.mem_map] at hl
      obtain ⟨row, hrow, rfl⟩ := hl
      have := h1 row hrow
      simp only [List.length_take, List.length_map]; omega
    · intro i row hrow hi
      have hrl := h1 row (List.mem_of_getElem? hrow)
      refine ⟨_, by rw [List.getElem?_map, List.getElem?_dropLast, if_pos (by simp only [List.length_map]; omega), List.getElem?_map, hrow]; rfl, ?_⟩
      intro j v hv hj
      rw [List.getElem?_take, if_pos (by simp only [List.length_map]; omega), List.getElem?_map, hv]
      rfl
  · right
    have : ((results.map (fun row => row.map (fun v => if 0 < v then some (lg (v * f)) else none))).dropLast.map (fun row => row.take (row.length - 2))).headD [] =
        ((results.headD []).map (fun v => if 0 < v then some (lg (v * f)) else none)).take ((results.headD []).length - 2) := by
      cases results with
      | nil => simp at hne
      | cons r rs =>
        cases rs with
        | nil => simp at hne
        | cons r2 rs => simp
    rw [this]
    have hh : (results.headD []).length = times.length + 1 := by
      cases results with
      | nil => simp at hne
      | cons r rs => exact h1 r (by simp)
    simp only [List.length_take, List.length_map, List.length_dropLast, hh]
    omega

/-- With one time per column, the shape in the documentation of the neighbouring functions, matplotlib refuses the data. -/
theorem C150_shape_violated {V : Type} (lg : K → V) (energies times : List K) (results : List (List K)) (f : K) (hne : 2 ≤ results.length)
    (h1 : ∀ row ∈ results, row.length = times.length) (h3 : 2 ≤ times.length) : heatmap lg energies times results f = .error .TypeError := by
  unfold heatmap
  simp only
  rw [if_neg]
  have : ((results.map (fun row => row.map (fun v => if 0 < v then some (lg (v * f)) else none))).dropLast.map (fun row => row.take (row.length - 2))).headD [] =
      ((results.headD []).map (fun v => if 0 < v then some (lg (v * f)) else none)).take ((results.headD []).length - 2) := by
    cases results with
    | nil => simp at hne
    | cons r rs =>
      cases rs with
      | nil => simp at hne
      | cons r2 rs => simp
  rw [this]
  have hh : (results.headD []).length = times.length := by
    cases results with
    | nil => simp at hne
    | cons r rs => exact h1 r (by simp)
  simp only [List.length_take, List.length_map, List.length_dropLast, hh]
  omega

example : ∃ fig, heatmap (fun v : ℚ => v) [1, 2, 3] [100, 200] [[1, 0, 3], [4, 5, 6], [7, 8, 9]] 2 = .ok fig ∧
    fig.cells = [[some 2], [some 8]] ∧ fig.times = [1, 2] := ⟨_, rfl, by decide +kernel, by decide +kernel⟩

end Props
