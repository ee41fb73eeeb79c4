/- Property C228: spectra of tallies with energy and time bins. -/
import Verif.Model.TimeSpectra
import Verif.Props.McnpPlots3

set_option linter.unusedSectionVars false

namespace Props
open Py McnpAnalysis McnpPlots NeutUtilities
variable {K : Type} [Field K] [LinearOrder K] [IsStrictOrderedRing K]

/-- The values of the time bin `j`: entry `j` of each row. -/
def TimeBin (m : List (List K)) (j : Nat) (vals : List K) : Prop := List.Forall₂ (fun (r : List K) v => r[j]? = some v) m vals

private theorem width_run {eng : List K} (h : 2 ≤ eng.length) : ∃ bw, calcBinWidth eng = .ok bw ∧ bw.length = eng.length ∧
    ∀ (i : Nat) (w : K), BinWidth eng i w → bw[i]? = some w := by
  refine ⟨List.zipWith (fun b a => b - a) eng (0 :: eng), ?_, by simp, ?_⟩
  · unfold calcBinWidth
    rw [if_neg (by omega)]
  · rintro i w ⟨hi, lo, h1, h2, rfl⟩
    rw [List.getElem?_zipWith, h1, h2]

private theorem run_of {eng : List K} {m y : List (List K)} {bw : List K} {cs : List (Curve K)} (xlow : Option K) (hb : calcBinWidth eng = .ok bw)
    (hd : divMatrix m bw = .ok y) (hc : columnCurves eng y = .ok cs) : ∃ fig, plotTimeSpectra eng m xlow = .ok fig ∧ fig.curves = cs ∧ fig.bars = [] := by
  have hl : eng.length = y.length := by
    unfold columnCurves at hc
    split at hc
    · assumption
    · cases hc
  unfold plotTimeSpectra
  simp only [hb, hd, hc, ex_ok_bind]
  cases xlow with
  | some x => exact ⟨_, rfl, rfl, rfl⟩
  | none =>
    cases hf : firstRowNonZero y with
    | none => exact ⟨_, rfl, rfl, rfl⟩
    | some k =>
      cases k with
      | zero => exact ⟨_, rfl, rfl, rfl⟩
      | succ i =>
        have hi : i + 1 < eng.length := by
          unfold firstRowNonZero at hf
          have hm := List.mem_of_mem_head? hf
          rw [List.mem_map] at hm
          obtain ⟨e, he, hei⟩ := hm
          have h1 := List.mem_zipIdx_iff_getElem?.1 (List.mem_of_mem_filter he)
          have := (List.getElem?_eq_some_iff.1 h1).1
          omega
        simp only [List.getElem?_eq_getElem hi, orErr, ex_ok_bind]
        exact ⟨_, rfl, rfl, rfl⟩

/-- C228 is violated: with a number of time bins other than the number of energy bins and other than 1 the spectra cannot be drawn. -/
theorem C228_shape_violated (eng : List K) (m : List (List K)) (n : Nat) (xlow : Option K) (h2 : 2 ≤ eng.length) (hm : m ≠ [])
    (hr : ∀ r ∈ m, r.length = n) (hn : n ≠ eng.length) (h1 : n ≠ 1) : plotTimeSpectra eng m xlow = .error .ValueError := by
  obtain ⟨bw, hb, hl, -⟩ := width_run h2
  cases m with
  | nil => exact absurd rfl hm
  | cons r m =>
    have := hr r (by simp)
    have hd : divMatrix (r :: m) bw = .error .ValueError := by
      simp only [divMatrix]
      rw [if_neg (by omega), if_neg (by omega)]
    unfold plotTimeSpectra
    simp only [hb, hd, ex_ok_bind, ex_err_bind]

/-- The spectra of a square matrix: there is one curve for each time bin, and the value of energy bin `i` in time bin `j` is divided by the
    width of energy bin `j`. -/
private theorem square_run (eng : List K) (m : List (List K)) (xlow : Option K) (h2 : 2 ≤ eng.length) (hl : m.length = eng.length)
    (hr : ∀ r ∈ m, r.length = eng.length) : ∃ fig, plotTimeSpectra eng m xlow = .ok fig ∧ fig.curves.length = eng.length ∧
      ∀ (j : Nat) (w : K), BinWidth eng j w → ∃ c, fig.curves[j]? = some c ∧ c.x = eng ∧ c.y.length = m.length ∧
        ∀ (i : Nat) (r : List K) (v : K), m[i]? = some r → r[j]? = some v → c.y[i]? = some (v / w) := by
  obtain ⟨bw, hb, hbl, hw⟩ := width_run h2
  have hd : divMatrix m bw = .ok (m.map (fun r => List.zipWith (· / ·) r bw)) := by
    cases m with
    | nil => simp at hl; omega
    | cons r m =>
      have := hr r (by simp)
      simp only [divMatrix]
      rw [if_pos (by omega)]
  have hc : columnCurves eng (m.map (fun r => List.zipWith (· / ·) r bw)) =
      .ok ((List.range eng.length).map (fun j => ⟨eng, (m.map (fun r => List.zipWith (· / ·) r bw)).map (fun r => (r[j]?).getD 0)⟩)) := by
    unfold columnCurves
    rw [if_pos (by simp [hl])]
    have hh : ((m.map (fun r => List.zipWith (· / ·) r bw)).headD []).length = eng.length := by
      cases m with
      | nil => simp at hl; omega
      | cons r m =>
        have := hr r (by simp)
        simp only [List.map_cons, List.headD_cons, List.length_zipWith]
        omega
    rw [hh]
  obtain ⟨fig, hf, hfc, -⟩ := run_of xlow hb hd hc
  refine ⟨fig, hf, by rw [hfc]; simp, ?_⟩
  intro j w hj
  have hjl : j < eng.length := by
    obtain ⟨hi, _, h1, -, -⟩ := hj
    exact (List.getElem?_eq_some_iff.1 h1).1
  refine ⟨_, by rw [hfc, List.getElem?_map, List.getElem?_range hjl, Option.map_some], rfl, by simp, ?_⟩
  intro i r v hi hv
  simp only [List.getElem?_map, hi, Option.map_some, List.getElem?_zipWith, hv, hw j w hj, Option.getD_some]

/-- C228 is violated: with as many time bins as energy bins the value of an energy bin in the time bin `j` is divided by the width of the
    energy bin `j`, and so is wrong wherever that has another width. -/
theorem C228_width_violated (eng : List K) (m : List (List K)) (xlow : Option K) (h2 : 2 ≤ eng.length) (hl : m.length = eng.length)
    (hr : ∀ r ∈ m, r.length = eng.length) (i j : Nat) (r : List K) (v w w' : K) (hi : m[i]? = some r) (hv : r[j]? = some v)
    (_hw : BinWidth eng i w) (hw' : BinWidth eng j w') (h0' : w' ≠ 0) (hne : w ≠ w') (hv0 : v ≠ 0) :
    ∃ fig c y, plotTimeSpectra eng m xlow = .ok fig ∧ fig.curves[j]? = some c ∧ c.y[i]? = some y ∧ y * w' = v ∧ y * w ≠ v := by
  obtain ⟨fig, hf, -, hk⟩ := square_run eng m xlow h2 hl hr
  obtain ⟨c, hc, -, -, hy⟩ := hk j w' hw'
  refine ⟨fig, c, v / w', hf, hc, hy i r v hi hv, div_mul_cancel₀ _ h0', ?_⟩
  intro h
  have h3 : v * w = v * w' := by
    rw [← div_mul_cancel₀ v h0', mul_right_comm, h]
    rw [div_mul_cancel₀ v h0']
  exact hne (mul_left_cancel₀ hv0 h3)

/-- C228 (part that holds): with as many time bins as energy bins, all of the same width, curve `j` is the spectrum of time bin `j`. Missing:
    other widths (`C228_width_violated`) and other numbers of time bins (`C228_shape_violated`, `C228_single_violated`). -/
theorem C228_equal_partial (eng : List K) (m : List (List K)) (xlow : Option K) (h2 : 2 ≤ eng.length) (hl : m.length = eng.length)
    (hr : ∀ r ∈ m, r.length = eng.length) (u : K) (hw : ∀ (i : Nat) (w : K), BinWidth eng i w → w = u) :
    ∃ fig, plotTimeSpectra eng m xlow = .ok fig ∧ fig.curves.length = eng.length ∧
      ∀ (j : Nat) (vals : List K), j < eng.length → TimeBin m j vals → ∃ c, fig.curves[j]? = some c ∧ Density eng vals c := by
  obtain ⟨fig, hf, hfl, hk⟩ := square_run eng m xlow h2 hl hr
  refine ⟨fig, hf, hfl, ?_⟩
  intro j vals hj hb
  have hbw : BinWidth eng j (eng[j] - (0 :: eng)[j]'(by simp; omega)) :=
    ⟨_, _, List.getElem?_eq_getElem hj, List.getElem?_eq_getElem (by simp; omega), rfl⟩
  have hju := hw j _ hbw
  obtain ⟨c, hc, hx, hcl, hy⟩ := hk j _ hbw
  rw [hju] at hy
  have hvl := hb.length_eq
  refine ⟨c, hc, hx, by omega, by omega, h2, ?_⟩
  intro i v w hv hwi h0
  have hwu := hw i w hwi
  subst hwu
  have hil : i < m.length := by
    have := (List.getElem?_eq_some_iff.1 hv).1
    omega
  have hrv : (m[i])[j]? = some v := by
    have h3 := (List.forall₂_iff_get.1 hb).2 i hil (by omega)
    simp only [List.get_eq_getElem] at h3
    rw [h3, ← hv]
    exact (List.getElem?_eq_getElem (by omega)).symm
  exact ⟨v / w, hy i _ v (List.getElem?_eq_getElem hil) hrv, div_mul_cancel₀ _ h0⟩

/-- C228 is violated: a single time bin is drawn as one curve for each energy bin, all of its values over the width of that bin. -/
theorem C228_single_violated (eng vals : List K) (xlow : Option K) (h2 : 2 ≤ eng.length) (hl : vals.length = eng.length) :
    ∃ fig, plotTimeSpectra eng (vals.map (fun v => [v])) xlow = .ok fig ∧ fig.curves.length = eng.length ∧
      ∀ (j : Nat) (w : K), BinWidth eng j w → ∃ c, fig.curves[j]? = some c ∧ c.x = eng ∧ c.y = vals.map (fun v => v / w) := by
  obtain ⟨bw, hb, hbl, hw⟩ := width_run h2
  have hd : divMatrix (vals.map (fun v => [v])) bw = .ok (vals.map (fun v => bw.map (fun w => v / w))) := by
    cases vals with
    | nil => simp at hl; omega
    | cons v vals =>
      simp only [List.map_cons, divMatrix, List.length_cons, List.length_nil]
      rw [if_neg (by omega), if_pos (by simp)]
      simp
  have hc : columnCurves eng (vals.map (fun v => bw.map (fun w => v / w))) =
      .ok ((List.range eng.length).map (fun j => ⟨eng, (vals.map (fun v => bw.map (fun w => v / w))).map (fun r => (r[j]?).getD 0)⟩)) := by
    unfold columnCurves
    rw [if_pos (by simp [hl])]
    have hh : ((vals.map (fun v => bw.map (fun w => v / w))).headD []).length = eng.length := by
      cases vals with
      | nil => simp at hl; omega
      | cons v vals => simpa using hbl
    rw [hh]
  obtain ⟨fig, hf, hfc, -⟩ := run_of xlow hb hd hc
  refine ⟨fig, hf, by rw [hfc]; simp, ?_⟩
  intro j w hj
  have hjl : j < eng.length := by
    obtain ⟨hi, _, h1, -, -⟩ := hj
    exact (List.getElem?_eq_some_iff.1 h1).1
  refine ⟨_, by rw [hfc, List.getElem?_map, List.getElem?_range hjl, Option.map_some], rfl, ?_⟩
  simp only [List.map_map]
  apply List.map_congr_left
  intro v _
  simp [hw j w hj]

private theorem filter_head {α : Type} (p : α → Bool) : ∀ (l : List α) (k i : Nat), (((l.zipIdx k).filter (fun e => p e.1)).map (·.2)).head? = some i →
    k ≤ i ∧ (∃ a, l[i - k]? = some a ∧ p a = true) ∧ ∀ j a, j < i - k → l[j]? = some a → p a = false
  | [], k, i, h => by simp at h
  | a :: l, k, i, h => by
    rw [List.zipIdx_cons, List.filter_cons] at h
    by_cases ha : p a = true
    · rw [if_pos ha] at h
      simp only [List.map_cons, List.head?_cons, Option.some.injEq] at h
      subst h
      exact ⟨le_refl _, ⟨a, by simp, ha⟩, fun j v hj => absurd hj (by omega)⟩
    · rw [if_neg ha] at h
      obtain ⟨h1, ⟨v, hv, hp⟩, h3⟩ := filter_head p l (k + 1) i h
      have e : i - k = (i - (k + 1)) + 1 := by omega
      refine ⟨by omega, ⟨v, by rw [e, List.getElem?_cons_succ]; exact hv, hp⟩, ?_⟩
      intro j b hj hb
      cases j with
      | zero => simp only [List.getElem?_cons_zero, Option.some.injEq] at hb; rw [← hb]; simpa using ha
      | succ j => rw [List.getElem?_cons_succ] at hb; exact h3 j b (by omega) hb

private theorem row_zero {r bw : List K} (hl : r.length = bw.length) (hw : ∀ w ∈ bw, w ≠ 0) :
    (List.zipWith (· / ·) r bw).any (fun v => decide (v ≠ 0)) = true ↔ ∃ v ∈ r, v ≠ 0 := by
  simp only [List.any_eq_true, decide_eq_true_eq]
  constructor
  · rintro ⟨q, hq, hq0⟩
    obtain ⟨j, hj⟩ := List.mem_iff_getElem.1 hq
    obtain ⟨hjl, hj⟩ := hj
    rw [List.getElem_zipWith] at hj
    refine ⟨_, List.getElem_mem (l := r) (n := j) (by simp at hjl; omega), ?_⟩
    intro h
    rw [h, zero_div] at hj
    exact hq0 hj.symm
  · rintro ⟨v, hv, hv0⟩
    obtain ⟨j, hj, rfl⟩ := List.mem_iff_getElem.1 hv
    have hjl : j < (List.zipWith (· / ·) r bw).length := by simp; omega
    refine ⟨_, List.getElem_mem hjl, ?_⟩
    rw [List.getElem_zipWith]
    exact div_ne_zero hv0 (hw _ (List.getElem_mem _))

/-- The lower limit of the energies of C228: if it is set, it is the upper edge of the first energy bin that is not zero in all time bins,
    and there are bins below; if it is not set, the first bin is not zero or all are. -/
theorem C228_limit_partial {eng : List K} {m : List (List K)} {fig : SpecFig K} (h2 : 2 ≤ eng.length) (hl : m.length = eng.length)
    (hr : ∀ r ∈ m, r.length = eng.length) (hw : ∀ (i : Nat) (w : K), BinWidth eng i w → w ≠ 0) (h : plotTimeSpectra eng m none = .ok fig) :
    (∃ (i : Nat) (r : List K) (x : K), fig.xmin = some x ∧ 0 < i ∧ eng[i]? = some x ∧ m[i]? = some r ∧ (∃ v ∈ r, v ≠ 0) ∧
      ∀ (j : Nat) (r' : List K), j < i → m[j]? = some r' → ∀ v ∈ r', v = 0) ∨
    (fig.xmin = none ∧ ((∃ r v, m[0]? = some r ∧ v ∈ r ∧ v ≠ 0) ∨ ∀ r ∈ m, ∀ v ∈ r, v = 0)) := by
  obtain ⟨bw, hb, hbl, hbw⟩ := width_run h2
  have hbw0 : ∀ w ∈ bw, w ≠ 0 := by
    intro w hwm
    obtain ⟨j, hj, rfl⟩ := List.mem_iff_getElem.1 hwm
    have hB : BinWidth eng j (eng[j] - (0 :: eng)[j]'(by simp; omega)) :=
      ⟨_, _, List.getElem?_eq_getElem (by omega), List.getElem?_eq_getElem (by simp; omega), rfl⟩
    have h1 := hbw j _ hB
    rw [List.getElem?_eq_getElem hj, Option.some.injEq] at h1
    rw [h1]
    exact hw j _ hB
  have hd : divMatrix m bw = .ok (m.map (fun r => List.zipWith (· / ·) r bw)) := by
    cases m with
    | nil => simp at hl; omega
    | cons r m =>
      have := hr r (by simp)
      simp only [divMatrix]
      rw [if_pos (by omega)]
  have hrow : ∀ r ∈ m, ((List.zipWith (· / ·) r bw).any (fun v => decide (v ≠ 0)) = true ↔ ∃ v ∈ r, v ≠ 0) :=
    fun r hrm => row_zero (by rw [hr r hrm, hbl]) hbw0
  have hspec : ∀ i, firstRowNonZero (m.map (fun r => List.zipWith (· / ·) r bw)) = some i →
      (∃ r, m[i]? = some r ∧ ∃ v ∈ r, v ≠ 0) ∧ ∀ (j : Nat) (r' : List K), j < i → m[j]? = some r' → ∀ v ∈ r', v = 0 := by
    intro i hf
    unfold firstRowNonZero at hf
    obtain ⟨-, ⟨row, hrow1, hrow2⟩, hall⟩ := filter_head (fun r : List K => r.any (fun v => decide (v ≠ 0))) _ 0 i hf
    rw [Nat.sub_zero, List.getElem?_map, Option.map_eq_some_iff] at hrow1
    obtain ⟨r, hri, rfl⟩ := hrow1
    refine ⟨⟨r, hri, (hrow r (List.mem_of_getElem? hri)).1 hrow2⟩, ?_⟩
    intro j r' hj hr' v hv
    by_contra hv0
    have h3 := hall j (List.zipWith (· / ·) r' bw) (by omega) (by rw [List.getElem?_map, hr', Option.map_some])
    rw [(hrow r' (List.mem_of_getElem? hr')).2 ⟨v, hv, hv0⟩] at h3
    cases h3
  unfold plotTimeSpectra at h
  simp only [hb, hd, ex_ok_bind, ex_bind_ok] at h
  obtain ⟨cs, -, h⟩ := h
  split at h
  · rename_i i hf
    simp only [ex_bind_ok, orErr_ok_iff, ex_pure, Except.ok.injEq] at h
    obtain ⟨x, hx, rfl⟩ := h
    obtain ⟨⟨r, hri, hrv⟩, hall⟩ := hspec _ hf
    exact .inl ⟨i + 1, r, x, rfl, by omega, hx, hri, hrv, hall⟩
  · rename_i hn
    simp only [ex_pure, Except.ok.injEq] at h
    refine .inr ⟨by rw [← h], ?_⟩
    cases hf : firstRowNonZero (m.map (fun r => List.zipWith (· / ·) r bw)) with
    | some k =>
      cases k with
      | succ k => exact absurd hf (hn k)
      | zero =>
        obtain ⟨⟨r, hri, v, hv, hv0⟩, -⟩ := hspec _ hf
        exact .inl ⟨r, v, hri, hv, hv0⟩
    | none =>
      right
      intro r hrm v hv
      by_contra hv0
      unfold firstRowNonZero at hf
      rw [List.head?_eq_none_iff, List.map_eq_nil_iff, List.filter_eq_nil_iff] at hf
      obtain ⟨j, hj⟩ := List.mem_iff_getElem?.1 hrm
      have h3 := hf (List.zipWith (· / ·) r bw, j) (List.mem_zipIdx_iff_getElem?.2 (by rw [List.getElem?_map, hj, Option.map_some]))
      exact h3 ((hrow r hrm).2 ⟨v, hv, hv0⟩)

example : (plotTimeSpectra [1, 3] [[(2 : ℚ), 4], [6, 8]] none) = .ok ⟨[⟨[1, 3], [2, 6]⟩, ⟨[1, 3], [2, 4]⟩], [], none⟩ := by decide +kernel
example : (plotTimeSpectra [1, 2] [[(0 : ℚ), 0], [6, 8]] none) = .ok ⟨[⟨[1, 2], [0, 6]⟩, ⟨[1, 2], [0, 8]⟩], [], some 2⟩ := by decide +kernel
example : (plotTimeSpectra [1, 2, 4] [[(0 : ℚ), 0], [6, 8], [1, 1]] none) = .error .ValueError := by decide +kernel
example : (plotTimeSpectra [1, 3] [[(2 : ℚ)], [6]] none) = .ok ⟨[⟨[1, 3], [2, 6]⟩, ⟨[1, 3], [1, 3]⟩], [], none⟩ := by decide +kernel

end Props
