/- Property C223: the colour scale, the axes and the checks of `plot_nuc_chart`. -/
import Verif.Model.NucChart
import Verif.Props.FispactAnalysis

set_option linter.unusedSectionVars false

namespace Props
open Py FispactAnalysis NeutUtilities
variable {K : Type} [Field K] [LinearOrder K] [IsStrictOrderedRing K]

/-- The columns the chart needs. -/
def ChartCols (cols : List Str) (prop : Str) : Prop := prop ∈ cols ∧ p!"element" ∈ cols ∧ p!"A" ∈ cols

/-- Anything but a table with the columns of the property, the element and the mass number is refused. -/
theorem C223_refused (num : AVal → Nat) (get : Row K → K) (prop : Str) (arange zrange : Option (Nat × Nat)) :
    plotNucChart num get .other prop arange zrange = .error .ValueError ∧
    ∀ cols rows, ¬ ChartCols cols prop → plotNucChart num get (.frame cols rows) prop arange zrange = .error .ValueError := by
  refine ⟨rfl, ?_⟩
  intro cols rows h
  unfold plotNucChart
  by_cases h1 : prop ∈ cols
  · simp only [if_neg (not_not.2 h1)]
    rw [if_pos]
    by_contra hc
    push Not at hc
    exact h ⟨h1, hc.1, hc.2⟩
  · simp only [if_pos h1]

/-- The figure of a table with these columns: the array of C50, under the name of the property, on axes that show the ranges asked for. -/
theorem C223_view (num : AVal → Nat) (get : Row K → K) (prop : Str) (cols : List Str) (rows : List (Row K)) (arange zrange : Nat × Nat)
    (hc : ChartCols cols prop) (ha : arange.2 ≤ 294) (hz : zrange.2 ≤ 118) :
    ∃ f, plotNucChart num get (.frame cols rows) prop (some arange) (some zrange) = .ok f ∧ f.title = prop ∧ f.alim = arange ∧ f.zlim = zrange ∧
      nucChart num get rows (some arange) (some zrange) = .ok f.cells := by
  obtain ⟨d, hd, -⟩ := C50_chart_partial num get rows arange zrange ha hz
  unfold plotNucChart
  simp only [if_neg (not_not.2 hc.1)]
  rw [if_neg (by rintro (h | h); exacts [h hc.2.1, h hc.2.2]), hd]
  exact ⟨_, rfl, rfl, rfl, rfl, rfl⟩

private theorem scale_of {num : AVal → Nat} {get : Row K → K} {prop : Str} {cols : List Str} {rows : List (Row K)} {ar zr : Option (Nat × Nat)}
    {f : ChartFig K} (h : plotNucChart num get (.frame cols rows) prop ar zr = .ok f) : f.scale = chartScale (rows.map get) := by
  unfold plotNucChart at h
  simp only at h
  split at h
  · cases h
  split at h
  · cases h
  rw [ex_bind_ok] at h
  obtain ⟨d, -, h⟩ := h
  cases h
  rfl

private theorem foldl_max_spec (l : List K) : ∀ v : K, l.foldl max v ∈ v :: l ∧ ∀ x ∈ v :: l, x ≤ l.foldl max v := by
  induction l with
  | nil => simp
  | cons a l ih =>
    intro v
    obtain ⟨h1, h2⟩ := ih (max v a)
    rw [List.foldl_cons]
    refine ⟨?_, ?_⟩
    · rcases List.mem_cons.1 h1 with h | h
      · rw [h]; rcases max_choice v a with h | h <;> rw [h] <;> simp
      · simp [h]
    · have h3 := h2 (max v a) (by simp)
      intro x hx
      rcases List.mem_cons.1 hx with rfl | hx
      · exact (le_max_left _ _).trans h3
      · rcases List.mem_cons.1 hx with rfl | hx
        · exact (le_max_right _ _).trans h3
        · exact h2 x (by simp [hx])

private theorem foldl_min_spec (l : List K) : ∀ v : K, l.foldl min v ∈ v :: l ∧ ∀ x ∈ v :: l, l.foldl min v ≤ x := by
  induction l with
  | nil => simp
  | cons a l ih =>
    intro v
    obtain ⟨h1, h2⟩ := ih (min v a)
    rw [List.foldl_cons]
    refine ⟨?_, ?_⟩
    · rcases List.mem_cons.1 h1 with h | h
      · rw [h]; rcases min_choice v a with h | h <;> rw [h] <;> simp
      · simp [h]
    · have h3 := h2 (min v a) (by simp)
      intro x hx
      rcases List.mem_cons.1 hx with rfl | hx
      · exact h3.trans (min_le_left _ _)
      · rcases List.mem_cons.1 hx with rfl | hx
        · exact h3.trans (min_le_right _ _)
        · exact h2 x (by simp [hx])

/-- The ends of the scale: the smallest value and 1e-8, and the largest value. -/
private theorem scale_spec {l : List K} {lo hi : K} (h : chartScale l = some (lo, hi)) :
    hi ∈ l ∧ (∀ x ∈ l, x ≤ hi) ∧ lo - 1e-8 ∈ l ∧ ∀ x ∈ l, lo - 1e-8 ≤ x := by
  cases l with
  | nil => cases h
  | cons v vs =>
    simp only [chartScale, Option.some.injEq, Prod.mk.injEq] at h
    obtain ⟨rfl, rfl⟩ := h
    rw [add_sub_cancel_right]
    exact ⟨(foldl_max_spec vs v).1, (foldl_max_spec vs v).2, (foldl_min_spec vs v).1, (foldl_min_spec vs v).2⟩

/-- The scale of a table with rows, when its values are not all within 1e-8: it runs upwards to the largest value, it starts above zero if
    no value is negative, and every value that is 1e-8 above the smallest one is on it. -/
theorem C223_scale_partial {num : AVal → Nat} {get : Row K → K} {prop : Str} {cols : List Str} {rows : List (Row K)} {ar zr : Option (Nat × Nat)}
    {f : ChartFig K} (h : plotNucChart num get (.frame cols rows) prop ar zr = .ok f) {a b : Row K} (ha : a ∈ rows) (hb : b ∈ rows)
    (hd : get a + 1e-8 ≤ get b) :
    ∃ lo hi, f.scale = some (lo, hi) ∧ lo ≤ hi ∧ (∃ r ∈ rows, get r = hi) ∧ (∀ r ∈ rows, get r ≤ hi) ∧
      ((∀ r ∈ rows, 0 ≤ get r) → 0 < lo) ∧ ∀ r ∈ rows, (∃ r' ∈ rows, get r' + 1e-8 ≤ get r) → lo ≤ get r := by
  rw [scale_of h]
  cases hs : chartScale (rows.map get) with
  | none =>
    cases rows with
    | nil => simp at ha
    | cons r rs => simp [chartScale] at hs
  | some p =>
    obtain ⟨lo, hi⟩ := p
    obtain ⟨s1, s2, s3, s4⟩ := scale_spec hs
    simp only [List.mem_map, forall_exists_index, and_imp, forall_apply_eq_imp_iff₂] at s1 s2 s3 s4
    have e0 : (0 : K) < 1e-8 := by norm_num
    refine ⟨lo, hi, rfl, ?_, s1, s2, ?_, ?_⟩
    · have := s4 a ha
      have := s2 b hb
      linarith
    · intro hp
      obtain ⟨r, hr, e⟩ := s3
      have := hp r hr
      linarith
    · rintro r hr ⟨r', hr', hle⟩
      have := s4 r' hr'
      linarith

/-- The smallest value of the property is never on the scale: it lies below its lower end, whatever the table. -/
theorem C223_smallest_violated {num : AVal → Nat} {get : Row K → K} {prop : Str} {cols : List Str} {rows : List (Row K)} {ar zr : Option (Nat × Nat)}
    {f : ChartFig K} (h : plotNucChart num get (.frame cols rows) prop ar zr = .ok f) (hr : rows ≠ []) :
    ∃ lo hi, f.scale = some (lo, hi) ∧ ∃ r ∈ rows, (∀ r' ∈ rows, get r ≤ get r') ∧ get r < lo := by
  rw [scale_of h]
  cases hs : chartScale (rows.map get) with
  | none =>
    cases rows with
    | nil => exact absurd rfl hr
    | cons r rs => simp [chartScale] at hs
  | some p =>
    obtain ⟨lo, hi⟩ := p
    obtain ⟨-, -, s3, s4⟩ := scale_spec hs
    simp only [List.mem_map, forall_exists_index, and_imp, forall_apply_eq_imp_iff₂] at s3 s4
    have e0 : (0 : K) < 1e-8 := by norm_num
    obtain ⟨r, hr, e⟩ := s3
    refine ⟨lo, hi, rfl, r, hr, fun r' hr' => ?_, by linarith⟩
    rw [e]
    exact s4 r' hr'

/-- When all values are within 1e-8 of each other, as for a single nuclide or for small dose rates, the scale runs downwards and no value is on it. -/
theorem C223_reversed_violated {num : AVal → Nat} {get : Row K → K} {prop : Str} {cols : List Str} {rows : List (Row K)} {ar zr : Option (Nat × Nat)}
    {f : ChartFig K} (h : plotNucChart num get (.frame cols rows) prop ar zr = .ok f) (hr : rows ≠ [])
    (hd : ∀ a ∈ rows, ∀ b ∈ rows, get b < get a + 1e-8) :
    ∃ lo hi, f.scale = some (lo, hi) ∧ hi < lo ∧ ∀ r ∈ rows, get r < lo := by
  rw [scale_of h]
  cases hs : chartScale (rows.map get) with
  | none =>
    cases rows with
    | nil => exact absurd rfl hr
    | cons r rs => simp [chartScale] at hs
  | some p =>
    obtain ⟨lo, hi⟩ := p
    obtain ⟨s1, s2, s3, s4⟩ := scale_spec hs
    simp only [List.mem_map, forall_exists_index, and_imp, forall_apply_eq_imp_iff₂] at s1 s2 s3 s4
    obtain ⟨r, hr, e⟩ := s3
    obtain ⟨q, hq, rfl⟩ := s1
    have := hd r hr q hq
    refine ⟨lo, _, rfl, by linarith, fun r' hr' => ?_⟩
    have := s2 r' hr'
    linarith

private def exNum : AVal → Nat
  | .int n => n
  | .str _ => 0
private def exAct (r : Row ℚ) : ℚ := r.act.getD 0

example : ChartCols [p!"nuclide", p!"act", p!"element", p!"A"] p!"act" := by unfold ChartCols; decide
example : ((plotNucChart exNum exAct (.frame [p!"act", p!"element", p!"A"] [exRow p!"H" 3 5 1, exRow p!"Co" 60 7 1]) p!"act" none (some (0, 40))).map
    (fun f => (f.scale, f.zlim, f.alim, f.cells 60 27))) = .ok (some (5.00000001, 7), (0, 40), (0, 294), 7) := by decide +kernel
example : ((plotNucChart exNum exAct (.frame [p!"act", p!"element", p!"A"] [exRow p!"H" 3 5 1]) p!"act" none none).map (fun f => f.scale)) =
    .ok (some (5.00000001, 5)) := by decide +kernel

end Props
